import Verif.Spec.Wire
import Verif.Spec.Atomic

/-!
# Specification: threads sharing a serial port

`ModbusClientRTU` has no lock: the devices of a program that are on the same port use the same object (C22), and if they are used from different threads,
the calls of `flushInput`, `write` and `read` of the port by the threads come in any order.
-/

namespace Verif.Spec
open Verif

/-- A call of the serial port by some thread. -/
inductive PortAct where
  | flush
  | write (req : Bytes)
  | read (n : Nat)

/-- The effect of a call by another thread. -/
def act {τ} (p : Port τ) (s : τ) : PortAct → τ
  | .flush => p.flush s
  | .write req => (p.write s req).1
  | .read n => (p.read s n).1

/-- The other threads make the next list of calls. -/
def turn {τ} (p : Port τ) (s : τ × List (List PortAct)) : τ := (s.2.headD []).foldl (act p) s.1

/-- The port as one thread sees it: before each of its own calls the other threads make as many calls as they like. -/
def sharedPort {τ} (p : Port τ) : Port (τ × List (List PortAct)) where
  flush s := (p.flush (turn p s), s.2.tail)
  write s req := (((p.write (turn p s) req).1, s.2.tail), (p.write (turn p s) req).2)
  read s n := (((p.read (turn p s) n).1, s.2.tail), (p.read (turn p s) n).2)

/-- A port with the slave `sid`, which executes all requests that are sent to it; nothing is assumed about what is received. -/
structure Executes {τ} (p : Port τ) (abs : τ → Mem) (sid : Byte) : Prop where
  flush : ∀ s, abs (p.flush s) = abs s
  read : ∀ s n, abs (p.read s n).1 = abs s
  sent : ∀ s req, (p.write s req).2 = true → abs (p.write s req).1 = (serveRtu sid (abs s) req).1
  unsent : ∀ s req, (p.write s req).2 = false → abs (p.write s req).1 = abs s

/-- A request that does not change the registers `D`: one to another slave, a read, or a write of other registers. -/
def Harmless (sid : Byte) (D : Int → Prop) (req : Bytes) : Prop :=
  ∀ m x, D x → regMem (serveRtu sid m req).1 x = regMem m x

/-- The other threads make harmless requests only. -/
def HarmlessThreads (sid : Byte) (D : Int → Prop) (acts : List (List PortAct)) : Prop :=
  ∀ l ∈ acts, ∀ req, PortAct.write req ∈ l → Harmless sid D req

/-- The port to which a slave is connected; what it answers is kept in the port, after what has not been read yet. -/
def linePort {σ} (slave : Slave σ) : Port (σ × List Bytes) where
  flush s := (s.1, [])
  write s req :=
    match slave s.1 req with
    | (d, some chunks) => ((d, s.2 ++ chunks), true)
    | (d, none) => ((d, s.2), false)
  read s n := ((s.1, (serialRead n s.2).2), (serialRead n s.2).1)

/-- `chunks` are received from state `s` on by calls of `read`. -/
inductive Reading {τ} (p : Port τ) : τ → List Bytes → τ → Prop
  | nil (s) : Reading p s [] s
  | cons (s n cs s') : Reading p (p.read s n).1 cs s' → Reading p s ((p.read s n).2 :: cs) s'

/-- The conversation of a read of `count` registers from `a` on that returns `d`: request by request, each followed by bytes that are a reply frame with
the right CRC and some of the data. -/
inductive ReadCalls {τ} (p : Port τ) (sid : Byte) : τ → Int → Nat → Bytes → τ → Prop
  | done (s a) : ReadCalls p sid s a 0 [] s
  | step (s s1 s2 s' a count chunks d rest) : 0 < count → p.write (p.flush s) (rtuFrame sid (readPdu 3 a.toNat (min 125 count))) = (s1, true) →
      Reading p s1 chunks s2 → IsReadReply chunks.flatten d → d ≠ [] →
      ReadCalls p sid s2 (a + min 125 count) (count - min 125 count) rest s' → ReadCalls p sid s a count (d ++ rest) s'

end Verif.Spec
