import Verif.Spec.Wire
import Verif.Spec.Atomic
import Verif.Spec.Threads

/-!
# Specification: threads sharing a connected TCP device

`ModbusClientDeviceTCP` has no lock, and the transaction ids of its requests are all 0. If a device that has been connected (`connect()`) is used from several
threads, the calls of `sendall` and `recv` of its socket by the threads come in any order. (None of the threads connects or closes the device.)
-/

namespace Verif.Spec
open Verif

/-- A call of the socket by some thread. -/
inductive NetAct where
  | send (req : Bytes)
  | recv (n : Nat)

/-- The effect of a call by another thread. -/
def netAct {τ} (net : Net τ) (s : τ) : NetAct → τ
  | .send req => (net.send s req).1
  | .recv n => (net.recv s n).1

/-- The other threads make the next list of calls. -/
def netTurn {τ} (net : Net τ) (s : τ × List (List NetAct)) : τ := (s.2.headD []).foldl (netAct net) s.1

/-- The network as one thread sees it: before each of its own calls the other threads make as many calls as they like. -/
def sharedNet {τ} (net : Net τ) : Net (τ × List (List NetAct)) where
  connect s := (((net.connect (netTurn net s)).1, s.2.tail), (net.connect (netTurn net s)).2)
  close s := (net.close (netTurn net s), s.2.tail)
  send s req := (((net.send (netTurn net s) req).1, s.2.tail), (net.send (netTurn net s) req).2)
  recv s n := (((net.recv (netTurn net s) n).1, s.2.tail), (net.recv (netTurn net s) n).2)

/-- A network with the server `unit`, which executes all requests that are sent to it; nothing is assumed about what is received. -/
structure NetExecutes {τ} (net : Net τ) (abs : τ → Mem) (unit : Byte) : Prop where
  recv : ∀ s n, abs (net.recv s n).1 = abs s
  sent : ∀ s req, (net.send s req).2 = true → abs (net.send s req).1 = (serveTcp unit (abs s) req).1
  unsent : ∀ s req, (net.send s req).2 = false → abs (net.send s req).1 = abs s

/-- A request that does not change the registers `D`. -/
def NetHarmless (unit : Byte) (D : Int → Prop) (req : Bytes) : Prop :=
  ∀ m x, D x → regMem (serveTcp unit m req).1 x = regMem m x

/-- The other threads make harmless requests only. -/
def NetHarmlessThreads (unit : Byte) (D : Int → Prop) (acts : List (List NetAct)) : Prop :=
  ∀ l ∈ acts, ∀ req, NetAct.send req ∈ l → NetHarmless unit D req

/-- `chunks` are received from state `s` on by calls of `recv`. -/
inductive NetReceiving {τ} (net : Net τ) : τ → List Bytes → τ → Prop
  | nil (s) : NetReceiving net s [] s
  | cons (s n c s1 cs s') : net.recv s n = (s1, some c) → NetReceiving net s1 cs s' → NetReceiving net s (c :: cs) s'

/-- `b` is one complete reply, of the length its header announces, that is no exception (the exception code 0 is taken for none), with the data `d`. -/
def OneReply (b d : Bytes) : Prop :=
  b.length = tcpFrameLen b ∧ (b.getD 7 0 &&& 0x80 = 0 ∨ b.getD 8 0 = 0) ∧ d = b.drop 9

/-- The conversation of a read of `count` registers from `a` on that returns `d`: request by request, each followed by receiving one complete reply with
some of the data; a reply without data ends it. -/
inductive NetReadCalls {τ} (net : Net τ) (unit : Byte) : τ → Int → Nat → Bytes → τ → Prop
  | done (s a) : NetReadCalls net unit s a 0 [] s
  | short (s s1 s' a count chunks) : 0 < count → net.send s (mbap 0 unit (readPdu 3 a.toNat (min 125 count))) = (s1, true) →
      NetReceiving net s1 chunks s' → OneReply chunks.flatten [] → NetReadCalls net unit s a count [] s'
  | step (s s1 s2 s' a count chunks d rest) : 0 < count → net.send s (mbap 0 unit (readPdu 3 a.toNat (min 125 count))) = (s1, true) →
      NetReceiving net s1 chunks s2 → OneReply chunks.flatten d → d ≠ [] →
      NetReadCalls net unit s2 (a + min 125 count) (count - min 125 count) rest s' → NetReadCalls net unit s a count (d ++ rest) s'

end Verif.Spec
