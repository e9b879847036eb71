import Verif.Spec.Client
import Verif.Spec.Tcp
import Verif.Model.Devices

/-!
# Specification: requests that are executed completely or not at all
-/

namespace Verif.Spec
open Verif

/-- In states with memory `mem` in which the connection is in order (`ready`), a write of existing registers (in a quantity allowed by `wr`)
either returns and has stored the data, or it raises and has stored all of the data or nothing. -/
def AtomicMem {σ} (dev : MbDev σ) (R : σ → RegMem → Prop) (ready : σ → Prop) (wr : Nat → Prop) : Prop :=
  ∀ (s : σ) (mem : RegMem) (a : Int) (rs : List Reg), R s mem → ready s → 0 < rs.length → wr rs.length →
    (∀ x, a ≤ x → x < a + rs.length → mem x ≠ none) → ∃ s' r, dev.write s a (regBytes rs) = (s', r) ∧
      (r = .ok () ∧ ready s' ∧ R s' (stored mem a rs) ∨ r ≠ .ok () ∧ (R s' (stored mem a rs) ∨ R s' mem))

/-- A slave that may fail at any moment: a request is executed as by `serveRtu` or lost; anything may be received afterwards, but no confirmation of
a write that has not been executed. -/
structure UnreliableRtu {σ} (slave : Slave σ) (abs : σ → Mem) (sid : Byte) : Prop where
  executed : ∀ s req, abs (slave s req).1 = (serveRtu sid (abs s) req).1 ∨ abs (slave s req).1 = abs s
  honest : ∀ s (a : Nat) data chunks, a < 65536 → data.length < 256 → (slave s (rtuFrame sid (writePdu a data))).2 = some chunks →
    IsWriteEcho sid a (data.length / 2) (received chunks) →
    abs (slave s (rtuFrame sid (writePdu a data))).1 = (serveRtu sid (abs s) (rtuFrame sid (writePdu a data))).1 ∧
    (serveRtu sid (abs s) (rtuFrame sid (writePdu a data))).2 = some (rtuFrame sid (0x10 :: (field16 a ++ field16 (data.length / 2))))

/-- A server that may fail at any moment: connecting may fail; a request is executed as by `serveTcp` or lost; what is received afterwards is the
beginning of the reply to it, if it has been executed, and then nothing more or the end of the connection. -/
structure UnreliableTcp {σ} (srv : TcpServer σ) (abs : σ → Mem) (unit : Byte) : Prop where
  accept : ∀ s, abs (srv.accept s).1 = abs s
  executed : ∀ s req, abs (srv.react s req).1 = (serveTcp unit (abs s) req).1 ∨ abs (srv.react s req).1 = abs s
  honest : ∀ s req chunks, (srv.react s req).2 = some chunks → received chunks <+: (serveTcp unit (abs s) req).2 ∧
    (received chunks ≠ [] → abs (srv.react s req).1 = (serveTcp unit (abs s) req).1)

/-- The modified points of the model do not overlap, each has as many registers as its type needs (strings at least 8, see C05), and all of
them exist; at most as many as allowed by `wr` are modified in each block. -/
structure CanStore (mem : RegMem) (wr : Nat → Prop) (m : MdlObj) : Prop where
  separate : Separate m
  size : ∀ b ∈ m.blocks, ∀ n, 0 < n → n ≤ dirtyLen b.pts → wr n
  points : ∀ b ∈ m.blocks, ∀ p ∈ b.pts, p.dirty = true → LenOK p.pt ∧ (p.pt.type = .string → 8 ≤ p.pt.len) ∧
    ∀ x, p.addr ≤ x → x < p.addr + p.pt.len → mem x ≠ none

/-- The registers of each modified point are those they were before or all of the encoding of its value; other registers are unchanged. -/
def AllOrNothing (m : MdlObj) (mem mem' : RegMem) : Prop :=
  (∀ x, (∀ b ∈ m.blocks, ∀ p ∈ b.pts, p.dirty = true → ¬ (p.addr ≤ x ∧ x < p.addr + p.pt.len)) → mem' x = mem x) ∧
  ∀ b ∈ m.blocks, ∀ p ∈ b.pts, p.dirty = true → memRegs mem' p.addr p.pt.len.toNat = memRegs mem p.addr p.pt.len.toNat ∨
    ∃ rs, Encoded p rs ∧ memRegs mem' p.addr p.pt.len.toNat = some rs

/-- What may happen to one request: nothing unusual; the request is lost; it is executed but only `n` bytes of the reply arrive; it cannot be sent. -/
inductive Fault where
  | none
  | lost
  | cut (n : Nat)
  | down

/-- A slave to whose requests the given faults happen, one after the other. -/
def faultySlave (sid : Byte) (s : Mem × List Fault) (req : Bytes) : (Mem × List Fault) × Option (List Bytes) :=
  match s.2 with
  | [] => (((serveRtu sid s.1 req).1, []), some [(serveRtu sid s.1 req).2.getD []])
  | .none :: fs => (((serveRtu sid s.1 req).1, fs), some [(serveRtu sid s.1 req).2.getD []])
  | .lost :: fs => ((s.1, fs), some [])
  | .cut n :: fs => (((serveRtu sid s.1 req).1, fs), some [((serveRtu sid s.1 req).2.getD []).take n])
  | .down :: fs => ((s.1, fs), Option.none)

/-- A server to whose connections and requests the given faults happen, one after the other; after a lost or cut reply the connection is closed by
the server. -/
def faultyServer (unit : Byte) : TcpServer (Mem × List Fault) where
  accept s := match s.2 with
    | .down :: fs => ((s.1, fs), false)
    | _ :: fs => ((s.1, fs), true)
    | [] => (s, true)
  react s req := match s.2 with
    | [] => (((serveTcp unit s.1 req).1, []), some [(serveTcp unit s.1 req).2])
    | .none :: fs => (((serveTcp unit s.1 req).1, fs), some [(serveTcp unit s.1 req).2])
    | .lost :: fs => ((s.1, fs), some [[]])
    | .cut n :: fs => (((serveTcp unit s.1 req).1, fs), some [(serveTcp unit s.1 req).2.take n, []])
    | .down :: fs => ((s.1, fs), Option.none)

end Verif.Spec
