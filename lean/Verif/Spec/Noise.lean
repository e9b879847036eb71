import Verif.Spec.Modbus
import Verif.Spec.Memory
import Verif.Spec.Scan

/-!
# Specification: noise on a serial line
-/

namespace Verif.Spec
open Verif

/-- `g` is the frame `f` after it has been on the line: as it was, or with wrong bits that are at most 16 bits apart, or with up to three
wrong bits anywhere (in a frame of at most 256 bytes, the limit of Modbus), or with any odd number of wrong bits. -/
def Altered (f g : Bytes) : Prop :=
  f = g ∨ (f.length = g.length ∧
    ((∃ start, ∀ i, (wireBits f)[i]? ≠ (wireBits g)[i]? → start ≤ i ∧ i < start + 16) ∨
     (f.length ≤ 256 ∧ 1 ≤ bitErrors f g ∧ bitErrors f g ≤ 3) ∨
     bitErrors f g % 2 = 1))

/-- A slave with register memory `abs` on a noisy line. What it gets is an altered request, or nothing at all. It conforms to Modbus. What
arrives of its reply, in any fragmentation, is the beginning of an altered reply (perhaps all of it, perhaps nothing). It also may not be possible to
use the line at all. All altered replies satisfy `fits`. -/
def NoisyLine (fits : Bytes → Prop) {σ : Type} (slave : σ → Bytes → σ × Option (List Bytes)) (abs : σ → Mem) (sid : Byte) : Prop :=
  ∀ s req, ∃ req', (Altered req req' ∨ req' = []) ∧
    abs (slave s req).1 = (serveRtu sid (abs s) req').1 ∧
    ∀ chunks, (slave s req).2 = some chunks → ∃ g,
      Altered ((serveRtu sid (abs s) req').2.getD []) g ∧ fits g ∧ received chunks <+: g

/-- A noisy line. -/
abbrev NoisyRtu {σ : Type} (slave : σ → Bytes → σ × Option (List Bytes)) (abs : σ → Mem) (sid : Byte) : Prop :=
  NoisyLine (fun _ => True) slave abs sid

/-- A noisy line on which the beginning of an altered reply is never, by coincidence, a valid frame itself. -/
abbrev ClearRtu {σ : Type} (slave : σ → Bytes → σ × Option (List Bytes)) (abs : σ → Mem) (sid : Byte) : Prop :=
  NoisyLine (fun g => ∀ k, k < g.length → ¬ ValidFrame (g.take k)) slave abs sid

/-- The memory from `a` on begins with a chain of models `fs` (see `Chain`), which may go on after them. -/
inductive ChainPart (mem : RegMem) : Int → List Found → Prop
  | stop {a} : ChainPart mem a []
  | model {a i l rest} : mem a = some i → i ≠ (0xff, 0xff) → mem (a + 1) = some l → ChainPart mem (a + 2 + word l) rest →
      ChainPart mem a (⟨word i, a + 2, word l⟩ :: rest)

end Verif.Spec
