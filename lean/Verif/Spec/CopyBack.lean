import Verif.Model.Value
import Verif.Spec.Client

/-!
# Specification: assigning to points the values they have
-/

namespace Verif
namespace Spec

/-- `point.value = point.value` (if getting or setting the value raises, the point is as before). -/
def copied (lib : FloatLib) (p : PointObj) : PointObj :=
  match getValue lib p with
  | .ok v => (setValue lib p v).1
  | .error _ => p

/-- The model after `point.value = point.value` for the points selected by `sel`. -/
def copiedModel (lib : FloatLib) (sel : PointObj → Bool) (m : MdlObj) : MdlObj :=
  { m with blocks := m.blocks.map fun b => { b with pts := b.pts.map fun p => if sel p then copied lib p else p } }

/-- The point has a value (it is implemented) of a kind for which copying it back works: no eui48 (cannot be written), no string
of less than 8 registers (written with a byte too many) and, if there is a scale factor other than 0, an integer of at most 51 bits and a scale factor from -250 to 250. -/
def CopyOK (p : PointObj) : Prop :=
  p.base ≠ none ∧ p.pt.type ≠ .eui48 ∧ (p.pt.type = .string → 8 ≤ p.pt.len) ∧
  ∀ k, p.vsf = some (.int k) → k ≠ 0 → -250 ≤ k ∧ k ≤ 250 ∧ ∃ b : Int, p.base = some (.int b) ∧ -(2 ^ 51) < b ∧ b < 2 ^ 51

end Spec
end Verif
