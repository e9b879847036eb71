import Verif.Spec.CopyBack
import Verif.Spec.Session
import Verif.Spec.Value

/-!
# Specification: copying values from a model of one device to a model of another
-/

namespace Verif
namespace Spec

/-- `q.value = p.value` (if getting or setting the value raises, `q` is as before). -/
def transfer (lib : FloatLib) (p q : PointObj) : PointObj :=
  match getValue lib p with
  | .ok v => (setValue lib q v).1
  | .error _ => q

/-- The point of `mb` in place `i`, `j`, after the assignment if it is selected and `ma` has such a point too. -/
def transferAt (lib : FloatLib) (sel : Nat → Nat → Bool) (ma : MdlObj) (i j : Nat) (q : PointObj) : PointObj :=
  if sel i j then
    match ptAt ma i j with
    | some p => transfer lib p q
    | none => q
  else q

/-- The model `mb` after `mb.blocks[i].points_list[j].value = ma.blocks[i].points_list[j].value` for the points selected by `sel`
that both models have. -/
def transferModel (lib : FloatLib) (sel : Nat → Nat → Bool) (ma mb : MdlObj) : MdlObj :=
  { mb with blocks := mb.blocks.mapIdx fun i b => { b with pts := b.pts.mapIdx (transferAt lib sel ma i) } }

/-- Points at the same place in the two models are those of the same point of a definition. -/
def SameDefs (ma mb : MdlObj) : Prop := ∀ i j p q, ptAt ma i j = some p → ptAt mb i j = some q → p.pt = q.pt

/-- The value of the point, as the program sees it, is the number `x`. -/
def Amount (lib : FloatLib) (p : PointObj) (x : ℚ) : Prop := ∃ v, getValue lib p = .ok v ∧ IsNumber lib v x

/-- What a value base of 1 stands for. -/
def resolution (p : PointObj) : ℚ :=
  match p.vsf with
  | some (.int k) => 10 ^ k
  | _ => 1

/-- No scale factor, or one from -250 to 250. -/
def ModerateScale (p : PointObj) : Prop := p.vsf = none ∨ ∃ k : Int, p.vsf = some (.int k) ∧ -250 ≤ k ∧ k ≤ 250

/-- The value `x` of the point `p`, an integer of at most 53 bits or a multiple of a power of ten by such, can be stored in the point `q`, which is implemented in its
device: with the resolution of `q` it is at most 32 bits large, and the integers around it are values that the point can have. -/
structure TransferOK (lib : FloatLib) (p q : PointObj) (x : ℚ) : Prop where
  amount : Amount lib p x
  type : q.pt.type.isInt = true
  int : ∃ a : Int, p.base = some (.int a) ∧ |a| ≤ 2 ^ 53
  scales : ModerateScale p ∧ ModerateScale q
  implemented : q.base ≠ none
  small : |x / resolution q| ≤ 2 ^ 32
  fits : ∀ n : Int, |(n : ℚ) - x / resolution q| ≤ 1 → Writable { q with base := some (.int n), dirty := true }

end Spec
end Verif
