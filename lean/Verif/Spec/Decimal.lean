import Verif.Spec.Transfer

/-!
# Specification: settings in decimal notation
-/

namespace Verif
namespace Spec

/-- `p.value = v` for the point of the model in place `i`, `j`, if `val` has a value for it (if the assignment raises, the point is as before). -/
def settle (lib : FloatLib) (v : Option UVal) (p : PointObj) : PointObj :=
  match v with
  | some v => (setValue lib p v).1
  | none => p

/-- The model after `m.blocks[i].points_list[j].value = val i j` for all places for which `val` has a value. -/
def settled (lib : FloatLib) (val : Nat → Nat → Option UVal) (m : MdlObj) : MdlObj :=
  { m with blocks := m.blocks.mapIdx fun i b => { b with pts := b.pts.mapIdx fun j p => settle lib (val i j) p } }

/-- The value `v` is the decimal number `n * 10^k` as a program has it, `k` being the scale factor of the point `p`: the integer `n` itself if there is
no scale factor (or 0), otherwise a number that differs from `n * 10^k` by at most the error of the nearest double (a literal such as 12.34, or a text or
an int that `float` makes such a number of). -/
inductive DecimalFor (lib : FloatLib) (p : PointObj) (v : UVal) (n : Int) : Prop
  | plain (h : p.vsf = none ∨ p.vsf = some (.int 0)) (hv : v = .int n ∨ ∃ f : Flt, v = .flt f ∧ f.num = some (n : ℚ))
  | scaled (k : Int) (h : p.vsf = some (.int k)) (k0 : k ≠ 0) (h1 : -250 ≤ k) (h2 : k ≤ 250) (hn : |n| ≤ 2 ^ 48) (x : ℚ) (hv : IsNumber lib v x)
      (hx : |x - n * 10 ^ k| ≤ |(n : ℚ)| * 10 ^ k * 2 ^ (-53 : ℤ))

end Spec
end Verif
