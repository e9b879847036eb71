import Mathlib.Algebra.Order.Field.Rat
import Verif.Model.Device

/-!
# Specification: single precision numbers
-/

namespace Verif
namespace Spec

/-- The finite IEEE 754 single precision numbers: 24 bits and a sign, exponents from -149 to 104. -/
def IsSingle (q : ℚ) : Prop := ∃ n e : ℤ, |n| < 2 ^ 24 ∧ -149 ≤ e ∧ e ≤ 104 ∧ q = n * 2 ^ e

/-- `y` is a single nearest to `x`. -/
def NearestSingle (x y : ℚ) : Prop := IsSingle y ∧ ∀ z, IsSingle z → |y - x| ≤ |z - x|

/-- Half a unit beyond the largest single: from here on numbers are too large. -/
def tooLarge : ℚ := (2 ^ 24 - 1 / 2) * 2 ^ 104

/-- A float point without (or with an unused) scale factor. -/
def FloatPoint (p : PointObj) : Prop := p.pt.type = .float32 ∧ (p.vsf = none ∨ p.vsf = some (.int 0))

end Spec
end Verif
