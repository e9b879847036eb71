import Verif.Spec.Formats
import Verif.Py.Float

/-!
# Specification: 64 bit numbers
-/

namespace Verif
namespace Spec

/-- The numbers a Python float can be: 53 bits and a sign, exponents from -1074 to 971; zeros, infinities and NaN. -/
def IsDouble : Flt → Prop
  | .fin q => ∃ n e : ℤ, |n| < 2 ^ 53 ∧ -1074 ≤ e ∧ e ≤ 971 ∧ q = n * 2 ^ e
  | _ => True

/-- IEEE 754 binary64, big-endian: `d` has a sign bit `s`, eleven bits of exponent `e` and 52 bits of fraction `m`, and
`f` is the float this stands for. -/
def Denotes64 (d : Bytes) (f : Flt) : Prop :=
  d.length = 8 ∧ ∃ s e m : ℕ, s < 2 ∧ e < 2 ^ 11 ∧ m < 2 ^ 52 ∧ bigEndian d = s * 2 ^ 63 + e * 2 ^ 52 + m ∧
    if e = 2047 then f = (if m = 0 then .inf (s == 1) else .nan)
    else (f.neg = true ↔ s = 1) ∧
      f.num = some ((-1) ^ s * (if e = 0 then (m : ℚ) / 2 ^ 52 * 2 ^ (-1022 : ℤ) else (1 + (m : ℚ) / 2 ^ 52) * 2 ^ ((e : ℤ) - 1023)))

end Spec
end Verif
