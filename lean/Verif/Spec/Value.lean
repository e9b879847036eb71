import Verif.Model.Value

/-!
# Specification: scaled values, integer literals
-/

namespace Verif
namespace Spec

/-- The C library function `pow(10, k)` is accurate to a relative error of 2^-52 (one unit in the last place) for
exponents from -250 to 250. -/
def PowOK (lib : FloatLib) : Prop :=
  ∀ k : Int, -250 ≤ k → k ≤ 250 → ∃ p : ℚ, lib.pow10 k = .ok (.fin p) ∧ |p - 10 ^ k| ≤ 10 ^ k * 2 ^ (-52 : ℤ)

/-- The assigned value is read by `float` as the finite number `x`: an int, a float (also -0.0), or a text. -/
def IsNumber (lib : FloatLib) (v : UVal) (x : ℚ) : Prop := ∃ f, v.toFlt lib = .ok f ∧ f.num = some x

/-- `c` is the digit `d` in a base up to 16. -/
def IsDigit (base : Nat) (c : Char) (d : Nat) : Prop :=
  d < base ∧ ((d < 10 ∧ c.toNat = '0'.toNat + d) ∨ (10 ≤ d ∧ (c.toNat = 'a'.toNat + (d - 10) ∨ c.toNat = 'A'.toNat + (d - 10))))

/-- A digit string, in which single underscores may separate digits, denotes a number. -/
inductive Digits (base : Nat) : Text → Nat → Prop
  | one {c d} : IsDigit base c d → Digits base [c] d
  | more {s n c d} : Digits base s n → IsDigit base c d → Digits base (s ++ [c]) (n * base + d)
  | sep {s n c d} : Digits base s n → IsDigit base c d → Digits base (s ++ ['_', c]) (n * base + d)

/-- An unsigned Python integer literal: decimal (without leading zeros, except for zero itself), `0x`, `0o` or `0b`. -/
inductive Unsigned : Text → Nat → Prop
  | dec {s n} : Digits 10 s n → (s.head? = some '0' → n = 0) → Unsigned s n
  | pre {x s n b u} : (b = 16 ∧ (x = 'x' ∨ x = 'X')) ∨ (b = 8 ∧ (x = 'o' ∨ x = 'O')) ∨ (b = 2 ∧ (x = 'b' ∨ x = 'B')) →
      (u = [] ∨ u = ['_']) → Digits b s n → Unsigned ('0' :: x :: (u ++ s)) n

/-- The white space characters: space, tab, line feed, vertical tab, form feed, carriage return. -/
def Blank (c : Char) : Prop := c = ' ' ∨ c = '\t' ∨ c = '\n' ∨ c = Char.ofNat 11 ∨ c = Char.ofNat 12 ∨ c = '\r'

instance (c : Char) : Decidable (Blank c) := by unfold Blank; infer_instance

/-- The text of an integer: white space, sign, unsigned literal, white space. -/
inductive IntText : Text → Int → Prop
  | pos {w1 w2 s n} : (∀ c ∈ w1, Blank c) → (∀ c ∈ w2, Blank c) → Unsigned s n → IntText (w1 ++ s ++ w2) n
  | plus {w1 w2 s n} : (∀ c ∈ w1, Blank c) → (∀ c ∈ w2, Blank c) → Unsigned s n → IntText (w1 ++ '+' :: s ++ w2) n
  | minus {w1 w2 s n} : (∀ c ∈ w1, Blank c) → (∀ c ∈ w2, Blank c) → Unsigned s n → IntText (w1 ++ '-' :: s ++ w2) (-n)

/-- The text of a decimal integer: white space, sign, decimal digits (leading zeros allowed), white space. -/
inductive DecText : Text → Int → Prop
  | pos {w1 w2 s n} : (∀ c ∈ w1, Blank c) → (∀ c ∈ w2, Blank c) → Digits 10 s n → DecText (w1 ++ s ++ w2) n
  | plus {w1 w2 s n} : (∀ c ∈ w1, Blank c) → (∀ c ∈ w2, Blank c) → Digits 10 s n → DecText (w1 ++ '+' :: s ++ w2) n
  | minus {w1 w2 s n} : (∀ c ∈ w1, Blank c) → (∀ c ∈ w2, Blank c) → Digits 10 s n → DecText (w1 ++ '-' :: s ++ w2) (-n)

end Spec
end Verif
