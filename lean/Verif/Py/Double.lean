import Verif.Py.Float

/-!
# The bytes of Python floats

IEEE 754 double precision numbers as 64 bits.
-/

namespace Verif

/-- The value of an IEEE double given by its bits (`struct.unpack('>d', ...)`). -/
def f64Val (b : BitVec 64) : Flt :=
  let e : ℕ := b.toNat / 2 ^ 52 % 2048
  let f : ℕ := b.toNat % 2 ^ 52
  let s : ℚ := if b.toNat < 2 ^ 63 then 1 else -1
  if e = 2047 then (if f = 0 then .inf (decide (2 ^ 63 ≤ b.toNat)) else .nan)
  else if e = 0 then (if f = 0 ∧ 2 ^ 63 ≤ b.toNat then .nzero else .fin (s * f * 2 ^ (-1074 : ℤ)))
  else .fin (s * (2 ^ 52 + f) * 2 ^ ((e : ℤ) - 1075))

/-- The bits of the double with the value `q`: sign, eleven bits of exponent, 52 bits of fraction. -/
def f64Bits (q : ℚ) : BitVec 64 :=
  let m : ℕ := ⌊|q| / 2 ^ ulpExp q⌋.toNat
  BitVec.ofNat 64 ((if q < 0 then 2 ^ 63 else 0) +
    (if m < 2 ^ 52 then m else (ulpExp q + 1075).toNat * 2 ^ 52 + (m - 2 ^ 52)))

/-- `struct.pack('>d', x)` of a float. Rationals that are no doubles do not occur as Python floats; they are rounded here. -/
def packF64 : Flt → Py (BitVec 64)
  | .fin x =>
    if 2 ^ (1024 : ℤ) ≤ |flq x| then .error .overflowError
    else .ok (if flq x = 0 ∧ x < 0 then 0x8000000000000000#64 else f64Bits (flq x))
  | .nzero => .ok 0x8000000000000000#64
  | .inf neg => .ok (if neg then 0xfff0000000000000#64 else 0x7ff0000000000000#64)
  | .nan => .ok 0x7ff8000000000000#64

/-- Are these the bits of a NaN? -/
def f64IsNaN (b : BitVec 64) : Bool :=
  (b.toNat / 2 ^ 52) % 2048 == 2047 && b.toNat % 2 ^ 52 != 0

end Verif
