import Mathlib.Data.Int.Log
import Mathlib.Data.Rat.Floor
import Mathlib.Algebra.Order.Field.Rat
import Verif.Py.Text

/-!
# Python floats

IEEE 754 double precision numbers as rationals, with a second zero.
-/

namespace Verif

/-- A Python `float`: a finite double (given by its value), -0.0, an infinity or a NaN. -/
inductive Flt where
  | fin (q : ℚ)
  | nzero
  | inf (neg : Bool)
  | nan
  deriving DecidableEq

/-- The nearest integer, ties to even: `round(x)` of a finite float. -/
def rint (x : ℚ) : ℤ :=
  if x - ⌊x⌋ < 1 / 2 then ⌊x⌋
  else if 1 / 2 < x - ⌊x⌋ then ⌊x⌋ + 1
  else if ⌊x⌋ % 2 = 0 then ⌊x⌋ else ⌊x⌋ + 1

/-- The exponent of the last place of the double nearest to `x` (53 bits; subnormal numbers have the exponent -1074). -/
def ulpExp (x : ℚ) : ℤ := max (Int.log 2 |x| - 52) (-1074)

/-- `x` rounded to the precision of a double, without regard to overflow. -/
def flq (x : ℚ) : ℚ := rint (x / 2 ^ ulpExp x) * 2 ^ ulpExp x

/-- The double nearest to `x`, ties to even; a zero is -0.0 if `neg`. -/
def flS (neg : Bool) (x : ℚ) : Flt :=
  if 2 ^ (1024 : ℤ) ≤ |flq x| then .inf (decide (flq x < 0))
  else if flq x = 0 ∧ neg = true then .nzero else .fin (flq x)

/-- The double nearest to `x`, ties to even, with the sign of `x`. -/
def fl (x : ℚ) : Flt := flS (decide (x < 0)) x

/-- The number a finite float is. -/
def Flt.num : Flt → Option ℚ
  | .fin q => some q
  | .nzero => some 0
  | .inf _ | .nan => none

/-- The sign bit of a float. -/
def Flt.neg : Flt → Bool
  | .fin q => decide (q < 0)
  | .nzero => true
  | .inf n => n
  | .nan => false

/-- `x * y` of floats. -/
def Flt.mul : Flt → Flt → Flt
  | .nan, _ | _, .nan => .nan
  | .inf n, y => if y.num = some 0 then .nan else .inf (n != y.neg)
  | x, .inf n => if x.num = some 0 then .nan else .inf (n != x.neg)
  | x, y => flS (x.neg != y.neg) (x.num.getD 0 * y.num.getD 0)

/-- `x / y` of floats. -/
def Flt.div (x y : Flt) : Py Flt :=
  if y.num = some 0 then .error .zeroDivision
  else
    match x, y with
    | .nan, _ | _, .nan => .ok .nan
    | .inf _, .inf _ => .ok .nan
    | .inf n, y => .ok (.inf (n != y.neg))
    | x, .inf n => .ok (if (x.neg != n) = true then .nzero else .fin 0)
    | x, y => .ok (flS (x.neg != y.neg) (x.num.getD 0 / y.num.getD 0))

/-- `float(i)` of an int. -/
def intToFlt (i : Int) : Py Flt :=
  match fl i with
  | .inf _ => .error .overflowError
  | f => .ok f

/-- `round(f)`. -/
def Flt.round : Flt → Py Int
  | .fin q => .ok (rint q)
  | .nzero => .ok 0
  | .inf _ => .error .overflowError
  | .nan => .error .valueError

/-- `int(f)`: the integer part. -/
def Flt.toInt : Flt → Py Int
  | .fin q => .ok (if 0 ≤ q then ⌊q⌋ else ⌈q⌉)
  | .nzero => .ok 0
  | .inf _ => .error .overflowError
  | .nan => .error .valueError

/-- The value of an IEEE single given by its bits (`struct.unpack('>f', ...)`). -/
def f32Val (b : BitVec 32) : Flt :=
  let e : ℕ := b.toNat / 2 ^ 23 % 256
  let f : ℕ := b.toNat % 2 ^ 23
  let s : ℚ := if b.toNat < 2 ^ 31 then 1 else -1
  if e = 255 then (if f = 0 then .inf (decide (2 ^ 31 ≤ b.toNat)) else .nan)
  else if e = 0 then (if f = 0 ∧ 2 ^ 31 ≤ b.toNat then .nzero else .fin (s * f * 2 ^ (-149 : ℤ)))
  else .fin (s * (2 ^ 23 + f) * 2 ^ ((e : ℤ) - 150))

/-- The exponent of the last place of the single nearest to `x` (24 bits; subnormal numbers have the exponent -149). -/
def ulpExp32 (x : ℚ) : ℤ := max (Int.log 2 |x| - 23) (-149)

/-- `x` rounded to the precision of a single (ties to even), without regard to overflow. -/
def flq32 (x : ℚ) : ℚ := rint (x / 2 ^ ulpExp32 x) * 2 ^ ulpExp32 x

/-- The bits of the single with the value `q`: sign, eight bits of exponent, 23 bits of fraction. -/
def f32Bits (q : ℚ) : BitVec 32 :=
  let m : ℕ := ⌊|q| / 2 ^ ulpExp32 q⌋.toNat
  BitVec.ofNat 32 ((if q < 0 then 2 ^ 31 else 0) +
    (if m < 2 ^ 23 then m else (ulpExp32 q + 150).toNat * 2 ^ 23 + (m - 2 ^ 23)))

/-- `struct.pack('>f', x)` of a float: the nearest single; `OverflowError` if that is too large. -/
def packF32 : Flt → Py (BitVec 32)
  | .fin x =>
    if 2 ^ (128 : ℤ) ≤ |flq32 x| then .error .overflowError
    else .ok (if flq32 x = 0 ∧ x < 0 then 0x80000000#32 else f32Bits (flq32 x))
  | .nzero => .ok 0x80000000#32
  | .inf neg => .ok (if neg then 0xff800000#32 else 0x7f800000#32)
  | .nan => .ok 0x7fc00000#32

/-- The parts of Python and the C library that are not modelled: `math.pow(10, k)`, `float(text)` (none: a
`ValueError`) and `str(float)`. -/
structure FloatLib where
  pow10 : Int → Py Flt
  parse : Text → Option Flt
  repr : Flt → Text

/-- Values a program may assign to a point (or get from it). Simplification: `bool` and other types are not
represented. -/
inductive UVal where
  | none
  | int (i : Int)
  | str (s : Text)
  | flt (f : Flt)
  deriving DecidableEq

/-- `float(v)`. -/
def UVal.toFlt (lib : FloatLib) : UVal → Py Flt
  | .none => .error .typeError
  | .int i => intToFlt i
  | .flt f => .ok f
  | .str s =>
    match lib.parse s with
    | some f => .ok f
    | Option.none => .error .valueError

end Verif
