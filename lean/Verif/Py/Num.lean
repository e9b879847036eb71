import Verif.Py.Text

/-!
# Python numbers that may be `int` or `float`

In Python 3 `len(data)/2` is a float, so the register counts of `mbmap.py` are sometimes floats, and a float
is not accepted as a slice index. All floats that occur there are multiples of 1/4; a number is represented
by four times its value. Simplification: float arithmetic is exact (it is, below 2^51).
-/

namespace Verif

/-- A number: `q / 4`, and whether it is a `float`. -/
structure Num where
  float : Bool
  q : Int
  deriving DecidableEq, Repr

namespace Num

/-- An `int`. -/
def int (i : Int) : Num := ⟨false, 4 * i⟩

/-- `n / 2` (a float). -/
def half (n : Nat) : Num := ⟨true, 2 * n⟩

/-- `n / 4` (a float). -/
def quarter (n : Nat) : Num := ⟨true, n⟩

/-- `a + b`. -/
def add (a b : Num) : Num := ⟨a.float || b.float, a.q + b.q⟩
/-- `a - b`. -/
def sub (a b : Num) : Num := ⟨a.float || b.float, a.q - b.q⟩
/-- `a * 2`. -/
def dbl (a : Num) : Num := ⟨a.float, 2 * a.q⟩
/-- `int(a)`: truncation towards zero. -/
def toInt (a : Num) : Int := a.q.tdiv 4

/-- Use as a slice index: `TypeError` for a float. -/
def index (a : Num) : Py Int := if a.float then .error .typeError else .ok a.toInt

/-- `str(a)`. Simplification: floats of 10^16 or more are not in scientific notation. -/
def str (a : Num) : Text :=
  if a.float then
    (if a.q < 0 then ['-'] else []) ++ natDec (a.q.natAbs / 4) ++ ['.'] ++
      (match a.q.natAbs % 4 with
       | 0 => ['0'] | 1 => ['2', '5'] | 2 => ['5'] | _ => ['7', '5'])
  else intDec a.toInt

end Num

/-- A slice bound: negative indices count from the end, and bounds are clamped. -/
def pyIdx (n : Nat) (i : Int) : Nat := if i < 0 then (n + i).toNat else min n i.toNat

/-- `d[a:b]`. -/
def pySlice {α} (d : List α) (a b : Int) : List α := (d.take (pyIdx d.length b)).drop (pyIdx d.length a)

/-- `d[a:b]` where `d` may be None and the bounds may be floats. -/
def numSlice (d : Option Bytes) (a b : Num) : Py Bytes :=
  match d, a.index, b.index with
  | some d, .ok a, .ok b => .ok (pySlice d a b)
  | _, _, _ => .error .typeError

end Verif
