import Verif.Model.Device
import Verif.Py.Float

/-!
# Values of points

Models `Point.value` (getter and setter, device.py:511-527) and the conversion functions of suns.py:87-107.
-/

namespace Verif

/-- `suns_to_int`, and `suns_to_long`, which is the same in Python 3 (suns.py:87-97; `long = int`, suns.py:28-29):
`int(x, 0)` raises a `TypeError` unless `x` is text. -/
def sunsToInt : UVal → Py Int
  | .str s =>
    match pyInt 0 s with
    | some i => .ok i
    | none => .error .valueError
  | .int i => .ok i
  | .flt f => f.toInt
  | .none => .error .typeError

/-- `suns_to_str` (suns.py:99-100). -/
def sunsToStr (lib : FloatLib) : UVal → Text
  | .none => t!"None"
  | .int i => intDec i
  | .str s => s
  | .flt f => lib.repr f

/-- Is the value base of points of the type an int (fifth column of suns.py:168-190)? -/
def PT.isInt : PT → Bool
  | .string | .ipv6addr | .eui48 | .float32 => false
  | _ => true

/-- `suns_to_float` (suns.py:102-106): None for text that is not a number. -/
def sunsToFloat (lib : FloatLib) (v : UVal) : Py (Option Val) :=
  match v.toFlt lib with
  | .ok f => .ok (some (Val.ofFlt f))
  | .error .valueError => .ok none
  | .error e => .error e

/-- `point_type.to_value(v)` (fifth column of suns.py:168-190). -/
def PT.toValue (lib : FloatLib) (t : PT) (v : UVal) : Py (Option Val) :=
  if t.isInt then
    match sunsToInt v with
    | .ok i => .ok (some (.int i))
    | .error e => .error e
  else if t = .float32 then sunsToFloat lib v
  else .ok (some (.str (sunsToStr lib v)))

/-- `if self.value_sf` (device.py:513, 520): the scale factor, if it is neither None nor 0. `value_sf` is None or an
int: it is copied from a point of type sunssf or a constant (client.py:399). -/
def scaleOf : Option Val → Option Int
  | some (.int k) => if k = 0 then none else some k
  | _ => none

/-- A value base as a value seen by the program. -/
def baseVal : Option Val → UVal
  | none => .none
  | some (.int i) => .int i
  | some (.str s) => .str s
  | some (.flt b) => .flt (f32Val b)
  | some (.dbl f) => .flt f

/-- `value_base * p` for a float `p` (device.py:514). -/
def mulBase (b : Option Val) (p : Flt) : Py UVal :=
  match b with
  | none | some (.str _) => .error .typeError
  | some (.int i) =>
    match intToFlt i with
    | .ok f => .ok (.flt (f.mul p))
    | .error e => .error e
  | some (.flt b) => .ok (.flt ((f32Val b).mul p))
  | some (.dbl f) => .ok (.flt (f.mul p))

/-- `Point.value` (device.py:511-516). -/
def getValue (lib : FloatLib) (p : PointObj) : Py UVal :=
  match scaleOf p.vsf with
  | some k =>
    match lib.pow10 k with
    | .ok f => mulBase p.base f
    | .error e => .error e
  | none => .ok (baseVal p.base)

/-- The new value base in the setter of `Point.value` (device.py:520-521). -/
def scaledBase (lib : FloatLib) (k : Int) (v : UVal) : Py Int :=
  match v.toFlt lib with
  | .error e => .error e
  | .ok x =>
    match lib.pow10 k with
    | .error e => .error e
    | .ok p =>
      match x.div p with
      | .error e => .error e
      | .ok y => y.round

/-- The setter of `Point.value` (device.py:518-525). -/
def setValue (lib : FloatLib) (p : PointObj) (v : UVal) : PointObj × Py Unit :=
  match scaleOf p.vsf with
  | some k =>
    match scaledBase lib k v with
    | .ok n => ({ p with base := some (.int n), dirty := true }, .ok ())
    | .error e => (p, .error e)
  | none =>
    match p.pt.type.toValue lib v with
    | .ok b => ({ p with base := b, dirty := true }, .ok ())
    | .error e => (p, .error e)

end Verif
