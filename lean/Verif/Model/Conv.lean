import Verif.Model.Points
import Verif.Py.Double

/-!
# util.py: the conversion functions that no point type uses
-/

namespace Verif

/-- util.py:57-59 `data_to_u64`: `struct.unpack('>Q', data)`. -/
def dataToU64 (d : Bytes) : Py Int := unpackU 8 d

/-- util.py:124-125 `u64_to_data`: `struct.pack('>Q', u64)`; anything but an int is a `struct.error`. -/
def u64ToData : UVal → Py Bytes
  | .int i => packU 8 i
  | _ => .error .structError

/-- util.py:93-96 `data_to_double`: `struct.unpack('>d', data)`; `None` for a NaN (the only float whose text is `nan`). -/
def dataToDouble (d : Bytes) : Py (Option Flt) :=
  if d.length = 8 then
    .ok (if f64IsNaN (BitVec.ofNat 64 (beDec d)) then none else some (f64Val (BitVec.ofNat 64 (beDec d))))
  else .error .structError

/-- util.py:139-141 `float_to_data`: `struct.pack('>d', f)`. An int is converted to a float first; one that is too large
for that, and everything that is not a number, is a `struct.error`. -/
def floatToDouble : UVal → Py Bytes
  | .flt f => (packF64 f).map fun b => beEnc 8 b.toNat
  | .int i =>
    match intToFlt i with
    | .ok f => (packF64 f).map fun b => beEnc 8 b.toNat
    | .error _ => .error .structError
  | _ => .error .structError

/-- util.py:136-137 `float32_to_data`: `struct.pack('>f', f)`. -/
def floatToSingle : UVal → Py Bytes
  | .flt f => (packF32 f).map fun b => beEnc 4 b.toNat
  | .int i =>
    match intToFlt i with
    | .ok f => (packF32 f).map fun b => beEnc 4 b.toNat
    | .error _ => .error .structError
  | _ => .error .structError

end Verif
