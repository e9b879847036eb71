import Verif.Py.Float

/-!
# Point types and their codecs

Models `sunspec/core/suns.py` (the point type table) and the pack/unpack functions of
`sunspec/core/util.py`.
-/

namespace Verif

/-- The point types: suns.py:35-55 (`SUNS_TYPE_*`). -/
inductive PT where
  | int16 | uint16 | count | acc16 | enum16 | bitfield16 | pad
  | int32 | uint32 | acc32 | enum32 | bitfield32 | ipaddr
  | int64 | uint64 | acc64 | ipv6addr | float32 | string | sunssf | eui48
  deriving DecidableEq, Repr

/-- All point types (the keys of `suns_point_type_info`, suns.py:168-190). -/
def PT.all : List PT :=
  [.int16, .uint16, .count, .acc16, .enum16, .bitfield16, .pad,
   .int32, .uint32, .acc32, .enum32, .bitfield32, .ipaddr,
   .int64, .uint64, .acc64, .ipv6addr, .float32, .string, .sunssf, .eui48]

/-- A (not None) point value. A Python float is `flt b` if it is the IEEE single with the bit pattern `b`, otherwise
(only possible after an assignment, not after a read) `dbl f`. See `Val.ofFlt`. -/
inductive Val where
  | int (i : Int)
  | str (s : List Char)
  | flt (b : BitVec 32)
  | dbl (f : Flt)
  deriving DecidableEq

/-- A Python float as a point value. -/
def Val.ofFlt (f : Flt) : Val :=
  match packF32 f with
  | .ok b => if f32Val b = f then .flt b else .dbl f
  | .error _ => .dbl f

/-- Is the IEEE single bit pattern a NaN (exponent all ones, non-zero fraction)? -/
def f32IsNaN (b : BitVec 32) : Bool :=
  (b.toNat / 2 ^ 23) % 256 == 255 && b.toNat % 2 ^ 23 != 0

/-! ### Text helpers -/

/-- `str(data, 'latin-1')`. -/
def latin1Dec (d : Bytes) : List Char := d.map fun b => Char.ofNat b.toNat

/-- `bytes(s, 'latin-1')`: `UnicodeEncodeError` on a character above U+00FF. -/
def latin1Enc (s : List Char) : Py Bytes :=
  if s.all (fun c => c.toNat < 256) then .ok (s.map fun c => BitVec.ofNat 8 c.toNat)
  else .error .unicodeError

/-- `s.rstrip('\0')`. -/
def rstripNul (s : List Char) : List Char := (s.reverse.dropWhile (· == Char.ofNat 0)).reverse

/-- One upper-case hexadecimal digit. -/
def hexDigit (n : Nat) : Char :=
  if n < 10 then Char.ofNat (48 + n) else Char.ofNat (55 + n)

/-- `'{:02X}'.format(b)`. -/
def hex2 (b : Byte) : List Char := [hexDigit (b.toNat / 16), hexDigit (b.toNat % 16)]

/-- Value of an upper-case hexadecimal digit, as accepted by `base64.b16decode`. -/
def hexVal (c : Char) : Option Nat :=
  if 48 ≤ c.toNat ∧ c.toNat ≤ 57 then some (c.toNat - 48)
  else if 65 ≤ c.toNat ∧ c.toNat ≤ 70 then some (c.toNat - 55)
  else none

/-- `base64.b16decode(s)` (no case folding): `binascii.Error` on any other character or an odd
number of digits. Simplification: non-ASCII text raises `ValueError` in Python, of which
`binascii.Error` is a subclass; both are `binasciiError` here. -/
def b16decode : List Char → Py Bytes
  | [] => .ok []
  | [_] => .error .binasciiError
  | a :: b :: rest =>
    match hexVal a, hexVal b with
    | some x, some y =>
      match b16decode rest with
      | .ok r => .ok (BitVec.ofNat 8 (16 * x + y) :: r)
      | .error e => .error e
    | _, _ => .error .binasciiError

/-- `s.replace(':', '')`. -/
def dropColons (s : List Char) : List Char := s.filter (· != ':')

/-! ### util.py: data to value -/

/-- util.py:60-74 `data_to_ipv6addr`: falls through to `None` for all-zero data or a length other
than 16. -/
def dataToIpv6 (d : Bytes) : Option (List Char) :=
  if d.any (· != 0) ∧ d.length = 16 then
    some ((d.take 4).flatMap hex2 ++ [':'] ++ ((d.drop 4).take 4).flatMap hex2 ++ [':'] ++
      ((d.drop 8).take 4).flatMap hex2 ++ [':'] ++ ((d.drop 12).take 4).flatMap hex2)
  else none

/-- Join with ':' (the literal separators in the format string of util.py:86). -/
def joinColon : List (List Char) → List Char
  | [] => []
  | [x] => x
  | x :: y :: r => x ++ [':'] ++ joinColon (y :: r)

/-- util.py:76-87 `data_to_eui48`: bytes 2..7; `None` for all-zero data or a length other than 8. -/
def dataToEui48 (d : Bytes) : Option (List Char) :=
  if d.any (· != 0) ∧ d.length = 8 then
    some (joinColon ((d.drop 2).map hex2))
  else none

/-- util.py:89-92 `data_to_float`: `None` for a NaN. -/
def dataToFloat (d : Bytes) : Py (Option (BitVec 32)) :=
  if d.length = 4 then
    .ok (if f32IsNaN (BitVec.ofNat 32 (beDec d)) then none else some (BitVec.ofNat 32 (beDec d)))
  else .error .structError

/-- util.py:99-108 `data_to_str`: latin-1, trailing NULs stripped except from the first
character. -/
def dataToStr (d : Bytes) : List Char :=
  match latin1Dec d with
  | c :: c' :: rest => c :: rstripNul (c' :: rest)
  | s => s

/-! ### util.py: value to data -/

/-- util.py:128-132 `ipv6addr_to_data`. -/
def ipv6ToData (a : List Char) (slen : Option Nat) : Py Bytes :=
  match b16decode (dropColons a) with
  | .error e => .error e
  | .ok s => .ok (packStr (slen.getD s.length) s)

/-- util.py:143-151 `str_to_data`: note the extra NUL byte for `slen < 16`. -/
def strToData (s : List Char) (slen : Option Nat) : Py Bytes :=
  let n := slen.getD s.length
  match latin1Enc s with
  | .error e => .error e
  | .ok b => if n < 16 then .ok (packStr (n + 1) (b ++ [0#8])) else .ok (packStr n b)

/-- util.py:153-154 `eui48_to_data` (one parameter). -/
def eui48ToData (a : List Char) : Py Bytes :=
  match b16decode (dropColons a) with
  | .error e => .error e
  | .ok s => .ok ([0#8, 0#8] ++ s)

/-! ### suns.py: the point type table -/

/-- suns.py:168-190, first component: length in registers (`None` for strings). -/
def PT.regs : PT → Option Nat
  | .int16 | .uint16 | .count | .acc16 | .enum16 | .bitfield16 | .pad | .sunssf => some 1
  | .int32 | .uint32 | .acc32 | .enum32 | .bitfield32 | .ipaddr | .float32 => some 2
  | .int64 | .uint64 | .acc64 | .eui48 => some 4
  | .ipv6addr => some 8
  | .string => none

/-- suns.py:168-190, third component: the decoder of a point type; the result is the Python
value, possibly None. The integer decoders are the `struct.unpack` calls of util.py:37-39 (`data_to_s16`), util.py:41-43
(`data_to_u16`), util.py:45-47 (`data_to_s32`), util.py:49-51 (`data_to_u32`) and util.py:53-55 (`data_to_s64`);
`data_to_u64` (util.py:57-59) and `data_to_double` (util.py:93-96) are not used by the table. -/
def PT.fromData (t : PT) (d : Bytes) : Py (Option Val) :=
  match t with
  | .int16 | .pad | .sunssf => (unpackS 2 d).map fun i => some (.int i)
  | .uint16 | .count | .acc16 | .enum16 | .bitfield16 => (unpackU 2 d).map fun i => some (.int i)
  | .int32 => (unpackS 4 d).map fun i => some (.int i)
  | .uint32 | .acc32 | .enum32 | .bitfield32 | .ipaddr => (unpackU 4 d).map fun i => some (.int i)
  | .int64 | .uint64 | .acc64 => (unpackS 8 d).map fun i => some (.int i)
  | .ipv6addr => .ok ((dataToIpv6 d).map .str)
  | .float32 => (dataToFloat d).map fun f => f.map .flt
  | .string => .ok (some (.str (dataToStr d)))
  | .eui48 => .ok ((dataToEui48 d).map .str)

/-- suns.py:106-167, second component (`suns_is_impl_eui48`: suns.py:166-167): is a decoded value implemented? -/
def PT.isImpl (t : PT) (v : Option Val) : Bool :=
  match t with
  | .int16 | .pad | .sunssf => v != some (.int (-32768))
  | .uint16 | .count | .enum16 | .bitfield16 => v != some (.int 0xffff)
  | .acc16 | .acc32 | .acc64 | .ipaddr => v != some (.int 0)
  | .int32 => v != some (.int (-2147483648))
  | .uint32 | .enum32 | .bitfield32 => v != some (.int 0xffffffff)
  | .int64 => v != some (.int (-9223372036854775808))
  | .uint64 => v != some (.int 0xffffffffffffffff)
  | .float32 =>
    match v with
    | some (.flt b) => !f32IsNaN b
    | some (.dbl f) => f != .nan
    | v => v.isSome
  | .ipv6addr | .string =>
    match v with
    | some (.str (c :: _)) => c != Char.ofNat 0
    | _ => false
  | .eui48 => v != some (.str "FF:FF:FF:FF:FF:FF".toList)

/-- util.py:133-134 `float_to_data32`: `struct.pack('>f', f)`. A float point holds an int after an assignment if it
has a scale factor (device.py:521); an int that is no double is a `struct.error`. -/
def floatToData : Option Val → Py Bytes
  | some (.flt b) => .ok (beEnc 4 b.toNat)
  | some (.dbl f) => (packF32 f).map fun b => beEnc 4 b.toNat
  | some (.int i) =>
    match intToFlt i with
    | .ok f => (packF32 f).map fun b => beEnc 4 b.toNat
    | .error _ => .error .structError
  | _ => .error .structError

/-- suns.py:168-190, fourth component, as called by `write`/`write_points`
(core/client.py:427, 504): `point_type.value_to_data(value_base, len * 2)` with two positional
arguments. The integer encoders are the `struct.pack` calls of util.py:109-110 (`s16_to_data`), util.py:112-113
(`u16_to_data`), util.py:115-116 (`s32_to_data`), util.py:118-119 (`u32_to_data`) and util.py:121-122 (`s64_to_data`);
`u64_to_data` (util.py:124-125), `float32_to_data` (util.py:136-137) and `float_to_data` (util.py:139-141) are not used
by the table.  `eui48_to_data` has only one parameter, so that call is a `TypeError`
(util.py:153).  `struct.pack` of something that is not a number is a `struct.error`; a string
function applied to a number fails with an `AttributeError` (`replace`) or `TypeError`
(`len`/`bytes`); `None` likewise. -/
def PT.toData (t : PT) (v : Option Val) (blen : Nat) : Py Bytes :=
  match t, v with
  | .int16, some (.int i) | .pad, some (.int i) | .sunssf, some (.int i) => packS 2 i
  | .uint16, some (.int i) | .count, some (.int i) | .acc16, some (.int i)
  | .enum16, some (.int i) | .bitfield16, some (.int i) => packU 2 i
  | .int32, some (.int i) => packS 4 i
  | .uint32, some (.int i) | .acc32, some (.int i) | .enum32, some (.int i)
  | .bitfield32, some (.int i) | .ipaddr, some (.int i) => packU 4 i
  | .int64, some (.int i) | .uint64, some (.int i) | .acc64, some (.int i) => packS 8 i
  | .ipv6addr, some (.str s) => ipv6ToData s (some blen)
  | .ipv6addr, _ => .error .attributeError
  | .float32, v => floatToData v
  | .string, some (.str s) => strToData s (some blen)
  | .string, _ => .error .typeError
  | .eui48, _ => .error .typeError
  | _, _ => .error .structError

/-- client.py:365-380 / 393-397: the value a read stores for a point of type `t` whose registers
hold `d`: decode, then `None` unless implemented. -/
def PT.readValue (t : PT) (d : Bytes) : Py (Option Val) :=
  match t.fromData d with
  | .error e => .error e
  | .ok v => .ok (if t.isImpl v then v else none)

end Verif
