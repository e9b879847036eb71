import Verif.Model.Points

/-!
# Specification of the SunSpec data formats

Written independently of the codec model: only the type names `PT`, `Val` and `Bytes` are shared.
-/

namespace Verif.Spec
open Verif

/-- An integer register format: size in bytes and signedness. -/
structure IntFmt where
  bytes : Nat
  signed : Bool
  deriving DecidableEq, Repr

/-- Least integer of a format. -/
def IntFmt.lo (f : IntFmt) : Int := if f.signed then -(2 ^ (8 * f.bytes - 1)) else 0
/-- Greatest integer of a format. -/
def IntFmt.hi (f : IntFmt) : Int :=
  if f.signed then 2 ^ (8 * f.bytes - 1) - 1 else 2 ^ (8 * f.bytes) - 1

/-- The number a byte string denotes in big-endian order. -/
def bigEndian (d : Bytes) : Nat := d.foldl (fun acc b => acc * 256 + b.toNat) 0

/-- `d` is the big-endian two's complement representation of `v` in format `f`. -/
def IntFmt.Encodes (f : IntFmt) (v : Int) (d : Bytes) : Prop :=
  d.length = f.bytes ∧ f.lo ≤ v ∧ v ≤ f.hi ∧ (bigEndian d : Int) = v % 2 ^ (8 * f.bytes)

/-- The integer formats of the SunSpec information model specification. -/
def intFmt : PT → Option IntFmt
  | .int16 | .sunssf | .pad => some ⟨2, true⟩
  | .uint16 | .count | .acc16 | .enum16 | .bitfield16 => some ⟨2, false⟩
  | .int32 => some ⟨4, true⟩
  | .uint32 | .acc32 | .enum32 | .bitfield32 | .ipaddr => some ⟨4, false⟩
  | .int64 => some ⟨8, true⟩
  | .uint64 | .acc64 => some ⟨8, false⟩
  | .ipv6addr | .float32 | .string | .eui48 => none

/-- The integer formats actually implemented: as `intFmt`, except that the 64 bit unsigned types
are coded as signed integers (suns.py:185-186). -/
def codecFmt : PT → Option IntFmt
  | .uint64 | .acc64 => some ⟨8, true⟩
  | t => intFmt t

/-- Number of registers of the fixed-size point types in the SunSpec specification. -/
def typeRegs : PT → Option Nat
  | .int16 | .sunssf | .pad | .uint16 | .count | .acc16 | .enum16 | .bitfield16 => some 1
  | .int32 | .uint32 | .acc32 | .enum32 | .bitfield32 | .ipaddr | .float32 => some 2
  | .int64 | .uint64 | .acc64 | .eui48 => some 4
  | .ipv6addr => some 8
  | .string => none

/-- The SunSpec "not implemented" register patterns. For strings: the empty string (first byte
NUL); for eui48: `FF:FF:FF:FF:FF:FF` or all zero; for float32: any NaN. -/
def Unimpl (t : PT) (d : Bytes) : Prop :=
  match t with
  | .int16 | .sunssf | .pad => d = [0x80, 0]
  | .uint16 | .count | .enum16 | .bitfield16 => d = [0xff, 0xff]
  | .int32 => d = [0x80, 0, 0, 0]
  | .uint32 | .enum32 | .bitfield32 => d = [0xff, 0xff, 0xff, 0xff]
  | .int64 => d = [0x80, 0, 0, 0, 0, 0, 0, 0]
  | .uint64 => d = [0xff, 0xff, 0xff, 0xff, 0xff, 0xff, 0xff, 0xff]
  | .acc16 | .acc32 | .acc64 | .ipaddr | .ipv6addr => ∀ b ∈ d, b = 0
  | .string => d = [] ∨ ∃ r, d = 0 :: r
  | .eui48 => (∀ b ∈ d, b = 0) ∨ ∃ x y, d = [x, y, 0xff, 0xff, 0xff, 0xff, 0xff, 0xff]
  | .float32 =>
    -- IEEE 754 single: sign bit, eight exponent bits all one, some fraction bit set
    255 * 2 ^ 23 < bigEndian d % 2 ^ 31

/-- The hexadecimal digits of a byte, upper case. -/
def hexByte (b : Byte) : List Char :=
  let digits := "0123456789ABCDEF".toList
  [digits.getD (b.toNat / 16) ' ', digits.getD (b.toNat % 16) ' ']

/-- The value the registers `d` of an implemented point of type `t` denote. -/
def Denotes (t : PT) (d : Bytes) (v : Val) : Prop :=
  match intFmt t with
  | some f => ∃ i, v = .int i ∧ f.Encodes i d
  | none =>
    match t with
    | .float32 => ∃ b, v = .flt b ∧ b.toNat = bigEndian d
    | .string =>
      -- latin-1 text followed by NUL padding
      ∃ (txt : Bytes) (n : Nat), d = txt ++ List.replicate n 0 ∧
        (∀ h : txt ≠ [], txt.getLast h ≠ 0) ∧
        v = .str (txt.map fun b => Char.ofNat b.toNat)
    | .ipv6addr =>
      ∃ g1 g2 g3 g4 : Bytes, d = g1 ++ g2 ++ g3 ++ g4 ∧
        g1.length = 4 ∧ g2.length = 4 ∧ g3.length = 4 ∧ g4.length = 4 ∧
        v = .str (List.intercalate [':'] ([g1, g2, g3, g4].map (List.flatMap hexByte)))
    | .eui48 =>
      ∃ x y m, d = x :: y :: m ∧ m.length = 6 ∧
        v = .str (List.intercalate [':'] (m.map hexByte))
    | _ => False

end Verif.Spec
