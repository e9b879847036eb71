import Verif.Py.Basic

/-!
# Specification of the Modbus CRC

"MODBUS over Serial Line", section 6.2.2: load 0xFFFF; for each byte exclusive-or it to the low
byte, then eight times: shift right, and if the bit shifted out is 1 exclusive-or 0xA001. The low
order byte of the CRC is transmitted first.
-/

namespace Verif.Spec
open Verif

/-- One shift of the CRC register. -/
def crcShift (s : BitVec 16) : BitVec 16 :=
  if s.getLsbD 0 then (s >>> 1) ^^^ 0xa001 else s >>> 1

/-- `n` shifts. -/
def crcShifts : Nat → BitVec 16 → BitVec 16
  | 0, s => s
  | n + 1, s => crcShifts n (crcShift s)

/-- The Modbus CRC-16 of a byte string. -/
def modbusCRC (d : Bytes) : BitVec 16 :=
  d.foldl (fun s b => crcShifts 8 (s ^^^ b.setWidth 16)) 0xffff

/-- The two CRC bytes in transmission order: low byte, high byte. -/
def crcBytes (d : Bytes) : Bytes := [(modbusCRC d).setWidth 8, ((modbusCRC d) >>> 8).setWidth 8]

/-- A valid frame: payload followed by its CRC. -/
def ValidFrame (f : Bytes) : Prop := ∃ payload, f = payload ++ crcBytes payload

/-- The bits of a byte in the order they are transmitted on a serial line: least significant
first. -/
def wireBitsOf (b : Byte) : List Bool := (List.range 8).map b.getLsbD

/-- The bits of a frame in transmission order. -/
def wireBits (f : Bytes) : List Bool := f.flatMap wireBitsOf

/-- The number of bits in which two frames (of the same length) differ. -/
def bitErrors (f g : Bytes) : Nat :=
  ((wireBits f).zip (wireBits g)).countP fun p => p.1 != p.2

end Verif.Spec
