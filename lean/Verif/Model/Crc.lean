import Verif.Py.Basic

/-!
# CRC-16 of the RTU framing

Models `sunspec/core/modbus/client.py:1062-1110`.
-/

namespace Verif

/-- The loop body of `__generate_crc16_table` (modbus/client.py:1070-1074), run `n` times on
`(byte, crc)`. -/
def crcEntryLoop : Nat → BitVec 16 → BitVec 16 → BitVec 16
  | 0, _, crc => crc
  | n + 1, byte, crc =>
    if (byte ^^^ crc) &&& 1 ≠ 0 then crcEntryLoop n (byte >>> 1) ((crc >>> 1) ^^^ 0xa001)
    else crcEntryLoop n (byte >>> 1) (crc >>> 1)

/-- `__crc16_table[byte]` (modbus/client.py:1062-1078). Simplification: the entry is recomputed on
each look-up instead of being stored. -/
def crcTable (byte : BitVec 16) : BitVec 16 := crcEntryLoop 8 byte 0

/-- The loop of `computeCRC` (modbus/client.py:1097-1099). Bytes are 8 bits, so `ord(a)` fits. -/
def crcLoop (crc : BitVec 16) : Bytes → BitVec 16
  | [] => crc
  | a :: rest =>
    let idx := crcTable ((crc ^^^ a.setWidth 16) &&& 0xff)
    crcLoop (((crc >>> 8) &&& 0xff) ^^^ idx) rest

/-- `computeCRC` (modbus/client.py:1080-1101): the CRC with its two bytes swapped. The result is
below 65536, modelled as a 16 bit vector. -/
def computeCRC (data : Bytes) : BitVec 16 :=
  let crc := crcLoop 0xffff data
  ((crc <<< 8) &&& 0xff00) ||| ((crc >>> 8) &&& 0x00ff)

/-- `struct.pack('>H', computeCRC(data))` (modbus/client.py:231, 349). The CRC is below 65536, so
packing it never fails (`packCRC`, `C07_appended_crc`). -/
def crcField (data : Bytes) : Bytes := beEnc 2 (computeCRC data).toNat

/-- `checkCRC` (modbus/client.py:1103-1110); `check` is any Python int. -/
def checkCRC (data : Bytes) (check : Nat) : Bool := (computeCRC data).toNat == check

/-- The CRC test on a received frame, as in `_read`/`_write`
(modbus/client.py:272-274, 397-399): the last two bytes against the CRC of the rest. For a frame
of fewer than two bytes Python raises an `IndexError`; callers have at least 5 bytes. -/
def frameCrcOk (resp : Bytes) : Bool :=
  match resp.reverse with
  | lo :: hi :: rest => checkCRC rest.reverse (hi.toNat * 256 + lo.toNat)
  | _ => false

end Verif
