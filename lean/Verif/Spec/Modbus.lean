import Verif.Spec.Crc

/-!
# Specification of Modbus requests and of a conforming slave

Independent of the client model: only byte strings and the CRC specification are used.
-/

namespace Verif.Spec
open Verif

/-- The register memory of a Modbus device. -/
abbrev Mem := Nat → BitVec 16

/-- A register as two bytes, high byte first. -/
def wordBytes (r : BitVec 16) : Bytes := [(r >>> 8).setWidth 8, r.setWidth 8]

/-- The contents of `q` registers from address `a`. -/
def memRead (m : Mem) (a q : Nat) : Bytes := (List.range q).flatMap fun i => wordBytes (m (a + i))

/-- The memory after storing `data` (two bytes per register) from address `a`. -/
def memWrite (m : Mem) (a : Nat) (data : Bytes) : Mem := fun x =>
  if a ≤ x ∧ x < a + data.length / 2 then
    (data.getD (2 * (x - a)) 0 ++ data.getD (2 * (x - a) + 1) 0)
  else m x

/-- A 16 bit field, high byte first. -/
def field16 (n : Nat) : Bytes := [BitVec.ofNat 8 (n / 256), BitVec.ofNat 8 n]

/-- Request PDU: read `q` registers from `a` with function `op` (3: holding, 4: input). -/
def readPdu (op : Byte) (a q : Nat) : Bytes := op :: (field16 a ++ field16 q)

/-- Request PDU: write multiple registers (function 16). -/
def writePdu (a : Nat) (data : Bytes) : Bytes :=
  0x10 :: (field16 a ++ field16 (data.length / 2) ++ [BitVec.ofNat 8 data.length] ++ data)

/-- An RTU frame: address, PDU, CRC. -/
def rtuFrame (sid : Byte) (pdu : Bytes) : Bytes :=
  (sid :: pdu) ++ crcBytes (sid :: pdu)

/-- The reaction of a Modbus server to a request PDU (Modbus Application Protocol V1.1b3, sections
6.3, 6.4, 6.12 and 7): the new memory and the reply PDU. Quantity limits 125 (read) and
123 (write). -/
def serve (m : Mem) (pdu : Bytes) : Mem × Bytes :=
  match pdu with
  | [] => (m, [0x80, 1])
  | op :: body =>
    if op = 3 ∨ op = 4 then
      match body with
      | [ah, al, qh, ql] =>
        let a := ah.toNat * 256 + al.toNat
        let q := qh.toNat * 256 + ql.toNat
        if q < 1 ∨ 125 < q then (m, [op ||| 0x80, 3])
        else if 65536 < a + q then (m, [op ||| 0x80, 2])
        else (m, op :: BitVec.ofNat 8 (2 * q) :: memRead m a q)
      | _ => (m, [op ||| 0x80, 3])
    else if op = 16 then
      match body with
      | ah :: al :: qh :: ql :: n :: data =>
        let a := ah.toNat * 256 + al.toNat
        let q := qh.toNat * 256 + ql.toNat
        if q < 1 ∨ 123 < q ∨ n.toNat ≠ 2 * q ∨ data.length ≠ 2 * q then (m, [op ||| 0x80, 3])
        else if 65536 < a + q then (m, [op ||| 0x80, 2])
        else (memWrite m a data, [op, ah, al, qh, ql])
      | _ => (m, [op ||| 0x80, 3])
    else (m, [op ||| 0x80, 1])

/-- The reaction of the RTU slave with address `sid` to a frame: it answers valid frames addressed
to it and ignores everything else. -/
def serveRtu (sid : Byte) (m : Mem) (frame : Bytes) : Mem × Option Bytes :=
  let pdu := (frame.drop 1).take (frame.length - 3)
  if frame = rtuFrame sid pdu then ((serve m pdu).1, some (rtuFrame sid (serve m pdu).2))
  else (m, none)

/-- The bytes that arrive before the first timeout, if a driver delivers `chunks` (an empty chunk
is a timeout). -/
def received (chunks : List Bytes) : Bytes := (chunks.takeWhile (· ≠ [])).flatten

/-- A slave implementation with internal state `σ` conforms to Modbus: `abs` gives its register
memory, it reacts to every request like `serveRtu`, and its reply arrives completely, in any
fragmentation. -/
def ConformsRtu {σ : Type} (slave : σ → Bytes → σ × Option (List Bytes)) (abs : σ → Mem)
    (sid : Byte) : Prop :=
  ∀ s req, abs (slave s req).1 = (serveRtu sid (abs s) req).1 ∧
    ∃ chunks, (slave s req).2 = some chunks ∧
      received chunks = (serveRtu sid (abs s) req).2.getD []

/-- A list of consecutive register ranges starting at `a`: each range is (address, quantity). -/
def Consecutive : Int → List (Int × Nat) → Prop
  | _, [] => True
  | a, (b, q) :: rest => b = a ∧ Consecutive (a + q) rest

/-- Number of registers covered by a list of ranges. -/
def covered (l : List (Int × Nat)) : Nat := (l.map (·.2)).sum

end Verif.Spec

namespace Verif.Spec
open Verif

/-- What a slave makes receivable in answer to each of a sequence of requests (`none`: the request
could not be sent). -/
def exchange {σ : Type} (slave : σ → Bytes → σ × Option (List Bytes)) :
    σ → List Bytes → List (Option Bytes)
  | _, [] => []
  | s, r :: rs => ((slave s r).2.map received) :: exchange slave (slave s r).1 rs

/-- The received bytes `b` begin with a frame `x y n p.. crc` with valid CRC, without the exception
bit in the function byte `y`, whose byte count `n` is the length of the payload `p`. -/
def IsReadReply (b p : Bytes) : Prop :=
  ∃ (x y : Byte) (rest : Bytes), y &&& 0x80 = 0 ∧ p.length < 256 ∧
    b = (x :: y :: BitVec.ofNat 8 p.length :: p) ++
      crcBytes (x :: y :: BitVec.ofNat 8 p.length :: p) ++ rest

end Verif.Spec

namespace Verif.Spec
open Verif

/-- The received bytes `b` begin with the reply that confirms writing `q` registers at `a` by
slave `sid`. -/
def IsWriteEcho (sid : Byte) (a q : Nat) (b : Bytes) : Prop :=
  ∃ rest, b = rtuFrame sid (0x10 :: (field16 a ++ field16 q)) ++ rest

/-- A list of consecutive write chunks (address, data) starting at `a`; each chunk occupies half as
many registers as it has bytes. -/
def ConsecutiveW : Int → List (Int × Bytes) → Prop
  | _, [] => True
  | a, (b, d) :: rest => b = a ∧ (rest ≠ [] → d.length % 2 = 0) ∧
      ConsecutiveW (a + (d.length / 2 : Nat)) rest

end Verif.Spec

namespace Verif.Spec
open Verif

/-- Length of a reply, given the length `normal` of a reply that is not an exception reply (which
has 5 bytes and is recognised by the top bit of its function byte). -/
def announced (normal : Bytes → Nat) (b : Bytes) : Nat :=
  if b.getD 1 0 &&& 0x80 = 0 then normal b else 5

/-- Length of a normal reply to a read: byte count plus 5. -/
def readLen (b : Bytes) : Nat := (b.getD 2 0).toNat + 5

/-- Length of a normal reply to a write. -/
def writeLen (_ : Bytes) : Nat := 8

/-- The received bytes end before the reply is complete. -/
def Truncated (normal : Bytes → Nat) (b : Bytes) : Prop :=
  b.length < 5 ∨ b.length < announced normal b

/-- A complete reply with a wrong CRC. -/
def BadCrc (normal : Bytes → Nat) (b : Bytes) : Prop :=
  ¬ Truncated normal b ∧ ¬ ValidFrame (b.take (announced normal b))

/-- A complete exception reply with code `c`. -/
def IsException (c : Byte) (b : Bytes) : Prop :=
  ∃ (x y : Byte) (rest : Bytes), y &&& 0x80 ≠ 0 ∧ b = rtuFrame x [y, c] ++ rest

/-- A slave that answers every request like `serveRtu`, each reply in one piece. -/
def idealSlave (sid : Byte) (m : Mem) (req : Bytes) : Mem × Option (List Bytes) :=
  ((serveRtu sid m req).1, some [(serveRtu sid m req).2.getD []])

end Verif.Spec
