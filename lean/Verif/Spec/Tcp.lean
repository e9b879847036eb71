import Verif.Spec.Modbus

/-!
# Specification of Modbus TCP
-/

namespace Verif.Spec
open Verif

/-- A Modbus TCP application data unit: transaction id, protocol 0, length, unit id, PDU. -/
def mbap (tid : Nat) (unit : Byte) (pdu : Bytes) : Bytes :=
  field16 tid ++ field16 0 ++ field16 (pdu.length + 1) ++ unit :: pdu

/-- The reaction of the TCP server with unit id `unit` to an application data unit: it answers
well-formed requests to its unit, with the transaction id of the request, and ignores all else. -/
def serveTcp (unit : Byte) (m : Mem) (adu : Bytes) : Mem × Bytes :=
  let pdu := adu.drop 7
  let tid := (adu.getD 0 0).toNat * 256 + (adu.getD 1 0).toNat
  if adu = mbap tid unit pdu then ((serve m pdu).1, mbap tid unit (serve m pdu).2)
  else (m, [])

/-- A server conforms to Modbus TCP: it accepts connections, reacts like `serveTcp` with respect to
its register memory `abs`, and its replies are delivered completely, in any segmentation. -/
def ConformsTcp {σ : Type} (accept : σ → σ × Bool) (react : σ → Bytes → σ × Option (List Bytes))
    (abs : σ → Mem) (unit : Byte) : Prop :=
  (∀ s, (accept s).2 = true ∧ abs (accept s).1 = abs s) ∧
  ∀ s req, abs (react s req).1 = (serveTcp unit (abs s) req).1 ∧
    ∃ chunks, (react s req).2 = some chunks ∧ (∀ c ∈ chunks, c ≠ []) ∧
      chunks.flatten = (serveTcp unit (abs s) req).2

/-- The bytes that can be received, and whether the peer has closed the connection after them. -/
def stream (chunks : List Bytes) : Bytes × Bool := (received chunks, decide ([] ∈ chunks))

end Verif.Spec

namespace Verif.Spec
open Verif

/-- What can be received when `w` arrives after `v` on the same connection. -/
def streamAppend (v w : Bytes × Bool) : Bytes × Bool := if v.2 then v else (v.1 ++ w.1, w.2)

/-- Length of the first reply in a byte stream: header of 6 bytes, then as many bytes as bytes 4 and
5 of the header announce (but at least 3). -/
def tcpFrameLen (b : Bytes) : Nat := max 9 (6 + ((b.getD 4 0).toNat * 256 + (b.getD 5 0).toNat))

/-- What can be received on a connection after each of a sequence of requests, if `v` was left
before the first and one reply is consumed after each request (`none`: the request could not be
sent). -/
def views {σ : Type} (react : σ → Bytes → σ × Option (List Bytes)) :
    σ → Bytes × Bool → List Bytes → List (Option (Bytes × Bool))
  | _, _, [] => []
  | s, v, r :: rs =>
    match (react s r).2 with
    | none => none :: views react (react s r).1 v rs
    | some chunks =>
      some (streamAppend v (stream chunks)) ::
        views react (react s r).1
          ((streamAppend v (stream chunks)).1.drop (tcpFrameLen (streamAppend v (stream chunks)).1),
            (streamAppend v (stream chunks)).2) rs

/-- The stream `b` begins with a complete reply with payload `p` (the bytes after header, unit id,
function and byte count), whose function byte `f` does not have the exception bit. -/
def IsTcpReply (b p : Bytes) : Prop :=
  tcpFrameLen b ≤ b.length ∧ b.getD 7 0 &&& 0x80 = 0 ∧ p = (b.take (tcpFrameLen b)).drop 9

/-- The stream `b` begins with a complete exception reply with code `c`. -/
def IsTcpException (c : Byte) (b : Bytes) : Prop :=
  ∃ (tid : Nat) (unit y : Byte) (rest : Bytes), y &&& 0x80 ≠ 0 ∧ b = mbap tid unit [y, c] ++ rest

end Verif.Spec
