import Verif.Check.Docs
import Verif.Model.Mbmap
import Verif.Model.Smdx
import Verif.Model.Pics
import Verif.Model.Compare
import Verif.Model.Scan
import Verif.Model.Devices
import Verif.Model.Crc
import Verif.Model.Script

/-!
# The tests of the repository, run on the model

The model is checked here against what the tests of the repository expect of the code: the kernel evaluates the model
on the documents and byte strings of `sunspec/core/test` and compares with the expected results. These are tests of the
model, not proofs of properties. The definitions of models 1 and 63002 are not in the repository (git submodule
`sunspec/models`); the parts used here are written by hand.
-/

namespace Verif
namespace Check

/-! ### test_util.py -/

example : PT.fromData .int16 [0x12, 0x34] = .ok (some (.int 4660)) := by decide +kernel
example : PT.fromData .int16 [0x92, 0x34] = .ok (some (.int (-28108))) := by decide +kernel
example : PT.fromData .uint16 [0x12, 0x34] = .ok (some (.int 4660)) := by decide +kernel
example : PT.fromData .uint16 [0x92, 0x34] = .ok (some (.int 37428)) := by decide +kernel
example : PT.fromData .int32 [0x12, 0x34, 0x56, 0x78] = .ok (some (.int 305419896)) := by decide +kernel
example : PT.fromData .int32 [0x92, 0x34, 0x56, 0x78] = .ok (some (.int (-1842063752))) := by decide +kernel
example : PT.fromData .uint32 [0x12, 0x34, 0x56, 0x78] = .ok (some (.int 305419896)) := by decide +kernel
example : PT.fromData .uint32 [0x92, 0x34, 0x56, 0x78] = .ok (some (.int 2452903544)) := by decide +kernel
example : PT.fromData .int64 [0x12, 0x34, 0x56, 0x78, 0x12, 0x34, 0x56, 0x78] = .ok (some (.int 1311768465173141112)) := by decide +kernel
example : PT.fromData .int64 [0x92, 0x34, 0x56, 0x78, 0x12, 0x34, 0x56, 0x78] = .ok (some (.int (-7911603571681634696))) := by decide +kernel
example : unpackU 8 [0x12, 0x34, 0x56, 0x78, 0x12, 0x34, 0x56, 0x78] = .ok 1311768465173141112 := by decide +kernel
example : unpackU 8 [0x92, 0x34, 0x56, 0x78, 0x12, 0x34, 0x56, 0x78] = .ok 10535140502027916920 := by decide +kernel
example : dataToIpv6 (List.replicate 16 0) = none := by decide +kernel
example : dataToIpv6 [0x12, 0x34, 0x56, 0x78, 0x9A, 0xBC, 0xDE, 0xF0, 0x12, 0x34, 0x56, 0x78, 0x9A, 0xBC, 0xDE, 0xF0] =
    some (t!"12345678:9ABCDEF0:12345678:9ABCDEF0") := by decide +kernel
example : dataToIpv6 [1, 0, 0, 0, 0, 0, 0, 0] = none := by decide +kernel
example : dataToEui48 (List.replicate 8 0) = none := by decide +kernel
example : dataToEui48 [0, 0, 0x12, 0x34, 0x56, 0x78, 0x9A, 0xBC] = some (t!"12:34:56:78:9A:BC") := by decide +kernel
example : dataToFloat [0x7f, 0xc0, 0, 0] = .ok none := by decide +kernel
example : (dataToFloat [0x44, 0x7a, 0, 0]).map (·.map f32Val) = .ok (some (.fin 1000)) := by decide +kernel
example : (dataToFloat [0xc4, 0x7a, 0, 0]).map (·.map f32Val) = .ok (some (.fin (-1000))) := by decide +kernel
example : dataToStr [0x53, 0x75, 0x6e, 0x53, 0x70, 0x65, 0x63, 0x20, 0x54, 0x65, 0x73, 0x74, 0] = t!"SunSpec Test" := by decide +kernel

example : PT.toData .int16 (some (.int 4660)) 2 = .ok [0x12, 0x34] := by decide +kernel
example : PT.toData .int16 (some (.int (-28108))) 2 = .ok [0x92, 0x34] := by decide +kernel
example : PT.toData .uint16 (some (.int 37428)) 2 = .ok [0x92, 0x34] := by decide +kernel
example : PT.toData .int32 (some (.int (-1842063752))) 4 = .ok [0x92, 0x34, 0x56, 0x78] := by decide +kernel
example : PT.toData .uint32 (some (.int 2452903544)) 4 = .ok [0x92, 0x34, 0x56, 0x78] := by decide +kernel
example : PT.toData .int64 (some (.int (-7911603571681634696))) 8 = .ok [0x92, 0x34, 0x56, 0x78, 0x12, 0x34, 0x56, 0x78] := by decide +kernel
example : packU 8 10535140502027916920 = .ok [0x92, 0x34, 0x56, 0x78, 0x12, 0x34, 0x56, 0x78] := by decide +kernel
example : ipv6ToData (t!"12345678:9ABCDEF0:12345678:9ABCDEF0") none =
    .ok [0x12, 0x34, 0x56, 0x78, 0x9A, 0xBC, 0xDE, 0xF0, 0x12, 0x34, 0x56, 0x78, 0x9A, 0xBC, 0xDE, 0xF0] := by decide +kernel
example : packF32 (.fin 1000) = .ok 0x447a0000#32 := by decide +kernel
example : packF32 (.fin (-1000)) = .ok 0xc47a0000#32 := by decide +kernel
example : strToData (t!"SunSpec Test") none = .ok [0x53, 0x75, 0x6e, 0x53, 0x70, 0x65, 0x63, 0x20, 0x54, 0x65, 0x73, 0x74, 0] := by decide +kernel
example : eui48ToData (t!"12:34:56:78:9A:BC") = .ok [0, 0, 0x12, 0x34, 0x56, 0x78, 0x9A, 0xBC] := by decide +kernel

/-! ### test_modbus_client.py

`fake/serial.py`, `fake/socket.py`: the state is `in_buf`; every read gets what is there. -/

/-- The fake serial port with `reply` in its input buffer. -/
def fakeSerial (reply : Bytes) : Slave Unit := fun _ _ => ((), some [reply])

/-- `test_modbus_client_device_rtu_read`. -/
example : ((rtuRead (fakeSerial [1, 3, 4, 0x53, 0x75, 0x6E, 0x53, 0x96, 0xF0]) ⟨(), []⟩ 1 3 40000 2 125).1.sent,
    (rtuRead (fakeSerial [1, 3, 4, 0x53, 0x75, 0x6E, 0x53, 0x96, 0xF0]) ⟨(), []⟩ 1 3 40000 2 125).2) =
    ([[1, 3, 0x9C, 0x40, 0, 2, 0xEB, 0x8F]], .ok (some [0x53, 0x75, 0x6E, 0x53])) := by decide +kernel

/-- `test_modbus_client_device_rtu_write`. -/
example : ((rtuWrite (fakeSerial [1, 0x10, 0x9C, 0x40, 0, 2, 0x6E, 0x4C]) ⟨(), []⟩ 1 40000 [0x41, 0x42, 0x43, 0x44] 123).1.sent,
    (rtuWrite (fakeSerial [1, 0x10, 0x9C, 0x40, 0, 2, 0x6E, 0x4C]) ⟨(), []⟩ 1 40000 [0x41, 0x42, 0x43, 0x44] 123).2) =
    ([[1, 0x10, 0x9C, 0x40, 0, 2, 4, 0x41, 0x42, 0x43, 0x44, 0x8B, 0xB2]], .ok ()) := by decide +kernel

/-- The fake socket with `reply` in its input buffer. -/
def fakeSocket (reply : Bytes) : TcpServer Unit := ⟨fun _ => ((), true), fun _ _ => ((), some [reply])⟩

/-- `test_modbus_client_device_tcp_read`. -/
example : ((tcpRead (fakeSocket [0, 0, 0, 0, 0, 7, 1, 3, 4, 0x53, 0x75, 0x6E, 0x53]) ⟨(), .connected [], [], 1, 0⟩ 1 3 40000 2 125).1.sent,
    (tcpRead (fakeSocket [0, 0, 0, 0, 0, 7, 1, 3, 4, 0x53, 0x75, 0x6E, 0x53]) ⟨(), .connected [], [], 1, 0⟩ 1 3 40000 2 125).2) =
    ([[0, 0, 0, 0, 0, 6, 1, 3, 0x9C, 0x40, 0, 2]], .ok [0x53, 0x75, 0x6E, 0x53]) := by decide +kernel

/-- `test_modbus_client_device_tcp_write`. -/
example : ((tcpWrite (fakeSocket [0, 0, 0, 0, 0, 6, 1, 0x10, 0x9C, 0x40, 0, 2]) ⟨(), .connected [], [], 1, 0⟩ 1 40000 [0x41, 0x42, 0x43, 0x44] 123).1.sent,
    (tcpWrite (fakeSocket [0, 0, 0, 0, 0, 6, 1, 0x10, 0x9C, 0x40, 0, 2]) ⟨(), .connected [], [], 1, 0⟩ 1 40000 [0x41, 0x42, 0x43, 0x44] 123).2) =
    ([[0, 0, 0, 0, 0, 0x0B, 1, 0x10, 0x9C, 0x40, 0, 2, 4, 0x41, 0x42, 0x43, 0x44]], .ok ()) := by decide +kernel

/-! ### test_modbus_mbmap.py -/

/-- `float(text)` for the one text of the documents, `26`. -/
def floatText : FloatText where
  f32 s := if s = t!"26" then .ok 0x41d00000#32 else .error .valueError
  f64 _ := .error .valueError

/-- The map of a document. -/
def mapOf (root : Elem) : MbMap × Py Unit := fromXml floatText ⟨3, .int 40000, none, none, none, none, []⟩ root

/-- `test_modbus_mbmap_from_xml_file`, `test_modbus_mbmap_from_xml_element`. -/
example : (mapOf docMap1).2 = .ok () ∧ mapNotEqual (mapOf docMap1).1 (mapOf docMap1_a).1 = .ok false := by decide +kernel
example : (mapOf docMap1_b).2 = .ok () ∧ mapNotEqual (mapOf docMap1).1 (mapOf docMap1_b).1 = .ok false := by decide +kernel
example : (mapOf docMap1_c).2 = .ok () ∧ mapNotEqual (mapOf docMap1).1 (mapOf docMap1_c).1 = .ok false := by decide +kernel
example : (mapOf docMap1_d).2 = .ok () ∧ mapNotEqual (mapOf docMap1).1 (mapOf docMap1_d).1 = .ok false := by decide +kernel

/-- `test_modbus_mbmap_regs_add`. -/
example : (regsAdd ⟨3, .int 999, none, none, some (t!"12345"), none, []⟩ none (some 40072) 1 (t!"r")).2 = .ok () := by decide +kernel

/-- `test_modbus_mbmap_to_xml`. -/
example : (toXml (mapOf docMap1).1 false).map (fun e => (e.findall "regs").head?.map Elem.text) =
    .ok ((docMap1_processed.findall "regs").head?.map Elem.text) := by decide +kernel

end Check
/-- Slices with negative indices (Python). -/
example : pySlice [1, 2, 3, 4] (-2) 4 = [3, 4] ∧ pySlice [1, 2, 3, 4] 0 (-1) = [1, 2, 3] ∧ pySlice [1, 2, 3, 4] (-9) 2 = [1, 2] := by decide +kernel

end Verif
