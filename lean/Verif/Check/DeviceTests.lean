import Verif.Check.Tests
import Verif.Model.Data

/-!
# The tests of devices and clients of the repository, run on the model

`sunspec/core/test/test_device.py`, `test_client.py`: see `Verif.Check.Tests`.
-/

namespace Verif
namespace Check

/-- The definition of a document. -/
def typeOf (root : Elem) : Py ModelType :=
  match smdxParse root with
  | .ok d => match d.toModelType with | some t => .ok t | none => .error .diverge
  | .error e => .error e

/-- Model 1 (common), by hand: the definition is not in the repository. -/
def docSmdx1 : Elem :=
  .mk "sunSpecModels" [("v", t!"1")] (some (t!"\n")) [
    .mk "model" [("id", t!"1"), ("len", t!"66"), ("name", t!"common")] (some (t!"\n")) [
      .mk "block" [("len", t!"66")] (some (t!"\n")) [
        .mk "point" [("id", t!"Mn"), ("offset", t!"0"), ("type", t!"string"), ("len", t!"16"), ("mandatory", t!"true")] none [],
        .mk "point" [("id", t!"Md"), ("offset", t!"16"), ("type", t!"string"), ("len", t!"16"), ("mandatory", t!"true")] none [],
        .mk "point" [("id", t!"Opt"), ("offset", t!"32"), ("type", t!"string"), ("len", t!"8")] none [],
        .mk "point" [("id", t!"Vr"), ("offset", t!"40"), ("type", t!"string"), ("len", t!"8")] none [],
        .mk "point" [("id", t!"SN"), ("offset", t!"48"), ("type", t!"string"), ("len", t!"16"), ("mandatory", t!"true")] none [],
        .mk "point" [("id", t!"DA"), ("offset", t!"64"), ("type", t!"uint16"), ("access", t!"rw")] none [],
        .mk "point" [("id", t!"Pad"), ("offset", t!"65"), ("type", t!"pad")] none []]]]

/-- Model 63002, by hand, from the comments of `mbmap_test_device_3.xml`. -/
def docSmdx63002 : Elem :=
  .mk "sunSpecModels" [("v", t!"1")] (some (t!"\n")) [
    .mk "model" [("id", t!"63002"), ("len", t!"4")] (some (t!"\n")) [
      .mk "block" [("type", t!"repeating"), ("len", t!"4")] (some (t!"\n")) [
        .mk "point" [("id", t!"sunssf_1"), ("offset", t!"0"), ("type", t!"sunssf")] none [],
        .mk "point" [("id", t!"int16_1"), ("offset", t!"1"), ("type", t!"int16"), ("sf", t!"sunssf_1"), ("access", t!"rw")] none [],
        .mk "point" [("id", t!"int16_2"), ("offset", t!"2"), ("type", t!"int16"), ("sf", t!"sunssf_2")] none [],
        .mk "point" [("id", t!"sunssf_2"), ("offset", t!"3"), ("type", t!"sunssf")] none []]]]

/-- The definition of model 63001 of `test_device.py` with `acc64_u` of type `acc64`, as the values of the documents
require (in `test_device.py` it has type `int64`; that definition is used for `test_device_modeltype` only). -/
def withAcc64 (t : ModelType) : ModelType :=
  { t with fixed := { t.fixed with points := t.fixed.points.map fun p => if p.id = t!"acc64_u" then { p with type := .acc64 } else p } }

/-- `model_type_get`. -/
def types (id : Int) : Py ModelType :=
  if id = 1 then typeOf docSmdx1
  else if id = 63001 then (typeOf docSmdx63001).map withAcc64
  else if id = 63002 then typeOf docSmdx63002
  else .error .sunSpecError

/-- `test_device_modeltype`. -/
example : (typeOf docSmdx63001).map (fun t => (t.id, t.len)) = .ok (63001, 152) := by decide +kernel

/-- `test_device_pointtype`. -/
example : (docPoints.findall "point").head?.map (fun e => (pointFromSmdx [] e).map fun r => (r.1.id, r.1.offset, r.1.type, r.1.len)) =
    some (.ok (t!"p_int16", 0, .int16, 1)) := by decide +kernel

/-- `test_block_past_end_of_model`. -/
example : (mdlLoad (typeOf docSmdx65000) (mdlNew 65000 0 0)).2 = .error .sunSpecError := by decide +kernel

/-- `float` and `str` for the texts of the documents, and powers of ten rounded correctly. -/
def lib : FloatLib where
  pow10 k := .ok (fl (10 ^ k))
  parse s := if s = t!"26" ∨ s = t!"26.0" then some (.fin 26) else none
  repr f := if f = .fin 26 then t!"26.0" else []

/-- The device of a PICS document. -/
def picsOf (root : Elem) : List MdlObj × Py Unit := deviceFromPicsFile lib types root

/-- The value of the point `id` in block `k` of model `i`. -/
def baseAt (ms : List MdlObj) (i k : Nat) (id : Text) : Option Val :=
  ((ms[i]?).bind (·.blocks[k]?)).bind fun b => ((b.pts ++ b.sfs).find? fun p => decide (p.pt.id = id)).bind (·.base)

/-- The same with the value of the scale factor. -/
def scaleAt (ms : List MdlObj) (i k : Nat) (id : Text) : Option Val :=
  ((ms[i]?).bind (·.blocks[k]?)).bind fun b => (b.pts.find? fun p => decide (p.pt.id = id)).bind (·.vsf)

/-- The values `create_test_device_1` assigns (test_device.py:154-287), by block of model 63001. A float is given as its
bits. -/
def expected : List (List (Text × Option Val)) := [
  [(t!"sunssf_1", (some (.int (-10)))),
   (t!"sunssf_2", (some (.int 10))),
   (t!"sunssf_3", (some (.int 0))),
   (t!"sunssf_4", (some (.int 1))),
   (t!"sunssf_5", (some (.int 2))),
   (t!"sunssf_6", (some (.int 3))),
   (t!"sunssf_7", (some (.int 4))),
   (t!"int16_1", (some (.int 1))),
   (t!"int16_2", (some (.int (-1)))),
   (t!"int16_3", (some (.int 2))),
   (t!"int16_4", (some (.int (-2)))),
   (t!"int16_5", (some (.int 3))),
   (t!"int16_u", none),
   (t!"uint16_1", (some (.int 4))),
   (t!"uint16_2", (some (.int 5))),
   (t!"uint16_3", (some (.int 65524))),
   (t!"uint16_4", (some (.int 6))),
   (t!"uint16_5", (some (.int 7))),
   (t!"uint16_u", none),
   (t!"acc16", (some (.int 8))),
   (t!"acc16_u", none),
   (t!"enum16", (some (.int 9))),
   (t!"enum16_u", none),
   (t!"bitfield16", (some (.int 10))),
   (t!"bitfield16_u", none),
   (t!"int32_1", (some (.int 11))),
   (t!"int32_2", (some (.int 12))),
   (t!"int32_3", (some (.int 13))),
   (t!"int32_4", (some (.int 14))),
   (t!"int32_5", (some (.int 15))),
   (t!"int32_u", none),
   (t!"uint32_1", (some (.int 16))),
   (t!"uint32_2", (some (.int 17))),
   (t!"uint32_3", (some (.int 18))),
   (t!"uint32_4", (some (.int 19))),
   (t!"uint32_5", (some (.int 20))),
   (t!"uint32_u", none),
   (t!"acc32", (some (.int 21))),
   (t!"acc32_u", none),
   (t!"enum32", (some (.int 22))),
   (t!"enum32_u", none),
   (t!"bitfield32", (some (.int 23))),
   (t!"bitfield32_u", none),
   (t!"ipaddr", (some (.int 0x01020304))),
   (t!"ipaddr_u", none),
   (t!"int64", (some (.int 24))),
   (t!"int64_u", none),
   (t!"acc64", (some (.int 25))),
   (t!"acc64_u", none),
   (t!"ipv6addr", none),
   (t!"ipv6addr_u", none),
   (t!"float32", (some (.flt 0x41d00000#32))),
   (t!"float32_u", none),
   (t!"string", (some (.str (t!"12345678")))),
   (t!"string_u", none)],
  [(t!"sunssf_8", (some (.int (-2)))),
   (t!"sunssf_9", (some (.int (-3)))),
   (t!"int16_11", (some (.int 30))),
   (t!"int16_12", (some (.int 31))),
   (t!"int16_u", none),
   (t!"uint16_11", (some (.int 32))),
   (t!"uint16_12", (some (.int 33))),
   (t!"uint16_13", (some (.int 34))),
   (t!"uint16_u", none),
   (t!"int32", (some (.int 35))),
   (t!"int32_u", none),
   (t!"uint32", (some (.int 36))),
   (t!"uint32_u", none)],
  [(t!"sunssf_8", (some (.int (-4)))),
   (t!"sunssf_9", (some (.int (-5)))),
   (t!"int16_11", (some (.int 40))),
   (t!"int16_12", (some (.int 41))),
   (t!"int16_u", none),
   (t!"uint16_11", (some (.int 42))),
   (t!"uint16_12", (some (.int 43))),
   (t!"uint16_13", (some (.int 44))),
   (t!"uint16_u", none),
   (t!"int32", (some (.int 45))),
   (t!"int32_u", none),
   (t!"uint32", (some (.int 46))),
   (t!"uint32_u", none)],
  [(t!"sunssf_8", (some (.int 2))),
   (t!"sunssf_9", (some (.int 3))),
   (t!"int16_11", (some (.int 50))),
   (t!"int16_12", (some (.int 51))),
   (t!"int16_u", none),
   (t!"uint16_11", (some (.int 52))),
   (t!"uint16_12", (some (.int 53))),
   (t!"uint16_13", (some (.int 54))),
   (t!"uint16_u", none),
   (t!"int32", (some (.int 55))),
   (t!"int32_u", none),
   (t!"uint32", (some (.int 56))),
   (t!"uint32_u", none)]]

/-- All points of a model have the expected values, by block. -/
def hasValues (ms : List MdlObj) (i : Nat) : List (List (Text × Option Val)) → Nat → Bool
  | [], _ => true
  | b :: bs, k => b.all (fun r => decide (baseAt ms i k r.1 = r.2)) && hasValues ms i bs (k + 1)

/-- `test_device_from_pics`: the values; those of the scale factors are those of the scale factor points. -/
example : (picsOf docPics1).2 = .ok () ∧ hasValues (picsOf docPics1).1 1 expected 0 = true ∧
    ([t!"Mn", t!"Md", t!"Opt", t!"Vr", t!"SN", t!"DA"].map (baseAt (picsOf docPics1).1 0 0)) =
      [some (.str (t!"SunSpecTest")), some (.str (t!"TestDevice-1")), some (.str (t!"opt_a_b_c")), some (.str (t!"1.2.3")),
       some (.str (t!"sn-123456789")), some (.int 1)] := by decide +kernel

example : ([t!"int16_1", t!"int16_2", t!"int16_3", t!"int16_4", t!"int16_5", t!"int32_1", t!"uint32_4"].map (scaleAt (picsOf docPics1).1 1 0)) =
      [some (.int (-10)), some (.int 10), some (.int 0), some (.int 1), none, some (.int 2), some (.int 1)] ∧
    ([t!"int16_11", t!"int16_12", t!"int32", t!"uint32"].map (scaleAt (picsOf docPics1).1 1 3)) =
      [some (.int 2), some (.int 3), some (.int (-10)), some (.int 3)] := by decide +kernel

/-- `test_device_to_pics`: the device loaded from the document of the device is equal to it. -/
example : (match deviceToPics lib false (picsOf docPics1).1 with
    | .ok e => deviceNe true (picsOf docPics1).1 (deviceFromPics lib types e).1
    | .error x => .error x) = .ok none := by decide +kernel

/-- `test_device_common_len_65`: a common model of length 65. -/
example : (picsOf docPics2).2 = .ok () ∧ baseAt (picsOf docPics2).1 0 0 (t!"Md") = some (.str (t!"TestDevice-2")) ∧
    baseAt (picsOf docPics2).1 1 0 (t!"int16_4") = some (.int (-2)) := by decide +kernel

/-- A value of a point seen by a program. -/
def valueAt (ms : List MdlObj) (i k : Nat) (id : Text) : Py UVal :=
  match ((ms[i]?).bind (·.blocks[k]?)).bind fun b => b.pts.find? fun p => decide (p.pt.id = id) with
  | some p => getValue lib p
  | none => .error .keyError

/-- `test_device_value_get`, `test_device_constant_sf`. -/
example : valueAt (picsOf docPics1).1 1 0 (t!"int16_4") = .ok (.flt (.fin (-20))) := by decide +kernel
example : valueAt (picsOf docPics1).1 1 0 (t!"uint32_4") = .ok (.flt (.fin 190)) := by decide +kernel

/-! ### test_client.py -/

/-- The device of a map after `scan` and `read_points`. -/
def readDevice (root : Elem) : MbMap × List MdlObj × Py Unit :=
  match scan 100 mapScanDev types (fun _ _ => true) { st := (mapOf root).1 } with
  | (c, .ok ()) => readModels mapDev c.list c.st
  | (c, .error e) => (c.st, c.list, .error e)

/-- `test_client_device`: the device read from the map is equal to that of the document. -/
example : (readDevice docMap1).2.2 = .ok () ∧ deviceNe true (picsOf docPics1).1 (readDevice docMap1).2.1 = .ok none := by decide +kernel

/-- A step of a scripting program on one model object. -/
inductive Step where
  | read
  | write
  | set (name : Text) (v : UVal)
  /-- set a point of repeating block `k` -/
  | setRep (k : Nat) (name : Text) (v : UVal)

/-- The program on the object called `name`; an exception stops it. -/
def session (w : MWrap) : List Step → MbMap × List MdlObj → MbMap × List MdlObj × Py Unit
  | [], (s, ms) => (s, ms, .ok ())
  | st :: rest, (s, ms) =>
    let r : MbMap × List MdlObj × Py Unit := match st with
      | .read => w.read mapDev s ms
      | .write => w.write mapDev s ms
      | .set n v => (s, (w.setAttr lib ms n v).2)
      | .setRep k n v => match w.reps[k - 1]? with
        | some b => (s, b.setAttr lib ms w.mdl n v)
        | none => (s, ms, .error .indexError)
    match r with
    | (s, ms, .ok ()) => session w rest (s, ms)
    | (s, ms, .error e) => (s, ms, .error e)

/-- `SunSpecClientDevice(MAPPED, name=…)`, the program on the model object called `name`, and then the values of points of
block `k` of model 1. -/
def scripted (root : Elem) (name : Text) (steps : List Step) (k : Nat) (ids : List Text) : Py (List (Option Val)) :=
  match scan 100 mapScanDev types (fun _ _ => true) { st := (mapOf root).1 } with
  | (_, .error e) => .error e
  | (c, .ok ()) =>
    match wrapDevice lib c.list with
    | (_, .error e) => .error e
    | (d, .ok ()) =>
      match d.item name with
      | some (.one (.wrap i)) =>
        match d.wraps[i]? with
        | some w =>
          match session w steps (c.st, d.models) with
          | (_, _, .error e) => .error e
          | (_, ms, .ok ()) => .ok (ids.map (baseAt ms i k))
        | none => .error .indexError
      | _ => .error .attributeError

/-- `test_sunspec_client_device_1`: `common.Mn`, `common.SN`. -/
example : scripted docMap1 (t!"common") [.read] 0 [t!"Mn", t!"SN"] =
    .ok [some (.str (t!"SunSpecTest")), some (.str (t!"sn-123456789"))] := by decide +kernel

/-- int16 read and write: 330 with the scale factor 1 is 33. -/
example : scripted docMap1 (t!"model_63001") [.read, .set (t!"int16_4") (.int 330), .write, .read] 0 [t!"int16_4"] =
    .ok [some (.int 33)] := by decide +kernel

/-- string read and write. -/
example : scripted docMap1 (t!"model_63001") [.read] 0 [t!"string"] = .ok [some (.str (t!"12345678"))] := by decide +kernel
example : scripted docMap1 (t!"model_63001") [.read, .set (t!"string") (.str (t!"abcdefg")), .write, .read] 0 [t!"string"] =
    .ok [some (.str (t!"abcdefg"))] := by decide +kernel

/-- write multiple (uint16_4 has the scale factor 1: 70 is 7). -/
example : scripted docMap1 (t!"model_63001")
    [.read, .set (t!"uint16_3") (.int 65525), .set (t!"uint16_4") (.int 70), .set (t!"uint16_5") (.int 8), .write, .read,
     .set (t!"uint16_3") (.int 65524), .set (t!"uint16_5") (.int 7), .write, .read] 0 [t!"uint16_3", t!"uint16_4", t!"uint16_5"] =
    .ok [some (.int 65524), some (.int 7), some (.int 7)] := by decide +kernel

/-- `test_sunspec_client_device_3`: values of a repeating block. -/
example : (readDevice docMap3).2.2 = .ok () ∧ baseAt (readDevice docMap3).2.1 1 1 (t!"int16_1") = some (.int 1111) ∧
    scaleAt (readDevice docMap3).2.1 1 1 (t!"int16_1") = some (.int (-1)) ∧
    baseAt (readDevice docMap3).2.1 1 1 (t!"int16_2") = some (.int 2222) ∧
    scaleAt (readDevice docMap3).2.1 1 1 (t!"int16_2") = some (.int (-2)) := by decide +kernel

/-- Writing 333.3 (the nearest double) to a point of a repeating block: with the scale factor -1 it is 3333. -/
example : scripted docMap3 (t!"model_63002") [.read, .setRep 1 (t!"int16_1") (.flt (fl (3333 / 10))), .write, .read] 1 [t!"int16_1", t!"int16_2"] =
    .ok [some (.int 3333), some (.int 2222)] := by decide +kernel

/-- `test_device_value_set_rounding`: 84.3 with the scale factor -1 is 843. -/
example : scaledBase lib (-1) (.flt (fl (843 / 10))) = .ok 843 := by decide +kernel

/-! ### test_data.py -/

/-- The record of `test_data` (the time as `time.strftime` gives it). -/
def testRecord : DataRecord :=
  { devices := [{ lid := .str (t!"00:00:00:00:00:01"), man := .str (t!"Man"), mod := .str (t!"Mod"), sn := .str (t!"SN"),
                  timestamp := .str (t!"2013-12-20T17:29:24Z"),
                  models := [pointAdd (pointAdd (modelDataNew lib (.int 1) .none .none) (.str (t!"P1")) (.int 23) .none .none .none .none .none)
                    (.str (t!"P2")) (.int 24) .none .none .none .none .none] }] }

/-- The elements of a document in order: tag, attributes, text. -/
def shape : DElem → List (String × List (String × UVal) × Option Text)
  | .mk t a x c => (t, a, x) :: shapes c
where
  shapes : List DElem → List (String × List (String × UVal) × Option Text)
    | [] => []
    | e :: es => shape e ++ shapes es

/-- The elements of the text, if it can be written. -/
def written (r : DataRecord) : List (String × List (String × UVal) × Option Text) :=
  match recordToStr lib false r with
  | .error _ => []
  | .ok e => shape e

/-- `test_data`: the elements of the expected text. -/
example : written testRecord =
    [("sunSpecData", [], none),
     ("d", [("lid", .str (t!"00:00:00:00:00:01")), ("man", .str (t!"Man")), ("mod", .str (t!"Mod")), ("sn", .str (t!"SN")),
        ("t", .str (t!"2013-12-20T17:29:24Z"))], none),
     ("m", [("id", .str (t!"1"))], none), ("p", [("id", .str (t!"P1"))], some (t!"23")), ("p", [("id", .str (t!"P2"))], some (t!"24"))] := by
  decide +kernel

end Check
end Verif
