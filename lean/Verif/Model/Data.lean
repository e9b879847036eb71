import Verif.Model.Value
import Verif.Py.Dict

/-!
# SunSpec data records

Models `SunSpecData`, `DeviceData`, `ModelData` and `PointData` (`sunspec/core/data.py:60-305`). The XML text itself is not
modelled: a document is the tree its parser gives. Attributes of element trees built by a program may have values of any type,
so trees have their own type here. `time.strftime` (data.py:145-149) is not modelled: `timestamp` is the formatted text.
-/

namespace Verif

/-- An element whose attribute values may be anything: tag, attributes, text, children. The text after the element (`tail`) is
left out. -/
inductive DElem where
  | mk (tag : String) (attrib : List (String × UVal)) (text : Option Text) (children : List DElem)

namespace DElem
/-- `e.tag`. -/
def tag : DElem → String | mk t _ _ _ => t
/-- `e.attrib`. -/
def attrib : DElem → List (String × UVal) | mk _ a _ _ => a
/-- `e.text`. -/
def text : DElem → Option Text | mk _ _ t _ => t
/-- The children. -/
def children : DElem → List DElem | mk _ _ _ c => c
/-- `e.attrib.get(k)`. -/
def get (e : DElem) (k : String) : UVal := (dictGet e.attrib k).getD .none
end DElem

/-- Attributes that `ET.tostring` (data.py:120) can write: all values are text. -/
def allText (a : List (String × UVal)) : Bool := a.all fun kv => match kv.2 with | .str _ => true | _ => false

/-- The characters of XML documents (data.py:74); others are refused by the parser, also as numbers. -/
def xmlChar (c : Char) : Bool := c = '\t' || c = '\n' || c = '\r' || (decide (32 ≤ c.toNat) && c.toNat != 0xFFFE && c.toNat != 0xFFFF)

/-- The line ends in the text of an element as parsed (data.py:74): `ET.tostring` writes `\r` there as it is, and parsers take it for the
end of a line. In attributes it is written as a number. -/
def xmlEol : Text → Text
  | [] => []
  | '\r' :: '\n' :: s => '\n' :: xmlEol s
  | c :: s => (if c = '\r' then '\n' else c) :: xmlEol s

/-- An attribute value with legal characters (data.py:74). -/
def legalVal : UVal → Bool
  | .str s => s.all xmlChar
  | _ => true

/-- An element text with legal characters (data.py:74). -/
def legalText : Option Text → Bool
  | some s => s.all xmlChar
  | none => true

mutual
/-- All texts of a tree consist of characters of XML documents (data.py:74). -/
def DElem.legal : DElem → Bool
  | .mk _ attr text cs =>
    (attr.all fun kv => legalVal kv.2) && legalText text && legalAll cs
/-- The same for the children of an element. -/
def legalAll : List DElem → Bool
  | [] => true
  | c :: cs => c.legal && legalAll cs
end

mutual
/-- `ET.fromstring(ET.tostring(e))` (data.py:74, 120) for a tree with legal characters: a value that is not text cannot be written
(TypeError); empty text is parsed as None; line ends become `\n`. Simplification: that writing and parsing texts is lossless
otherwise is assumed. -/
def reparse : DElem → Py DElem
  | .mk tag attr text cs =>
    if allText attr then
      match reparseAll cs with
      | .error x => .error x
      | .ok cs' => .ok (.mk tag attr (if text = some [] then none else text.map xmlEol) cs')
    else .error .typeError
/-- The same for the children of an element. -/
def reparseAll : List DElem → Py (List DElem)
  | [] => .ok []
  | c :: cs =>
    match reparse c with
    | .error x => .error x
    | .ok c' =>
      match reparseAll cs with
      | .error x => .error x
      | .ok cs' => .ok (c' :: cs')
end

/-- `not s or not s.strip()` (util.py:163); whitespace as in `str.strip` for ASCII. -/
def blankText : Option Text → Bool
  | none => true
  | some s => s.all fun c => c.isWhitespace

mutual
/-- `util.indent` (util.py:160-173), without the tails. -/
def indentElem (level : Nat) : DElem → DElem
  | .mk tag attr text cs =>
    .mk tag attr (if !cs.isEmpty && blankText text then some ('\n' :: List.replicate (2 * level + 2) ' ') else text) (indentAll (level + 1) cs)
/-- The same for the children of an element. -/
def indentAll (level : Nat) : List DElem → List DElem
  | [] => []
  | c :: cs => indentElem level c :: indentAll level cs
end

/-- `if v` (data.py:95, 174-190, 253, 293, 297). -/
def dataTrue : UVal → Bool
  | .none => false
  | .int i => decide (i ≠ 0)
  | .str s => !s.isEmpty
  | .flt f => decide (f.num ≠ some 0)

/-- `int(v)` for a value that is not None (data.py:234, 278, 282). -/
def dataInt : UVal → Py Int
  | .none => .error .typeError
  | .int i => .ok i
  | .flt f => f.toInt
  | .str s =>
    match pyInt 10 s with
    | some i => .ok i
    | none => .error .valueError

/-- `PointData` (data.py:262-270). -/
structure PointData where
  pid : UVal := .none
  value : UVal := .none
  index : UVal := .none
  sf : UVal := .none
  units : UVal := .none
  desc : UVal := .none
  time : UVal := .none
  deriving DecidableEq

/-- `ModelData` (data.py:215-220). -/
structure ModelData where
  mid : UVal := .none
  ns : UVal := .none
  index : UVal := .none
  points : List PointData := []
  deriving DecidableEq

/-- `DeviceData` (data.py:197-211). `time` is set by `from_xml` only (data.py:160). -/
structure DeviceData where
  lid : UVal := .none
  ns : UVal := .none
  did : UVal := .none
  ifc : UVal := .none
  man : UVal := .none
  mod : UVal := .none
  sn : UVal := .none
  timestamp : UVal := .none
  cid : UVal := .none
  time : UVal := .none
  models : List ModelData := []
  deriving DecidableEq

/-- `SunSpecData` (data.py:129-135). -/
structure DataRecord where
  version : UVal := .none
  devices : List DeviceData := []
  deriving DecidableEq

/-- `ModelData(model_id, index, namespace)` (data.py:215-220). -/
def modelDataNew (lib : FloatLib) (mid index ns : UVal) : ModelData := { mid := .str (sunsToStr lib mid), ns := ns, index := index }

/-- `device.model_add(model_id, index, namespace)` (data.py:139-143): the arguments `namespace` and `index` are swapped. -/
def modelAdd (lib : FloatLib) (d : DeviceData) (mid index ns : UVal) : DeviceData :=
  { d with models := d.models ++ [modelDataNew lib mid ns index] }

/-- `model.point_add(…)` (data.py:222-226). -/
def pointAdd (m : ModelData) (pid value index sf units desc time : UVal) : ModelData :=
  { m with points := m.points ++ [⟨pid, value, index, sf, units, desc, time⟩] }

/-- `record.device_add(…)` (data.py:65-69). -/
def deviceAdd (r : DataRecord) (d : DeviceData) : DataRecord := { r with devices := r.devices ++ [d] }

/-- An attribute that is written if its value is not empty (data.py:174-191). -/
def recAttr (k : String) (v : UVal) : List (String × UVal) := if dataTrue v then [(k, v)] else []

/-- `PointData.to_xml` (data.py:289-302). -/
def pointToXml (lib : FloatLib) (p : PointData) : DElem :=
  .mk "p" ([("id", .str (sunsToStr lib p.pid))] ++ (if dataTrue p.index then [("index", .str (sunsToStr lib p.index))] else []) ++
    (if p.sf = .none then [] else [("sf", .str (sunsToStr lib p.sf))]) ++ recAttr "t" p.time)
    (if p.value = .none then none else some (sunsToStr lib p.value)) []

/-- `self.index > 1` (data.py:247-252); None is replaced by -233 before and restored afterwards. -/
def indexGt : UVal → Py Bool
  | .none => .ok false
  | .int i => .ok (decide (1 < i))
  | .str _ => .error .typeError
  | .flt (.fin q) => .ok (decide (1 < q))
  | .flt .nzero => .ok false
  | .flt (.inf neg) => .ok (!neg)
  | .flt .nan => .ok false

/-- `ModelData.to_xml` (data.py:243-258). -/
def modelToXml (lib : FloatLib) (m : ModelData) : Py DElem :=
  match indexGt m.index with
  | .error x => .error x
  | .ok gt =>
    .ok (.mk "m" ([("id", .str (sunsToStr lib m.mid))] ++ (if gt then [("x", m.index)] else []) ++ recAttr "ns" m.ns) none
      (m.points.map (pointToXml lib)))

/-- The loop over the models of a device (data.py:194-195). -/
def modelsToXml (lib : FloatLib) : List ModelData → Py (List DElem)
  | [] => .ok []
  | m :: ms =>
    match modelToXml lib m with
    | .error x => .error x
    | .ok e =>
      match modelsToXml lib ms with
      | .error x => .error x
      | .ok es => .ok (e :: es)

/-- The attributes of a device element (data.py:172-191). -/
def deviceAttrs (d : DeviceData) : List (String × UVal) :=
  recAttr "lid" d.lid ++ recAttr "ns" d.ns ++ recAttr "id" d.did ++ recAttr "if" d.ifc ++ recAttr "man" d.man ++ recAttr "mod" d.mod ++
    recAttr "sn" d.sn ++ recAttr "t" d.timestamp ++ recAttr "cid" d.cid

/-- `DeviceData.to_xml` (data.py:170-195). -/
def deviceToXml (lib : FloatLib) (d : DeviceData) : Py DElem :=
  match modelsToXml lib d.models with
  | .error x => .error x
  | .ok es => .ok (.mk "d" (deviceAttrs d) none es)

/-- The loop over the devices (data.py:103-104, 114-115). -/
def devicesToXml (lib : FloatLib) : List DeviceData → Py (List DElem)
  | [] => .ok []
  | d :: ds =>
    match deviceToXml lib d with
    | .error x => .error x
    | .ok e =>
      match devicesToXml lib ds with
      | .error x => .error x
      | .ok es => .ok (e :: es)

/-- `SunSpecData.to_xml` (data.py:91-104): the root element. -/
def recordToXml (lib : FloatLib) (r : DataRecord) : Py DElem :=
  match devicesToXml lib r.devices with
  | .error x => .error x
  | .ok es => .ok (.mk "sunSpecData" (recAttr "v" r.version) none es)

/-- `SunSpecData.to_xml_str` (data.py:106-127) and `ET.fromstring` (data.py:74): what a parser makes of the text. -/
def recordToStr (lib : FloatLib) (pretty : Bool) (r : DataRecord) : Py DElem :=
  match recordToXml lib r with
  | .error x => .error x
  | .ok e =>
    match reparse (if pretty then indentElem 0 e else e) with
    | .error x => .error x
    | .ok e' => if e.legal then .ok e' else .error .parseError

/-- `int(v)` unless `v` is None (data.py:233-235, 277-283). -/
def optInt (v : UVal) : Py UVal :=
  if v = .none then .ok .none
  else
    match dataInt v with
    | .error x => .error x
    | .ok i => .ok (.int i)

/-- `PointData.from_xml` (data.py:273-287) on a new object. -/
def pointFromXml (e : DElem) : Py PointData :=
  match optInt (e.get "index") with
  | .error x => .error x
  | .ok index =>
    match optInt (e.get "sf") with
    | .error x => .error x
    | .ok sf =>
      .ok { pid := e.get "id", index := index, sf := sf, time := e.get "t", value := match e.text with | some s => .str s | none => .none }

/-- The loop over the points of a model (data.py:236-241). -/
def pointsFromXml : List DElem → Py (List PointData)
  | [] => .ok []
  | e :: es =>
    if e.tag ≠ "p" then .error .sunSpecDataError
    else
      match pointFromXml e with
      | .error x => .error x
      | .ok p =>
        match pointsFromXml es with
        | .error x => .error x
        | .ok ps => .ok (p :: ps)

/-- `ModelData.from_xml` (data.py:228-241) on a new object. -/
def modelFromXml (e : DElem) : Py ModelData :=
  match optInt (e.get "x") with
  | .error x => .error x
  | .ok index =>
    match pointsFromXml e.children with
    | .error x => .error x
    | .ok ps => .ok { mid := e.get "id", ns := e.get "ns", index := index, points := ps }

/-- The loop over the models of a device (data.py:163-168). -/
def modelsFromXml : List DElem → Py (List ModelData)
  | [] => .ok []
  | e :: es =>
    if e.tag ≠ "m" then .error .sunSpecDataError
    else
      match modelFromXml e with
      | .error x => .error x
      | .ok m =>
        match modelsFromXml es with
        | .error x => .error x
        | .ok ms => .ok (m :: ms)

/-- `DeviceData.from_xml` (data.py:151-168) on a new object. -/
def deviceFromXml (e : DElem) : Py DeviceData :=
  match modelsFromXml e.children with
  | .error x => .error x
  | .ok ms =>
    .ok { lid := e.get "lid", ns := e.get "ns", did := e.get "id", ifc := e.get "if", man := e.get "man", mod := e.get "mod", sn := e.get "sn",
          time := e.get "t", cid := e.get "cid", models := ms }

/-- The loop over the devices (data.py:84-89). -/
def devicesFromXml : List DElem → Py (List DeviceData)
  | [] => .ok []
  | e :: es =>
    if e.tag ≠ "d" then .error .sunSpecDataError
    else
      match deviceFromXml e with
      | .error x => .error x
      | .ok d =>
        match devicesFromXml es with
        | .error x => .error x
        | .ok ds => .ok (d :: ds)

/-- `SunSpecData(element)` (data.py:71-89, 129-135). -/
def recordFromXml (e : DElem) : Py DataRecord :=
  if e.tag ≠ "sunSpecData" then .error .sunSpecDataError
  else
    match devicesFromXml e.children with
    | .error x => .error x
    | .ok ds => .ok { version := e.get "v", devices := ds }

end Verif
