import Verif.Model.Mbmap
import Verif.Model.Paths
import Verif.Model.ClientDevice

/-!
# Mapped devices from map documents in files

`Model/Mbmap.lean` has `ModbusMap.from_xml` for a parsed document, `Model/ClientDevice.lean` the constructor of devices for any
way to load a map. Here is what lies between them: looking up the document by its name (mbmap.py:168-178), and
`ModbusClientDeviceMapped.__init__` (modbus/client.py:1000-1012).
-/

namespace Verif

/-- The contents of the file (mbmap.py:170-176): looked up in the path list, if one is given, else opened. Simplification: contents are
bytes in both cases (`open(filename, 'r')` decodes them). -/
def mapData (fs : FS) (paths : Option (List Text)) (name : Text) : Py Bytes :=
  match paths with
  | some ps => pathRead fs ps name
  | none =>
    match fs.get name with
    | some e => e.data
    | none => .error .osError

/-- `ModbusMap.from_xml(filename, pathlist)` (mbmap.py:150-295); `xml` is `ET.fromstring` (mbmap.py:178). What is raised before the
document is parsed becomes a `ModbusMapError` (mbmap.py:294-295). -/
def mapFromFile (F : FloatText) (fs : FS) (xml : Bytes → Py Elem) (paths : Option (List Text)) (m : MbMap) (name : Text) : MbMap × Py Unit :=
  match mapData fs paths name with
  | .error _ => (m, .error .modbusMapError)
  | .ok d =>
    match xml d with
    | .error _ => (m, .error .modbusMapError)
    | .ok root => fromXml F m root

/-- `ModbusClientDeviceMapped.__init__` (modbus/client.py:1000-1012) with a name: a map with the default values of `ModbusMap.__init__`
(mbmap.py:107-124), loaded from the file. -/
def mappedNew (F : FloatText) (fs : FS) (xml : Bytes → Py Elem) (paths : Option (List Text)) (name : String) : Py MbMap :=
  match mapFromFile F fs xml paths ⟨3, .int 40000, none, none, none, none, []⟩ name.toList with
  | (_, .error e) => .error e
  | (m, .ok _) => .ok m

end Verif
