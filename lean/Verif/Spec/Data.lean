import Mathlib.Data.List.Forall2
import Verif.Model.Data

/-!
# Specification: data records
-/

namespace Verif
namespace Spec

/-- A missing or non-empty text. -/
def NameOK (v : UVal) : Prop := v = .none ∨ ∃ s, s ≠ [] ∧ v = .str s

/-- The value of a point as text. -/
def textOf (lib : FloatLib) (v : UVal) : UVal := if v = .none then .none else .str (sunsToStr lib v)

/-- The same point; its value as text. -/
structure SamePointData (lib : FloatLib) (p q : PointData) : Prop where
  pid : q.pid = p.pid
  index : q.index = p.index
  sf : q.sf = p.sf
  time : q.time = p.time
  value : q.value = textOf lib p.value

/-- The same model with the same points. -/
structure SameModelData (lib : FloatLib) (m n : ModelData) : Prop where
  mid : n.mid = m.mid
  ns : n.ns = m.ns
  index : n.index = m.index
  points : List.Forall₂ (SamePointData lib) m.points n.points

/-- The same device with the same models. The time a device was read from a document is in another attribute (`time`) than the
time it is written with (`timestamp`). -/
structure SameDeviceData (lib : FloatLib) (d e : DeviceData) : Prop where
  lid : e.lid = d.lid
  ns : e.ns = d.ns
  did : e.did = d.did
  ifc : e.ifc = d.ifc
  man : e.man = d.man
  mod : e.mod = d.mod
  sn : e.sn = d.sn
  time : e.time = d.timestamp
  cid : e.cid = d.cid
  models : List.Forall₂ (SameModelData lib) d.models e.models

/-- The same record with the same devices. -/
structure SameRecord (lib : FloatLib) (r q : DataRecord) : Prop where
  version : q.version = r.version
  devices : List.Forall₂ (SameDeviceData lib) r.devices q.devices

/-- A point as the documentation has it: the id is text, the index (if any) an int other than 0, the scale factor (if any) an
int, the time (if any) text; the text of the value is not empty. -/
structure PlainPoint (lib : FloatLib) (p : PointData) : Prop where
  pid : ∃ s, p.pid = .str s
  index : p.index = .none ∨ ∃ i : Int, i ≠ 0 ∧ p.index = .int i
  sf : p.sf = .none ∨ ∃ i, p.sf = .int i
  time : NameOK p.time
  value : sunsToStr lib p.value ≠ []

/-- A model: the id is text, the index (if any) an int greater than 1. -/
structure PlainModel (lib : FloatLib) (m : ModelData) : Prop where
  mid : ∃ s, m.mid = .str s
  ns : NameOK m.ns
  index : m.index = .none ∨ ∃ i : Int, 1 < i ∧ m.index = .int i
  points : ∀ p ∈ m.points, PlainPoint lib p

/-- A device: the identification is text. -/
structure PlainDevice (lib : FloatLib) (d : DeviceData) : Prop where
  lid : NameOK d.lid
  ns : NameOK d.ns
  did : NameOK d.did
  ifc : NameOK d.ifc
  man : NameOK d.man
  mod : NameOK d.mod
  sn : NameOK d.sn
  timestamp : NameOK d.timestamp
  cid : NameOK d.cid
  models : ∀ m ∈ d.models, PlainModel lib m

/-- A record. -/
structure PlainRecord (lib : FloatLib) (r : DataRecord) : Prop where
  version : NameOK r.version
  devices : ∀ d ∈ r.devices, PlainDevice lib d

/-- No model has an index. -/
def NoIndex (r : DataRecord) : Prop := ∀ d ∈ r.devices, ∀ m ∈ d.models, m.index = .none

/-- A character that XML documents can contain. -/
def XmlChar (c : Char) : Prop := c = '\t' ∨ c = '\n' ∨ c = '\r' ∨ 32 ≤ c.toNat ∧ c.toNat ≠ 0xFFFE ∧ c.toNat ≠ 0xFFFF

/-- A name (if any) that XML documents can contain. -/
def XmlName (v : UVal) : Prop := ∀ s, v = .str s → ∀ c ∈ s, XmlChar c

/-- XML documents can contain all texts of the record, and the values have no carriage returns, which are taken for line ends. -/
structure XmlPoint (lib : FloatLib) (p : PointData) : Prop where
  pid : XmlName p.pid
  time : XmlName p.time
  value : ∀ c ∈ sunsToStr lib p.value, XmlChar c ∧ c ≠ '\r'

/-- The same for models. -/
structure XmlModel (lib : FloatLib) (m : ModelData) : Prop where
  mid : XmlName m.mid
  ns : XmlName m.ns
  points : ∀ p ∈ m.points, XmlPoint lib p

/-- The same for devices. -/
structure XmlDevice (lib : FloatLib) (d : DeviceData) : Prop where
  lid : XmlName d.lid
  ns : XmlName d.ns
  did : XmlName d.did
  ifc : XmlName d.ifc
  man : XmlName d.man
  mod : XmlName d.mod
  sn : XmlName d.sn
  timestamp : XmlName d.timestamp
  cid : XmlName d.cid
  models : ∀ m ∈ d.models, XmlModel lib m

/-- The same for records. -/
structure XmlRecord (lib : FloatLib) (r : DataRecord) : Prop where
  version : XmlName r.version
  devices : ∀ d ∈ r.devices, XmlDevice lib d

end Spec
end Verif
