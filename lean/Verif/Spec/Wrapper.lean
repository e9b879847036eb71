import Verif.Model.Wrapper
import Verif.Spec.Layout

/-!
# Specification: names and attributes of the scripting interface
-/

namespace Verif
namespace Spec

/-- The positions at which `n` occurs in a list of names, in increasing order. -/
def positions (ns : List Text) (n : Text) : List Nat :=
  (List.range ns.length).filter fun i => decide (ns[i]? = some n)

/-- `l` has each of the names once, in the order of their first appearance. -/
structure FirstNames (ns l : List Text) : Prop where
  once : l.Nodup
  same : ∀ n, n ∈ l ↔ n ∈ ns
  order : l.Pairwise fun a b => ns.idxOf a < ns.idxOf b

/-- What the documentation promises for a name that the models at positions `is` have: the model itself if there is
one, a list whose elements 1, 2, … are the models if there are several. -/
def namedAttr : List Nat → Option WAttr
  | [] => none
  | [i] => some (.one (.wrap i))
  | i :: j :: r => some (.list (.none :: (i :: j :: r).map .wrap))

/-- A name that is neither an attribute of every `SunSpecClientDevice` nor begins with two underscores. -/
def FreeName (n : Text) : Prop :=
  n ≠ t!"device" ∧ n ≠ t!"models" ∧ n ≠ t!"close" ∧ n ≠ t!"read" ∧ ¬ (t!"__") <+: n

/-- A definition none of whose points or blocks has the name of an attribute that all objects of its class
have. -/
structure NoClash (mt : ModelType) : Prop where
  fixed : ∀ t ∈ dataPoints mt.fixed, t.id ∉ [t!"model", t!"name", t!"repeating", t!"repeating_name", t!"points",
    t!"_get_property", t!"_set_property"]
  rep : ∀ rb, mt.rep = some rb → ∀ t ∈ dataPoints rb, t.id ∉ [t!"block", t!"name", t!"points", t!"_get_property",
    t!"_set_property"]
  block : ∀ rb, mt.rep = some rb → rb.name ∉ [t!"model", t!"name", t!"repeating_name", t!"points", t!"_get_property",
    t!"_set_property"] ∧ ∀ t ∈ dataPoints mt.fixed, t.id ≠ rb.name

/-- All blocks of a model but the first are of the type of the repeating block of its definition. -/
def TailRep (m : MdlObj) : Prop := ∀ b ∈ m.blocks.tail, ∃ mt, m.mtype = some mt ∧ mt.rep = some b.bt

/-- A model whose definition has no clash. -/
structure Wrappable (m : MdlObj) : Prop where
  clash : ∀ mt, m.mtype = some mt → NoClash mt
  tail : TailRep m

/-- Points with different ids. -/
def UniqueIds (pts : List PointObj) : Prop := (pts.map fun p => p.pt.id).Nodup

/-- `p` is point number `k` of block number `b` of model number `i` of a device, and the ids of the points of that
block are different; a model that has not been loaded has no points as attributes. -/
def PointAt (ms : List MdlObj) (i b k : Nat) (p : PointObj) : Prop :=
  ∃ m bl, ms[i]? = some m ∧ m.exposed = true ∧ m.blocks[b]? = some bl ∧ UniqueIds bl.pts ∧ bl.pts[k]? = some p

/-- The device with another point number `k` of block number `b` of model number `i`, and nothing else changed. -/
def setPoint (ms : List MdlObj) (i b k : Nat) (p : PointObj) : List MdlObj :=
  ms.modify i fun m => { m with blocks := m.blocks.modify b fun bl => { bl with pts := bl.pts.set k p } }

end Spec
end Verif
