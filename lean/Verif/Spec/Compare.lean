import Mathlib.Data.List.Forall2
import Verif.Model.Device
import Verif.Py.Float

/-!
# Specification: equality of devices
-/

namespace Verif
namespace Spec

/-- A float without the sign of zero: -0.0 is equal to 0.0. -/
def unsignedZero : Flt → Flt
  | .nzero => .fin 0
  | f => f

/-- The number a value is. -/
def number : Val → Option Flt
  | .int i => some (.fin i)
  | .flt b => some (unsignedZero (f32Val b))
  | .dbl f => some (unsignedZero f)
  | .str _ => none

/-- Equal values of points: both missing, the same text, or the same number (NaN is not a number). -/
inductive SameVal : Option Val → Option Val → Prop
  | missing : SameVal none none
  | text (s : Text) : SameVal (some (.str s)) (some (.str s))
  | num {a b : Val} {x : Flt} : number a = some x → number b = some x → x ≠ .nan → SameVal (some a) (some b)

/-- Both the value and the value of the scale factor are equal. -/
def SameVals (p q : PointObj) : Prop := SameVal p.base q.base ∧ SameVal p.vsf q.vsf

/-- Attributes that are equal where both are given. -/
def Agree (a b : Option Text) : Prop := ∀ x y, a = some x → b = some y → x = y

/-- Definitions of points that are equal up to missing attributes. -/
structure PointTypeAgree (t u : PointType) : Prop where
  id : u.id = t.id
  offset : u.offset = t.offset
  type : u.type = t.type
  len : u.len = t.len
  mandatory : u.mandatory = t.mandatory
  rw : u.rw = t.rw
  units : Agree t.units u.units
  sf : Agree t.sf u.sf
  label : Agree t.label u.label
  description : Agree t.description u.description
  notes : Agree t.notes u.notes

/-- Definitions of blocks that are equal up to missing attributes and names. -/
structure BlockTypeAgree (a b : BlockType) : Prop where
  repeating : b.repeating = a.repeating
  len : b.len = a.len
  count : b.points.length = a.points.length
  points : ∀ t ∈ a.points, ∃ u ∈ b.points, PointTypeAgree t u

/-- Definitions of models that are equal up to missing attributes and names. -/
structure ModelTypeAgree (a b : ModelType) : Prop where
  id : b.id = a.id
  len : b.len = a.len
  label : b.label = a.label
  description : b.description = a.description
  notes : b.notes = a.notes
  fixed : BlockTypeAgree a.fixed b.fixed
  rep : match a.rep, b.rep with
    | some x, some y => BlockTypeAgree x y
    | none, none => True
    | _, _ => False

/-- Blocks with equal definitions and values. -/
structure BlockAgree (b c : BlockObj) : Prop where
  bt : BlockTypeAgree b.bt c.bt
  pts : ∀ p ∈ b.pts, ∃ q ∈ c.pts, PointTypeAgree p.pt q.pt ∧ SameVals p q

/-- Models with equal definitions and values. -/
structure ModelAgree (m n : MdlObj) : Prop where
  mtype : ∃ t u, m.mtype = some t ∧ n.mtype = some u ∧ ModelTypeAgree t u
  blocks : List.Forall₂ BlockAgree m.blocks n.blocks

/-- The points of the block are those of its definition, which has unique ids (every block of a loaded model: C28, C46). -/
structure Complete (b : BlockObj) : Prop where
  ids : (b.bt.points.map (·.id)).Nodup
  pts : b.pts.map (·.pt) = b.bt.points.filter fun t => decide (t.type ≠ .pad ∧ t.type ≠ .sunssf)

/-- Equal devices: the same definitions, equal values at the same places. -/
structure EqualModel (m n : MdlObj) : Prop where
  mtype : ∃ t, m.mtype = some t ∧ n.mtype = some t
  blocks : List.Forall₂ (fun b c => c.bt = b.bt ∧ List.Forall₂ (fun p q => q.pt = p.pt ∧ SameVals p q) b.pts c.pts) m.blocks n.blocks

/-- The ids of points are unique in every block definition. -/
def UniqueDefs (m : MdlObj) : Prop :=
  (∀ t, m.mtype = some t → (t.fixed.points.map (·.id)).Nodup ∧ ∀ rb, t.rep = some rb → (rb.points.map (·.id)).Nodup) ∧
  ∀ b ∈ m.blocks, Complete b

/-- No point has symbols. -/
def NoSymbols (m : MdlObj) : Prop :=
  (∀ t, m.mtype = some t → (∀ p ∈ t.fixed.points, p.symbols = []) ∧ ∀ rb, t.rep = some rb → ∀ p ∈ rb.points, p.symbols = []) ∧
  ∀ b ∈ m.blocks, ∀ p ∈ b.bt.points, p.symbols = []

end Spec
end Verif
