import Mathlib.Data.List.Forall2
import Mathlib.Algebra.Order.Group.Abs
import Mathlib.Algebra.Order.Ring.Int
import Verif.Model.Pics
import Verif.Spec.Client

/-!
# Specification: PICS documents
-/

namespace Verif
namespace Spec

/-- Points of the same definition with the same value. -/
def SamePoint (p q : PointObj) : Prop := q.pt = p.pt ∧ q.sf = p.sf ∧ q.base = p.base

/-- Blocks of the same definition whose points have the same values. -/
structure SameBlock (b c : BlockObj) : Prop where
  bt : c.bt = b.bt
  index : c.index = b.index
  len : c.len = b.len
  pts : List.Forall₂ SamePoint b.pts c.pts
  sfs : List.Forall₂ SamePoint b.sfs c.sfs

/-- Models with the same identification and definition whose points have the same values. -/
structure SameModel (m n : MdlObj) : Prop where
  id : n.id = m.id
  len : n.len = m.len
  index : n.index.text = m.index.text
  mtype : n.mtype = m.mtype
  blocks : List.Forall₂ SameBlock m.blocks n.blocks

/-- Blocks of the same definition (not necessarily at the same position) whose points have the same values. -/
structure SameValues (b c : BlockObj) : Prop where
  bt : c.bt = b.bt
  pts : List.Forall₂ (fun p q => q.pt = p.pt ∧ q.base = p.base) b.pts c.pts
  sfs : List.Forall₂ (fun p q => q.pt = p.pt ∧ q.base = p.base) b.sfs c.sfs

/-- Models with the same identification, definition and number of blocks; the points of the fixed block have the same
values; all repeating blocks have the values of the first one. -/
structure SameFirst (m n : MdlObj) : Prop where
  id : n.id = m.id
  len : n.len = m.len
  index : n.index.text = m.index.text
  mtype : n.mtype = m.mtype
  count : n.blocks.length = m.blocks.length
  fixed : ∀ b c, m.blocks[0]? = some b → n.blocks[0]? = some c → SameValues b c
  rep : ∀ (k : Nat) b1 c, m.blocks[1]? = some b1 → n.blocks[k + 1]? = some c → SameValues b1 c

/-- The values of the scale factors in the points of the model are those of its scale factor points; points without a
scale factor have none. -/
def ScaledModel (m : MdlObj) : Prop :=
  ∀ b ∈ m.blocks, ∀ p ∈ b.pts, (∀ ref, p.sf = some ref → IsScale m.blocks ref p.vsf) ∧ (p.sf = none → p.vsf = none)

/-- Points of the same definition with any values. -/
def SameKind (p q : PointObj) : Prop := q.pt = p.pt ∧ q.sf = p.sf

/-- Blocks of the same definition, with any values. -/
structure BlockKind (b c : BlockObj) : Prop where
  bt : c.bt = b.bt
  index : c.index = b.index
  len : c.len = b.len
  pts : List.Forall₂ SameKind b.pts c.pts
  sfs : List.Forall₂ SameKind b.sfs c.sfs

/-- `m` is a model that has been loaded (`Model.load`), at some address, with the definition `types m.id`, and whose
points have been given any values. -/
def LoadedModel (types : Int → Py ModelType) (m : MdlObj) : Prop :=
  ∃ addr len m0, mdlLoad (types m.id) (mdlNew m.id addr len) = (m0, .ok ()) ∧ m.len = m0.len ∧ m.mtype = m0.mtype ∧
    List.Forall₂ BlockKind m0.blocks m.blocks

/-- A well-formed definition (see C46): the ids of the points of a block are unique; the fixed block is not marked as
repeating, the repeating block is. -/
structure DefOK (mt : ModelType) : Prop where
  fixed : mt.fixed.repeating = false
  rep : ∀ rb, mt.rep = some rb → rb.repeating = true
  ids : (mt.fixed.points.map (·.id)).Nodup
  repIds : ∀ rb, mt.rep = some rb → (rb.points.map (·.id)).Nodup

/-- A value that the text form of a point of type `t` can carry: implemented, an int for the integer types, for
the text types a text that is not empty and does not end with NUL; for float32 that `float(str(x))` is `x` is
a condition on the Python library (a negative zero, whose sign the model does not represent, is left out). -/
def TextOK (lib : FloatLib) (t : PT) (v : Val) : Prop :=
  t.isImpl (some v) = true ∧
  match v with
  | .int _ => t.isInt = true
  | .str s => t.isInt = false ∧ t ≠ .float32 ∧ s ≠ [] ∧ s.getLast? ≠ some (Char.ofNat 0)
  | .flt b => t = .float32 ∧ lib.repr (f32Val b) ≠ [] ∧ (lib.repr (f32Val b)).getLast? ≠ some (Char.ofNat 0) ∧
      lib.parse (lib.repr (f32Val b)) = some (f32Val b)
  | .dbl f => t = .float32 ∧ lib.repr f ≠ [] ∧ (lib.repr f).getLast? ≠ some (Char.ofNat 0) ∧
      Val.ofFlt f = .dbl f ∧ lib.parse (lib.repr f) = some f

/-- All values of a model can be carried by text. -/
def ValuesOK (lib : FloatLib) (m : MdlObj) : Prop :=
  ∀ b ∈ m.blocks, ∀ p, p ∈ b.pts ∨ p ∈ b.sfs → ∀ v, p.base = some v → TextOK lib p.pt.type v

/-- A point that has a value in the first repeating block has a value in every repeating block. -/
def FirstLeast (m : MdlObj) : Prop :=
  ∀ b1, m.blocks[1]? = some b1 → ∀ k b, m.blocks[k + 2]? = some b →
    ∀ p ∈ b.pts ++ b.sfs, p.base = none → ∀ p1 ∈ b1.pts ++ b1.sfs, p1.pt.id = p.pt.id → p1.base = none

/-- What a later repeating block `b` becomes (`c`) if the first one is `b1`: points without a value get that of the point
in the first block. -/
structure LaterBlock (b1 b c : BlockObj) : Prop where
  bt : c.bt = b.bt
  index : c.index = b.index
  len : c.len = b.len
  pts : List.Forall₂ (fun p q => SameKind p q ∧ (p.base ≠ none → q.base = p.base) ∧
    (p.base = none → ∀ p1 ∈ b1.pts ++ b1.sfs, p1.pt.id = p.pt.id → q.base = p1.base)) b.pts c.pts
  sfs : List.Forall₂ (fun p q => SameKind p q ∧ (p.base ≠ none → q.base = p.base) ∧
    (p.base = none → ∀ p1 ∈ b1.pts ++ b1.sfs, p1.pt.id = p.pt.id → q.base = p1.base)) b.sfs c.sfs

/-- Models with the same identification and definition; the fixed block and the first repeating block have the same
values. -/
structure ExactModel (m n : MdlObj) : Prop where
  id : n.id = m.id
  len : n.len = m.len
  index : n.index.text = m.index.text
  mtype : n.mtype = m.mtype
  count : n.blocks.length = m.blocks.length
  first : ∀ (k : Nat) b c, k < 2 → m.blocks[k]? = some b → n.blocks[k]? = some c → SameBlock b c
  later : ∀ (k : Nat) b1 b c, m.blocks[1]? = some b1 → m.blocks[k + 2]? = some b → n.blocks[k + 2]? = some c → LaterBlock b1 b c

/-- The values of scale factors in a model that has been read once: those of the points that have a value are the
values of the scale factor points, the other points have none. -/
def ReadScales (m : MdlObj) : Prop :=
  ∀ b ∈ m.blocks, ∀ p ∈ b.pts,
    (p.base ≠ none → (∀ ref, p.sf = some ref → IsScale m.blocks ref p.vsf) ∧ (p.sf = none → p.vsf = none)) ∧
    (p.base = none → p.vsf = none)

/-- A scale factor other than 0 is small and belongs to a number. -/
def CanScale (p : PointObj) : Prop :=
  ∀ k, p.vsf = some (.int k) → k = 0 ∨
    (-250 ≤ k ∧ k ≤ 250 ∧ ((∃ i : Int, p.base = some (.int i) ∧ |i| ≤ 2 ^ 64) ∨
      (∃ f, p.base = some (.flt f)) ∨ ∃ f, p.base = some (.dbl f)))

end Spec
end Verif
