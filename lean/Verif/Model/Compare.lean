import Verif.Model.Device
import Verif.Py.Float

/-!
# Comparing devices

Models `not_equal` of `Device`, `Model`, `Block`, `Point` (`sunspec/core/device.py:238-258, 383-403, 578-600, 853-875`)
and of `ModelType`, `BlockType`, `PointType` (`sunspec/core/device.py:1063-1103, 1184-1216, 1414-1438`). The methods return
False or a text that says what is different; here `none` or a `Reason` (the words of the text are not modelled). What the
methods print is not modelled.

The classes have no `__eq__`, so `==` on type and symbol objects is identity. `same` says that the two devices share the
objects of their definitions (a device compared with itself): then equal definitions are the same object. Definitions that
have been loaded separately are different objects.
-/

namespace Verif

/-- The reason of a difference. -/
inductive Reason where
  | modelCount
  | blockCount
  | typeMissing
  | pointCount
  | attr (name : String)
  | value
  | inModel (id : Int) (r : Reason)
  | inBlock (index : Nat) (r : Reason)
  | inPoint (id : Text) (r : Reason)
  deriving DecidableEq, Repr

/-- Attributes are compared only if neither is None (device.py:1432-1434). -/
def attrNe (a b : Option Text) : Bool :=
  match a, b with
  | some x, some y => decide (x ≠ y)
  | _, _ => false

/-- `v != value` for the lists of symbols: symbols are compared by identity, so different lists are equal only if both are
empty (device.py:1434). -/
def symbolsNe (same : Bool) (a b : List Symbol) : Bool :=
  if same && decide (a = b) then false else !(a.isEmpty && b.isEmpty)

/-- `PointType.not_equal` (device.py:1414-1438): the attributes in the order of `__init__` (1318-1333). The codec functions and
the default value are determined by the type. The parent is not compared (1431). -/
def pointTypeNe (same : Bool) (t : PointType) : Option PointType → Option Reason
  | none => some .typeMissing
  | some u =>
    if same && decide (t = u) then none
    else if t.id ≠ u.id then some (.attr "id")
    else if t.offset ≠ u.offset then some (.attr "offset")
    else if t.type ≠ u.type then some (.attr "type")
    else if t.len ≠ u.len then some (.attr "len")
    else if t.mandatory ≠ u.mandatory then some (.attr "mandatory")
    else if t.rw ≠ u.rw then some (.attr "access")
    else if attrNe t.units u.units then some (.attr "units")
    else if attrNe t.sf u.sf then some (.attr "sf")
    else if attrNe t.label u.label then some (.attr "label")
    else if attrNe t.description u.description then some (.attr "description")
    else if attrNe t.notes u.notes then some (.attr "notes")
    else if symbolsNe same t.symbols u.symbols then some (.attr "symbols")
    else none

/-- The loop of `BlockType.not_equal` over its points (device.py:1209-1213); the ids of the points of a block are unique
(1179-1180). -/
def pointTypesNe (same : Bool) (us : List PointType) : List PointType → Option Reason
  | [] => none
  | t :: ts =>
    match pointTypeNe same t (us.find? fun u => decide (u.id = t.id)) with
    | some r => some r
    | none => pointTypesNe same us ts

/-- `BlockType.not_equal` (device.py:1184-1215). The name is not compared. -/
def blockTypeNe (same : Bool) (a : BlockType) : Option BlockType → Option Reason
  | none => some .typeMissing
  | some b =>
    if same && decide (a = b) then none
    else if a.repeating ≠ b.repeating then some (.attr "type")
    else if a.len ≠ b.len then some (.attr "len")
    else if a.points.length ≠ b.points.length then some .pointCount
    else pointTypesNe same b.points a.points

/-- `ModelType.not_equal` (device.py:1063-1103). The name is not compared. -/
def modelTypeNe (same : Bool) (a : ModelType) : Option ModelType → Option Reason
  | none => some .typeMissing
  | some b =>
    if same && decide (a = b) then none
    else if a.id ≠ b.id then some (.attr "id")
    else if a.len ≠ b.len then some (.attr "len")
    else if a.label ≠ b.label then some (.attr "label")
    else if a.description ≠ b.description then some (.attr "description")
    else if a.notes ≠ b.notes then some (.attr "notes")
    else
      match blockTypeNe same a.fixed (some b.fixed) with
      | some r => some r
      | none =>
        match a.rep, b.rep with
        | some x, y => blockTypeNe same x y
        | none, some _ => some .typeMissing
        | none, none => none

/-- `==` on floats: NaN is not equal to itself; -0.0 is equal to 0.0. -/
def Flt.pyEq : Flt → Flt → Bool
  | .fin p, .fin q => decide (p = q)
  | .nzero, .nzero => true
  | .fin p, .nzero => decide (p = 0)
  | .nzero, .fin q => decide (0 = q)
  | .inf a, .inf b => decide (a = b)
  | _, _ => false

/-- `==` on the values of points. -/
def Val.pyEq : Val → Val → Bool
  | .int i, .int j => decide (i = j)
  | .str s, .str t => decide (s = t)
  | .flt a, .flt b => (f32Val a).pyEq (f32Val b)
  | .int i, .flt b => (Flt.fin i).pyEq (f32Val b)
  | .flt a, .int j => (f32Val a).pyEq (.fin j)
  | .dbl x, .dbl y => x.pyEq y
  | .dbl x, .flt b => x.pyEq (f32Val b)
  | .flt a, .dbl y => (f32Val a).pyEq y
  | .int i, .dbl y => (Flt.fin i).pyEq y
  | .dbl x, .int j => x.pyEq (.fin j)
  | _, _ => false

/-- `(a is not None or b is not None) and (a != b)` (device.py:593-594). -/
def valueNe : Option Val → Option Val → Bool
  | none, none => false
  | some a, some b => !a.pyEq b
  | _, _ => true

/-- `Point.not_equal` (device.py:578-600); `none` as argument is None (AttributeError). -/
def pointNe (same : Bool) (p : PointObj) : Option PointObj → Py (Option Reason)
  | none => .error .attributeError
  | some q =>
    match pointTypeNe same p.pt (some q.pt) with
    | some r => .ok (some (.inPoint p.pt.id r))
    | none =>
      if valueNe p.base q.base || valueNe p.vsf q.vsf then .ok (some (.inPoint p.pt.id .value)) else .ok none

/-- The loop of `Block.not_equal` over its points (device.py:399-402). -/
def pointsNe (same : Bool) (qs : List PointObj) : List PointObj → Py (Option Reason)
  | [] => .ok none
  | p :: ps =>
    match pointNe same p (qs.find? fun q => decide (q.pt.id = p.pt.id)) with
    | .error x => .error x
    | .ok (some r) => .ok (some r)
    | .ok none => pointsNe same qs ps

/-- `Block.not_equal` (device.py:383-403). The scale factor points are not compared. -/
def blockNe (same : Bool) (b c : BlockObj) : Py (Option Reason) :=
  match blockTypeNe same b.bt (some c.bt) with
  | some r => .ok (some (.inBlock b.index r))
  | none =>
    match pointsNe same c.pts b.pts with
    | .error x => .error x
    | .ok r => .ok (r.map (.inBlock b.index))

/-- The loop of `Model.not_equal` over the blocks (device.py:871-874). -/
def blocksNe (same : Bool) : List BlockObj → List BlockObj → Py (Option Reason)
  | b :: bs, c :: cs =>
    match blockNe same b c with
    | .error x => .error x
    | .ok (some r) => .ok (some r)
    | .ok none => blocksNe same bs cs
  | _, _ => .ok none

/-- `Model.not_equal` (device.py:853-875). If the definition of the model could not be loaded, `self.model_type` is None:
AttributeError, in both places (865-867). -/
def modelNe (same : Bool) (m n : MdlObj) : Py (Option Reason) :=
  match m.mtype with
  | none => .error .attributeError
  | some t =>
    if m.blocks.length ≠ n.blocks.length then .ok (some (.inModel t.id .blockCount))
    else
      match modelTypeNe same t n.mtype with
      | some r => .ok (some (.inModel t.id r))
      | none =>
        match blocksNe same m.blocks n.blocks with
        | .error x => .error x
        | .ok r => .ok (r.map (.inModel t.id))

/-- The loop of `Device.not_equal` over the models (device.py:253-256). -/
def modelsNe (same : Bool) : List MdlObj → List MdlObj → Py (Option Reason)
  | m :: ms, n :: ns =>
    match modelNe same m n with
    | .error x => .error x
    | .ok (some r) => .ok (some r)
    | .ok none => modelsNe same ms ns
  | _, _ => .ok none

/-- `Device.not_equal` (device.py:238-257). -/
def deviceNe (same : Bool) (ms ns : List MdlObj) : Py (Option Reason) :=
  if ms.length ≠ ns.length then .ok (some .modelCount) else modelsNe same ms ns

end Verif
