import Verif.Model.Value
import Verif.Py.Dict

/-!
# The scripting interface: `SunSpecClientDevice` and the generated model classes

Models `SunSpecClientModelBase`, `SunSpecClientBlockBase`, `model_class_get` and `SunSpecClientDevice` of
`sunspec/core/client.py`, lines 508-873.

Simplifications: the definition that `model_class_get` gets from `device.model_type_get(str(id))`
(client.py:690) is the one of the model (`Model/ScriptFiles.lean` looks it up, and C92 says that it is the same). Classes are not shared between
devices here: a class is generated from the definition (`Model/Classes.lean` models the shared classes, and C87 says when this
makes no difference). The value of a point is a `UVal`. For items, methods
and texts see `Model/Script.lean`.
-/

namespace Verif

/-- Names like `__init__`, of which every Python object has some. -/
def isDunder (n : Text) : Bool := (t!"__").isPrefixOf n

/-- The ids of the points of a block type that become properties (client.py:695-697, 707-710). -/
def propIds (bt : BlockType) : List Text :=
  (bt.points.filter fun p => decide (p.type ≠ .sunssf ∧ p.type ≠ .pad)).map (·.id)

/-- A class generated by `model_class_get` (client.py:668-712): its properties, the list `points`, whether
`load_error` is set, and the same for the class of the repeating blocks, if there is one. -/
structure WClass where
  props : List Text
  points : List Text
  loadError : Bool
  rep : Option (List Text)
  deriving DecidableEq

/-- `model_class_get` (client.py:668-712). A point called `points` replaces the list `points` of the class by a
property, which has no `append`. -/
def modelClass : Option ModelType → Py WClass
  | none => .ok ⟨[], [], true, none⟩
  | some mt =>
    let ids := propIds mt.fixed
    if t!"points" ∈ ids then .error .attributeError
    else
      match mt.rep with
      | none => .ok ⟨ids, ids, false, none⟩
      | some bt =>
        if t!"points" ∈ propIds bt then .error .attributeError else .ok ⟨ids, ids, false, some (propIds bt)⟩

/-- An object of a generated repeating block class: `block` is the block number `blk` of the model. -/
structure BWrap where
  props : List Text
  blk : Nat
  name : Text
  deriving DecidableEq

/-- Values of the attributes in the `__dict__` of a model object. -/
inductive WV where
  /-- the `device.Model` -/
  | mdl
  | text (t : Text)
  /-- the list object created in client.py:550 -/
  | reps
  /-- a value a program assigned -/
  | val (v : UVal)
  deriving DecidableEq

/-- An object of a generated model class for model number `mdl` of the device; `reps` is the list `repeating`
without its first element `None`. -/
structure MWrap where
  cls : WClass
  mdl : Nat
  dict : List (Text × WV)
  reps : List BWrap
  deriving DecidableEq

/-- `points.get(name)` of a block, as the position in the list of points. -/
def ptIdx (pts : List PointObj) (name : Text) : Option Nat := pts.findIdx? fun p => decide (p.pt.id = name)

/-- `model.points` (device.py:688, 785): empty until the model is loaded. -/
def modelPts (m : MdlObj) : List PointObj :=
  if m.exposed then match m.blocks with | [] => [] | b :: _ => b.pts else []

/-- `point.value` of point `name`, `None` if there is none (client.py:565-568, 641-644). -/
def ptsGet (lib : FloatLib) (pts : List PointObj) (name : Text) : Py UVal :=
  match ptIdx pts name with
  | some k => match pts[k]? with
    | some p => getValue lib p
    | none => .ok .none
  | none => .ok .none

/-- `point.value = value` for point `name`, nothing if there is none (client.py:570-573, 646-649). -/
def ptsSet (lib : FloatLib) (pts : List PointObj) (name : Text) (v : UVal) :
    List PointObj × Py Unit :=
  match ptIdx pts name with
  | some k => match pts[k]? with
    | some p => (pts.set k (setValue lib p v).1, (setValue lib p v).2)
    | none => (pts, .ok ())
  | none => (pts, .ok ())

/-- Block `k` of a model with other points. -/
def MdlObj.withPts (m : MdlObj) (k : Nat) (pts : List PointObj) : MdlObj :=
  match m.blocks[k]? with
  | some b => { m with blocks := m.blocks.set k { b with pts := pts } }
  | none => m

/-- `model.points.get(name).value = value` (client.py:570-573). -/
def modelSet (lib : FloatLib) (m : MdlObj) (name : Text) (v : UVal) : MdlObj × Py Unit :=
  if m.exposed then
    (m.withPts 0 (ptsSet lib (modelPts m) name v).1, (ptsSet lib (modelPts m) name v).2)
  else (m, .ok ())

/-- `SunSpecClientBlockBase.__init__` (client.py:637-639) for block number `blk`. A point called `block` makes
the assignment call `_set_property`, which uses `self.block`, which calls `_get_property`, and so on. A point
called `name` is assigned the name. Simplification: the case that there are points called `name` and
`_set_property` is left out. -/
def newBlockWrap (lib : FloatLib) (props : List Text) (m : MdlObj) (blk : Nat) (name : Text) :
    MdlObj × Py BWrap :=
  if t!"block" ∈ props then (m, .error .recursionError)
  else if t!"name" ∈ props then
    match m.blocks[blk]? with
    | none => (m, .error .indexError)
    | some b =>
      (m.withPts blk (ptsSet lib b.pts (t!"name") (.str name)).1,
        (ptsSet lib b.pts (t!"name") (.str name)).2.map fun _ => ⟨props, blk, name⟩)
  else (m, .ok ⟨props, blk, name⟩)

/-- The loop over `model.blocks[1:]` (client.py:555-563) starting with block number `k`; `rname` is
`self.repeating_name`. There is no class for the blocks if the definition has no repeating block:
`None(…)` is a `TypeError`. If the name of the block is the id of a point of the model, `setattr` assigns the
list to the point: Simplification: a `TypeError`, although a string point would take the text of the list. -/
def repLoop (lib : FloatLib) (cls : WClass) :
    List BlockObj → Nat → MdlObj → Text → List (Text × WV) → List BWrap →
    MdlObj × Py (List (Text × WV) × List BWrap)
  | [], _, m, _, d, acc => (m, .ok (d, acc))
  | b :: bs, k, m, rname, d, acc =>
    if b.bt.name ≠ rname ∧ b.bt.name ∈ cls.props then (m, .error .typeError)
    else
      let d1 := if b.bt.name ≠ rname then dictSet (dictSet d (t!"repeating_name") (.text b.bt.name)) b.bt.name .reps else d
      match cls.rep with
      | none => (m, .error .typeError)
      | some props =>
        match newBlockWrap lib props m k b.bt.name with
        | (m1, .error e) => (m1, .error e)
        | (m1, .ok w) => repLoop lib cls bs (k + 1) m1 b.bt.name d1 (acc ++ [w])

/-- `SunSpecClientModelBase.__init__` (client.py:547-563) for model number `i`. For points called `model` and
`name` see `newBlockWrap`. Simplification: a point called `repeating` or `repeating_name` makes it fail; in the
code that depends on the type of the point. -/
def newModelWrap (lib : FloatLib) (cls : WClass) (m : MdlObj) (i : Nat) (name : Text) :
    MdlObj × Py MWrap :=
  if t!"model" ∈ cls.props then (m, .error .recursionError)
  else
    let r := if t!"name" ∈ cls.props then modelSet lib m (t!"name") (.str name) else (m, .ok ())
    match r with
    | (m1, .error e) => (m1, .error e)
    | (m1, .ok ()) =>
      if t!"repeating" ∈ cls.props ∨ t!"repeating_name" ∈ cls.props then (m1, .error .typeError)
      else
        let d0 := [(t!"model", WV.mdl), (t!"repeating", .reps), (t!"repeating_name", .text (t!"repeating"))]
        let d := if t!"name" ∈ cls.props then d0 else dictSet d0 (t!"name") (.text name)
        match repLoop lib cls m1.blocks.tail 1 m1 (t!"repeating") d [] with
        | (m2, .error e) => (m2, .error e)
        | (m2, .ok (d2, bs)) => (m2, .ok ⟨cls, i, d2, bs⟩)

/-- What evaluating an attribute gives. -/
inductive WRes where
  | val (v : UVal)
  | mdl
  | text (t : Text)
  /-- a list `[None, b1, …]` of block objects -/
  | reps (l : List (Option BWrap))
  | names (l : List Text)
  | method
  | loadError
  deriving DecidableEq

/-- Is there an attribute of the object with this name (client.py:547-563 and assignments of the program)? It hides a method of the
class, and what it holds cannot be called. -/
def MWrap.hides (w : MWrap) (name : Text) : Bool := (dictGet w.dict name).isSome

/-- `_get_property` of a model object (client.py:565-568): uses `self.model`. -/
def MWrap.getProp (lib : FloatLib) (ms : List MdlObj) (w : MWrap) (name : Text) : Py UVal :=
  if t!"model" ∈ w.cls.props ∨ t!"_get_property" ∈ w.cls.props then .error .recursionError
  else if w.hides (t!"_get_property") then .error .typeError
  else
    match dictGet w.dict (t!"model") with
    | some .mdl => match ms[w.mdl]? with
      | some m => ptsGet lib (modelPts m) name
      | none => .error .attributeError
    | _ => .error .attributeError

/-- `w.name` for a model object. Properties go first, then the attributes of the object, then those of the
class. -/
def MWrap.getAttr (lib : FloatLib) (ms : List MdlObj) (w : MWrap) (name : Text) : Py WRes :=
  if name ∈ w.cls.props then (w.getProp lib ms name).map .val
  else
    match dictGet w.dict name with
    | some .mdl => .ok .mdl
    | some (.text t) => .ok (.text t)
    | some .reps => .ok (.reps (none :: w.reps.map some))
    | some (.val v) => .ok (.val v)
    | none =>
      if name = t!"points" then .ok (.names w.cls.points)
      else if name = t!"load_error" ∧ w.cls.loadError then .ok .loadError
      else if name ∈ [t!"read", t!"write", t!"_get_property", t!"_set_property"] then .ok .method
      else .error .attributeError

/-- Another model `i`. -/
def setNth (ms : List MdlObj) (i : Nat) (r : MdlObj × Py Unit) : List MdlObj × Py Unit := (ms.set i r.1, r.2)

/-- What assigning to a property raises when `_set_property` itself, or the attribute it uses, is a property
(client.py:677-678): a point called `_set_property` is read instead, and its value cannot be called (`TypeError`; the case
in which reading the value fails is left out); the others lead back to themselves. -/
def setterError (own : Text) (props : List Text) : Exc :=
  if own ∉ props ∧ t!"_get_property" ∉ props then .typeError else .recursionError

/-- `_set_property` of a model object (client.py:570-573). -/
def MWrap.setProp (lib : FloatLib) (ms : List MdlObj) (w : MWrap) (name : Text) (v : UVal) :
    List MdlObj × Py Unit :=
  if t!"model" ∈ w.cls.props ∨ t!"_set_property" ∈ w.cls.props then (ms, .error (setterError (t!"model") w.cls.props))
  else if w.hides (t!"_set_property") then (ms, .error .typeError)
  else
    match dictGet w.dict (t!"model") with
    | some .mdl => match ms[w.mdl]? with
      | some m => setNth ms w.mdl (modelSet lib m name v)
      | none => (ms, .error .attributeError)
    | _ => (ms, .error .attributeError)

/-- `w.name = v` for a model object: a property is set, anything else becomes an attribute of the object. -/
def MWrap.setAttr (lib : FloatLib) (ms : List MdlObj) (w : MWrap) (name : Text) (v : UVal) :
    MWrap × List MdlObj × Py Unit :=
  if name ∈ w.cls.props then (w, w.setProp lib ms name v)
  else ({ w with dict := dictSet w.dict name (.val v) }, ms, .ok ())

/-- The points of block `k` of model `i`. -/
def blockPts (ms : List MdlObj) (i k : Nat) : Option (List PointObj) :=
  match ms[i]? with
  | some m => match m.blocks[k]? with
    | some b => some b.pts
    | none => none
  | none => none

/-- `b.name` for an object of a repeating block of model `i` and the id of a point (client.py:641-644). Simplification: the attributes
`block`, `name` and `points`, the methods, and what a program assigns to other names are left out: `AttributeError`. -/
def BWrap.getAttr (lib : FloatLib) (ms : List MdlObj) (i : Nat) (w : BWrap) (name : Text) : Py UVal :=
  if name ∈ w.props then
    if t!"block" ∈ w.props ∨ t!"_get_property" ∈ w.props then .error .recursionError
    else
      match blockPts ms i w.blk with
      | some pts => ptsGet lib pts name
      | none => .error .attributeError
  else .error .attributeError

/-- `b.name = v` for an object of a repeating block of model `i` and the id of a point (client.py:646-649);
other attributes have no effect on the device. Simplification: that they may hide `block` and the methods later is left out. -/
def BWrap.setAttr (lib : FloatLib) (ms : List MdlObj) (i : Nat) (w : BWrap) (name : Text)
    (v : UVal) : List MdlObj × Py Unit :=
  if name ∈ w.props then
    if t!"block" ∈ w.props ∨ t!"_set_property" ∈ w.props then (ms, .error (setterError (t!"block") w.props))
    else
      match ms[i]? with
      | none => (ms, .error .attributeError)
      | some m =>
        match m.blocks[w.blk]? with
        | none => (ms, .error .attributeError)
        | some b => setNth ms i (m.withPts w.blk (ptsSet lib b.pts name v).1, (ptsSet lib b.pts name v).2)
  else (ms, .ok ())

/-- Objects that occur in the attributes of a `SunSpecClientDevice`. -/
inductive WItem where
  | none
  /-- the `ClientDevice` -/
  | dev
  | name (t : Text)
  /-- the object of the generated class for model number `i` -/
  | wrap (i : Nat)
  | method (t : Text)
  deriving DecidableEq

/-- Value of an attribute of a `SunSpecClientDevice`. -/
inductive WAttr where
  | one (x : WItem)
  | list (l : List WItem)
  deriving DecidableEq

/-- `getattr(self, name, None)` (client.py:828); `none` for a false value. Simplification: all names that begin
with two underscores are taken for attributes of the class. -/
def existing (d : List (Text × WAttr)) (name : Text) : Option WAttr :=
  match dictGet d name with
  | some (.list []) => none
  | some a => some a
  | none =>
    if name = t!"close" ∨ name = t!"read" ∨ isDunder name then some (.one (.method name)) else none

/-- Naming a model object (client.py:828-841). `self.models.append` is an `AttributeError` if `self.models` is no
longer a list. -/
def nameStep (d : List (Text × WAttr)) (i : Nat) (name : Text) : List (Text × WAttr) × Py Unit :=
  match existing d name with
  | some (.list l) => (dictSet d name (.list (l ++ [.wrap i])), .ok ())
  | some (.one x) => (dictSet d name (.list [.none, x, .wrap i]), .ok ())
  | none =>
    match dictGet (dictSet d name (.one (.wrap i))) (t!"models") with
    | some (.list l) => (dictSet (dictSet d name (.one (.wrap i))) (t!"models") (.list (l ++ [.name name])), .ok ())
    | _ => (dictSet d name (.one (.wrap i)), .error .attributeError)

/-- The name of a model (client.py:823-826). -/
def modelName (m : MdlObj) : Text :=
  match m.mtype with
  | some mt => mt.name
  | none => t!"model_" ++ intDec m.id

/-- A `SunSpecClientDevice`: its attributes, the objects of the generated classes, and the models of the
`ClientDevice`. -/
structure DWrap where
  dict : List (Text × WAttr)
  wraps : List MWrap
  models : List MdlObj
  closed : Bool := false

/-- The object before the loop (client.py:812-813). -/
def DWrap.init (models : List MdlObj) : DWrap :=
  { dict := [(t!"device", .one .dev), (t!"models", .list [])], wraps := [], models := models }

/-- One round of the loop (client.py:820-841) for model number `i`. -/
def wrapOne (lib : FloatLib) (d : DWrap) (i : Nat) (m : MdlObj) : DWrap × Py Unit :=
  match modelClass m.mtype with
  | .error e => (d, .error e)
  | .ok cls =>
    match newModelWrap lib cls m i (modelName m) with
    | (m1, .error e) => ({ d with models := d.models.set i m1 }, .error e)
    | (m1, .ok w) =>
      ({ d with models := d.models.set i m1, wraps := d.wraps ++ [w], dict := (nameStep d.dict i (modelName m)).1 },
        (nameStep d.dict i (modelName m)).2)

/-- The loop over the models (client.py:820-841). -/
def wrapLoop (lib : FloatLib) : List MdlObj → Nat → DWrap → DWrap × Py Unit
  | [], _, d => (d, .ok ())
  | m :: ms, i, d =>
    match wrapOne lib d i m with
    | (d1, .error e) => (d1, .error e)
    | (d1, .ok ()) => wrapLoop lib ms (i + 1) d1

/-- `SunSpecClientDevice.__init__` after the scan (client.py:819-845), with the models found. An exception closes
the device, unless a model called `device` has taken its place: a list or model object has no `close`. -/
def wrapDevice (lib : FloatLib) (models : List MdlObj) : DWrap × Py Unit :=
  match wrapLoop lib models 0 (DWrap.init models) with
  | (d, .ok ()) => (d, .ok ())
  | (d, .error e) =>
    match dictGet d.dict (t!"device") with
    | some (.one .dev) => ({ d with closed := true }, .error e)
    | _ => (d, .error .attributeError)

/-- `self[name]` (client.py:861-862). -/
def DWrap.item (d : DWrap) (name : Text) : Option WAttr := dictGet d.dict name

end Verif
