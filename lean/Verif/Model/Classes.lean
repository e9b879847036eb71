import Verif.Model.Wrapper

/-!
# The generated model classes are shared

`Model/Wrapper.lean` generates a class for each object. In the code the class `Model<id>` is a global of the module and is changed whenever
an object for a model with that id is created (`model_class_get`, `sunspec/core/client.py:668-712`), also for other devices. Objects
refer to their class, so they see the changes.
-/

namespace Verif

/-- The globals `Model<id>` and (as `rep`) `Model<id>Repeating` of the module client.py. -/
abbrev Classes := List (Int × WClass)

/-- `add_property` and `points.append` for each point (client.py:694-697, 707-710). A point called `points` replaces the list `points` by a
property, which has no `append`. -/
def addProps : List Text → WClass → WClass × Py Unit
  | [], c => (c, .ok ())
  | n :: ns, c =>
    let props := if n ∈ c.props then c.props else c.props ++ [n]
    if n = t!"points" then ({ c with props := props }, .error .attributeError)
    else addProps ns { c with props := props, points := c.points ++ [n] }

/-- `model_class_get` (client.py:668-712) with the globals: the class is created unless it exists; `points` is a new list (replacing a
property of that name, 687); properties are added, never removed; the class of the repeating blocks is always a new one, but it stays if the
definition has no repeating block. -/
def classGet (cs : Classes) (id : Int) (mt : Option ModelType) : Classes × Py WClass :=
  let c0 := (dictGet cs id).getD ⟨[], [], false, none⟩
  let c1 := { c0 with props := c0.props.filter fun n => decide (n ≠ t!"points"), points := [] }
  match mt with
  | none => (dictSet cs id { c1 with loadError := true }, .ok { c1 with loadError := true })
  | some mt =>
    match addProps (propIds mt.fixed) c1 with
    | (c2, .error e) => (dictSet cs id c2, .error e)
    | (c2, .ok _) =>
      match mt.rep with
      | none => (dictSet cs id c2, .ok c2)
      | some bt =>
        let b := addProps (propIds bt) ⟨[], [], false, none⟩
        let c3 := { c2 with rep := some b.1.props }
        (dictSet cs id c3, b.2.map fun _ => c3)

/-- One round of the loop of `SunSpecClientDevice.__init__` (client.py:820-841), as `wrapOne`. -/
def wrapOneIn (lib : FloatLib) (cs : Classes) (d : DWrap) (i : Nat) (m : MdlObj) : Classes × DWrap × Py Unit :=
  match classGet cs m.id m.mtype with
  | (cs', .error e) => (cs', d, .error e)
  | (cs', .ok cls) =>
    match newModelWrap lib cls m i (modelName m) with
    | (m1, .error e) => (cs', { d with models := d.models.set i m1 }, .error e)
    | (m1, .ok w) =>
      (cs', { d with models := d.models.set i m1, wraps := d.wraps ++ [w], dict := (nameStep d.dict i (modelName m)).1 },
        (nameStep d.dict i (modelName m)).2)

/-- The loop over the models (client.py:820-841), as `wrapLoop`. -/
def wrapLoopIn (lib : FloatLib) : List MdlObj → Nat → Classes → DWrap → Classes × DWrap × Py Unit
  | [], _, cs, d => (cs, d, .ok ())
  | m :: ms, i, cs, d =>
    match wrapOneIn lib cs d i m with
    | (cs1, d1, .error e) => (cs1, d1, .error e)
    | (cs1, d1, .ok ()) => wrapLoopIn lib ms (i + 1) cs1 d1

/-- `SunSpecClientDevice.__init__` after the scan (client.py:819-845), as `wrapDevice`. -/
def wrapDeviceIn (lib : FloatLib) (cs : Classes) (models : List MdlObj) : Classes × DWrap × Py Unit :=
  match wrapLoopIn lib models 0 cs (DWrap.init models) with
  | (cs', d, .ok ()) => (cs', d, .ok ())
  | (cs', d, .error e) =>
    match dictGet d.dict (t!"device") with
    | some (.one .dev) => (cs', { d with closed := true }, .error e)
    | _ => (cs', d, .error .attributeError)

/-- The class of an object of model `m` as it is now. -/
def liveClass (cs : Classes) (m : Option MdlObj) (w : MWrap) : MWrap :=
  match m with
  | some m => match dictGet cs m.id with
    | some c => { w with cls := c }
    | none => w
  | none => w

/-- The objects of a device as they are now: with the classes as they are now. -/
def DWrap.live (cs : Classes) (d : DWrap) : DWrap := { d with wraps := d.wraps.map fun w => liveClass cs d.models[w.mdl]? w }

end Verif
