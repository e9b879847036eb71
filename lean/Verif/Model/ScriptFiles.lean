import Verif.Model.Files
import Verif.Model.Wrapper

/-!
# Creating a scripting device with definitions from files

`SunSpecClientDevice.__init__` (client.py:808-845): `scan` loads the definitions by the int of the model id, `model_class_get` asks for them again
by its text (client.py:690, 821-822), both with `model_type_get` and its global dictionary. In `Model/Wrapper.lean` a class is generated from the definition of
the model instead; C92 says that this is the same.
-/

namespace Verif

/-- `model_type_get(text)` (device.py:890-933) for a text: the definition object itself. -/
def getTypeText (env : TypeEnv ModelType) (ts : TypeState ModelType) (text : Text) : TypeState ModelType × Py ModelType :=
  ((modelTypeGet env ts (.str text)).1,
    match (modelTypeGet env ts (.str text)).2 with
    | .error e => .error e
    | .ok a =>
      match (modelTypeGet env ts (.str text)).1.objs[a]? with
      | some t => .ok t
      | none => .error .keyError)

/-- `model_class_get(model_id)` (client.py:668-712): a definition that cannot be loaded makes a class with `load_error`. -/
def classFiles (env : TypeEnv ModelType) (ts : TypeState ModelType) (text : Text) : TypeState ModelType × Py WClass :=
  ((getTypeText env ts text).1,
    match (getTypeText env ts text).2 with
    | .error _ => modelClass none
    | .ok mt => modelClass (some mt))

/-- One round of the loop (client.py:820-841) for model number `i`, see `wrapOne`. -/
def wrapOneFiles (env : TypeEnv ModelType) (lib : FloatLib) (ts : TypeState ModelType) (d : DWrap) (i : Nat) (m : MdlObj) :
    TypeState ModelType × DWrap × Py Unit :=
  ((classFiles env ts (intDec m.id)).1,
    match (classFiles env ts (intDec m.id)).2 with
    | .error e => (d, .error e)
    | .ok cls =>
      match newModelWrap lib cls m i (modelName m) with
      | (m1, .error e) => ({ d with models := d.models.set i m1 }, .error e)
      | (m1, .ok w) =>
        ({ d with models := d.models.set i m1, wraps := d.wraps ++ [w], dict := (nameStep d.dict i (modelName m)).1 },
          (nameStep d.dict i (modelName m)).2))

/-- The loop over the models (client.py:820-841). -/
def wrapLoopFiles (env : TypeEnv ModelType) (lib : FloatLib) :
    List MdlObj → Nat → TypeState ModelType → DWrap → TypeState ModelType × DWrap × Py Unit
  | [], _, ts, d => (ts, d, .ok ())
  | m :: ms, i, ts, d =>
    match wrapOneFiles env lib ts d i m with
    | (ts1, d1, .error e) => (ts1, d1, .error e)
    | (ts1, d1, .ok ()) => wrapLoopFiles env lib ms (i + 1) ts1 d1

/-- The `except` clause (client.py:842-845): the device is closed, unless a model called `device` has taken its place. -/
def wrapEnd : DWrap × Py Unit → DWrap × Py Unit
  | (d, .ok ()) => (d, .ok ())
  | (d, .error e) =>
    match dictGet d.dict (t!"device") with
    | some (.one .dev) => ({ d with closed := true }, .error e)
    | _ => (d, .error .attributeError)

/-- `SunSpecClientDevice.__init__` (client.py:812-845) once the `ClientDevice` has been created. -/
def scriptFiles {σ} (env : TypeEnv ModelType) (lib : FloatLib) (fuel : Nat) (dev : ScanDev σ) (prog : List MdlObj → Int → Bool)
    (ts : TypeState ModelType) (c : CliDev σ) : TypeState ModelType × CliDev σ × DWrap × Py Unit :=
  match scanFiles env fuel dev prog ts c with
  | (ts1, c1, .error e) => (ts1, c1, wrapEnd (DWrap.init c1.list, .error e))
  | (ts1, c1, .ok ()) =>
    ((wrapLoopFiles env lib c1.list 0 ts1 (DWrap.init c1.list)).1, c1,
      wrapEnd (wrapLoopFiles env lib c1.list 0 ts1 (DWrap.init c1.list)).2)

end Verif
