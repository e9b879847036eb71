import Verif.Model.Scan
import Verif.Model.Paths
import Verif.Model.Pics
import Verif.Model.Smdx

/-!
# Scanning and loading documents with definitions from files

`Model/Scan.lean` and `Model/Pics.lean` take the definitions of models from a function of the model id. Here `Model.load`
calls `model_type_get` (device.py:708), which looks for a file and uses and changes the global dictionary of definitions, as
modelled in `Model/Paths.lean`; and a PICS document is looked up by its name (device.py:131-155). Simplifications: the file
system does not change during a call of `scan` or `from_pics` (it may between two calls); definition objects are not changed
after they have been loaded, so a model has the definition rather than a reference to it; a definition file without a `model`
element counts as one that cannot be parsed.
-/

namespace Verif

/-- `ET.fromstring` and `from_smdx` (device.py:920-927) for the contents of a definition file; `xml` is `ET.fromstring`. -/
def smdxBytes (xml : Bytes → Py Elem) (d : Bytes) : Py (Py ModelType) :=
  match xml d with
  | .error e => .error e
  | .ok root =>
    match smdxParse root with
    | .error e => .ok (.error e)
    | .ok t =>
      match t.toModelType with
      | some m => .ok (.ok m)
      | none => .ok (.error .typeError)

/-- `model_type_get(id)` (device.py:890-933) for an int: the definition object itself. -/
def getType (env : TypeEnv ModelType) (ts : TypeState ModelType) (id : Int) : TypeState ModelType × Py ModelType :=
  ((modelTypeGet env ts (.int id)).1,
    match (modelTypeGet env ts (.int id)).2 with
    | .error e => .error e
    | .ok a =>
      match (modelTypeGet env ts (.int id)).1.objs[a]? with
      | some t => .ok t
      | none => .error .keyError)

/-- The `while` loop of `scan` (client.py:271-300), see `scanLoop`. -/
def scanLoopFiles {σ} (env : TypeEnv ModelType) (dev : MbDev σ) (prog : List MdlObj → Int → Bool) :
    Nat → Int → Int → TypeState ModelType → CliDev σ → TypeState ModelType × CliDev σ × Py Unit
  | 0, _, _, ts, c => (ts, c, .error .diverge)
  | fuel + 1, id, addr, ts, c =>
    if id = 65535 then (ts, c, .ok ())
    else
      match cdRead dev c.st (addr + 1) 1 with
      | (s1, .error e) => (ts, { c with st := s1 }, .error e)
      | (s1, .ok d1) =>
        match wordOf d1 with
        | none => (ts, { c with st := s1 }, .ok ())
        | some len =>
          if prog c.list id = false then (ts, { c with st := s1 }, .error .sunSpecClientError)
          else
            match getType env ts id with
            | (ts1, mt) =>
              match scanLoad mt (mdlNew id (addr + 2) len) with
              | .error e => (ts1, { c with st := s1 }, .error e)
              | .ok m =>
                match cdRead dev s1 (addr + (len + 2)) 1 with
                | (s2, .error e) => (ts1, { addModel c m with st := s2 }, .error e)
                | (s2, .ok d2) =>
                  match wordOf d2 with
                  | none => (ts1, { addModel c m with st := s2 }, .ok ())
                  | some id2 => scanLoopFiles env dev prog fuel id2 (addr + (len + 2)) ts1 { addModel c m with st := s2 }

/-- `scan` from line 266 on (client.py:266-300), see `scanFrom`. -/
def scanFromFiles {σ} (env : TypeEnv ModelType) (fuel : Nat) (dev : MbDev σ) (prog : List MdlObj → Int → Bool)
    (ts : TypeState ModelType) (c : CliDev σ) (a : Int) (d : Bytes) : TypeState ModelType × CliDev σ × Py Unit :=
  match wordOf (some ((d.drop 4).take 2)) with
  | none => (ts, c, .error .structError)
  | some id => scanLoopFiles env dev prog fuel id (a + 2) ts c

/-- `scan` without connecting and disconnecting (client.py:245-304), see `scanBody`. -/
def scanBodyFiles {σ} (env : TypeEnv ModelType) (fuel : Nat) (dev : MbDev σ) (prog : List MdlObj → Int → Bool)
    (ts : TypeState ModelType) (c : CliDev σ) : TypeState ModelType × CliDev σ × Py Unit :=
  match c.base with
  | some _ => (ts, c, .error .unboundLocal)
  | none =>
    match probe dev c.bases c.st with
    | (s, .error e) => (ts, { c with st := s }, .error e)
    | (s, .ok none) => (ts, { c with st := s }, .error .sunSpecClientError)
    | (s, .ok (some (a, d))) => scanFromFiles env fuel dev prog ts { c with st := s, base := some a } a d

/-- `ClientDevice.scan` (client.py:229-307), see `scan`. -/
def scanFiles {σ} (env : TypeEnv ModelType) (fuel : Nat) (dev : ScanDev σ) (prog : List MdlObj → Int → Bool)
    (ts : TypeState ModelType) (c : CliDev σ) : TypeState ModelType × CliDev σ × Py Unit :=
  match dev.conn with
  | none => scanBodyFiles env fuel dev.toMbDev prog ts c
  | some f =>
    match f c.st with
    | (s, .error e) => (ts, { c with st := s }, .error e)
    | (s, .ok _) =>
      let r := scanBodyFiles env fuel dev.toMbDev prog ts { c with st := s }
      (r.1, scanEnd dev.disc r.2)

/-- One model element of a PICS document (device.py:171-192), see `deviceModelFromPics`. -/
def picsModelFiles (env : TypeEnv ModelType) (lib : FloatLib) (ts : TypeState ModelType) (addr : Int) (e : Elem) :
    TypeState ModelType × Py MdlObj :=
  if e.tag ≠ "model" then (ts, .error .sunSpecError)
  else
    match e.get "id", e.get "len" with
    | none, _ => (ts, .error .sunSpecError)
    | some _, none => (ts, .error .typeError)
    | some sid, some slen =>
      match pyInt 10 slen with
      | none => (ts, .error .valueError)
      | some len =>
        match pyInt 10 sid with
        | none => (ts, .error .valueError)
        | some id =>
          match getType env ts id with
          | (ts1, mt) =>
            match mdlLoad mt (mdlNew id (addr + 2) len) with
            | (_, .error .diverge) => (ts1, .error .diverge)
            | (m, .error _) =>
              (ts1, (modelFromPics lib { m with loadError := true } e).2.map fun _ => (modelFromPics lib { m with loadError := true } e).1)
            | (m, .ok _) => (ts1, (modelFromPics lib m e).2.map fun _ => (modelFromPics lib m e).1)

/-- The loop over the model elements (device.py:171-194), see `modelsFromPics`. -/
def picsModelsFiles (env : TypeEnv ModelType) (lib : FloatLib) :
    TypeState ModelType → Int → List Elem → TypeState ModelType × List MdlObj × Py Unit
  | ts, _, [] => (ts, [], .ok ())
  | ts, addr, e :: es =>
    match picsModelFiles env lib ts addr e with
    | (ts1, .error x) => (ts1, [], .error x)
    | (ts1, .ok m) =>
      let r := picsModelsFiles env lib ts1 (addr + m.len + 2) es
      (r.1, m :: r.2.1, r.2.2)

/-- Reading a file in a path list, if there is one; a `NameError` is ignored (device.py:134-145). -/
def listRead (fs : FS) (ps : Option (List Text)) (filename : Text) : Py Bytes :=
  match ps with
  | none => .ok []
  | some ps =>
    match pathRead fs ps filename with
    | .ok d => .ok d
    | .error e => if e = .nameError then .ok [] else .error e

/-- Reading a PICS document (device.py:131-153): in the path list that is given, if there is one, else in the global
`file_pathlist`, else in the current directory. -/
def picsData (env : TypeEnv ModelType) (pathlist : Option (List Text)) (filename : Text) : Py Bytes :=
  match listRead env.fs pathlist filename with
  | .error e => .error e
  | .ok (b :: d) => .ok (b :: d)
  | .ok [] =>
    match listRead env.fs env.pathlist filename with
    | .error e => .error e
    | .ok (b :: d) => .ok (b :: d)
    | .ok [] =>
      match env.fs.get filename with
      | none => .error .osError
      | some e => e.data

/-- `Device.from_pics(filename=…, pathlist=…)` (device.py:113-197) on a new device. `xml` is `ET.fromstring`. All exceptions
become a `SunSpecError`. -/
def picsFiles (env : TypeEnv ModelType) (lib : FloatLib) (xml : Bytes → Py Elem) (ts : TypeState ModelType)
    (pathlist : Option (List Text)) (filename : Text) : TypeState ModelType × List MdlObj × Py Unit :=
  match picsData env pathlist filename with
  | .error _ => (ts, [], .error .sunSpecError)
  | .ok data =>
    match xml data with
    | .error _ => (ts, [], .error .sunSpecError)
    | .ok root =>
      if root.tag ≠ "sunSpecPics" then (ts, [], .error .sunSpecError)
      else
        match root.findall "device" with
        | [] => (ts, [], .error .sunSpecError)
        | e :: _ =>
          if e.tag ≠ "device" then (ts, [], .error .sunSpecError)
          else
            match e.get "addr" with
            | some _ => (ts, [], .error .sunSpecError)
            | none =>
              match picsModelsFiles env lib ts 40002 e.children with
              | (ts1, ms, .ok ()) => (ts1, ms, .ok ())
              | (ts1, ms, .error .diverge) => (ts1, ms, .error .diverge)
              | (ts1, ms, .error _) => (ts1, ms, .error .sunSpecError)

/-- `check_for_models` (device.py:935-944); `false` stands for the exception it raises. Its argument is not used. -/
def checkForModels (env : TypeEnv ModelType) (ts : TypeState ModelType) : TypeState ModelType × Bool :=
  ((getType env ts 1).1, match (getType env ts 1).2 with | .ok _ => true | .error _ => false)

end Verif
