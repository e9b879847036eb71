import Verif.Py.Text
import Verif.Py.Dict

/-!
# Path lists and model files

Models `PathList` (util.py:172-253), the file names of model definitions (smdx.py:118-133), `model_type_get`
(device.py:890-933) and `fresh_file_pathlist` (device.py:46-59). Simplifications: `os.sep` is `/`; the file system does not
change during a call; file names are resolved component by component, empty components being ignored (so `a//b` is
`a/b`); symbolic links, `.` and `..` are not interpreted (a file system may contain components with these names).
-/

namespace Verif

/-- `s.split('/')` (util.py:212). -/
def splitSep : Text → List Text
  | [] => [[]]
  | c :: r =>
    if c = '/' then [] :: splitSep r
    else
      match splitSep r with
      | h :: t => (c :: h) :: t
      | [] => [[c]]

/-- What exists in a file system: the outcome of reading it as a file (an error for a directory) and of opening it as a zip
file, which is a function from member names to the outcome of reading the member. -/
structure Entry where
  data : Py Bytes
  zip : Py (Text → Option (Py Bytes))

/-- A file system: entries for absolute (`true`) or relative component lists. -/
abbrev FS := Bool → List Text → Option Entry

/-- The entry that a file name refers to. -/
def FS.get (fs : FS) (name : Text) : Option Entry :=
  fs (decide (name.head? = some '/')) ((splitSep name).filter fun c => decide (c ≠ []))

/-- `e.endswith('.zip')`. -/
def isZipName (e : Text) : Bool := (t!".zip").isSuffixOf e

/-- `if file_path and file_path != sep: file_path += sep` followed by `file_path += x` (util.py:218-220, 232-234). -/
def sepJoin (fp x : Text) : Text := (if fp ≠ [] ∧ fp ≠ ['/'] then fp ++ ['/'] else fp) ++ x

/-- The loop over the elements of a path (util.py:215-230): `file_path` and `zip_file_path` after it. -/
def elemLoop (fs : FS) : List Text → Text → Text → Text × Text
  | [], fp, z => (fp, z)
  | e :: es, fp, z =>
    let fp1 := if e = [] then fp ++ ['/'] else sepJoin fp e
    if isZipName e then
      match fs.get fp1 with
      | some _ => elemLoop fs es [] fp1
      | none => (fp1, [])
    else elemLoop fs es fp1 z

/-- The loop over the paths of `PathList.read` (util.py:207-249); `zip_file_path` is not reset between two paths. -/
def pathLoop (fs : FS) (filename : Text) : List Text → Text → Py Bytes
  | [], _ => .error .nameError
  | p :: ps, z =>
    let r := elemLoop fs (splitSep p) [] z
    let fp := sepJoin r.1 filename
    if r.2 ≠ [] then
      match fs.get r.2 with
      | none => .error .osError
      | some e =>
        match e.zip with
        | .error x => .error x
        | .ok members =>
          match members fp with
          | none => pathLoop fs filename ps r.2
          | some d => d
    else
      match fs.get fp with
      | some e => e.data
      | none => pathLoop fs filename ps r.2

/-- `PathList.read` (util.py:201-252). -/
def pathRead (fs : FS) (paths : List Text) (filename : Text) : Py Bytes := pathLoop fs filename paths []

/-- `'%05d' % i`. -/
def dec5 (i : Int) : Text :=
  if i < 0 then '-' :: (List.replicate (4 - (natDec i.natAbs).length) '0' ++ natDec i.natAbs)
  else List.replicate (5 - (natDec i.natAbs).length) '0' ++ natDec i.natAbs

/-- `model_id_to_filename` (smdx.py:118-120) for an int. -/
def idToFilename (i : Int) : Text := t!"smdx_" ++ dec5 i ++ t!".xml"

/-- `model_filename_to_id` (smdx.py:122-132). `filename[5:-4]` is what lies between the first five and the last four
characters (nothing if they overlap). -/
def filenameToId (f : Text) : Option Int :=
  if f.take 5 = t!"smdx_" ∧ f.drop (f.length - 4) = t!".xml" then pyInt 10 ((f.take (f.length - 4)).drop 5) else none

/-- Model ids and dictionary keys: `str` or `int`. -/
inductive Key where
  | str (s : Text)
  | int (i : Int)
  deriving DecidableEq

/-- `str(model_id)`. -/
def Key.text : Key → Text
  | .str s => s
  | .int i => intDec i

/-- `int(model_id)`. -/
def Key.toInt : Key → Py Int
  | .int i => .ok i
  | .str s => match pyInt 10 s with
    | some i => .ok i
    | none => .error .valueError

/-- The environment of `model_type_get`: the file system, `file_pathlist` (device.py:43), `model_type_path_default`
(device.py:887), and the parser: `parse` is `ET.fromstring` followed by `ModelType.from_smdx` (see `smdxParse`), where the
outer result is that of `ET.fromstring`. `τ` is the type of parsed definitions, `idOf` the attribute `id`. -/
structure TypeEnv (τ : Type) where
  fs : FS
  pathlist : Option (List Text)
  default : Text
  parse : Bytes → Py (Py τ)
  idOf : τ → Int

/-- The state: the dictionary `model_types` (device.py:888), whose values are references to definition objects, the objects
created so far, and the number of files that have been read. -/
structure TypeState (τ : Type) where
  cache : List (Key × Nat) := []
  objs : List τ := []
  reads : Nat := 0

/-- Reading the model file (device.py:899-918). `if not smdx_data`: empty contents are like no file. -/
def smdxData {τ} (env : TypeEnv τ) (filename : Text) : Py Bytes :=
  let first : Py Bytes :=
    match env.pathlist with
    | none => .ok []
    | some ps =>
      match pathRead env.fs ps filename with
      | .ok d => .ok d
      | .error e => if e = .nameError then .ok [] else .error e
  match first with
  | .error e => .error e
  | .ok (b :: d) => .ok (b :: d)
  | .ok [] =>
    let name := if (env.fs.get filename).isSome then filename else env.default ++ '/' :: filename
    match env.fs.get name with
    | none => .ok []
    | some e =>
      match e.data with
      | .ok d => .ok d
      | .error _ => .error .sunSpecError

/-- `model_type_get` (device.py:890-933). -/
def modelTypeGet {τ} (env : TypeEnv τ) (st : TypeState τ) (id : Key) : TypeState τ × Py Nat :=
  match dictGet st.cache (.str id.text) with
  | some r => (st, .ok r)
  | none =>
    match id.toInt with
    | .error e => (st, .error e)
    | .ok i =>
      match smdxData env (idToFilename i) with
      | .error e => (st, .error e)
      | .ok [] => (st, .error .sunSpecError)
      | .ok (b :: d) =>
        let st1 := { st with reads := st.reads + 1 }
        match env.parse (b :: d) with
        | .error e => (st1, .error e)
        | .ok (.error _) => (st1, .error .sunSpecError)
        | .ok (.ok t) =>
          ({ st1 with objs := st.objs ++ [t], cache := dictSet st.cache (.int (env.idOf t)) st.objs.length },
            .ok st.objs.length)

/-- A history of calls of `model_type_get`. -/
def typeRun {τ} (env : TypeEnv τ) : TypeState τ → List Key → TypeState τ × List (Py Nat)
  | st, [] => (st, [])
  | st, k :: ks =>
    let r := modelTypeGet env st k
    let rest := typeRun env r.1 ks
    (rest.1, r.2 :: rest.2)

/-- The global variable `file_pathlist` (device.py:43), a reference to one of the `PathList` objects that exist. -/
structure PathState where
  cur : Option Nat
  lists : List (List Text)

/-- Programs that use `fresh_file_pathlist`. -/
inductive PathProg where
  /-- anything that neither assigns `file_pathlist` nor modifies path lists; may raise -/
  | other (r : Py Unit)
  /-- `device.file_pathlist.add(path)`, which raises an `AttributeError` if there is none -/
  | add (path : Text)
  /-- one after the other -/
  | seq (a b : PathProg)
  /-- `try: a except Exception: b` -/
  | tryExcept (a b : PathProg)
  /-- `with fresh_file_pathlist(*paths): body`; the paths are given by the outcomes of `fspath` -/
  | fresh (paths : List (Py Text)) (body : PathProg)

/-- `for path in paths: file_pathlist.add(fspath(path))` (device.py:53-54). -/
def addPaths : List (Py Text) → List Text → List Text × Py Unit
  | [], l => (l, .ok ())
  | .ok p :: ps, l => addPaths ps (l ++ [p])
  | .error e :: _, l => (l, .error e)

/-- Execution of a program; `fresh` is device.py:46-59: the restoration is in a `finally` clause that guards the body but not
the additions of the paths. -/
def PathProg.exec : PathProg → PathState → PathState × Py Unit
  | .other r, s => (s, r)
  | .add path, s =>
    match s.cur with
    | none => (s, .error .attributeError)
    | some i => ({ s with lists := s.lists.modify i (· ++ [path]) }, .ok ())
  | .seq a b, s =>
    match a.exec s with
    | (s1, .error e) => (s1, .error e)
    | (s1, .ok _) => b.exec s1
  | .tryExcept a b, s =>
    match a.exec s with
    | (s1, .error _) => b.exec s1
    | (s1, .ok _) => (s1, .ok ())
  | .fresh paths body, s =>
    let r := addPaths paths []
    let s1 : PathState := ⟨some s.lists.length, s.lists ++ [r.1]⟩
    match r.2 with
    | .error e => (s1, .error e)
    | .ok _ =>
      let r2 := body.exec s1
      ({ r2.1 with cur := s.cur }, r2.2)

end Verif
