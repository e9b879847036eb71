import Verif.Model.Paths
import Verif.Spec.Value

/-!
# Specification: places in a path list
-/

namespace Verif
namespace Spec

/-- Path components with slashes between them. -/
def slashed : List Text → Text
  | [] => []
  | [c] => c
  | c :: d :: r => c ++ '/' :: slashed (d :: r)

/-- A place in which files are looked up: a directory, or a directory inside a zip file. Given by components (an absolute
path has an empty first component). -/
inductive Place where
  | dir (path : List Text)
  | zip (file : List Text) (inner : List Text)

/-- The text of a place in a path list. -/
def Place.text : Place → Text
  | .dir p => slashed p
  | .zip f i => slashed (f ++ i)

def Place.isZip : Place → Prop
  | .dir _ => False
  | .zip _ _ => True

/-- The name ends in `.zip`. -/
def ZipName (c : Text) : Prop := ∃ s, c = s ++ ['.', 'z', 'i', 'p']

/-- Proper places, according to the documentation (util.py:182-190): components do not contain slashes; exactly the name of the
zip file ends in `.zip`; the path of a directory is not empty, and the directory inside a zip file is given by non-empty names. -/
def Place.Proper : Place → Prop
  | .dir p => p ≠ [] ∧ p ≠ [[]] ∧ ∀ c ∈ p, '/' ∉ c ∧ ¬ ZipName c
  | .zip f i => ∃ d z, f = d ++ [z] ∧ ZipName z ∧ '/' ∉ z ∧ (∀ c ∈ d, '/' ∉ c ∧ ¬ ZipName c) ∧ ∀ c ∈ i, c ≠ [] ∧ '/' ∉ c ∧ ¬ ZipName c

/-- The place contains a file with this name, and `r` is the outcome of reading it; or it is a zip file that cannot be
opened, and `r` is that error. -/
def Place.Has (fs : FS) (name : Text) (r : Py Bytes) : Place → Prop
  | .dir p => ∃ e, fs.get (slashed (p ++ [name])) = some e ∧ e.data = r
  | .zip f i => ∃ e, fs.get (slashed f) = some e ∧
      ((∃ m, e.zip = .ok m ∧ m (slashed (i ++ [name])) = some r) ∨ ∃ x, e.zip = .error x ∧ r = .error x)

/-- The zip file of the place exists. -/
def Place.ZipExists (fs : FS) : Place → Prop
  | .dir _ => False
  | .zip f _ => fs.get (slashed f) ≠ none

/-- A file system is a tree: below a name that does not exist nothing exists. -/
def Tree (fs : FS) : Prop := ∀ abs cs ds, fs abs cs = none → fs abs (cs ++ ds) = none

/-- The outcome of looking up a name in a list of places: that of reading the file in the first place that has it, else a
`NameError`. -/
def FirstMatch (fs : FS) (name : Text) (ps : List Place) (r : Py Bytes) : Prop :=
  (∃ pre p post, ps = pre ++ p :: post ∧ (∀ q ∈ pre, ∀ r', ¬ q.Has fs name r') ∧ p.Has fs name r) ∨
  ((∀ q ∈ ps, ∀ r', ¬ q.Has fs name r') ∧ r = .error .nameError)

/-- The outcome of opening and reading a file; all errors become a `SunSpecError`. -/
def FileRead (e : Entry) (r : Py Bytes) : Prop :=
  (∃ d, e.data = .ok d ∧ r = .ok d) ∨ (∃ x, e.data = .error x ∧ r = .error .sunSpecError)

/-- The outcome of looking up a name in the current directory, else in the default directory; no contents if there is none. -/
def LocalFile (fs : FS) (default name : Text) (r : Py Bytes) : Prop :=
  (∃ e, fs.get name = some e ∧ FileRead e r) ∨
  (fs.get name = none ∧ ∃ e, fs.get (default ++ '/' :: name) = some e ∧ FileRead e r) ∨
  (fs.get name = none ∧ fs.get (default ++ '/' :: name) = none ∧ r = .ok [])

/-- The outcome of looking up the file of a definition: in the path list, if there is one; if there it is not found or
empty, locally. -/
def DefinitionFile (fs : FS) (ps : Option (List Place)) (default name : Text) (r : Py Bytes) : Prop :=
  match ps with
  | none => LocalFile fs default name r
  | some ps => ∃ r1, FirstMatch fs name ps r1 ∧
      if r1 = .error .nameError ∨ r1 = .ok [] then LocalFile fs default name r else r = r1

/-- The number that a model id given as an int or as a text stands for. -/
inductive ModelId : Key → Int → Prop
  | int (i : Int) : ModelId (.int i) i
  | str {s i} : DecText s i → ModelId (.str s) i

/-- The outcome of loading a definition whose file has the given contents (or could not be read): the definition parsed; what the parser of
XML raised; a `SunSpecError` if there is no file, if it is empty, or if it is not a valid definition. -/
def Loaded {τ} (env : TypeEnv τ) (file : Py Bytes) : Py τ → Prop
  | .ok t => ∃ d, file = .ok d ∧ d ≠ [] ∧ env.parse d = .ok (.ok t)
  | .error e => file = .error e ∨ (file = .ok [] ∧ e = .sunSpecError) ∨
      ∃ d, file = .ok d ∧ d ≠ [] ∧ (env.parse d = .error e ∨ ∃ x, env.parse d = .ok (.error x) ∧ e = .sunSpecError)

end Spec
end Verif
