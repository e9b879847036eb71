import Verif.Model.Files
import Verif.Spec.Paths
import Verif.Spec.Scan

/-!
# Specification: definitions and documents in files
-/

namespace Verif
namespace Spec

/-- What can have become of the global dictionary of definitions: it was empty at first, and definitions have been asked for, by
int or text, with any files, path lists and parsers at the time. -/
inductive TypesReached {τ : Type} : TypeState τ → Prop
  | start : TypesReached {}
  | asked {st} (env : TypeEnv τ) (id : Key) : TypesReached st → TypesReached (modelTypeGet env st id).1

/-- `lib` is the library of definitions in the files: for every id it is the outcome of loading the file of that model. -/
def FileLibrary (env : TypeEnv ModelType) (ps : Option (List Place)) (lib : Int → Py ModelType) : Prop :=
  ∀ id, ∃ file, DefinitionFile env.fs ps env.default (idToFilename id) file ∧ Loaded env file (lib id)

/-- Reading files and parsing them ends, with a result or an exception, and the repeating blocks of definitions have at least one register. -/
structure FilesReadable (env : TypeEnv ModelType) : Prop where
  data : ∀ abs cs e, env.fs abs cs = some e → e.data ≠ .error .diverge
  zip : ∀ abs cs e, env.fs abs cs = some e → e.zip ≠ .error .diverge
  member : ∀ abs cs e m name, env.fs abs cs = some e → e.zip = .ok m → m name ≠ some (.error .diverge)
  parse : ∀ d, env.parse d ≠ .error .diverge
  rep : ∀ d t rb n, env.parse d = .ok (.ok t) → t.rep = some rb → rb.len.toInt = .ok n → 1 ≤ n

/-- The path list of the environment consists of proper places (see C43); directories do not come after existing zip files. -/
def ProperPlaces (fs : FS) (paths : Option (List Text)) (ps : Option (List Place)) : Prop :=
  paths = ps.map (·.map Place.text) ∧
  ∀ l, ps = some l → (∀ p ∈ l, p.Proper) ∧ l.Pairwise fun a b => a.ZipExists fs → b.isZip

/-- The outcome of looking up a file in a list of places, nothing if there is no list or no such file. -/
def InPlaces (fs : FS) (ps : Option (List Place)) (name : Text) (r : Py Bytes) : Prop :=
  match ps with
  | none => r = .ok []
  | some ps => ∃ r1, FirstMatch fs name ps r1 ∧ if r1 = .error .nameError then r = .ok [] else r = r1

/-- The outcome of opening and reading a file. -/
def OpenFile (fs : FS) (name : Text) (r : Py Bytes) : Prop :=
  (∃ e, fs.get name = some e ∧ r = e.data) ∨ (fs.get name = none ∧ r = .error .osError)

/-- The document with this name: in the places given, else in the general places, else in the current directory. -/
def DocumentFile (fs : FS) (given general : Option (List Place)) (name : Text) (r : Py Bytes) : Prop :=
  ∃ r1, InPlaces fs given name r1 ∧
    if r1 ≠ .ok [] then r = r1
    else ∃ r2, InPlaces fs general name r2 ∧ if r2 ≠ .ok [] then r = r2 else OpenFile fs name r

end Spec
end Verif
