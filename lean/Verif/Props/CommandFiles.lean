import Verif.Model.CommandFiles
import Verif.Props.Command
import Verif.Props.MapFile
import Verif.Props.ScriptFiles

/-!
# C89 with files: suns.py on a map document
-/

namespace Verif
open Spec

theorem openDeviceFiles_eq {σ} (env : TypeEnv ModelType) (ht : Tree env.fs) (ps : Option (List Place))
    (hp : ProperPlaces env.fs env.pathlist ps) (types : Int → Py ModelType) (hl : FileLibrary env ps types) (lib : FloatLib) (fuel : Nat)
    (dev : ScanDev σ) (s : σ) : openDeviceFiles env fuel dev lib s = openDevice fuel dev types lib s := by
  obtain ⟨types', h1, h2⟩ := C92_scripting_partial env ht ps hp
  cases fileLibrary_unique hl h1
  obtain ⟨-, k2, -, k4, k5⟩ := h2 lib fuel dev (fun _ _ => true) { st := s } {} .start rfl
  unfold openDeviceFiles openDevice
  generalize scriptFiles env lib fuel dev (fun _ _ => true) {} { st := s } = x at k2 k4 k5 ⊢
  generalize scan fuel dev types (fun _ _ => true) { st := s } = y at k2 k4 k5 ⊢
  obtain ⟨ts, c, d, r⟩ := x
  obtain ⟨c', r'⟩ := y
  dsimp only at k2 k4 k5
  subst k2
  cases r' with
  | error e =>
    obtain ⟨e1, e2⟩ := k4 e rfl
    subst e2
    dsimp only
    rw [if_pos e1]
  | ok u =>
    have e := k5 rfl
    dsimp only
    rw [← e]
    cases r <;> rfl

theorem sunsRunFiles_eq {σ} (env : TypeEnv ModelType) (ht : Tree env.fs) (ps : Option (List Place))
    (hp : ProperPlaces env.fs env.pathlist ps) (types : Int → Py ModelType) (hl : FileLibrary env ps types) (lib : FloatLib) (fuel : Nat)
    (dev : ScanDev σ) (s : σ) : sunsRunFiles env fuel dev lib s = sunsRun fuel dev types lib s := by
  unfold sunsRunFiles sunsRun
  rw [openDeviceFiles_eq env ht ps hp types hl]
  rfl

/-- C89 from end to end, for a map document: let the file named by the option `-m` be an XML document that describes the registers `rs` at the
base address `base`; let these have `SunS` at one of the three addresses, followed by models that can be shown with the definitions in the
files. Then `suns.py -t mapped -m <file>` prints one section for each model, in order, which shows the values that the registers in the document
have, and ends normally. -/
theorem C89_document_partial (F : FloatText) (env : TypeEnv ModelType) (ht : Tree env.fs) (ps : Option (List Place))
    (hp : ProperPlaces env.fs env.pathlist ps) (hd : FilesReadable env) (types : Int → Py ModelType) (hl : FileLibrary env ps types)
    (xml : Bytes → Py Elem) (lib : FloatLib) (hpow : PowOK lib) (portOk : String → Bool) (ports : Lines)
    (net : Option (MbObj MbMap) → Printed × CmdEnd) (o : Options) (hot : o.t = "mapped") (name : String) (hom : o.m = some name)
    (d : Bytes) (hfile : OpenFile env.fs name.toList (.ok d)) (root : Elem) (hroot : xml d = .ok root)
    (base : Int) (rs : List (Int × List Reg)) (hdoc : MapDocument F root base rs)
    (pre : List Int) (b : Int) (post : List Int) (hbases : [40000, 0, 50000] = pre ++ b :: post)
    (hpre : ∀ x ∈ pre, ¬ SunSAt (docMem base rs) x ∧ memRegs (docMem base rs) x 3 ≠ none) (hs : SunSAt (docMem base rs) b)
    (found : List Found) (hch : Chain (docMem base rs) (b + 2) found) (hf : ∀ f ∈ found, Reportable types (docMem base rs) f)
    (fuel : Nat) (hfuel : found.length < fuel) :
    ∃ ms secs, sunsFiles F env xml fuel lib portOk ports net o = (.report secs.flatten, .done) ∧
      List.Forall₂ (ModelRead (docMem base rs)) (found.map (foundModel types)) ms ∧ List.Forall₂ (ModelShows lib) ms secs ∧
      ∀ m ∈ ms, ∀ b ∈ m.blocks, ∀ p ∈ b.pts, ∃ v, getValue lib p = .ok v ∧ (v = .none ↔ p.base = none) := by
  obtain ⟨file, h1, -, h2⟩ := C101_created_partial F env.fs ht xml none none ⟨rfl, by simp⟩ portOk ports
    { type := "Mapped", slave := o.a, name := o.m } rfl name hom
  cases mapFile_unique (given := none) hfile h1
  obtain ⟨m, bs, h3, h4, h5, -⟩ := ((h2 d rfl).2 root hroot).2 base rs hdoc
  obtain ⟨s', ms', secs, k1, -, k3, k4, k5⟩ := C89_report_partial (mapScan_mem base) types (library_definitions hd hl) lib hpow (docMem base rs) m
    ⟨bs, h4, h5.symm⟩ pre b post hbases hpre hs found hch hf fuel hfuel
  refine ⟨ms', secs, ?_, k3, k4, k5⟩
  have ha : sunsArgs o = some { type := "Mapped", slave := o.a, name := o.m } := by
    unfold sunsArgs
    rw [hot]
    rfl
  unfold sunsFiles sunsMain
  rw [ha]
  dsimp only
  rw [h3]
  dsimp only
  rw [sunsRunFiles_eq env ht ps hp types hl, k1]

/-- C89 with a file that is no map document (there is no such file, it is not XML, or its registers overlap): the command ends with the
traceback of a `ModbusMapError` (violates C89; see `C89_violated`). -/
theorem C89_bad_document (F : FloatText) (env : TypeEnv ModelType) (ht : Tree env.fs) (xml : Bytes → Py Elem) (lib : FloatLib)
    (portOk : String → Bool) (ports : Lines) (net : Option (MbObj MbMap) → Printed × CmdEnd) (o : Options) (hot : o.t = "mapped")
    (name : String) (hom : o.m = some name) (file : Py Bytes) (hfile : OpenFile env.fs name.toList file)
    (hbad : (∃ e, file = .error e) ∨ (∃ d e, file = .ok d ∧ xml d = .error e) ∨
      ∃ d root, file = .ok d ∧ xml d = .ok root ∧ OverlappingDocument F root) (fuel : Nat) :
    sunsFiles F env xml fuel lib portOk ports net o = (.nothing, .raised .modbusMapError) := by
  obtain ⟨file', h1, h2, h3⟩ := C101_created_partial F env.fs ht xml none none ⟨rfl, by simp⟩ portOk ports
    { type := "Mapped", slave := o.a, name := o.m } rfl name hom
  cases mapFile_unique (given := none) hfile h1
  have key : clientDeviceNew (mappedNew F env.fs xml none) portOk ports { type := "Mapped", slave := o.a, name := o.m } =
      (ports, .error .modbusMapError) := by
    rcases hbad with ⟨e, he⟩ | ⟨d, e, hd, he⟩ | ⟨d, root, hd, hr, ho⟩
    · exact h2 e he
    · exact (h3 d hd).1 e he
    · exact ((h3 d hd).2 root hr).1 ho
  have ha : sunsArgs o = some { type := "Mapped", slave := o.a, name := o.m } := by
    unfold sunsArgs
    rw [hot]
    rfl
  unfold sunsFiles sunsMain
  rw [ha]
  dsimp only
  rw [key]
  rfl

/-! ### Example -/

theorem fileMap_reportable : Reportable filesLib (docMem 40000 fileRegs) ⟨900, 40004, 5⟩ := by
  obtain ⟨mt, h1, h2, h3, h4, h5⟩ := fileMap_presented
  have hs : ∀ b ∈ (foundModel filesLib ⟨900, 40004, 5⟩).blocks, (∀ p ∈ b.pts, p.sf = none) ∧ b.sfs = [] := by decide +kernel
  refine ⟨⟨mt, h1, h2, ?_, h3, h4⟩, h5, ?_, ?_, ?_, ?_⟩
  · have : filesLib 900 = .ok fileType := by decide +kernel
    rw [this] at h1
    cases h1
    have h2 : fileType.rep = some (fileType.rep.getD fileType.fixed) := by decide +kernel
    refine ⟨by decide +kernel, ?_, ?_⟩
    · intro rb h; rw [h2] at h; cases h; decide +kernel
    · intro rb h; rw [h2] at h; cases h; decide +kernel
  · have : modelName (foundModel filesLib ⟨900, 40004, 5⟩) = t!"demo" := by decide +kernel
    rw [this]
    unfold FreeName
    decide
  · intro b hb p hp h
    exact absurd ((hs b hb).1 p hp) h
  · intro b hb p hp c hc
    rw [(hs b hb).1 p hp] at hc
    cases hc
  · intro b hb q hq
    rw [(hs b hb).2] at hq
    cases hq

/-- The file `/x/p.xml` is the document `fileMap`. -/
theorem fileMap_open : OpenFile filesFS "/x/p.xml".toList (.ok [2]) := by
  have h := mapData_spec (paths := none) (given := none) filesFS_tree ⟨rfl, by simp⟩ "/x/p.xml".toList
  rw [show mapData filesFS none "/x/p.xml".toList = .ok [2] by decide +kernel] at h
  exact h

/-- Non-vacuity: the report of the document. -/
example (portOk : String → Bool) (ports : Lines) (net : Option (MbObj MbMap) → Printed × CmdEnd) : ∃ ms secs,
    sunsFiles noFloats filesEnv mapXml 10 exactLib portOk ports net { t := "mapped", m := some "/x/p.xml" } = (.report secs.flatten, .done) ∧
      List.Forall₂ (ModelRead (docMem 40000 fileRegs)) [foundModel filesLib ⟨900, 40004, 5⟩] ms ∧ List.Forall₂ (ModelShows exactLib) ms secs := by
  obtain ⟨ms, secs, h1, h2, h3, -⟩ := C89_document_partial noFloats filesEnv filesFS_tree _ filesEnv_places filesEnv_ok filesLib
    (fileLibrary filesFS_tree filesEnv_places) mapXml exactLib exactLib_ok portOk ports net { t := "mapped", m := some "/x/p.xml" } rfl "/x/p.xml" rfl
    [2] fileMap_open fileMap rfl 40000 fileRegs fileMap_holds [] 40000 [0, 50000] rfl (by simp) fileMap_chain.1 _ fileMap_chain.2
    (by intro f hf; cases List.mem_singleton.1 hf; exact fileMap_reportable) 10 (by decide)
  exact ⟨ms, secs, h1, h2, h3⟩

/-- There is no file `/x/q.xml`. -/
example (portOk : String → Bool) (ports : Lines) (net : Option (MbObj MbMap) → Printed × CmdEnd) :
    sunsFiles noFloats filesEnv mapXml 10 exactLib portOk ports net { t := "mapped", m := some "/x/q.xml" } = (.nothing, .raised .modbusMapError) := by
  have h := mapData_spec (paths := none) (given := none) filesFS_tree ⟨rfl, by simp⟩ "/x/q.xml".toList
  exact C89_bad_document noFloats filesEnv filesFS_tree mapXml exactLib portOk ports net _ rfl "/x/q.xml" rfl _ h
    (.inl (by
      rw [show mapData filesFS none "/x/q.xml".toList = .error .osError by decide +kernel]
      exact ⟨_, rfl⟩)) 10

end Verif
