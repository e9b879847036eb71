import Verif.Spec.Files
import Verif.Props.Paths
import Verif.Props.Scan
import Verif.Props.Pics
import Verif.Props.Smdx
import Verif.Props.Value

/-!
# C92, C93: definitions and documents in files
-/

namespace Verif
open Spec

theorem reached_keys {τ} {st : TypeState τ} (h : TypesReached st) : IntKeys st := by
  induction h with
  | start => exact intKeys_empty
  | asked env id _ ih => exact (modelTypeGet_miss env _ id ih _ _ rfl).1

theorem getType_reached {env : TypeEnv ModelType} {ts : TypeState ModelType} (h : TypesReached ts) (id : Int) :
    TypesReached (getType env ts id).1 ∧ (getType env ts id).2 = loadType env (.int id) := by
  refine ⟨.asked env _ h, ?_⟩
  unfold getType
  generalize hg : modelTypeGet env ts (.int id) = g
  obtain ⟨st', r⟩ := g
  obtain ⟨_, h2, h3⟩ := modelTypeGet_miss env ts (.int id) (reached_keys h) st' r hg
  cases r with
  | error e => exact ((h2 e rfl).1).symm
  | ok a =>
    obtain ⟨h4, _, t, h5, h6⟩ := h3 a rfl
    dsimp only
    rw [h6, h4, h5]
    simp

theorem scanLoopFiles_eq {σ} (env : TypeEnv ModelType) (dev : MbDev σ) (prog : List MdlObj → Int → Bool) :
    ∀ (fuel : Nat) (id addr : Int) (ts : TypeState ModelType) (c : CliDev σ), TypesReached ts →
    TypesReached (scanLoopFiles env dev prog fuel id addr ts c).1 ∧
    (scanLoopFiles env dev prog fuel id addr ts c).2 = scanLoop dev (fun i => loadType env (.int i)) prog fuel id addr c := by
  intro fuel
  induction fuel with
  | zero => intro id addr ts c h; exact ⟨h, rfl⟩
  | succ n ih =>
    intro id addr ts c h
    rw [scanLoopFiles, scanLoop]
    by_cases h0 : id = 65535
    · rw [if_pos h0, if_pos h0]; exact ⟨h, rfl⟩
    rw [if_neg h0, if_neg h0]
    generalize cdRead dev c.st (addr + 1) 1 = r1
    obtain ⟨s1, r1⟩ := r1
    cases r1 with
    | error e => exact ⟨h, rfl⟩
    | ok d1 =>
    dsimp only
    cases wordOf d1 with
    | none => exact ⟨h, rfl⟩
    | some len =>
    dsimp only
    by_cases hg : prog c.list id = false
    · rw [if_pos hg, if_pos hg]; exact ⟨h, rfl⟩
    rw [if_neg hg, if_neg hg]
    obtain ⟨h1, h2⟩ := getType_reached (env := env) h id
    generalize getType env ts id = g at h1 h2
    obtain ⟨ts1, mt⟩ := g
    dsimp only at h1 h2 ⊢
    subst h2
    cases scanLoad (loadType env (.int id)) (mdlNew id (addr + 2) len) with
    | error e => exact ⟨h1, rfl⟩
    | ok m =>
    dsimp only
    generalize cdRead dev s1 (addr + (len + 2)) 1 = r2
    obtain ⟨s2, r2⟩ := r2
    cases r2 with
    | error e => exact ⟨h1, rfl⟩
    | ok d2 =>
    dsimp only
    cases wordOf d2 with
    | none => exact ⟨h1, rfl⟩
    | some id2 => exact ih _ _ _ _ h1

theorem scanBodyFiles_eq {σ} (env : TypeEnv ModelType) (fuel : Nat) (dev : MbDev σ) (prog : List MdlObj → Int → Bool)
    (ts : TypeState ModelType) (c : CliDev σ) (h : TypesReached ts) :
    TypesReached (scanBodyFiles env fuel dev prog ts c).1 ∧
    (scanBodyFiles env fuel dev prog ts c).2 = scanBody fuel dev (fun i => loadType env (.int i)) prog c := by
  unfold scanBodyFiles scanBody
  cases c.base with
  | some b => exact ⟨h, rfl⟩
  | none =>
    dsimp only
    generalize probe dev c.bases c.st = r
    obtain ⟨s, r⟩ := r
    cases r with
    | error e => exact ⟨h, rfl⟩
    | ok o =>
      cases o with
      | none => exact ⟨h, rfl⟩
      | some x =>
        obtain ⟨a, d⟩ := x
        dsimp only
        unfold scanFromFiles scanFrom
        cases wordOf (some ((d.drop 4).take 2)) with
        | none => exact ⟨h, rfl⟩
        | some id => exact scanLoopFiles_eq env dev prog _ _ _ _ _ h

theorem scanFiles_eq {σ} (env : TypeEnv ModelType) (fuel : Nat) (dev : ScanDev σ) (prog : List MdlObj → Int → Bool)
    (ts : TypeState ModelType) (c : CliDev σ) (h : TypesReached ts) :
    TypesReached (scanFiles env fuel dev prog ts c).1 ∧
    (scanFiles env fuel dev prog ts c).2 = scan fuel dev (fun i => loadType env (.int i)) prog c := by
  unfold scanFiles scan
  cases dev.conn with
  | none => exact scanBodyFiles_eq env fuel _ prog ts c h
  | some f =>
    dsimp only
    generalize f c.st = r
    obtain ⟨s, r⟩ := r
    cases r with
    | error e => exact ⟨h, rfl⟩
    | ok u =>
      obtain ⟨h1, h2⟩ := scanBodyFiles_eq env fuel dev.toMbDev prog ts { c with st := s } h
      exact ⟨h1, congrArg (scanEnd dev.disc) h2⟩

theorem fileLibrary {env : TypeEnv ModelType} (ht : Tree env.fs) {ps : Option (List Place)}
    (hp : ProperPlaces env.fs env.pathlist ps) : FileLibrary env ps (fun i => loadType env (.int i)) := by
  intro id
  refine ⟨_, C45_definition_file_partial env ht ps hp.1 hp.2 (idToFilename id), ?_⟩
  rcases loadType_spec env (.int id) _ rfl with ⟨_, h⟩ | ⟨i, h1, h2⟩
  · exact absurd (ModelId.int id) (h id)
  · cases h1; exact h2

/-- C92: scanning any device, with any library of definition files, gives the result of a scan with the definitions that are in
the files; what has been loaded before, from whatever files there were, makes no difference. A definition that is asked for
afterwards is the same again. -/
theorem C92_scan_partial (env : TypeEnv ModelType) (ht : Tree env.fs) (ps : Option (List Place))
    (hp : ProperPlaces env.fs env.pathlist ps) :
    ∃ lib, FileLibrary env ps lib ∧ ∀ {σ} (fuel : Nat) (dev : ScanDev σ) (prog : List MdlObj → Int → Bool) (c : CliDev σ)
      (ts : TypeState ModelType), TypesReached ts →
      (scanFiles env fuel dev prog ts c).2 = scan fuel dev lib prog c ∧ TypesReached (scanFiles env fuel dev prog ts c).1 ∧
      ∀ id, (getType env (scanFiles env fuel dev prog ts c).1 id).2 = lib id := by
  refine ⟨_, fileLibrary ht hp, ?_⟩
  intro σ fuel dev prog c ts h
  obtain ⟨h1, h2⟩ := scanFiles_eq env fuel dev prog ts c h
  exact ⟨h2, h1, fun id => (getType_reached h1 id).2⟩

/-- C92: what a definition in the library says is what its file says: the first `model` element of the document in the file
describes it (see C56). -/
theorem C92_document (env : TypeEnv ModelType) (xml : Bytes → Py Elem) (hx : env.parse = smdxBytes xml) (ps : Option (List Place))
    (lib : Int → Py ModelType) (hl : FileLibrary env ps lib) (id : Int) (t : ModelType) (h : lib id = .ok t) :
    ∃ d root m ms def_, DefinitionFile env.fs ps env.default (idToFilename id) (.ok d) ∧ xml d = .ok root ∧
      root.findall "model" = m :: ms ∧ DefOf m def_ ∧
      def_.id = some t.id ∧ def_.len = some t.len ∧ def_.name = some t.name ∧ def_.fixed = some t.fixed ∧ def_.rep = t.rep := by
  obtain ⟨file, h1, h2⟩ := hl id
  rw [h] at h2
  obtain ⟨d, rfl, _, h3⟩ := h2
  rw [hx] at h3
  unfold smdxBytes at h3
  cases hr : xml d with
  | error e => rw [hr] at h3; cases h3
  | ok root =>
    rw [hr] at h3
    dsimp only at h3
    cases hs : smdxParse root with
    | error e => rw [hs] at h3; cases h3
    | ok df =>
      rw [hs] at h3
      dsimp only at h3
      cases hm : df.toModelType with
      | none => rw [hm] at h3; cases h3
      | some m' =>
        rw [hm] at h3
        cases h3
        have hid : df.id = some t.id ∧ df.len = some t.len ∧ df.name = some t.name ∧ df.fixed = some t.fixed ∧ df.rep = t.rep := by
          unfold TypeDef.toModelType at hm
          split at hm
          · rename_i i l n f h4 h5 h6 h7
            cases hm
            exact ⟨h4, h5, h6, h7, rfl⟩
          · cases hm
        cases hmod : root.findall "model" with
        | nil =>
          exfalso
          obtain ⟨d0, h0, _⟩ := smdxParse_ok.mp hs
          obtain ⟨c1, _⟩ := smdxParse_core h0 hs
          unfold modelElem at h0
          rw [hmod] at h0
          cases h0
          rw [hid.1] at c1
          cases c1
        | cons m ms => exact ⟨d, root, m, ms, df, h1, hr, hmod, C56_attributes hmod hs, hid⟩

theorem has_ends {env : TypeEnv ModelType} (h : FilesReadable env) (p : Place) (name : Text) (r : Py Bytes) (hr : p.Has env.fs name r) :
    r ≠ .error .diverge := by
  cases p with
  | dir p =>
    obtain ⟨e, h1, rfl⟩ := hr
    exact h.data _ _ _ h1
  | zip f i =>
    obtain ⟨e, h1, ⟨m, h2, h3⟩ | ⟨x, h2, rfl⟩⟩ := hr
    · intro hd; subst hd; exact h.member _ _ _ _ _ h1 h2 h3
    · intro hd; cases hd; exact h.zip _ _ _ h1 h2

theorem file_ends {env : TypeEnv ModelType} (h : FilesReadable env) {ps : Option (List Place)} {name : Text} {r : Py Bytes}
    (hr : DefinitionFile env.fs ps env.default name r) : r ≠ .error .diverge := by
  have key : ∀ r, LocalFile env.fs env.default name r → r ≠ .error .diverge := by
    intro r hr
    have hf : ∀ (e : Entry) (r : Py Bytes), FileRead e r → r ≠ .error .diverge := by
      intro e r hr
      rcases hr with ⟨d, _, rfl⟩ | ⟨x, _, rfl⟩ <;> simp
    rcases hr with ⟨e, _, h1⟩ | ⟨_, e, _, h1⟩ | ⟨_, _, rfl⟩
    · exact hf e r h1
    · exact hf e r h1
    · simp
  cases ps with
  | none => exact key r hr
  | some ps =>
    obtain ⟨r1, h1, h2⟩ := hr
    split at h2
    · exact key r h2
    · subst h2
      rcases h1 with ⟨_, p, _, _, _, h3⟩ | ⟨_, rfl⟩
      · exact has_ends h p name r h3
      · simp

theorem library_definitions {env : TypeEnv ModelType} (h : FilesReadable env) {ps : Option (List Place)} {lib : Int → Py ModelType}
    (hl : FileLibrary env ps lib) : Definitions lib := by
  intro id
  obtain ⟨file, h1, h2⟩ := hl id
  constructor
  · intro hd
    rw [hd] at h2
    rcases h2 with h2 | ⟨_, h2⟩ | ⟨d, _, _, h2 | ⟨x, _, h2⟩⟩
    · exact file_ends h h1 h2
    · cases h2
    · exact h.parse d h2
    · cases h2
  · intro t rb n ht
    rw [ht] at h2
    obtain ⟨d, _, _, h3⟩ := h2
    exact h.rep d t rb n h3

/-- C92: scanning a device whose memory presents a chain of models (see C38) finds these models, each loaded with the definition in
its file. -/
theorem C92_found_partial (env : TypeEnv ModelType) (ht : Tree env.fs) (ps : Option (List Place))
    (hp : ProperPlaces env.fs env.pathlist ps) (hd : FilesReadable env)
    {σ} {dev : ScanDev σ} {R : σ → RegMem → Prop} {wr : Nat → Prop} (hdev : ScanMem dev R wr) (mem : RegMem) (c : CliDev σ)
    (hc : R c.st mem) (hb : c.base = none) (pre : List Int) (b : Int) (post : List Int) (hbases : c.bases = pre ++ b :: post)
    (hpre : ∀ a ∈ pre, ¬ SunSAt mem a ∧ memRegs mem a 3 ≠ none) (hs : SunSAt mem b) (ms : List Found) (hch : Chain mem (b + 2) ms)
    (fuel : Nat) (hf : ms.length < fuel) (ts : TypeState ModelType) (hts : TypesReached ts) :
    ∃ lib c', FileLibrary env ps lib ∧ (scanFiles env fuel dev (fun _ _ => true) ts c).2 = (c', .ok ()) ∧ R c'.st mem ∧
      c'.base = some b ∧ c'.list = c.list ++ ms.map (foundModel lib) := by
  have hl := fileLibrary ht hp
  obtain ⟨c', h1, h2, h3, _, h4, _⟩ := C38_scan_partial hdev _ (library_definitions hd hl) mem c hc hb pre b post hbases hpre hs ms hch fuel hf
  exact ⟨_, c', hl, (scanFiles_eq env fuel dev _ ts c hts).2.trans h1, h2, h3, h4⟩

/-- C92: `check_for_models` raises unless the common model has a definition. -/
theorem C92_check_partial (env : TypeEnv ModelType) (ht : Tree env.fs) (ps : Option (List Place))
    (hp : ProperPlaces env.fs env.pathlist ps) (ts : TypeState ModelType) (hts : TypesReached ts) :
    ∃ (file : Py Bytes) (r : Py ModelType), DefinitionFile env.fs ps env.default (t!"smdx_00001.xml") file ∧ Spec.Loaded env file r ∧
      ((checkForModels env ts).2 = true ↔ ∃ t, r = .ok t) := by
  obtain ⟨file, h1, h2⟩ := fileLibrary ht hp 1
  refine ⟨file, _, ?_, h2, ?_⟩
  · have e : idToFilename 1 = t!"smdx_00001.xml" := by decide +kernel
    rw [← e]; exact h1
  · unfold checkForModels
    rw [(getType_reached hts 1).2]
    dsimp only
    cases loadType env (.int 1) with
    | ok t => simp
    | error e => simp

/-! ## C93 -/

theorem picsModelFiles_eq (env : TypeEnv ModelType) (lib : FloatLib) (ts : TypeState ModelType) (h : TypesReached ts) (addr : Int)
    (e : Elem) : TypesReached (picsModelFiles env lib ts addr e).1 ∧
    (picsModelFiles env lib ts addr e).2 = deviceModelFromPics lib (fun i => loadType env (.int i)) addr e := by
  unfold picsModelFiles deviceModelFromPics
  by_cases h0 : e.tag ≠ "model"
  · rw [if_pos h0, if_pos h0]; exact ⟨h, rfl⟩
  rw [if_neg h0, if_neg h0]
  cases e.get "id" with
  | none => exact ⟨h, rfl⟩
  | some sid =>
  cases e.get "len" with
  | none => exact ⟨h, rfl⟩
  | some slen =>
  dsimp only
  cases pyInt 10 slen with
  | none => exact ⟨h, rfl⟩
  | some len =>
  dsimp only
  cases pyInt 10 sid with
  | none => exact ⟨h, rfl⟩
  | some id =>
  dsimp only
  obtain ⟨h1, h2⟩ := getType_reached (env := env) h id
  generalize getType env ts id = g at h1 h2
  obtain ⟨ts1, mt⟩ := g
  dsimp only at h1 h2 ⊢
  subst h2
  generalize mdlLoad (loadType env (.int id)) (mdlNew id (addr + 2) len) = r
  obtain ⟨m, r⟩ := r
  cases r with
  | ok u => exact ⟨h1, rfl⟩
  | error x => cases x <;> exact ⟨h1, rfl⟩

theorem picsModelsFiles_eq (env : TypeEnv ModelType) (lib : FloatLib) (es : List Elem) :
    ∀ (ts : TypeState ModelType) (addr : Int), TypesReached ts →
    TypesReached (picsModelsFiles env lib ts addr es).1 ∧
    (picsModelsFiles env lib ts addr es).2 = modelsFromPics lib (fun i => loadType env (.int i)) addr es := by
  induction es with
  | nil => intro ts addr h; exact ⟨h, rfl⟩
  | cons e es ih =>
    intro ts addr h
    rw [picsModelsFiles, modelsFromPics]
    obtain ⟨h1, h2⟩ := picsModelFiles_eq env lib ts h addr e
    generalize picsModelFiles env lib ts addr e = g at h1 h2
    obtain ⟨ts1, r⟩ := g
    dsimp only at h1 h2 ⊢
    subst h2
    cases deviceModelFromPics lib (fun i => loadType env (.int i)) addr e with
    | error x => exact ⟨h1, rfl⟩
    | ok m =>
      dsimp only
      obtain ⟨h3, h4⟩ := ih ts1 (addr + m.len + 2) h1
      exact ⟨h3, by rw [h4]⟩

theorem inPlaces {fs : FS} (ht : Tree fs) {paths : Option (List Text)} {ps : Option (List Place)} (hp : ProperPlaces fs paths ps)
    (name : Text) : InPlaces fs ps name (listRead fs paths name) := by
  obtain ⟨rfl, h2⟩ := hp
  cases ps with
  | none => rfl
  | some l =>
    obtain ⟨h3, h4⟩ := h2 l rfl
    refine ⟨_, C43_first_partial ht l h3 h4 name, ?_⟩
    simp only [Option.map_some, listRead]
    cases pathRead fs (l.map Place.text) name with
    | ok d => simp
    | error e =>
      by_cases he : e = .nameError
      · simp [he]
      · simp [he]

/-- C93: the document that `from_pics` reads is the one in the first place of the given path list that has it, else of the general
path list, else the one in the current directory; an empty file is like none. -/
theorem C93_document_partial (env : TypeEnv ModelType) (ht : Tree env.fs) (given general : Option (List Place))
    (paths : Option (List Text)) (h1 : ProperPlaces env.fs paths given) (h2 : ProperPlaces env.fs env.pathlist general) (name : Text) :
    DocumentFile env.fs given general name (picsData env paths name) := by
  refine ⟨_, inPlaces ht h1 name, ?_⟩
  have h3 := inPlaces ht h2 name
  unfold picsData
  generalize listRead env.fs paths name = r1
  generalize listRead env.fs env.pathlist name = r2 at h3
  cases r1 with
  | error e => simp
  | ok d =>
    cases d with
    | cons b d => simp
    | nil =>
      simp only [ne_eq, not_true_eq_false, if_false]
      refine ⟨_, h3, ?_⟩
      cases r2 with
      | error e => simp
      | ok d =>
        cases d with
        | cons b d => simp
        | nil =>
          simp only [not_true_eq_false, if_false]
          unfold OpenFile
          cases env.fs.get name with
          | none => exact .inr ⟨rfl, rfl⟩
          | some e => exact .inl ⟨e, rfl, rfl⟩

/-- C93: `from_pics` with a name reads that document and adds the models in it (see C41), with the definitions in the files; what has
been loaded before makes no difference. If the document cannot be read or is not XML, there is a `SunSpecError`. -/
theorem C93_from_pics_partial (env : TypeEnv ModelType) (ht : Tree env.fs) (given general : Option (List Place))
    (paths : Option (List Text)) (h1 : ProperPlaces env.fs paths given) (h2 : ProperPlaces env.fs env.pathlist general) (name : Text) :
    ∃ (types : Int → Py ModelType) (file : Py Bytes), FileLibrary env general types ∧ DocumentFile env.fs given general name file ∧
      ∀ (lib : FloatLib) (xml : Bytes → Py Elem) (ts : TypeState ModelType), TypesReached ts →
      TypesReached (picsFiles env lib xml ts paths name).1 ∧
      (picsFiles env lib xml ts paths name).2 =
        match file with
        | .error _ => ([], .error .sunSpecError)
        | .ok data =>
          match xml data with
          | .error _ => ([], .error .sunSpecError)
          | .ok root => deviceFromPicsFile lib types root := by
  refine ⟨_, picsData env paths name, fileLibrary ht h2, C93_document_partial env ht given general paths h1 h2 name, ?_⟩
  intro lib xml ts h
  unfold picsFiles
  cases picsData env paths name with
  | error e => exact ⟨h, rfl⟩
  | ok data =>
  dsimp only
  cases xml data with
  | error e => exact ⟨h, rfl⟩
  | ok root =>
  dsimp only
  unfold deviceFromPicsFile
  by_cases h3 : root.tag ≠ "sunSpecPics"
  · rw [if_pos h3, if_pos h3]; exact ⟨h, rfl⟩
  rw [if_neg h3, if_neg h3]
  cases root.findall "device" with
  | nil => exact ⟨h, rfl⟩
  | cons e es =>
    dsimp only
    unfold deviceFromPics
    by_cases h4 : e.tag ≠ "device"
    · rw [if_pos h4, if_pos h4]; exact ⟨h, rfl⟩
    rw [if_neg h4, if_neg h4]
    cases e.get "addr" with
    | some a => exact ⟨h, rfl⟩
    | none =>
      dsimp only
      obtain ⟨h5, h6⟩ := picsModelsFiles_eq env lib e.children ts 40002 h
      generalize picsModelsFiles env lib ts 40002 e.children = g at h5 h6
      obtain ⟨ts1, g⟩ := g
      dsimp only at h5 h6
      rw [← h6]
      obtain ⟨ms, r⟩ := g
      cases r with
      | ok u => exact ⟨h5, rfl⟩
      | error x => cases x <;> exact ⟨h5, rfl⟩

/-- C93: whatever goes wrong, `from_pics` raises a `SunSpecError` (unless a definition makes loading a model endless, see C29). -/
theorem C93_errors (env : TypeEnv ModelType) (lib : FloatLib) (xml : Bytes → Py Elem) (ts : TypeState ModelType)
    (paths : Option (List Text)) (name : Text) (x : Exc) (h : (picsFiles env lib xml ts paths name).2.2 = .error x) :
    x = .sunSpecError ∨ x = .diverge := by
  unfold picsFiles at h
  split at h
  · cases h; exact .inl rfl
  · split at h
    · cases h; exact .inl rfl
    · split at h
      · cases h; exact .inl rfl
      · split at h
        · cases h; exact .inl rfl
        · split at h
          · cases h; exact .inl rfl
          · split at h
            · cases h; exact .inl rfl
            · split at h
              · cases h
              · cases h; exact .inr rfl
              · cases h; exact .inl rfl

/-! ## Examples -/

/-- A definition of model 900: a fixed block of three registers, and repeating blocks of two. -/
def fileDoc : Elem :=
  .mk "sunSpecModels" [] none
    [.mk "model" [("id", t!"900"), ("len", t!"5"), ("name", t!"demo")] none
      [.mk "block" [("len", t!"3")] none
        [.mk "point" [("id", t!"A"), ("offset", t!"0"), ("type", t!"int16")] none [],
         .mk "point" [("id", t!"B"), ("offset", t!"1"), ("type", t!"uint32")] none []],
       .mk "block" [("len", t!"2"), ("type", t!"repeating")] none
        [.mk "point" [("id", t!"C"), ("offset", t!"0"), ("type", t!"uint16")] none []]]]

/-- A PICS document with two models; there is no definition of the second. -/
def filePics : Elem :=
  .mk "sunSpecPics" [] none [.mk "device" [] none
    [.mk "model" [("id", t!"900"), ("len", t!"5")] none
      [.mk "block" [] none [.mk "point" [("id", t!"A")] (some (t!"-7")) []]],
     .mk "model" [("id", t!"9"), ("len", t!"1")] none []]]

/-- `/m` contains the definition of model 900, `/x` the PICS document. -/
def filesFS : FS := fun abs cs =>
  if abs = true ∧ (cs = [] ∨ cs = [t!"m"] ∨ cs = [t!"x"]) then some ⟨.error .osError, .error .osError⟩
  else if abs = true ∧ cs = [t!"m", t!"smdx_00900.xml"] then some ⟨.ok [1], .error .badZipFile⟩
  else if abs = true ∧ cs = [t!"x", t!"p.xml"] then some ⟨.ok [2], .error .badZipFile⟩
  else none

def filesXml (d : Bytes) : Py Elem := if d = [1] then .ok fileDoc else if d = [2] then .ok filePics else .error .parseError

def filesEnv : TypeEnv ModelType := ⟨filesFS, some [t!"/x"], t!"/m", smdxBytes filesXml, ModelType.id⟩

theorem filesFS_tree : Tree filesFS := by
  intro abs cs ds h
  cases ds with
  | nil => simpa using h
  | cons x ds =>
  cases abs with
  | false => simp [filesFS]
  | true =>
  have hc : ∀ l : List Text, cs ++ x :: ds = l → l = [t!"m", t!"smdx_00900.xml"] ∨ l = [t!"x", t!"p.xml"] ∨ l = [] ∨ l = [t!"m"] ∨ l = [t!"x"] → False := by
    intro l e hl
    unfold filesFS at h
    match cs with
    | [] => simp at h
    | [c] =>
      have : c = t!"m" ∨ c = t!"x" := by
        rcases hl with rfl | rfl | rfl | rfl | rfl <;> simp at e <;> simp [e.1]
      rcases this with rfl | rfl <;> simp at h
    | c :: c' :: r => rcases hl with rfl | rfl | rfl | rfl | rfl <;> simp at e
  unfold filesFS
  rw [if_neg, if_neg, if_neg]
  · intro e; exact hc _ e.2 (by simp)
  · intro e; exact hc _ e.2 (by simp)
  · rintro ⟨_, e⟩
    rcases e with e | e | e <;> exact hc _ e (by simp)

theorem filesEnv_places : ProperPlaces filesEnv.fs filesEnv.pathlist (some [.dir [[], t!"x"]]) := by
  refine ⟨by decide +kernel, ?_⟩
  intro l hl
  cases hl
  refine ⟨?_, by simp⟩
  intro p hp
  cases List.mem_singleton.1 hp
  refine ⟨by simp, by simp, ?_⟩
  intro c hc
  simp only [List.mem_cons, List.not_mem_nil, or_false] at hc
  rcases hc with rfl | rfl
  · exact ⟨by decide, by rw [← isZipName_iff]; decide⟩
  · exact ⟨by decide, by rw [← isZipName_iff]; decide⟩

/-- The definition of model 900 has been loaded before, when there was another file. -/
def usedTypes : TypeState ModelType :=
  (modelTypeGet { filesEnv with parse := fun _ => .ok (.ok exType) } {} (.int 900)).1

theorem usedTypes_reached : TypesReached usedTypes := .asked _ _ .start

example : usedTypes.reads = 1 ∧ usedTypes.cache ≠ [] := by decide +kernel

/-- What a model object has: id, whether there was an error, points. -/
def summary (ms : List MdlObj) : List (Int × Bool × List (List Text)) :=
  ms.map fun m => (m.id, m.loadError, m.blocks.map fun b => b.pts.map fun p => p.pt.id)

example : summary (scanFiles filesEnv 10 mapScanDev (fun _ _ => true) usedTypes ⟨scanMap, none, [40000, 0, 50000], [], []⟩).2.1.list =
    [(900, false, [[t!"A", t!"B"], [t!"C"]]), (9, true, [])] := by decide +kernel

example : summary (picsFiles filesEnv exactLib filesXml usedTypes none (t!"p.xml")).2.1 =
    [(900, false, [[t!"A", t!"B"], [t!"C"]]), (9, true, [])] ∧
    (picsFiles filesEnv exactLib filesXml usedTypes none (t!"q.xml")).2.2 = .error .sunSpecError ∧
    (checkForModels filesEnv usedTypes).2 = false := by decide +kernel

example : ∃ lib, FileLibrary filesEnv (some [.dir [[], t!"x"]]) lib ∧
    (scanFiles filesEnv 10 mapScanDev (fun _ _ => true) usedTypes ⟨scanMap, none, [40000, 0, 50000], [], []⟩).2 =
      scan 10 mapScanDev lib (fun _ _ => true) ⟨scanMap, none, [40000, 0, 50000], [], []⟩ := by
  obtain ⟨lib, h1, h2⟩ := C92_scan_partial filesEnv filesFS_tree _ filesEnv_places
  exact ⟨lib, h1, (h2 10 mapScanDev _ _ _ usedTypes_reached).1⟩

theorem filesEnv_ok : FilesReadable filesEnv := by
  have hfs : ∀ abs cs e, filesFS abs cs = some e → (∃ x, e.zip = .error x ∧ x ≠ .diverge) ∧ e.data ≠ .error .diverge := by
    intro abs cs e h
    unfold filesFS at h
    split at h
    · cases h; exact ⟨⟨_, rfl, by decide⟩, by decide⟩
    · split at h
      · cases h; exact ⟨⟨_, rfl, by decide⟩, by decide⟩
      · split at h
        · cases h; exact ⟨⟨_, rfl, by decide⟩, by decide⟩
        · cases h
  have hx : ∀ d, filesXml d = .error .parseError ∨ filesXml d = .ok filePics ∨ filesXml d = .ok fileDoc := by
    intro d
    unfold filesXml
    split
    · exact .inr (.inr rfl)
    · split
      · exact .inr (.inl rfl)
      · exact .inl rfl
  have e1 : ∃ x, smdxBytes filesXml [2] = .ok (.error x) := ⟨.typeError, by decide +kernel⟩
  have e2 : (match smdxBytes filesXml [1] with
      | .ok (.ok t) => t.rep.map fun b => b.len.toInt
      | _ => none) = some (.ok 2) := by decide +kernel
  have hd : ∀ d, smdxBytes filesXml d = .error .parseError ∨ smdxBytes filesXml d = smdxBytes filesXml [2] ∨
      smdxBytes filesXml d = smdxBytes filesXml [1] := by
    intro d
    rcases hx d with h | h | h
    · exact .inl (by unfold smdxBytes; rw [h])
    · exact .inr (.inl (by unfold smdxBytes; rw [h]; rfl))
    · exact .inr (.inr (by unfold smdxBytes; rw [h]; rfl))
  refine ⟨fun abs cs e h => (hfs abs cs e h).2, ?_, ?_, ?_, ?_⟩
  · intro abs cs e h h2
    obtain ⟨⟨x, h3, h4⟩, _⟩ := hfs abs cs e h
    rw [h3] at h2; cases h2; exact h4 rfl
  · intro abs cs e m name h h2
    obtain ⟨⟨x, h3, h4⟩, _⟩ := hfs abs cs e h
    rw [h3] at h2; cases h2
  · intro d h
    have h : smdxBytes filesXml d = .error .diverge := h
    rcases hd d with h1 | h1 | h1
    · rw [h1] at h; cases h
    · obtain ⟨x, hx1⟩ := e1
      rw [h1, hx1] at h; cases h
    · rw [← h1, h] at e2; cases e2
  · intro d t rb n h hr hn
    have h : smdxBytes filesXml d = .ok (.ok t) := h
    rcases hd d with h1 | h1 | h1
    · rw [h1] at h; cases h
    · obtain ⟨x, hx1⟩ := e1
      rw [h1, hx1] at h; cases h
    · rw [← h1, h] at e2
      dsimp only at e2
      rw [hr] at e2
      simp only [Option.map_some, Option.some.injEq] at e2
      rw [hn] at e2
      cases e2
      decide

example : ∃ lib c', FileLibrary filesEnv (some [.dir [[], t!"x"]]) lib ∧
    (scanFiles filesEnv 10 mapScanDev (fun _ _ => true) usedTypes ⟨scanMap, none, [40000, 0, 50000], [], []⟩).2 = (c', .ok ()) ∧
    c'.list = [⟨900, 40004, 5⟩, ⟨9, 40011, 1⟩].map (foundModel lib) := by
  obtain ⟨lib, c', h1, h2, _, _, h3⟩ := C92_found_partial filesEnv filesFS_tree _ filesEnv_places filesEnv_ok (mapScan_mem 40000) _
    ⟨scanMap, none, [40000, 0, 50000], [], []⟩ ⟨_, scanMap_ok, rfl⟩ rfl [] 40000 [0, 50000] rfl (by simp) scanMap_chain.1 _ scanMap_chain.2
    10 (by decide) usedTypes usedTypes_reached
  exact ⟨lib, c', h1, h2, h3⟩

example : DocumentFile filesFS none (some [.dir [[], t!"x"]]) (t!"p.xml") (.ok [2]) := by
  have h := C93_document_partial filesEnv filesFS_tree none _ none ⟨rfl, by simp⟩ filesEnv_places (t!"p.xml")
  have e : picsData filesEnv none (t!"p.xml") = .ok [2] := by decide +kernel
  rw [e] at h
  exact h

/-! ## The full statements -/

/-- C92, in full: for any path list of proper places. Violated: see `C92_violated`. -/
def C92_full : Prop :=
  ∀ (env : TypeEnv ModelType), Tree env.fs → ∀ ps : List Place, (∀ p ∈ ps, p.Proper) → env.pathlist = some (ps.map Place.text) →
    ∃ lib, FileLibrary env (some ps) lib ∧ ∀ (ts : TypeState ModelType), TypesReached ts →
      (∀ id, (getType env ts id).2 = lib id) ∧
      ∀ (fuel : Nat) (prog : List MdlObj → Int → Bool) (c : CliDev MbMap),
        (scanFiles env fuel mapScanDev prog ts c).2 = scan fuel mapScanDev lib prog c

/-- C93, in full. Violated: see `C93_violated`. -/
def C93_full : Prop :=
  ∀ (env : TypeEnv ModelType), Tree env.fs → env.pathlist = none → ∀ (ps : List Place), (∀ p ∈ ps, p.Proper) → ∀ name : Text,
    DocumentFile env.fs (some ps) none name (picsData env (some (ps.map Place.text)) name)

/-- A zip file `b.zip` without members and a directory `d` with a file. -/
def mixedFS : FS := fun abs cs =>
  if abs = true then none
  else if cs = [] ∨ cs = [t!"d"] then some ⟨.error .osError, .error .osError⟩
  else if cs = [t!"d", t!"smdx_00900.xml"] then some ⟨.ok [1], .error .badZipFile⟩
  else if cs = [t!"b.zip"] then some ⟨.ok [3], .ok fun _ => none⟩
  else none

def mixedEnv : TypeEnv ModelType := ⟨mixedFS, some [t!"b.zip", t!"d"], t!"/m", fun _ => .ok (.ok exType), ModelType.id⟩

theorem mixedFS_tree : Tree mixedFS := by
  intro abs cs ds h
  cases ds with
  | nil => simpa using h
  | cons x ds =>
  cases abs with
  | true => simp [mixedFS]
  | false =>
  have hc : ∀ l : List Text, cs ++ x :: ds = l → l = [t!"d", t!"smdx_00900.xml"] ∨ l = [t!"b.zip"] ∨ l = [] ∨ l = [t!"d"] → False := by
    intro l e hl
    unfold mixedFS at h
    match cs with
    | [] => simp at h
    | [c] =>
      have : c = t!"d" := by
        rcases hl with rfl | rfl | rfl | rfl <;> simp at e <;> simp [e.1]
      subst this
      simp at h
    | c :: c' :: r => rcases hl with rfl | rfl | rfl | rfl <;> simp at e
  unfold mixedFS
  rw [if_neg (by simp), if_neg, if_neg, if_neg]
  · intro e; exact hc _ e (by simp)
  · intro e; exact hc _ e (by simp)
  · intro e
    rcases e with e | e <;> exact hc _ e (by simp)

theorem mixed_proper : ∀ p ∈ [Place.zip [t!"b.zip"] [], .dir [t!"d"]], p.Proper := by
  intro p hp
  simp only [List.mem_cons, List.not_mem_nil, or_false] at hp
  rcases hp with rfl | rfl
  · exact ⟨[], _, rfl, ⟨t!"b", rfl⟩, by decide, by simp, by simp⟩
  · exact dirPlace _ (by decide) (by decide) (by decide)

theorem mixed_first (r : Py Bytes) (h : FirstMatch mixedFS (t!"smdx_00900.xml") [.zip [t!"b.zip"] [], .dir [t!"d"]] r) : r = .ok [1] := by
  have hd : (Place.dir [t!"d"]).Has mixedFS (t!"smdx_00900.xml") (.ok [1]) := ⟨_, rfl, rfl⟩
  rcases h with ⟨pre, p, post, h2, h3, h4⟩ | ⟨h2, _⟩
  · match pre, h2 with
    | [], h2 =>
      simp at h2
      obtain ⟨rfl, _⟩ := h2
      obtain ⟨e, q1, q⟩ := h4
      have : e = ⟨.ok [3], .ok fun _ => none⟩ := (Option.some.inj q1).symm
      subst this
      rcases q with ⟨m, q2, q3⟩ | ⟨x, q2, _⟩
      · cases q2; cases q3
      · cases q2
    | [q], h2 =>
      simp at h2
      obtain ⟨_, rfl, _⟩ := h2
      obtain ⟨e, q1, q2⟩ := h4
      have : e = ⟨.ok [1], .error .badZipFile⟩ := (Option.some.inj q1).symm
      subst this
      exact q2.symm
    | a :: b :: q, h2 => simp at h2
  · exact absurd hd (h2 _ (by simp) _)

/-- With the path list `['b.zip', 'd']`, the definition in the directory `d` is not found (see C43). -/
theorem C92_violated : ¬ C92_full := by
  intro h
  obtain ⟨lib, h1, h2⟩ := h mixedEnv mixedFS_tree [.zip [t!"b.zip"] [], .dir [t!"d"]] mixed_proper (by decide +kernel)
  have h3 := (h2 {} .start).1 900
  rw [show (getType mixedEnv {} 900).2 = .error .sunSpecError by decide +kernel] at h3
  obtain ⟨file, ⟨r1, h4, h5⟩, h6⟩ := h1 900
  have e : idToFilename 900 = t!"smdx_00900.xml" := by decide +kernel
  rw [e] at h4 h5
  have := mixed_first r1 h4
  subst this
  rw [if_neg (by decide)] at h5
  subst h5
  rw [← h3] at h6
  rcases h6 with h6 | ⟨h6, _⟩ | ⟨d, _, _, h6 | ⟨x, h6, _⟩⟩
  · cases h6
  · cases h6
  · cases h6
  · cases h6

/-- With the path list `['b.zip', 'd']`, the document in the directory `d` is not found (see C43). -/
theorem C93_violated : ¬ C93_full := by
  intro h
  obtain ⟨r1, ⟨r2, h1, h2⟩, h3⟩ := h { mixedEnv with pathlist := none } mixedFS_tree rfl [.zip [t!"b.zip"] [], .dir [t!"d"]] mixed_proper
    (t!"smdx_00900.xml")
  have := mixed_first r2 h1
  subst this
  rw [if_neg (by decide)] at h2
  subst h2
  rw [if_pos (by decide)] at h3
  have e : picsData { mixedEnv with pathlist := none } (some ([.zip [t!"b.zip"] [], .dir [t!"d"]].map Place.text)) (t!"smdx_00900.xml") =
      .error .osError := by decide +kernel
  rw [e] at h3
  cases h3

end Verif
