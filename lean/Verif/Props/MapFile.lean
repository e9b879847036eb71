import Verif.Model.MapFile
import Verif.Spec.MapFile
import Verif.Props.Files
import Verif.Props.MapDoc
import Verif.Props.ClientDevice

/-!
# C101: a mapped device shows what its map document says
-/

namespace Verif
open Spec

theorem has_unique {fs : FS} {name : Text} {p : Place} {r r' : Py Bytes} (h : p.Has fs name r) (h' : p.Has fs name r') : r = r' := by
  cases p with
  | dir p =>
    obtain ⟨e, h1, rfl⟩ := h
    obtain ⟨e', h2, rfl⟩ := h'
    rw [h1] at h2; cases h2; rfl
  | zip f i =>
    obtain ⟨e, h1, h2⟩ := h
    obtain ⟨e', h3, h4⟩ := h'
    rw [h1] at h3; cases h3
    rcases h2 with ⟨m, h2, h5⟩ | ⟨x, h2, rfl⟩ <;> rcases h4 with ⟨m', h4, h6⟩ | ⟨x', h4, rfl⟩
    · rw [h2] at h4; cases h4; rw [h5] at h6; cases h6; rfl
    · rw [h2] at h4; cases h4
    · rw [h2] at h4; cases h4
    · rw [h2] at h4; cases h4; rfl

theorem firstMatch_unique {fs : FS} {name : Text} {ps : List Place} {r r' : Py Bytes} (h : FirstMatch fs name ps r)
    (h' : FirstMatch fs name ps r') : r = r' := by
  induction ps with
  | nil =>
    rcases h with ⟨pre, p, post, h, _⟩ | ⟨_, rfl⟩
    · simp at h
    rcases h' with ⟨pre, p, post, h, _⟩ | ⟨_, rfl⟩
    · simp at h
    rfl
  | cons q ps ih =>
    have split : ∀ r, FirstMatch fs name (q :: ps) r → q.Has fs name r ∨ ((∀ x, ¬ q.Has fs name x) ∧ FirstMatch fs name ps r) := by
      intro r h
      rcases h with ⟨pre, p, post, h1, h2, h3⟩ | ⟨h1, h2⟩
      · cases pre with
        | nil => cases h1; exact .inl h3
        | cons a pre =>
          cases h1
          exact .inr ⟨h2 _ (by simp), .inl ⟨pre, p, post, rfl, fun x hx => h2 x (by simp [hx]), h3⟩⟩
      · exact .inr ⟨h1 _ (by simp), .inr ⟨fun x hx => h1 x (by simp [hx]), h2⟩⟩
    rcases split r h with h1 | ⟨h1, h2⟩ <;> rcases split r' h' with h3 | ⟨h3, h4⟩
    · exact has_unique h1 h3
    · exact absurd h1 (h3 _)
    · exact absurd h3 (h1 _)
    · exact ih h2 h4

theorem mapFile_unique {fs : FS} {given : Option (List Place)} {name : Text} {r r' : Py Bytes} (h : MapFile fs given name r)
    (h' : MapFile fs given name r') : r = r' := by
  cases given with
  | some ps => exact firstMatch_unique h h'
  | none =>
    rcases h with ⟨e, h1, rfl⟩ | ⟨h1, rfl⟩ <;> rcases h' with ⟨e', h2, rfl⟩ | ⟨h2, rfl⟩
    · rw [h1] at h2; cases h2; rfl
    · rw [h1] at h2; cases h2
    · rw [h1] at h2; cases h2
    · rfl

theorem mapData_spec {fs : FS} (ht : Tree fs) {given : Option (List Place)} {paths : Option (List Text)}
    (hp : ProperPlaces fs paths given) (name : Text) : MapFile fs given name (mapData fs paths name) := by
  obtain ⟨rfl, h2⟩ := hp
  cases given with
  | some l =>
    obtain ⟨h3, h4⟩ := h2 l rfl
    exact C43_first_partial ht l h3 h4 name
  | none =>
    unfold mapData
    simp only [Option.map_none]
    cases h : fs.get name with
    | some e => exact .inl ⟨e, h, rfl⟩
    | none => exact .inr ⟨h, rfl⟩

theorem docBase_of {root : Elem} {base : Int} (h : match root.get "addr" with
    | none => base = 40000
    | some s => DecText s base) : docBase root = some base := by
  unfold docBase
  cases hg : root.get "addr" with
  | none => rw [hg] at h; dsimp only at h ⊢; rw [h]
  | some s => rw [hg] at h; exact (pyInt10_iff s base).2 h

theorem localFile_unique {fs : FS} {default name : Text} {r r' : Py Bytes} (h : LocalFile fs default name r)
    (h' : LocalFile fs default name r') : r = r' := by
  have hf : ∀ {e : Entry} {r r' : Py Bytes}, FileRead e r → FileRead e r' → r = r' := by
    intro e r r' h h'
    rcases h with ⟨d, h1, rfl⟩ | ⟨x, h1, rfl⟩ <;> rcases h' with ⟨d', h2, rfl⟩ | ⟨x', h2, rfl⟩ <;> rw [h1] at h2 <;> cases h2 <;> rfl
  rcases h with ⟨e, h1, h2⟩ | ⟨h1, e, h2, h3⟩ | ⟨h1, h2, rfl⟩ <;> rcases h' with ⟨e', k1, k2⟩ | ⟨k1, e', k2, k3⟩ | ⟨k1, k2, rfl⟩
  · rw [h1] at k1; cases k1; exact hf h2 k2
  · rw [h1] at k1; cases k1
  · rw [h1] at k1; cases k1
  · rw [h1] at k1; cases k1
  · rw [h2] at k2; cases k2; exact hf h3 k3
  · rw [h2] at k2; cases k2
  · rw [h1] at k1; cases k1
  · rw [h2] at k2; cases k2
  · rfl

theorem definitionFile_unique {fs : FS} {ps : Option (List Place)} {default name : Text} {r r' : Py Bytes}
    (h : DefinitionFile fs ps default name r) (h' : DefinitionFile fs ps default name r') : r = r' := by
  cases ps with
  | none => exact localFile_unique h h'
  | some ps =>
    obtain ⟨r1, h1, h2⟩ := h
    obtain ⟨r2, k1, k2⟩ := h'
    cases firstMatch_unique h1 k1
    split at h2
    · rw [if_pos (by assumption)] at k2
      exact localFile_unique h2 k2
    · rw [if_neg (by assumption)] at k2
      rw [h2, k2]

theorem loaded_unique {τ} {env : TypeEnv τ} {file : Py Bytes} {r r' : Py τ} (h : Spec.Loaded env file r) (h' : Spec.Loaded env file r') :
    r = r' := by
  cases file with
  | error e =>
    cases r with
    | ok t => obtain ⟨d, h1, _⟩ := h; cases h1
    | error x =>
      rcases h with h | ⟨h, _⟩ | ⟨d, h, _⟩ <;> cases h
      cases r' with
      | ok t => obtain ⟨d, h1, _⟩ := h'; cases h1
      | error x => rcases h' with h | ⟨h, _⟩ | ⟨d, h, _⟩ <;> cases h; rfl
  | ok d =>
    by_cases hd : d = []
    · subst hd
      have key : ∀ r : Py τ, Spec.Loaded env (.ok []) r → r = .error .sunSpecError := by
        intro r h
        cases r with
        | ok t => obtain ⟨d, h1, h2, _⟩ := h; cases h1; exact absurd rfl h2
        | error x =>
          rcases h with h | ⟨h, rfl⟩ | ⟨d, h, h2, _⟩
          · cases h
          · rfl
          · cases h; exact absurd rfl h2
      rw [key r h, key r' h']
    · have key : ∀ r : Py τ, Spec.Loaded env (.ok d) r → r = (match env.parse d with
          | .error e => .error e
          | .ok (.error _) => .error .sunSpecError
          | .ok (.ok t) => .ok t) := by
        intro r h
        cases r with
        | ok t => obtain ⟨d', h1, _, h3⟩ := h; cases h1; rw [h3]
        | error x =>
          rcases h with h | ⟨h, _⟩ | ⟨d', h, h2, h3 | ⟨y, h3, rfl⟩⟩
          · cases h
          · cases h; exact absurd rfl hd
          · cases h; rw [h3]
          · cases h; rw [h3]
      rw [key r h, key r' h']

/-- The library is determined by the files. -/
theorem fileLibrary_unique {env : TypeEnv ModelType} {ps : Option (List Place)} {lib lib' : Int → Py ModelType}
    (h : FileLibrary env ps lib) (h' : FileLibrary env ps lib') : lib = lib' := by
  funext id
  obtain ⟨f, h1, h2⟩ := h id
  obtain ⟨f', k1, k2⟩ := h' id
  cases definitionFile_unique h1 k1
  exact loaded_unique h2 k2

/-- What `ModbusClientDeviceMapped` becomes, given the outcome of looking up the document. -/
def mapOfFile (F : FloatText) (xml : Bytes → Py Elem) : Py Bytes → Py MbMap
  | .error _ => .error .modbusMapError
  | .ok d =>
    match xml d with
    | .error _ => .error .modbusMapError
    | .ok root =>
      match fromXml F newMap root with
      | (_, .error e) => .error e
      | (m, .ok _) => .ok m

theorem mappedNew_eq {F : FloatText} {fs : FS} (ht : Tree fs) {xml : Bytes → Py Elem} {given : Option (List Place)}
    {paths : Option (List Text)} (hp : ProperPlaces fs paths given) {name : String} {file : Py Bytes}
    (hf : MapFile fs given name.toList file) :
    mappedNew F fs xml paths name = mapOfFile F xml file := by
  have e := mapFile_unique hf (mapData_spec ht hp name.toList)
  clear hf
  subst e
  unfold mappedNew mapFromFile mapOfFile
  cases mapData fs paths name.toList with
  | error e => rfl
  | ok d =>
    dsimp only
    cases xml d with
    | error e => rfl
    | ok root => rfl

/-- C101: creating a mapped device. The document is the file with the given name, or the one in the first of the given places; if it describes
registers, the device has exactly these registers and they are read at the base address plus their offset. Otherwise - no such file, one that
cannot be read, one that is not XML, overlapping registers - there is an error, and in no case are the serial ports touched. What is missing: the error is a
`ModbusMapError` (C64), and path lists in which a directory comes after a zip file (C43, `C101_violated`). -/
theorem C101_created_partial (F : FloatText) (fs : FS) (ht : Tree fs) (xml : Bytes → Py Elem) (given : Option (List Place))
    (paths : Option (List Text)) (hp : ProperPlaces fs paths given) (portOk : String → Bool) (s : Lines) (a : DevArgs) (ha : a.type = "Mapped")
    (name : String) (hn : a.name = some name) :
    ∃ file, MapFile fs given name.toList file ∧
      (∀ e, file = .error e → clientDeviceNew (mappedNew F fs xml paths) portOk s a = (s, .error .modbusMapError)) ∧
      ∀ d, file = .ok d →
        (∀ e, xml d = .error e → clientDeviceNew (mappedNew F fs xml paths) portOk s a = (s, .error .modbusMapError)) ∧
        ∀ root, xml d = .ok root →
          (OverlappingDocument F root → clientDeviceNew (mappedNew F fs xml paths) portOk s a = (s, .error .modbusMapError)) ∧
          ∀ base rs, MapDocument F root base rs →
            ∃ m bs, clientDeviceNew (mappedNew F fs xml paths) portOk s a = (s, .ok (some (.mapped a.slave m))) ∧
              MapOK m base bs ∧ mapMem base bs = docMem base rs ∧
              ∀ p ∈ rs, cdRead mapDev m (base + p.1) p.2.length = (m, .ok (some (regBytes p.2))) := by
  have hnew : ∀ r, mappedNew F fs xml paths name = r → clientDeviceNew (mappedNew F fs xml paths) portOk s a =
      (match r with
        | .ok m => (s, .ok (some (.mapped a.slave m)))
        | .error e => (s, devError (.error e))) := by
    intro r hr
    unfold clientDeviceNew
    rw [if_neg (by rw [ha]; decide), if_neg (by rw [ha]; decide), if_pos ha, hn]
    dsimp only
    rw [hr]
    cases r <;> rfl
  have hf := mapData_spec ht hp name.toList
  generalize mapData fs paths name.toList = file at hf
  have hm := mappedNew_eq (F := F) ht (xml := xml) hp hf
  refine ⟨file, hf, ?_, ?_⟩
  · rintro e rfl
    exact hnew _ hm
  · rintro d rfl
    unfold mapOfFile at hm
    dsimp only at hm
    refine ⟨?_, ?_⟩
    · intro e he
      rw [he] at hm
      exact hnew _ hm
    · intro root hr
      rw [hr] at hm
      dsimp only at hm
      refine ⟨?_, ?_⟩
      · rintro ⟨⟨base, hb⟩, hfn, ls, hd, hpl⟩
        have := (C25_load_partial F newMap rfl root base (docBase_of hb) hfn ls hd).2 hpl
        generalize fromXml F newMap root = x at hm this
        obtain ⟨m, r⟩ := x
        dsimp only at this
        subst this
        exact hnew _ hm
      · rintro base rs ⟨hb, hfn, ls, hd, hpl⟩
        obtain ⟨m, bs, h1, h2, h3, -, h5⟩ := (C25_load_partial F newMap rfl root base (docBase_of hb) hfn ls hd).1 rs hpl
        rw [h1] at hm
        refine ⟨m, bs, hnew _ hm, h2, funext h3, ?_⟩
        intro p hp
        have hr : mapDev.read m (base + p.1) p.2.length = (m, .ok (some (regBytes p.2))) := by
          show (m, (mapRead m _ _ none).map some) = _
          rw [h5 p hp]; rfl
        unfold cdRead
        rw [hr]
        rfl

/-- C101: what the registers of the document announce is what a scan of the device finds, with the definitions that are in the files
(`lib`, whatever has been loaded before), and reading the models gives each point the value that the registers in the document have. -/
theorem C101_values_partial (F : FloatText) (env : TypeEnv ModelType) (ht : Tree env.fs) (ps : Option (List Place))
    (hp : ProperPlaces env.fs env.pathlist ps) (hd : FilesReadable env) (lib : Int → Py ModelType) (hl : FileLibrary env ps lib)
    (xml : Bytes → Py Elem) (given : Option (List Place)) (paths : Option (List Text)) (hg : ProperPlaces env.fs paths given)
    (portOk : String → Bool) (s : Lines) (a : DevArgs) (ha : a.type = "Mapped") (name : String) (hn : a.name = some name)
    (d : Bytes) (hfile : MapFile env.fs given name.toList (.ok d)) (root : Elem) (hroot : xml d = .ok root)
    (base : Int) (rs : List (Int × List Reg)) (hdoc : MapDocument F root base rs)
    (pre : List Int) (b : Int) (post : List Int) (hbases : [40000, 0, 50000] = pre ++ b :: post)
    (hpre : ∀ x ∈ pre, ¬ SunSAt (docMem base rs) x ∧ memRegs (docMem base rs) x 3 ≠ none) (hs : SunSAt (docMem base rs) b)
    (found : List Found) (hch : Chain (docMem base rs) (b + 2) found) (fuel : Nat) (hf : found.length < fuel)
    (ts : TypeState ModelType) (hts : TypesReached ts) :
    ∃ m c', clientDeviceNew (mappedNew F env.fs xml paths) portOk s a = (s, .ok (some (.mapped a.slave m))) ∧
      (scanFiles env fuel mapScanDev (fun _ _ => true) ts { st := m }).2 = (c', .ok ()) ∧
      c'.base = some b ∧ c'.list = found.map (foundModel lib) ∧
      ((∀ f ∈ found, Presented lib (docMem base rs) f) →
        ∃ m' ms', readModels mapDev c'.list c'.st = (m', ms', .ok ()) ∧ List.Forall₂ (ModelRead (docMem base rs)) c'.list ms') := by
  obtain ⟨file, h1, -, h2⟩ := C101_created_partial F env.fs ht xml given paths hg portOk s a ha name hn
  cases mapFile_unique hfile h1
  obtain ⟨m, bs, h3, h4, h5, -⟩ := ((h2 d rfl).2 root hroot).2 base rs hdoc
  obtain ⟨lib', c', k1, k2, k3, k4, k5⟩ := C92_found_partial env ht ps hp hd (mapScan_mem base) (docMem base rs) { st := m }
    ⟨bs, h4, h5.symm⟩ rfl pre b post hbases hpre hs found hch fuel hf ts hts
  cases fileLibrary_unique hl k1
  have k5 : c'.list = found.map (foundModel lib) := by rw [k5]; rfl
  refine ⟨m, c', h3, k2, k4, k5, ?_⟩
  intro hpr
  obtain ⟨m', ms', l1, -, l2⟩ := C55_loaded (mapDev_isMem base) (docMem base rs) lib found hpr c'.st k3
  rw [k5]
  exact ⟨m', ms', l1, l2⟩

/-! ## Examples -/

/-- A map document: `SunS`, model 900 with five registers, and the end mark. -/
def fileMap : Elem := .mk "mbmap" [("addr", t!"40000")] none
  [.mk "regs" [("type", t!"string"), ("len", t!"2")] (some (t!"SunS")) [],
   .mk "regs" [("type", t!"u32")] (some (t!"0x03840005")) [],
   .mk "regs" [("type", t!"s32"), ("offset", t!"4")] (some (t!"-7")) [],
   .mk "regs" [("len", t!"3")] (some (t!"0001 ffff 0002")) [],
   .mk "regs" [("type", t!"u16")] (some (t!"65535")) []]

/-- Two registers at offset 0, one at offset 1. -/
def overlapMap : Elem := .mk "mbmap" [] none
  [.mk "regs" [("type", t!"u32"), ("offset", t!"0")] (some (t!"65538")) [],
   .mk "regs" [("type", t!"u16"), ("offset", t!"1")] (some (t!"3")) []]

def mapXml (d : Bytes) : Py Elem := if d = [2] then .ok fileMap else .error .parseError

def fileRegs : List (Int × List Reg) :=
  [(0, [(0x53, 0x75), (0x6e, 0x53)]), (2, [(3, 0x84), (0, 5)]), (4, [(255, 255), (255, 249)]), (6, [(0, 1), (255, 255), (0, 2)]), (9, [(255, 255)])]

theorem fileMap_holds : MapDocument noFloats fileMap 40000 fileRegs := by
  refine ⟨show DecText (t!"40000") 40000 by decide +kernel, by decide +kernel,
    [(none, [(0x53, 0x75), (0x6e, 0x53)]), (none, [(3, 0x84), (0, 5)]), (some 4, [(255, 255), (255, 249)]),
     (none, [(0, 1), (255, 255), (0, 2)]), (none, [(255, 255)])], ?_, by decide +kernel⟩
  refine ⟨⟨2, by decide +kernel, ?_⟩, rfl, ⟨0, by decide +kernel, ?_⟩, rfl, ⟨0, by decide +kernel, ?_⟩, ?_, ⟨3, by decide +kernel, ?_⟩, rfl,
    ⟨0, by decide +kernel, ?_⟩, rfl, trivial⟩
  · exact Or.inr (Or.inr (Or.inr (Or.inl ⟨by decide +kernel, by decide, by decide +kernel, by decide +kernel⟩)))
  · exact Or.inl ⟨⟨4, false⟩, 0x03840005, by decide +kernel, by decide +kernel, by unfold IntFmt.Encodes; decide +kernel⟩
  · exact Or.inl ⟨⟨4, true⟩, -7, by decide +kernel, by decide +kernel, by unfold IntFmt.Encodes; decide +kernel⟩
  · exact ⟨4, by decide +kernel, by decide +kernel⟩
  · refine Or.inr (Or.inr (Or.inr (Or.inr ⟨[0, 1, 255, 255, 0, 2], by decide +kernel, by decide, ?_, by decide,
      by decide, by decide +kernel⟩)))
    exact .cons (x := 0) (y := 0) (by decide) (by decide) (.cons (x := 0) (y := 1) (by decide) (by decide)
      (.cons (x := 15) (y := 15) (by decide) (by decide) (.cons (x := 15) (y := 15) (by decide) (by decide)
      (.cons (x := 0) (y := 0) (by decide) (by decide) (.cons (x := 0) (y := 2) (by decide) (by decide) .nil)))))
  · exact Or.inl ⟨⟨2, false⟩, 65535, by decide +kernel, by decide +kernel, by unfold IntFmt.Encodes; decide +kernel⟩

theorem fileMap_file : MapFile filesFS (some [.dir [[], t!"x"]]) (t!"p.xml") (.ok [2]) := by
  have h := mapData_spec (paths := some [t!"/x"]) filesFS_tree filesEnv_places (t!"p.xml")
  rw [show mapData filesFS (some [t!"/x"]) (t!"p.xml") = .ok [2] by decide +kernel] at h
  exact h

theorem fileMap_chain : SunSAt (docMem 40000 fileRegs) 40000 ∧ Chain (docMem 40000 fileRegs) (40000 + 2) [⟨900, 40004, 5⟩] := by
  refine ⟨⟨by decide +kernel, by decide +kernel⟩, ?_⟩
  refine .model (i := (3, 0x84)) (l := (0, 5)) (by decide +kernel) (by decide) (by decide +kernel) ?_
  exact .stop (by decide +kernel)

/-- The definitions in the files. -/
def filesLib (i : Int) : Py ModelType := loadType filesEnv (.int i)

def fileType : ModelType :=
  match filesLib 900 with
  | .ok t => t
  | .error _ => exType

theorem fileMap_presented : Presented filesLib (docMem 40000 fileRegs) ⟨900, 40004, 5⟩ := by
  have h1 : (foundModel filesLib ⟨900, 40004, 5⟩).len = 5 := by decide +kernel
  refine ⟨fileType, by decide +kernel, by decide +kernel, ?_, ?_, ?_⟩
  · intro F hF
    have h3 : fileType.fixed.len.toInt = .ok 3 := by decide +kernel
    rw [h3] at hF
    cases hF
    rw [h1]
    exact ⟨by decide +kernel, ⟨by decide +kernel, by decide +kernel, by decide +kernel⟩, by decide⟩
  · intro rb R hr hR
    have h2 : fileType.rep = some (fileType.rep.getD fileType.fixed) := by decide +kernel
    rw [h2] at hr
    cases hr
    have h4 : (fileType.rep.getD fileType.fixed).len.toInt = .ok 2 := by decide +kernel
    rw [h4] at hR
    cases hR
    exact ⟨by decide +kernel, ⟨by decide +kernel, by decide +kernel, by decide +kernel⟩, by decide⟩
  · rw [h1]
    intro x hx hy
    dsimp only at hx hy
    have : x = 40004 ∨ x = 40005 ∨ x = 40006 ∨ x = 40007 ∨ x = 40008 := by omega
    rcases this with rfl | rfl | rfl | rfl | rfl <;> decide +kernel

/-- Non-vacuity: the mapped device of the document `/x/p.xml`, scanned and read. -/
example (portOk : String → Bool) (s : Lines) : ∃ m c' m' ms',
    clientDeviceNew (mappedNew noFloats filesFS mapXml (some [t!"/x"])) portOk s { type := "Mapped", name := some "p.xml" } =
      (s, .ok (some (.mapped 1 m))) ∧
    (scanFiles filesEnv 10 mapScanDev (fun _ _ => true) usedTypes { st := m }).2 = (c', .ok ()) ∧
    readModels mapDev c'.list c'.st = (m', ms', .ok ()) ∧ List.Forall₂ (ModelRead (docMem 40000 fileRegs)) c'.list ms' ∧
    c'.list = [foundModel filesLib ⟨900, 40004, 5⟩] := by
  obtain ⟨m, c', h1, h2, -, h4, h5⟩ := C101_values_partial noFloats filesEnv filesFS_tree _ filesEnv_places filesEnv_ok filesLib
    (fileLibrary filesFS_tree filesEnv_places) mapXml _ (some [t!"/x"]) filesEnv_places portOk s { type := "Mapped", name := some "p.xml" } rfl
    "p.xml" rfl [2] fileMap_file fileMap rfl 40000 fileRegs fileMap_holds [] 40000 [0, 50000] rfl (by simp) fileMap_chain.1 _ fileMap_chain.2
    10 (by decide) usedTypes usedTypes_reached
  obtain ⟨m', ms', h6, h7⟩ := h5 (by intro f hf; cases List.mem_singleton.1 hf; exact fileMap_presented)
  exact ⟨m, c', m', ms', h1, h2, h6, h7, h4⟩

/-- The values of its points: -1 (the first register of the `s32` -7), 0xfff90001, and 0xffff, which is the pattern of an unimplemented point. -/
example : (match mappedNew noFloats filesFS mapXml (some [t!"/x"]) "p.xml" with
    | .ok m => (readModels mapDev (scanFiles filesEnv 10 mapScanDev (fun _ _ => true) usedTypes { st := m }).2.1.list m).2.1.map fun m =>
        m.blocks.map fun b => b.pts.map fun p => (p.pt.id, p.base)
    | .error _ => []) =
    [[[(t!"A", some (.int (-1))), (t!"B", some (.int 0xfff90001))], [(t!"C", none)]]] := by decide +kernel

/-- No such file; a file that is not XML (the definition, for this parser). -/
example : mappedNew noFloats filesFS mapXml (some [t!"/x"]) "q.xml" = .error .modbusMapError ∧
    mappedNew noFloats filesFS mapXml none "/m/smdx_00900.xml" = .error .modbusMapError ∧
    mappedNew noFloats filesFS mapXml none "p.xml" = .error .modbusMapError ∧
    (∃ m, mappedNew noFloats filesFS mapXml none "/x/p.xml" = .ok m) :=
  ⟨by decide +kernel, by decide +kernel, by decide +kernel, ⟨_, rfl⟩⟩

/-- A document with overlapping registers. -/
example : OverlappingDocument noFloats overlapMap := by
  refine ⟨⟨40000, rfl⟩, .inl rfl, [(some 0, [(0, 1), (0, 2)]), (some 1, [(0, 3)])], ?_, by decide +kernel⟩
  exact ⟨⟨0, by decide +kernel, Or.inl ⟨⟨4, false⟩, 65538, by decide +kernel, by decide +kernel, by unfold IntFmt.Encodes; decide +kernel⟩⟩,
    ⟨0, by decide +kernel, by decide +kernel⟩,
    ⟨0, by decide +kernel, Or.inl ⟨⟨2, false⟩, 3, by decide +kernel, by decide +kernel, by unfold IntFmt.Encodes; decide +kernel⟩⟩,
    ⟨1, by decide +kernel, by decide +kernel⟩, trivial⟩

/-! ## The full statement -/

/-- C101, in full: a map document in any list of proper places gives a device with its registers; one that is not found raises
`SunSpecClientError`. Violated: see `C101_violated`, `C101_violated_error`. -/
def C101_full : Prop :=
  ∀ (F : FloatText) (fs : FS), Tree fs → ∀ (xml : Bytes → Py Elem) (ps : List Place), (∀ p ∈ ps, p.Proper) →
    ∀ (portOk : String → Bool) (s : Lines) (a : DevArgs), a.type = "Mapped" → ∀ name : String, a.name = some name →
      (∀ d root base rs, FirstMatch fs name.toList ps (.ok d) → xml d = .ok root → MapDocument F root base rs →
        ∃ m bs, clientDeviceNew (mappedNew F fs xml (some (ps.map Place.text))) portOk s a = (s, .ok (some (.mapped a.slave m))) ∧
          MapOK m base bs ∧ mapMem base bs = docMem base rs) ∧
      (FirstMatch fs name.toList ps (.error .nameError) →
        clientDeviceNew (mappedNew F fs xml (some (ps.map Place.text))) portOk s a = (s, .error .sunSpecClientError))

/-- With the path list `['b.zip', 'd']`, the map document in the directory `d` is not found (see C43). -/
theorem C101_violated : ¬ C101_full := by
  intro h
  have hd : (Place.dir [t!"d"]).Has mixedFS (t!"smdx_00900.xml") (.ok [1]) := ⟨_, rfl, rfl⟩
  have hf : FirstMatch mixedFS (t!"smdx_00900.xml") [.zip [t!"b.zip"] [], .dir [t!"d"]] (.ok [1]) := by
    refine .inl ⟨[.zip [t!"b.zip"] []], _, [], rfl, ?_, hd⟩
    intro q hq r' hr
    cases List.mem_singleton.1 hq
    obtain ⟨e, q1, q⟩ := hr
    have : e = ⟨.ok [3], .ok fun _ => none⟩ := (Option.some.inj q1).symm
    subst this
    rcases q with ⟨m, q2, q3⟩ | ⟨x, q2, _⟩
    · cases q2; cases q3
    · cases q2
  obtain ⟨m, bs, h1, -⟩ := (h noFloats mixedFS mixedFS_tree (fun _ => .ok fileMap) _ mixed_proper (fun _ => true) ⟨Ports.init, []⟩
    { type := "Mapped", name := some "smdx_00900.xml" } rfl "smdx_00900.xml" rfl).1 [1] fileMap 40000 fileRegs hf rfl fileMap_holds
  have e : mappedNew noFloats mixedFS (fun _ => .ok fileMap) (some ([.zip [t!"b.zip"] [], .dir [t!"d"]].map Place.text)) "smdx_00900.xml" =
      .error .modbusMapError := by decide +kernel
  unfold clientDeviceNew at h1
  rw [if_neg (by decide), if_neg (by decide), if_pos rfl] at h1
  dsimp only at h1
  rw [e] at h1
  cases h1

/-- A map document that is not found raises `ModbusMapError` instead of the documented `SunSpecClientError`, for every path list in which
directories do not come after zip files (see C64). -/
theorem C101_violated_error (F : FloatText) (fs : FS) (ht : Tree fs) (xml : Bytes → Py Elem) (ps : List Place)
    (paths : Option (List Text)) (hp : ProperPlaces fs paths (some ps)) (portOk : String → Bool) (s : Lines) (a : DevArgs) (ha : a.type = "Mapped")
    (name : String) (hn : a.name = some name) (hno : ∀ q ∈ ps, ∀ r, ¬ q.Has fs name.toList r) :
    clientDeviceNew (mappedNew F fs xml paths) portOk s a = (s, .error .modbusMapError) := by
  obtain ⟨file, h1, h2, -⟩ := C101_created_partial F fs ht xml (some ps) paths hp portOk s a ha name hn
  have := firstMatch_unique h1 (.inr ⟨hno, rfl⟩)
  exact h2 _ this

end Verif
