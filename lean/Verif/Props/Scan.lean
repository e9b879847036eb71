import Verif.Lemmas.Scan
import Verif.Props.ClientWrite
import Mathlib.Data.List.Forall2

/-!
# C38: scanning finds the models, C39: scanning terminates, C40: probing of base addresses, C54: connections
-/

namespace Verif
open Spec

/-! ## The devices -/

theorem mapScan_mem (base : Int) :
    ScanMem mapScanDev (fun m mem => ∃ bs, MapOK m base bs ∧ mem = mapMem base bs) (fun _ => True) :=
  ⟨mapDev_isMem base, by intro f h; simp [mapScanDev] at h, fun _ _ h => h⟩

theorem rtuScan_mem {σ} {slave : Slave σ} {abs : σ → Mem} {sid : Byte} (hc : ConformsRtu slave abs sid) :
    ScanMem (rtuScanDev slave sid.toNat) (fun l mem => mem = regMem (abs l.dev)) (fun n => 0 < n ∧ n ≤ 123) :=
  ⟨rtuDev_isMem hc, by intro f h; simp [rtuScanDev] at h, fun _ _ h => h⟩

theorem tcpDisconnect_dev {σ} (t : Tcp σ) : (tcpDisconnect t).dev = t.dev ∧ (tcpDisconnect t).sock = .absent := by
  unfold tcpDisconnect
  cases hs : t.sock <;> simp [hs]

theorem tcpScan_mem {σ} {srv : TcpServer σ} {abs : σ → Mem} {unit : Byte} (hc : ConformsTcp srv.accept srv.react abs unit) :
    ScanMem (tcpScanDev srv unit.toNat) (fun t mem => Idle t ∧ mem = regMem (abs t.dev)) (fun n => 0 < n ∧ n ≤ 123) := by
  refine ⟨tcpDev_isMem hc, ?_, ?_⟩
  · intro f hf t mem ht
    have hf : tcpConnect srv = f := Option.some.inj hf
    subst hf
    obtain ⟨_, rfl⟩ := ht
    unfold tcpConnect
    dsimp only
    have h1 := (hc.1 (tcpDisconnect t).dev).1
    have h2 := (hc.1 (tcpDisconnect t).dev).2
    rcases hacc : srv.accept (tcpDisconnect t).dev with ⟨d, _ | _⟩
    · rw [hacc] at h1; simp at h1
    · rw [hacc] at h2
      refine ⟨_, rfl, Or.inr rfl, ?_⟩
      dsimp only at h2 ⊢
      rw [h2, (tcpDisconnect_dev t).1]
  · intro t mem ht
    refine ⟨Or.inl (tcpDisconnect_dev t).2, ?_⟩
    show mem = regMem (abs (tcpDisconnect t).dev)
    rw [(tcpDisconnect_dev t).1]
    exact ht.2

/-! ## C38 -/

/-- Id, address and length of a model object. -/
def MdlObj.found (m : MdlObj) : Found := ⟨m.id, m.addr, m.len⟩

/-- The full statement: the model objects have exactly the ids, addresses and lengths of the models of the device. Violated
for models of length 0: see `C38_violated`. -/
def C38_full : Prop :=
  ∀ (σ : Type) (dev : ScanDev σ) (R : σ → RegMem → Prop) (wr : Nat → Prop), ScanMem dev R wr →
  ∀ (lib : Int → Py ModelType), Definitions lib → ∀ (mem : RegMem) (c : CliDev σ), R c.st mem → c.base = none →
  ∀ (b : Int) (post : List Int), c.bases = b :: post → SunSAt mem b → ∀ ms, Chain mem (b + 2) ms →
  ∀ fuel, ms.length < fuel → ∃ c', scan fuel dev lib (fun _ _ => true) c = (c', .ok ()) ∧
    c'.list.map MdlObj.found = c.list.map MdlObj.found ++ ms

theorem found_same (lib : Int → Py ModelType) (f : Found) :
    (foundModel lib f).id = f.id ∧ (foundModel lib f).addr = f.addr ∧ (f.len ≠ 0 → (foundModel lib f).len = f.len) := by
  have h := mdlLoad_same (lib f.id) (mdlNew f.id f.addr f.len)
  exact ⟨h.1, h.2.1, h.2.2.1⟩

theorem noneSunS_of_mem {σ} {dev : MbDev σ} {R : σ → RegMem → Prop} {wr : Nat → Prop} (hdev : IsMem dev R wr) {mem : RegMem}
    (pre : List Int) (hpre : ∀ a ∈ pre, ¬ SunSAt mem a ∧ memRegs mem a 3 ≠ none) : ∀ s, R s mem →
    ∃ s', NoneSunS dev s pre s' ∧ R s' mem := by
  induction pre with
  | nil => intro s hs; exact ⟨s, rfl, hs⟩
  | cons a pre ih =>
    intro s hs
    obtain ⟨h1, h2⟩ := hpre a (by simp)
    obtain ⟨rs, hrs⟩ := Option.ne_none_iff_exists'.1 h2
    obtain ⟨s1, r1, R1⟩ := hdev.read s mem a 3 rs hs hrs
    obtain ⟨s2, n2, R2⟩ := ih (fun b hb => hpre b (by simp [hb])) s1 R1
    refine ⟨s2, ⟨s1, .inr ⟨_, r1, ?_⟩, n2⟩, R2⟩
    intro heq
    apply h1
    cases h0 : mem a with
    | none => simp [memRegs, h0] at hrs
    | some x0 =>
      cases h01 : mem (a + 1) with
      | none => simp [memRegs, h0, h01] at hrs
      | some x1 =>
        cases h02 : mem (a + 1 + 1) with
        | none => simp [memRegs, h0, h01, h02] at hrs
        | some x2 =>
          simp only [memRegs, h0, h01, h02, Option.some.injEq] at hrs
          subst hrs
          obtain ⟨x00, x01⟩ := x0
          obtain ⟨x10, x11⟩ := x1
          simp only [regBytes, List.flatMap_cons, List.cons_append, List.nil_append, List.take_succ_cons, List.take_zero,
            List.cons.injEq, and_true] at heq
          obtain ⟨rfl, rfl, rfl, rfl⟩ := heq
          exact ⟨h0, h01⟩

/-- Scanning a device whose memory presents `SunS` at a base address of the list (and not at those tried before), followed by
a chain of models, finds exactly these models: one model object for each, in order, loaded with the id, address and length of
the device (C28), or with its load error noted. Id and address are those of the device, and the length unless it is 0; the
dictionary `models` lists them by id. For every device that behaves as a memory; definitions with repeating blocks of at least
one register. -/
theorem C38_scan_partial {σ} {dev : ScanDev σ} {R : σ → RegMem → Prop} {wr : Nat → Prop} (hdev : ScanMem dev R wr)
    (lib : Int → Py ModelType) (hd : Definitions lib) (mem : RegMem) (c : CliDev σ) (hc : R c.st mem) (hb : c.base = none)
    (pre : List Int) (b : Int) (post : List Int) (hbases : c.bases = pre ++ b :: post)
    (hpre : ∀ a ∈ pre, ¬ SunSAt mem a ∧ memRegs mem a 3 ≠ none) (hs : SunSAt mem b) (ms : List Found) (hch : Chain mem (b + 2) ms)
    (fuel : Nat) (hf : ms.length < fuel) :
    ∃ c', scan fuel dev lib (fun _ _ => true) c = (c', .ok ()) ∧ R c'.st mem ∧ c'.base = some b ∧ c'.bases = c.bases ∧
      c'.list = c.list ++ ms.map (foundModel lib) ∧ (ById c → ById c') ∧
      (ms.map (foundModel lib)).map (fun m => (m.id, m.addr)) = ms.map (fun f => (f.id, f.addr)) ∧
      ((∀ f ∈ ms, f.len ≠ 0) → (ms.map (foundModel lib)).map MdlObj.found = ms) := by
  have body : ∀ s, R s mem → ∃ s', R s' mem ∧ scanBody fuel dev.toMbDev lib (fun _ _ => true) { c with st := s } =
      ({ (ms.map (foundModel lib)).foldl addModel { c with base := some b } with st := s' }, .ok ()) := by
    intro s hsR
    obtain ⟨s1, n1, R1⟩ := noneSunS_of_mem hdev.mem pre hpre s hsR
    obtain ⟨i, hi⟩ := chain_head hch
    have e2 : b + 1 + 1 = b + 2 := by omega
    have hmem : memRegs mem b 3 = some [(0x53, 0x75), (0x6e, 0x53), i] := by
      simp [memRegs, hs.1, hs.2, e2, hi]
    obtain ⟨s2, r2, R2⟩ := hdev.mem.read s1 mem b 3 _ R1 hmem
    obtain ⟨s3, R3, e3⟩ := scanLoop_chain hdev.mem hd hch i hi fuel { c with st := s2, base := some b } hf R2
    refine ⟨s3, R3, ?_⟩
    have hp : probe dev.toMbDev c.bases s = (s2, .ok (some (b, regBytes [(0x53, 0x75), (0x6e, 0x53), i]))) := by
      rw [hbases, probe_skip dev.toMbDev _ _ s s1 n1, probe, cdRead_ok (show dev.read s1 b 3 = _ from r2)]
      exact if_pos rfl
    unfold scanBody
    dsimp only
    rw [hb]
    dsimp only
    rw [hp]
    dsimp only
    unfold scanFrom
    have hw : wordOf (some ((List.drop 4 (regBytes [(0x53, 0x75), (0x6e, 0x53), i])).take 2)) = some (word i) := word_regBytes i
    rw [hw]
    dsimp only
    rw [e3]
    have key : ∀ (ms : List MdlObj) (c : CliDev σ) (s s' : σ), ({ ms.foldl addModel { c with st := s } with st := s' } : CliDev σ) = { ms.foldl addModel c with st := s' } := by
      intro ms
      induction ms with
      | nil => intro c s s'; rfl
      | cons m ms ih => intro c s s'; exact ih (addModel c m) s s'
    rw [key _ { c with base := some b } s2 s3]
  have hl := addModels_list (ms.map (foundModel lib)) { c with base := some b }
  have hid : ById c → ById ((ms.map (foundModel lib)).foldl addModel { c with base := some b }) := fun h =>
    addModels_byId _ _ h
  have h1 : (ms.map (foundModel lib)).map (fun m => (m.id, m.addr)) = ms.map (fun f => (f.id, f.addr)) := by
    rw [List.map_map]
    apply List.map_congr_left
    intro f _
    have := found_same lib f
    simp only [Function.comp, this.1, this.2.1]
  have h2 : (∀ f ∈ ms, f.len ≠ 0) → (ms.map (foundModel lib)).map MdlObj.found = ms := by
    intro h0
    rw [List.map_map]
    conv => rhs; rw [← List.map_id ms]
    apply List.map_congr_left
    intro f hf
    have := found_same lib f
    simp only [Function.comp, MdlObj.found, this.1, this.2.1, this.2.2 (h0 f hf), id]
  cases hcn : dev.conn with
  | none =>
    obtain ⟨s', R', e⟩ := body c.st hc
    refine ⟨({ (ms.map (foundModel lib)).foldl addModel { c with base := some b } with st := s' } : CliDev σ), ?_, ?_, ?_, ?_, ?_, ?_, h1, h2⟩
    · unfold scan
      rw [hcn]
      exact e
    · exact R'
    · exact hl.2.1
    · exact hl.2.2.1
    · exact hl.1
    · exact hid
  | some f =>
    obtain ⟨s0, ec, R0⟩ := hdev.conn f hcn c.st mem hc
    obtain ⟨s', R', e⟩ := body s0 R0
    refine ⟨({ (ms.map (foundModel lib)).foldl addModel { c with base := some b } with st := dev.disc s' } : CliDev σ), ?_, ?_, ?_, ?_, ?_, ?_, h1, h2⟩
    · unfold scan
      rw [hcn]
      dsimp only
      rw [ec]
      dsimp only
      rw [e]
      rfl
    · exact hdev.disc _ _ R'
    · exact hl.2.1
    · exact hl.2.2.1
    · exact hl.1
    · exact hid

/-- A map of a device with two models: the example of C28 with 5 registers, and an unknown model with 1 register. -/
def scanMap : MbMap := { newMap with
  base := .int 40000
  regs := [⟨.int 0, .int 13, some [0x53, 0x75, 0x6e, 0x53, 3, 0x84, 0, 5, 0, 100, 0, 0, 255, 255, 0, 1, 0, 2, 0, 9, 0, 1, 0, 7, 255, 255], (t!"r")⟩] }

def scanRegs : List Reg := [(0x53, 0x75), (0x6e, 0x53), (3, 0x84), (0, 5), (0, 100), (0, 0), (255, 255), (0, 1), (0, 2), (0, 9), (0, 1), (0, 7), (255, 255)]

theorem scanMap_ok : MapOK scanMap 40000 [⟨0, scanRegs, t!"r"⟩] :=
  ⟨by decide +kernel, by decide +kernel, by simp [Gapped]⟩

/-- The definitions: only model 900. -/
def exLib (id : Int) : Py ModelType := if id = 900 then .ok exType else .error .sunSpecError

theorem exLib_ok : Definitions exLib := by
  intro id
  unfold exLib
  split
  · refine ⟨by simp, ?_⟩
    intro t rb n ht hr hn
    cases ht
    have : rb = (exType.rep.get rfl) := by simp [exType] at hr ⊢; exact hr.symm
    subst this
    have h2 : (exType.rep.get rfl).len.toInt = .ok 2 := by decide
    rw [h2] at hn
    cases hn
    decide
  · exact ⟨by simp, by simp⟩

theorem scanMap_chain : SunSAt (mapMem 40000 [⟨0, scanRegs, t!"r"⟩]) 40000 ∧
    Chain (mapMem 40000 [⟨0, scanRegs, t!"r"⟩]) (40000 + 2) [⟨900, 40004, 5⟩, ⟨9, 40011, 1⟩] := by
  refine ⟨⟨by decide +kernel, by decide +kernel⟩, ?_⟩
  refine .model (i := (3, 0x84)) (l := (0, 5)) (by decide +kernel) (by decide) (by decide +kernel) ?_
  refine .model (i := (0, 9)) (l := (0, 1)) (by decide +kernel) (by decide) (by decide +kernel) ?_
  exact .stop (by decide +kernel)

example : ∃ c', scan 10 mapScanDev exLib (fun _ _ => true) ⟨scanMap, none, [40000, 0, 50000], [], []⟩ = (c', .ok ()) ∧
    c'.base = some 40000 ∧ c'.list.map MdlObj.found = [⟨900, 40004, 5⟩, ⟨9, 40011, 1⟩] := by
  obtain ⟨c', h1, _, h3, _, h5, _, _, h8⟩ := C38_scan_partial (mapScan_mem 40000) exLib exLib_ok _
    ⟨scanMap, none, [40000, 0, 50000], [], []⟩ ⟨_, scanMap_ok, rfl⟩ rfl [] 40000 [0, 50000] rfl (by simp) scanMap_chain.1 _ scanMap_chain.2
    10 (by decide)
  refine ⟨c', h1, h3, ?_⟩
  rw [h5]
  exact h8 (by decide)

/-- The same device with model 900 of length 0: the model object has the length of the definition. -/
def zeroMap : MbMap := { newMap with
  base := .int 40000
  regs := [⟨.int 0, .int 5, some [0x53, 0x75, 0x6e, 0x53, 3, 0x84, 0, 0, 255, 255], (t!"r")⟩] }

theorem zeroMap_ok : MapOK zeroMap 40000 [⟨0, [(0x53, 0x75), (0x6e, 0x53), (3, 0x84), (0, 0), (255, 255)], t!"r"⟩] :=
  ⟨by decide +kernel, by decide +kernel, by simp [Gapped]⟩

theorem C38_violated : ¬ C38_full := by
  intro h
  obtain ⟨c', h1, h2⟩ := h MbMap mapScanDev _ _ (mapScan_mem 40000) exLib exLib_ok _ ⟨zeroMap, none, [40000, 0, 50000], [], []⟩
    ⟨_, zeroMap_ok, rfl⟩ rfl 40000 [0, 50000] rfl ⟨by decide +kernel, by decide +kernel⟩ [⟨900, 40004, 0⟩]
    (.model (i := (3, 0x84)) (l := (0, 0)) (by decide +kernel) (by decide) (by decide +kernel) (.stop (by decide +kernel))) 5 (by decide)
  have e : (scan 5 mapScanDev exLib (fun _ _ => true) ⟨zeroMap, none, [40000, 0, 50000], [], []⟩).1.list.map MdlObj.found =
      [⟨900, 40004, 3⟩] := by decide +kernel
  rw [h1] at e
  rw [e] at h2
  simp at h2

theorem scanLoop_keeps {σ} (dev : MbDev σ) (lib : Int → Py ModelType) (prog : List MdlObj → Int → Bool) :
    ∀ (fuel : Nat) (id addr : Int) (c : CliDev σ), ∃ rest, (scanLoop dev lib prog fuel id addr c).1.list = c.list ++ rest
  | 0, id, addr, c => ⟨[], by rw [scanLoop]; simp⟩
  | fuel + 1, id, addr, c => by
    rw [scanLoop]
    repeat' split
    all_goals try exact ⟨[], (List.append_nil _).symm⟩
    all_goals try exact ⟨[_], rfl⟩
    rename_i m _ _ s2 _ _ _ id2 _
    obtain ⟨rest, h⟩ := scanLoop_keeps dev lib prog fuel id2 _ { addModel c m with st := s2 }
    exact ⟨m :: rest, by rw [h]; simp [addModel]⟩

/-- C38, any device: once the header of a model has been read and its definition loaded, the model is in the list, whatever the
device does afterwards (an exception, an empty reply, a chain without end). -/
theorem C38_kept {σ} (dev : MbDev σ) (lib : Int → Py ModelType) (prog : List MdlObj → Int → Bool) (fuel : Nat) (id addr : Int)
    (c : CliDev σ) (h1 : id ≠ 65535) (s1 : σ) (d1 : Option Bytes) (hr : cdRead dev c.st (addr + 1) 1 = (s1, .ok d1)) (len : Int)
    (hw : wordOf d1 = some len) (hp : prog c.list id = true) (m : MdlObj) (hl : scanLoad (lib id) (mdlNew id (addr + 2) len) = .ok m) :
    ∃ rest, (scanLoop dev lib prog (fuel + 1) id addr c).1.list = c.list ++ m :: rest := by
  rw [scanLoop, if_neg h1, hr]
  dsimp only
  rw [hw]
  dsimp only
  rw [hp]
  simp only [Bool.true_eq_false, if_false]
  rw [hl]
  dsimp only
  split
  · exact ⟨[], rfl⟩
  · split
    · exact ⟨[], rfl⟩
    · rename_i s2 _ _ _ id2 _
      obtain ⟨rest, h⟩ := scanLoop_keeps dev lib prog fuel id2 (addr + (len + 2)) { addModel c m with st := s2 }
      exact ⟨rest, by rw [h]; simp [addModel]⟩

/-! ## C40 -/

/-- The state of the Modbus device once `scan` has connected it (if it is a TCP device). -/
def Connected {σ} (dev : ScanDev σ) (s0 s : σ) : Prop :=
  (dev.conn = none ∧ s = s0) ∨ ∃ f, dev.conn = some f ∧ f s0 = (s, .ok ())

/-- For every device: the base address is the first of the list at which the device presents `SunS`, whatever happens
afterwards. -/
theorem C40_first_partial {σ} (dev : ScanDev σ) (lib : Int → Py ModelType) (prog : List MdlObj → Int → Bool) (fuel : Nat)
    (c : CliDev σ) (s s1 s2 : σ) (hcon : Connected dev c.st s) (hb : c.base = none) (pre : List Int) (b : Int) (post : List Int)
    (hbases : c.bases = pre ++ b :: post) (hpre : NoneSunS dev.toMbDev s pre s1) (d : Bytes)
    (hr : dev.read s1 b 3 = (s2, .ok (some d))) (hd : d.take 4 = [0x53, 0x75, 0x6e, 0x53]) :
    (scan fuel dev lib prog c).1.base = some b := by
  have hp : probe dev.toMbDev c.bases s = (s2, .ok (some (b, d))) := by
    rw [hbases, probe_skip dev.toMbDev _ _ s s1 hpre, probe, cdRead_ok hr]
    exact if_pos hd
  have body : (scanBody fuel dev.toMbDev lib prog { c with st := s }).1.base = some b := by
    unfold scanBody
    dsimp only
    rw [hb]
    dsimp only
    rw [hp]
    dsimp only
    unfold scanFrom
    split
    · rfl
    · rw [scanLoop_base]
  unfold scan
  rcases hcon with ⟨hc, rfl⟩ | ⟨f, hc, hf⟩
  · rw [hc]; exact body
  · rw [hc]
    dsimp only
    rw [hf]
    dsimp only
    generalize scanBody fuel dev.toMbDev lib prog { c with st := s } = X at body
    obtain ⟨c', r⟩ := X
    cases r <;> exact body

/-- For every device: if it presents `SunS` at no address of the list, a `SunSpecClientError` is raised and nothing
is added. -/
theorem C40_none {σ} (dev : ScanDev σ) (lib : Int → Py ModelType) (prog : List MdlObj → Int → Bool) (fuel : Nat)
    (c : CliDev σ) (s s1 : σ) (hcon : Connected dev c.st s) (hb : c.base = none) (hno : NoneSunS dev.toMbDev s c.bases s1) :
    scan fuel dev lib prog c = ({ c with st := s1 }, .error .sunSpecClientError) := by
  have hp : probe dev.toMbDev c.bases s = (s1, .ok none) := by
    have := probe_skip dev.toMbDev [] c.bases s s1 hno
    rw [List.append_nil] at this
    rw [this]; rfl
  have body : scanBody fuel dev.toMbDev lib prog { c with st := s } = ({ c with st := s1 }, .error .sunSpecClientError) := by
    unfold scanBody
    dsimp only
    rw [hb]
    dsimp only
    rw [hp]
  unfold scan
  rcases hcon with ⟨hc, rfl⟩ | ⟨f, hc, hf⟩
  · rw [hc]; exact body
  · rw [hc]
    dsimp only
    rw [hf]
    dsimp only
    rw [body]
    rfl

/-- A device that answers at no address. -/
def silentDev : ScanDev Unit := { deadDev with conn := none, disc := id }

example : scan 3 silentDev exLib (fun _ _ => true) ⟨(), none, [40000, 0, 50000], [], []⟩ =
    (⟨(), none, [40000, 0, 50000], [], []⟩, .error .sunSpecClientError) :=
  C40_none silentDev exLib _ 3 _ () () (.inl ⟨rfl, rfl⟩) rfl
    ⟨(), .inl ⟨_, rfl, .inr (.inl rfl)⟩, (), .inl ⟨_, rfl, .inr (.inl rfl)⟩, (), .inl ⟨_, rfl, .inr (.inl rfl)⟩, rfl⟩

/-- The base address of the second address of the list. -/
def pairDev : ScanDev Bool where
  read s a _ := (true, if a = 0 then .ok (some [0x53, 0x75, 0x6e, 0x53, 255, 255]) else if s then .error (.modbusClientException 2) else .ok (some []))
  write s _ _ := (s, .ok ())
  conn := some fun _ => (false, .ok ())
  disc := id

example : (scan 3 pairDev exLib (fun _ _ => true) ⟨true, none, [40000, 50000, 0], [], []⟩).1.base = some 0 :=
  C40_first_partial pairDev exLib _ 3 _ false true true (.inr ⟨_, rfl, rfl⟩) rfl [40000, 50000] 0 [] rfl
    ⟨true, .inr ⟨_, rfl, by decide⟩, true, .inl ⟨_, rfl, .inr (.inr ⟨_, rfl⟩)⟩, rfl⟩ _ rfl rfl

/-- The claim that a scanned device can be scanned again. Violated: see `C40_rescan_violated`. -/
def C40_full_rescan : Prop :=
  ∀ (σ : Type) (dev : ScanDev σ) (R : σ → RegMem → Prop) (wr : Nat → Prop), ScanMem dev R wr →
  ∀ (lib : Int → Py ModelType), Definitions lib → ∀ (mem : RegMem) (c c' : CliDev σ) (fuel : Nat), R c.st mem →
  scan fuel dev lib (fun _ _ => true) c = (c', .ok ()) → ∃ c'', scan fuel dev lib (fun _ _ => true) c' = (c'', .ok ())

/-- A second scan always fails, with an `UnboundLocalError`, on every device that can be connected. -/
theorem C40_rescan_fails {σ} (dev : ScanDev σ) (lib : Int → Py ModelType) (prog : List MdlObj → Int → Bool) (fuel : Nat)
    (c : CliDev σ) (s : σ) (hcon : Connected dev c.st s) (b : Int) (hb : c.base = some b) :
    scan fuel dev lib prog c = ({ c with st := s }, .error .unboundLocal) := by
  have body : scanBody fuel dev.toMbDev lib prog { c with st := s } = ({ c with st := s }, .error .unboundLocal) := by
    unfold scanBody
    dsimp only
    rw [hb]
  unfold scan
  rcases hcon with ⟨hc, rfl⟩ | ⟨f, hc, hf⟩
  · rw [hc]; exact body
  · rw [hc]
    dsimp only
    rw [hf]
    dsimp only
    rw [body]
    rfl

theorem C40_rescan_violated : ¬ C40_full_rescan := by
  intro h
  obtain ⟨c', h1, _, h3, _⟩ := C38_scan_partial (mapScan_mem 40000) exLib exLib_ok _
    ⟨scanMap, none, [40000, 0, 50000], [], []⟩ ⟨_, scanMap_ok, rfl⟩ rfl [] 40000 [0, 50000] rfl (by simp) scanMap_chain.1 _ scanMap_chain.2
    10 (by decide)
  obtain ⟨c'', h4⟩ := h MbMap mapScanDev _ _ (mapScan_mem 40000) exLib exLib_ok _ _ c' 10 ⟨_, scanMap_ok, rfl⟩ h1
  rw [C40_rescan_fails mapScanDev exLib _ 10 c' c'.st (.inl ⟨rfl, rfl⟩) 40000 h3] at h4
  cases h4

/-- The claim that a base address is found if the device presents `SunS` there. Violated for mapped devices: see
`C40_probe_violated`. -/
def C40_full_probe : Prop :=
  ∀ (mm : MbMap) (base : Int) (bs : List Blk), MapOK mm base bs → ∀ (c : CliDev MbMap), c.st = mm → c.base = none →
  (∃ b ∈ c.bases, SunSAt (mapMem base bs) b ∧ mapMem base bs (b + 2) = some (0xff, 0xff)) →
  ∀ lib fuel, ∃ b, (scan fuel mapScanDev lib (fun _ _ => true) c).1.base = some b

/-- A map with base address 0: the registers at 40000 do not exist, which is not a Modbus error. -/
def lowMap : MbMap := { newMap with base := .int 0, regs := [⟨.int 0, .int 3, some [0x53, 0x75, 0x6e, 0x53, 255, 255], (t!"r")⟩] }

theorem C40_probe_violated : ¬ C40_full_probe := by
  intro h
  obtain ⟨b, h1⟩ := h lowMap 0 [⟨0, [(0x53, 0x75), (0x6e, 0x53), (255, 255)], t!"r"⟩]
    ⟨by decide +kernel, by decide +kernel, by simp [Gapped]⟩ ⟨lowMap, none, [40000, 0, 50000], [], []⟩ rfl rfl
    ⟨0, by simp, ⟨by decide +kernel, by decide +kernel⟩, by decide +kernel⟩ exLib 5
  have : (scan 5 mapScanDev exLib (fun _ _ => true) ⟨lowMap, none, [40000, 0, 50000], [], []⟩).1.base = none := by decide +kernel
  rw [this] at h1
  cases h1

/-! ## C39 -/

theorem cdRead_no_diverge {σ} {dev : MbDev σ} (h : ∀ s a n, (dev.read s a n).2 ≠ .error .diverge) (s : σ) (a n : Int) :
    (cdRead dev s a n).2 ≠ .error .diverge := by
  unfold cdRead
  dsimp only
  have := h s a n
  generalize (dev.read s a n).2 = r at this
  cases r with
  | ok d => simp [cdWrap]
  | error e =>
    unfold cdWrap
    dsimp only
    split
    · simp
    · exact this

theorem cdRead_refused {σ} {dev : MbDev σ} {s : σ} {a n : Int} (h : ∃ e, (dev.read s a n).2 = .error e) :
    ∃ e, (cdRead dev s a n).2 = .error e := by
  obtain ⟨e, h⟩ := h
  unfold cdRead
  rw [h]
  exact ⟨_, rfl⟩

theorem scanLoop_terminates {σ} {dev : MbDev σ} (hnd : ∀ s a n, (dev.read s a n).2 ≠ .error .diverge) (B : Int) (I : σ → Prop)
    (hI : ∀ s a n, I s → I (dev.read s a n).1) (hB : ∀ s a, I s → B ≤ a → ∃ e, (dev.read s a 1).2 = .error e) {lib : Int → Py ModelType} (hd : Definitions lib)
    (prog : List MdlObj → Int → Bool) (f1 : Nat) : ∀ (f2 : Nat) (id a : Int) (c : CliDev σ), I c.st → (B - a).toNat < f1 → (B - a).toNat < f2 →
      (scanLoop dev lib prog f1 id a c).2 ≠ .error .diverge ∧ scanLoop dev lib prog f1 id a c = scanLoop dev lib prog f2 id a c := by
  induction f1 with
  | zero => intros; omega
  | succ f1 ih =>
    intro f2 id a c hc h1 h2
    obtain ⟨f2, rfl⟩ : ∃ k, f2 = k + 1 := ⟨f2 - 1, by omega⟩
    rw [scanLoop, scanLoop]
    by_cases hid : id = 65535
    · rw [if_pos hid, if_pos hid]; exact ⟨by simp, rfl⟩
    · rw [if_neg hid, if_neg hid]
      have n1 := cdRead_no_diverge hnd c.st (a + 1) 1
      have r1 := fun h => cdRead_refused (hB c.st (a + 1) hc h)
      have i1 : I (cdRead dev c.st (a + 1) 1).1 := hI _ _ _ hc
      generalize cdRead dev c.st (a + 1) 1 = X at n1 r1 i1
      obtain ⟨s1, d1⟩ := X
      cases d1 with
      | error e => exact ⟨fun h => n1 (by simpa using h), rfl⟩
      | ok d1 =>
        dsimp only
        have ha : a + 1 < B := by
          apply Int.lt_of_not_ge
          intro h
          obtain ⟨e, he⟩ := r1 h
          simp at he
        cases hw : wordOf d1 with
        | none => exact ⟨by simp, rfl⟩
        | some len =>
          dsimp only
          have hlen : 0 ≤ len := by
            unfold wordOf at hw
            cases d1 with
            | none => simp at hw
            | some d =>
              dsimp only at hw
              split at hw
              · cases hw; omega
              · simp at hw
          by_cases hp : prog c.list id = false
          · rw [if_pos hp, if_pos hp]; exact ⟨by simp, rfl⟩
          · rw [if_neg hp, if_neg hp, scanLoad_found hd ⟨id, a + 2, len⟩]
            dsimp only
            have n2 := cdRead_no_diverge hnd s1 (a + (len + 2)) 1
            have i2 : I (cdRead dev s1 (a + (len + 2)) 1).1 := hI _ _ _ i1
            generalize cdRead dev s1 (a + (len + 2)) 1 = X at n2 i2
            obtain ⟨s2, d2⟩ := X
            cases d2 with
            | error e => exact ⟨fun h => n2 (by simpa using h), rfl⟩
            | ok d2 =>
              dsimp only
              cases hw2 : wordOf d2 with
              | none => exact ⟨by simp, rfl⟩
              | some id2 => exact ih f2 id2 (a + (len + 2)) _ i2 (by omega) (by omega)

theorem probe_no_diverge {σ} {dev : MbDev σ} (hnd : ∀ s a n, (dev.read s a n).2 ≠ .error .diverge) (bs : List Int) : ∀ s,
    (probe dev bs s).2 ≠ .error .diverge := by
  induction bs with
  | nil => intro s; simp [probe]
  | cons a bs ih =>
    intro s
    rw [probe]
    have n1 := cdRead_no_diverge hnd s a 3
    generalize cdRead dev s a 3 = X at n1
    obtain ⟨s1, d1⟩ := X
    cases d1 with
    | error e =>
      dsimp only
      split
      · exact ih s1
      · exact fun h => n1 (by simpa using h)
    | ok d =>
      cases d with
      | none => simp
      | some d =>
        dsimp only
        split
        · simp
        · exact ih s1

theorem probe_inv {σ} {dev : MbDev σ} (I : σ → Prop) (hI : ∀ s a n, I s → I (dev.read s a n).1) (bs : List Int) : ∀ s, I s →
    I (probe dev bs s).1 := by
  induction bs with
  | nil => intro s h; exact h
  | cons a bs ih =>
    intro s h
    rw [probe]
    have i1 : I (cdRead dev s a 3).1 := hI _ _ _ h
    generalize cdRead dev s a 3 = X at i1
    obtain ⟨s1, d1⟩ := X
    cases d1 with
    | error e =>
      dsimp only
      split
      · exact ih s1 i1
      · exact i1
    | ok d =>
      cases d with
      | none => exact i1
      | some d =>
        dsimp only
        split
        · exact i1
        · exact ih s1 i1

theorem probe_mem {σ} {dev : MbDev σ} (bs : List Int) : ∀ s s' a d, probe dev bs s = (s', .ok (some (a, d))) → a ∈ bs := by
  induction bs with
  | nil => intro s s' a d h; simp [probe] at h
  | cons b bs ih =>
    intro s s' a d h
    rw [probe] at h
    repeat' split at h
    all_goals first
      | (simp only [Prod.mk.injEq, Except.ok.injEq, Option.some.injEq] at h; simp [h.2.1])
      | exact List.mem_cons_of_mem _ (ih _ _ _ _ h)
      | simp at h

/-- The full statement of C39. Violated, as loading a model may not terminate (C29): see `C39_violated`. -/
def C39_full : Prop :=
  ∀ (mm : MbMap) (c : CliDev MbMap), c.st = mm → ∀ lib : Int → Py ModelType, (∀ id, lib id ≠ .error .diverge) →
    ∃ fuel, (scan fuel mapScanDev lib (fun _ _ => true) c).2 ≠ .error .diverge

/-- Whatever a device does (the answers to reads may depend on everything that was read before), as long as reads terminate and
registers from some address on cannot be read (in the states `I`), `scan` terminates: there is a number of loop iterations, depending only on the
base addresses, that is never exceeded. -/
theorem C39_terminates_partial {σ} (dev : ScanDev σ) (hnd : ∀ s a n, (dev.read s a n).2 ≠ .error .diverge)
    (hcon : ∀ f, dev.conn = some f → ∀ s, (f s).2 ≠ .error .diverge) (B : Int) (I : σ → Prop)
    (hI : ∀ s a n, I s → I (dev.read s a n).1) (hIc : ∀ f, dev.conn = some f → ∀ s, I s → I (f s).1)
    (hB : ∀ s a, I s → B ≤ a → ∃ e, (dev.read s a 1).2 = .error e) (bases : List Int) :
    ∃ N, ∀ (lib : Int → Py ModelType), Definitions lib → ∀ (prog : List MdlObj → Int → Bool) (c : CliDev σ), c.bases = bases → I c.st →
      (scan N dev lib prog c).2 ≠ .error .diverge ∧ ∀ fuel, N ≤ fuel → scan fuel dev lib prog c = scan N dev lib prog c := by
  obtain ⟨N, hN⟩ : ∃ N : Nat, ∀ b ∈ bases, (B - (b + 2)).toNat < N := by
    clear hB hI hIc
    induction bases with
    | nil => exact ⟨0, by simp⟩
    | cons b bs ih =>
      obtain ⟨N, hN⟩ := ih
      refine ⟨N + (B - (b + 2)).toNat + 1, ?_⟩
      intro x hx
      rcases List.mem_cons.1 hx with rfl | hx
      · omega
      · have := hN x hx; omega
  refine ⟨N, ?_⟩
  intro lib hd prog c hc hc0
  have body : ∀ s, I s → ∀ fuel, N ≤ fuel → (scanBody N dev.toMbDev lib prog { c with st := s }).2 ≠ .error .diverge ∧
      scanBody N dev.toMbDev lib prog { c with st := s } = scanBody fuel dev.toMbDev lib prog { c with st := s } := by
    intro s his fuel hf
    unfold scanBody
    dsimp only
    cases c.base with
    | some b => exact ⟨by simp, rfl⟩
    | none =>
      dsimp only
      have hp := probe_no_diverge hnd c.bases s
      have hm := probe_mem (dev := dev.toMbDev) c.bases s
      have hi := probe_inv (dev := dev.toMbDev) I hI c.bases s his
      generalize probe dev.toMbDev c.bases s = X at hp hm hi
      obtain ⟨s1, r⟩ := X
      cases r with
      | error e => exact ⟨fun h => hp (by simpa using h), rfl⟩
      | ok o =>
        cases o with
        | none => exact ⟨by simp, rfl⟩
        | some ad =>
          obtain ⟨a, d⟩ := ad
          dsimp only
          have ha := hN a (hc ▸ hm s1 a d rfl)
          unfold scanFrom
          split
          · exact ⟨by simp, rfl⟩
          · exact scanLoop_terminates hnd B I hI hB hd prog N fuel _ _ { c with st := s1, base := some a } hi ha (by omega)
  unfold scan
  cases hcn : dev.conn with
  | none => exact ⟨(body c.st hc0 N (by omega)).1, fun fuel hf => (body c.st hc0 fuel hf).2.symm⟩
  | some f =>
    dsimp only
    have hfd := hcon f hcn c.st
    have hfi := hIc f hcn c.st hc0
    generalize f c.st = X at hfd hfi
    obtain ⟨s, r⟩ := X
    cases r with
    | error e => exact ⟨fun h => hfd (by simpa using h), fun _ _ => rfl⟩
    | ok u =>
      dsimp only
      refine ⟨?_, fun fuel hf => by rw [(body s hfi fuel hf).2]⟩
      have := (body s hfi N (by omega)).1
      generalize scanBody N dev.toMbDev lib prog { c with st := s } = X at this
      obtain ⟨c', r⟩ := X
      cases r with
      | ok u => simp [scanEnd]
      | error e => exact fun h => this (by simpa [scanEnd] using h)

/-- RTU devices: any slave, conforming or not (the bus is silent after finitely many bytes). -/
theorem C39_rtu_partial {σ} (slave : Slave σ) (sid : Int) (bases : List Int) :
    ∃ N, ∀ (lib : Int → Py ModelType), Definitions lib → ∀ (prog : List MdlObj → Int → Bool) (c : CliDev (Line σ)), c.bases = bases →
      (scan N (rtuScanDev slave sid) lib prog c).2 ≠ .error .diverge ∧
      ∀ fuel, N ≤ fuel → scan fuel (rtuScanDev slave sid) lib prog c = scan N (rtuScanDev slave sid) lib prog c := by
  have h1 : ∀ s a n, ((rtuScanDev slave sid).read s a n).2 ≠ .error .diverge := by
    intro s a n
    exact C09_terminates slave s sid 3 a n.toNat 125 (by decide)
  have h2 : ∀ s a, True → (65536 : Int) ≤ a → ∃ e, ((rtuScanDev slave sid).read s a 1).2 = .error e := by
    intro s a _ h
    refine ⟨.structError, ?_⟩
    show (rtuRead slave s sid 3 a (1 : Int).toNat 125).2 = _
    have e : rtuRead1 slave s sid 3 a 1 = (s, .error .structError) := by
      rw [rtuRead1_eq, if_neg (by omega)]
    unfold rtuRead rtuReadF
    rw [if_pos (by decide)]
    dsimp only
    rw [show (((if (1 : Int).toNat > 125 then 125 else (1 : Int).toNat) : Nat) : Int) = 1 by decide, e]
  obtain ⟨N, hN⟩ := C39_terminates_partial (rtuScanDev slave sid) h1
    (by intro f h; simp [rtuScanDev] at h) 65536 (fun _ => True) (fun _ _ _ _ => trivial) (fun _ _ _ _ => trivial) h2 bases
  exact ⟨N, fun lib hd prog c hc => hN lib hd prog c hc trivial⟩

/-- TCP devices: any server. -/
theorem C39_tcp_partial {σ} (srv : TcpServer σ) (sid : Int) (bases : List Int) :
    ∃ N, ∀ (lib : Int → Py ModelType), Definitions lib → ∀ (prog : List MdlObj → Int → Bool) (c : CliDev (Tcp σ)), c.bases = bases →
      (scan N (tcpScanDev srv sid) lib prog c).2 ≠ .error .diverge ∧
      ∀ fuel, N ≤ fuel → scan fuel (tcpScanDev srv sid) lib prog c = scan N (tcpScanDev srv sid) lib prog c := by
  have h1 : ∀ s a n, ((tcpScanDev srv sid).read s a n).2 ≠ .error .diverge := by
    intro s a n
    show Except.map some (tcpRead srv s sid 3 a n.toNat 125).2 ≠ _
    have := C15_terminates srv s sid 3 a n.toNat 125 (by decide)
    generalize (tcpRead srv s sid 3 a n.toNat 125).2 = r at this
    cases r with
    | ok d => simp [Except.map]
    | error e => exact fun h => this (by simpa [Except.map] using h)
  have h3 : ∀ f, (tcpScanDev srv sid).conn = some f → ∀ s, (f s).2 ≠ .error .diverge := by
    intro f h t
    have h : tcpConnect srv = f := Option.some.inj h
    subst h
    unfold tcpConnect
    dsimp only
    split <;> simp
  have h2 : ∀ s a, True → (65536 : Int) ≤ a → ∃ e, ((tcpScanDev srv sid).read s a 1).2 = .error e := by
    intro s a _ h
    show ∃ e, Except.map some (tcpRead srv s sid 3 a (1 : Int).toNat 125).2 = .error e
    have body : ∀ t : Tcp σ, ∃ e, (tcpReadF srv sid 3 125 ((1 : Int).toNat + 1) a (1 : Int).toNat [] t).2 = .error e := by
      intro t
      have e1 : ∃ e, (tcpRead1 srv t sid 3 a 1).2 = .error e := by
        by_cases hs : ∃ p, t.sock = .connected p
        · obtain ⟨p, hp⟩ := hs
          have := tcpRead1_eq srv t p hp sid 3 a 1
          rw [if_neg (by omega)] at this
          exact ⟨_, by rw [show ((1 : Nat) : Int) = 1 from rfl] at this; rw [this]⟩
        · obtain ⟨e, he, _⟩ := tcpRead1_unconnected srv t (fun p hp => hs ⟨p, hp⟩) sid 3 a 1
          exact ⟨e, by rw [he]⟩
      obtain ⟨e, he⟩ := e1
      refine ⟨e, ?_⟩
      unfold tcpReadF
      rw [if_pos (by decide)]
      dsimp only
      rw [show (((if (1 : Int).toNat > 125 then 125 else (1 : Int).toNat) : Nat) : Int) = 1 by decide]
      generalize tcpRead1 srv t sid 3 a 1 = X at he
      obtain ⟨t', r⟩ := X
      dsimp only at he
      subst he
      rfl
    have key : ∃ e, (tcpRead srv s sid 3 a (1 : Int).toNat 125).2 = .error e := by
      unfold tcpRead
      by_cases hs : s.sock = .absent
      · by_cases ha : (srv.accept s.dev).2 = true
        · rw [tcpWith_absent _ _ _ hs ha]
          exact body _
        · rw [tcpWith_refused _ _ _ hs (by simpa using ha)]
          exact ⟨_, rfl⟩
      · rw [tcpWith_present _ _ _ hs]
        exact body s
    obtain ⟨e, he⟩ := key
    rw [he]
    exact ⟨e, rfl⟩
  obtain ⟨N, hN⟩ := C39_terminates_partial (tcpScanDev srv sid) h1 h3
    65536 (fun _ => True) (fun _ _ _ _ => trivial) (fun _ _ _ _ => trivial) h2 bases
  exact ⟨N, fun lib hd prog c hc => hN lib hd prog c hc trivial⟩

theorem mapReadLoop_beyond (rs : List Regs) (o r : Num) (h : ∀ x ∈ rs, (x.offset.add x.count).q ≤ o.q) :
    mapReadLoop rs o r [] = .ok [] := by
  induction rs with
  | nil => rfl
  | cons x rs ih =>
    unfold mapReadLoop
    split
    · rw [if_neg (by have := h x (by simp); omega)]
      exact ih (fun y hy => h y (by simp [hy]))
    · rfl

/-- Beyond the last registers of a map nothing can be read. -/
theorem mapRead_beyond (m : MbMap) : ∃ B, ∀ a, B ≤ a → ∃ e, mapRead m a 1 none = .error e := by
  unfold mapRead
  cases hb : m.base.toInt with
  | error e => exact ⟨0, fun a _ => ⟨e, by simp⟩⟩
  | ok base =>
    obtain ⟨Q, hQ⟩ : ∃ Q : Int, ∀ x ∈ m.regs, (x.offset.add x.count).q ≤ 4 * Q := by
      induction m.regs with
      | nil => exact ⟨0, by simp⟩
      | cons x rs ih =>
        obtain ⟨Q, hQ⟩ := ih
        refine ⟨max Q (x.offset.add x.count).q.natAbs, ?_⟩
        intro y hy
        rcases List.mem_cons.1 hy with rfl | hy
        · omega
        · have := hQ y hy; omega
    refine ⟨base + Q, fun a ha => ⟨.modbusMapError, ?_⟩⟩
    rw [if_neg (by simp)]
    dsimp only
    rw [mapReadLoop_beyond m.regs (.int (a - base)) (.int 1) (by
      intro x hx
      have := hQ x hx
      have e : (Num.int (a - base)).q = 4 * (a - base) := rfl
      omega)]
    rfl

theorem numSlice_no_diverge (d : Option Bytes) (a b : Num) : (numSlice d a b).map some ≠ .error .diverge := by
  unfold numSlice
  split <;> simp [Except.map]

theorem regsRead_no_diverge (x : Regs) (o c : Num) : regsRead x o c ≠ .error .diverge := by
  unfold regsRead
  dsimp only
  split
  · generalize (if (x.offset.add x.count).q < (o.add c).q then _ else c : Num) = k
    split
    · exact numSlice_no_diverge _ _ _
    · simp
  · simp

theorem mapReadLoop_no_diverge {rs : List Regs} {o r : Num} {acc : Bytes} : mapReadLoop rs o r acc ≠ .error .diverge := by
  induction rs generalizing o r acc with
  | nil => simp [mapReadLoop]
  | cons x rs ih =>
    unfold mapReadLoop
    split
    · split
      · dsimp only
        have hr := regsRead_no_diverge x
        split
        · exact ih
        · simp
        · rename_i e he
          exact fun h => hr _ _ (by rw [he]; simpa using h)
      · exact ih
    · simp

/-- Mapped devices: any map. -/
theorem C39_mapped_partial (m : MbMap) (bases : List Int) :
    ∃ N, ∀ (lib : Int → Py ModelType), Definitions lib → ∀ (prog : List MdlObj → Int → Bool) (c : CliDev MbMap), c.bases = bases → c.st = m →
      (scan N mapScanDev lib prog c).2 ≠ .error .diverge ∧
      ∀ fuel, N ≤ fuel → scan fuel mapScanDev lib prog c = scan N mapScanDev lib prog c := by
  have h1 : ∀ s a n, (mapScanDev.read s a n).2 ≠ .error .diverge := by
    intro s a n
    show Except.map some (mapRead s a n none) ≠ _
    unfold mapRead
    rw [if_neg (by simp)]
    cases hb : s.base.toInt with
    | error e =>
      have : e ≠ .diverge := by
        rintro rfl
        unfold BaseAddr.toInt at hb
        revert hb
        repeat' split
        all_goals simp
      simpa [Except.map] using this
    | ok base =>
      dsimp only
      have := @mapReadLoop_no_diverge s.regs (.int (a - base)) (.int n) []
      generalize mapReadLoop s.regs (.int (a - base)) (.int n) [] = r at this
      cases r with
      | error e => exact fun h => this (by simpa [Except.map] using h)
      | ok d =>
        dsimp only
        split <;> simp [Except.map]
  obtain ⟨B, hB⟩ := mapRead_beyond m
  have h2 : ∀ s a, s = m → B ≤ a → ∃ e, (mapScanDev.read s a 1).2 = .error e := by
    rintro s a rfl h
    obtain ⟨e, he⟩ := hB a h
    exact ⟨e, by show Except.map some (mapRead s a 1 none) = _; rw [he]; rfl⟩
  obtain ⟨N, hN⟩ := C39_terminates_partial mapScanDev h1 (by intro f h; simp [mapScanDev] at h) B (· = m) (fun _ _ _ h => h)
    (by intro f h; simp [mapScanDev] at h) h2 bases
  exact ⟨N, fun lib hd prog c hc hm => hN lib hd prog c hc hm⟩

/-- Non-vacuity: the example definitions satisfy `Definitions`; a map in which the chain of models goes on until the end of the
registers, and a server that presents endless zeros. -/
example : ∃ N, (scan N mapScanDev exLib (fun _ _ => true) ⟨scanMap, none, [40000, 0, 50000], [], []⟩).2 ≠ .error .diverge := by
  obtain ⟨N, h⟩ := C39_mapped_partial scanMap [40000, 0, 50000]
  exact ⟨N, (h exLib exLib_ok _ ⟨scanMap, none, [40000, 0, 50000], [], []⟩ rfl rfl).1⟩

/-- A map with model 901 of length 2. -/
def loopMap : MbMap := { newMap with
  base := .int 40000
  regs := [⟨.int 0, .int 7, some [0x53, 0x75, 0x6e, 0x53, 3, 0x85, 0, 2, 0, 1, 0, 0, 255, 255], (t!"r")⟩] }

/-- If a definition has a repeating block of zero length (model file with `len="0"`), loading the model does not terminate (C29)
and so `scan` does not. -/
theorem C39_violated : ¬ C39_full := by
  intro h
  obtain ⟨fuel, hf⟩ := h loopMap ⟨loopMap, none, [40000], [], []⟩ rfl (fun _ => .ok zeroRep) (by simp)
  apply hf
  have hl : scanLoad (.ok zeroRep) (mdlNew 901 40004 2) = .error .diverge := by
    have hz : (mdlLoad (.ok zeroRep) (mdlNew 901 40004 2)).2 = .error .diverge :=
      C29_violated_general zeroRep ⟨true, .str (t!"0"), t!"repeating", []⟩ 901 40004 2 1 0
        ⟨by decide, by intro rb h t ht; simp [zeroRep] at h; subst h; simp [dataPoints] at ht⟩
        (by decide) rfl (by decide) (by decide) (by decide) (by decide) _
    unfold scanLoad
    generalize mdlLoad (.ok zeroRep) (mdlNew 901 40004 2) = X at hz
    obtain ⟨m, r⟩ := X
    dsimp only at hz
    subst hz
    rfl
  have hp : probe mapScanDev.toMbDev [40000] loopMap = (loopMap, .ok (some (40000, [0x53, 0x75, 0x6e, 0x53, 3, 0x85]))) :=
    Prod.ext rfl (by decide +kernel)
  have hr : cdRead mapScanDev.toMbDev loopMap (40000 + 2 + 1) 1 = (loopMap, .ok (some [0, 2])) := Prod.ext rfl (by decide +kernel)
  show (scanBody fuel mapScanDev.toMbDev (fun _ => .ok zeroRep) (fun _ _ => true) ⟨loopMap, none, [40000], [], []⟩).2 = .error .diverge
  unfold scanBody
  dsimp only
  rw [hp]
  dsimp only
  unfold scanFrom
  rw [show wordOf (some (List.take 2 (List.drop 4 ([0x53, 0x75, 0x6e, 0x53, 3, 0x85] : Bytes)))) = some 901 by decide +kernel]
  dsimp only
  cases fuel with
  | zero => rfl
  | succ fuel =>
    rw [scanLoop, if_neg (by decide)]
    dsimp only
    rw [hr]
    dsimp only
    rw [show wordOf (some ([0, 2] : Bytes)) = some 2 by decide +kernel]
    dsimp only
    rw [if_neg (by decide), show (40000 + 2 + 2 : Int) = 40004 by decide, hl]

/-! ## C54 The connection of a scan -/

theorem cdRead_inv {σ} {dev : MbDev σ} (I : σ → Prop) (hI : ∀ s a n, I s → I (dev.read s a n).1) (s : σ) (a n : Int) (h : I s) :
    I (cdRead dev s a n).1 := by
  have := hI s a n h
  unfold cdRead
  exact this

theorem scanLoop_inv {σ} {dev : MbDev σ} (I : σ → Prop) (hI : ∀ s a n, I s → I (dev.read s a n).1) (lib : Int → Py ModelType)
    (prog : List MdlObj → Int → Bool) (fuel : Nat) : ∀ (id a : Int) (c : CliDev σ), I c.st → I (scanLoop dev lib prog fuel id a c).1.st := by
  induction fuel with
  | zero => intro _ _ _ h; exact h
  | succ fuel ih =>
    intro id a c h
    rw [scanLoop]
    have h1 := cdRead_inv I hI c.st (a + 1) 1 h
    split
    · exact h
    · generalize cdRead dev c.st (a + 1) 1 = X at h1
      obtain ⟨s1, r1⟩ := X
      cases r1 with
      | error e => exact h1
      | ok d =>
        dsimp only
        cases wordOf d with
        | none => exact h1
        | some len =>
          dsimp only
          split
          · exact h1
          · cases scanLoad (lib id) (mdlNew id (a + 2) len) with
            | error e => exact h1
            | ok m =>
              dsimp only
              have h2 := cdRead_inv I hI s1 (a + (len + 2)) 1 h1
              generalize cdRead dev s1 (a + (len + 2)) 1 = X at h2
              obtain ⟨s2, r2⟩ := X
              cases r2 with
              | error e => exact h2
              | ok d2 =>
                dsimp only
                cases wordOf d2 with
                | none => exact h2
                | some id2 => exact ih id2 _ _ h2

theorem scanBody_inv {σ} {dev : MbDev σ} (I : σ → Prop) (hI : ∀ s a n, I s → I (dev.read s a n).1) (lib : Int → Py ModelType)
    (prog : List MdlObj → Int → Bool) (fuel : Nat) (c : CliDev σ) (h : I c.st) : I (scanBody fuel dev lib prog c).1.st := by
  unfold scanBody
  cases c.base with
  | some b => exact h
  | none =>
    dsimp only
    have h1 := probe_inv I hI c.bases c.st h
    generalize probe dev c.bases c.st = X at h1
    obtain ⟨s1, r⟩ := X
    cases r with
    | error e => exact h1
    | ok o =>
      cases o with
      | none => exact h1
      | some ad =>
        obtain ⟨a, d⟩ := ad
        dsimp only
        unfold scanFrom
        split
        · exact h1
        · exact scanLoop_inv I hI lib prog fuel _ _ _ h1

/-- The full statement: a scan leaves no connection open, whatever its outcome. Violated: see `C54_violated`. -/
def C54_full : Prop :=
  ∀ (σ : Type) (srv : TcpServer σ) (sid : Int) (lib : Int → Py ModelType) (prog : List MdlObj → Int → Bool) (fuel : Nat) (c : CliDev (Tcp σ)),
    c.st.sock = .absent → (scan fuel (tcpScanDev srv sid) lib prog c).1.st.sock = .absent

/-- What `scan` does with connections on a device without one: if the device accepts the connection, it is the only one opened
(all requests use it); it is closed if and only if the scan succeeds. If the device refuses, the socket stays. -/
theorem C54_connection_partial {σ} (srv : TcpServer σ) (sid : Int) (lib : Int → Py ModelType) (prog : List MdlObj → Int → Bool)
    (fuel : Nat) (c c' : CliDev (Tcp σ)) (r : Py Unit) (h0 : c.st.sock = .absent)
    (h : scan fuel (tcpScanDev srv sid) lib prog c = (c', r)) :
    c'.st.opened = c.st.opened + 1 ∧
    (r = .ok () → c'.st.sock = .absent ∧ c'.st.closed = c.st.closed + 1) ∧
    (∀ e, r = .error e → c'.st.sock ≠ .absent ∧ c'.st.closed = c.st.closed) := by
  have hd : tcpDisconnect c.st = c.st := by unfold tcpDisconnect; rw [h0]
  unfold scan at h
  rw [show (tcpScanDev srv sid).conn = some (tcpConnect srv) from rfl] at h
  dsimp only at h
  unfold tcpConnect at h
  rw [hd] at h
  dsimp only at h
  generalize hA : srv.accept c.st.dev = A at h
  obtain ⟨d, ok⟩ := A
  cases ok with
  | false =>
    cases h
    exact ⟨rfl, by simp, fun e _ => ⟨by simp, rfl⟩⟩
  | true =>
    dsimp only at h
    have hinv := scanBody_inv (dev := (tcpScanDev srv sid).toMbDev)
      (fun t : Tcp σ => (∃ p, t.sock = .connected p) ∧ t.opened = c.st.opened + 1 ∧ t.closed = c.st.closed)
      (by
        intro s a n hs
        have := (C20_released_partial srv s sid 3 a n.toNat 125 []).2 hs.1 _ (.inl rfl)
        exact ⟨this.1, this.2.1.trans hs.2.1, this.2.2.trans hs.2.2⟩)
      lib prog fuel { c with st := { c.st with dev := d, sock := .connected [], opened := c.st.opened + 1 } } ⟨⟨_, rfl⟩, rfl, rfl⟩
    generalize scanBody fuel (tcpScanDev srv sid).toMbDev lib prog _ = X at h hinv
    obtain ⟨c2, r2⟩ := X
    obtain ⟨⟨p, hp⟩, ho, hc⟩ := hinv
    cases r2 with
    | error e =>
      cases h
      refine ⟨ho, by simp, fun e' _ => ⟨?_, hc⟩⟩
      dsimp only at hp ⊢
      rw [hp]; simp
    | ok u =>
      cases h
      refine ⟨?_, fun _ => ?_, by simp⟩
      · show (tcpDisconnect c2.st).opened = _
        rw [tcpDisconnect_connected _ _ hp]
        exact ho
      · show (tcpDisconnect c2.st).sock = _ ∧ (tcpDisconnect c2.st).closed = _
        rw [tcpDisconnect_connected _ _ hp]
        exact ⟨rfl, by show c2.st.closed + 1 = _; rw [hc]⟩

/-- A device that is not a SunSpec device (all registers are 0). -/
theorem C54_violated : ¬ C54_full := by
  intro h
  have h1 := h _ (idealServer 1) 1 exLib (fun _ _ => true) 3 ⟨freshTcp (fun _ => 0), none, [40000], [], []⟩ rfl
  have h2 : (scan 3 (tcpScanDev (idealServer 1) 1) exLib (fun _ _ => true) ⟨freshTcp (fun _ => 0), none, [40000], [], []⟩).2 =
      .error .sunSpecClientError := by decide +kernel
  generalize hX : scan 3 (tcpScanDev (idealServer 1) 1) exLib (fun _ _ => true) ⟨freshTcp (fun _ => 0), none, [40000], [], []⟩ = X at h1 h2
  obtain ⟨c', r⟩ := X
  exact ((C54_connection_partial _ _ _ _ _ _ _ _ rfl hX).2.2 _ h2).1 h1

/-- Non-vacuity: a scan of a TCP device that succeeds. -/
example : (scan 3 (tcpScanDev (idealServer 1) 1) exLib (fun _ _ => true)
    ⟨freshTcp (fun a => if a = 40000 then 0x5375 else if a = 40001 then 0x6e53 else if a = 40002 then 9 else if a = 40003 then 1 else 0xffff),
      none, [0, 40000], [], []⟩).2 = .ok () := by decide +kernel

/-! ## C55 Reading all models -/

/-- C55: on a device that behaves like a register memory, `read_points` of the device refreshes every model (in the order of
`models_list`) with the contents of its own registers. -/
theorem C55_read_all {σ} {dev : MbDev σ} {R : σ → RegMem → Prop} {wr : Nat → Prop} (hdev : IsMem dev R wr) (mem : RegMem)
    (ms : List MdlObj) (hm : ∀ m ∈ ms, ModelOK m ∧ Tiles m.addr (m.addr + m.len) (readPlan m) ∧ (∀ c ∈ readPlan m, 0 ≤ c.2) ∧
      ∀ x, m.addr ≤ x → x < m.addr + m.len → mem x ≠ none) : ∀ s, R s mem →
    ∃ s' ms', readModels dev ms s = (s', ms', .ok ()) ∧ R s' mem ∧ List.Forall₂ (ModelRead mem) ms ms' := by
  induction ms with
  | nil => intro s hs; exact ⟨s, [], rfl, hs, .nil⟩
  | cons m ms ih =>
    intro s hs
    obtain ⟨h1, h2, h3, h4⟩ := hm m (by simp)
    obtain ⟨s1, m1, r1, r2, r3⟩ := C32_memory hdev mem s hs m h1 h2 h3 h4
    obtain ⟨s2, ms2, q1, q2, q3⟩ := ih (fun x hx => hm x (by simp [hx])) s1 r2
    refine ⟨s2, m1 :: ms2, ?_, q2, .cons r3 q3⟩
    rw [readModels, r1]
    dsimp only
    rw [q1]

/-- C55: in particular the models that `scan` finds on the device, if their definitions are reasonable. -/
theorem C55_loaded {σ} {dev : MbDev σ} {R : σ → RegMem → Prop} {wr : Nat → Prop} (hdev : IsMem dev R wr) (mem : RegMem)
    (lib : Int → Py ModelType) (fs : List Found)
    (hf : ∀ f ∈ fs, ∃ mt, lib f.id = .ok mt ∧ (foundModel lib f).loadError = false ∧
      (∀ F, mt.fixed.len.toInt = .ok F → BlockFits mt.fixed (fixedLen f.id (foundModel lib f).len F) ∧
        BlockOrdered mt.fixed (fixedLen f.id (foundModel lib f).len F) ∧ 0 ≤ fixedLen f.id (foundModel lib f).len F) ∧
      (∀ rb R, mt.rep = some rb → rb.len.toInt = .ok R → BlockFits rb R ∧ BlockOrdered rb R ∧ 0 ≤ R) ∧
      ∀ x, f.addr ≤ x → x < f.addr + (foundModel lib f).len → mem x ≠ none) : ∀ s, R s mem →
    ∃ s' ms', readModels dev (fs.map (foundModel lib)) s = (s', ms', .ok ()) ∧ R s' mem ∧
      List.Forall₂ (ModelRead mem) (fs.map (foundModel lib)) ms' := by
  induction fs with
  | nil => intro s hs; exact ⟨s, [], rfl, hs, .nil⟩
  | cons f fs ih =>
    intro s hs
    obtain ⟨mt, h1, h2, h3, h4, h5⟩ := hf f (by simp)
    have hl : mdlLoad (.ok mt) (mdlNew f.id f.addr f.len) = (foundModel lib f, .ok ()) := by
      unfold foundModel at h2 ⊢
      rw [h1] at h2 ⊢
      generalize mdlLoad (.ok mt) (mdlNew f.id f.addr f.len) = X at h2
      obtain ⟨m, r⟩ := X
      cases r with
      | ok u => rfl
      | error e => simp at h2
    obtain ⟨s1, m1, r1, r2, r3⟩ := C32_loaded hdev mem s hs _ mt f.id f.addr f.len _ hl h3 h4 h5
    obtain ⟨s2, ms2, q1, q2, q3⟩ := ih (fun x hx => hf x (by simp [hx])) s1 r2
    refine ⟨s2, m1 :: ms2, ?_, q2, .cons r3 q3⟩
    rw [List.map_cons, readModels, r1]
    dsimp only
    rw [q1]

/-- C55: if one model cannot be read, the call raises that exception, the models before it have been read and those after it
are as they were. -/
theorem C55_failure {σ} (dev : MbDev σ) (pre : List MdlObj) (m : MdlObj) (post : List MdlObj) (s s1 s2 : σ) (pre' : List MdlObj)
    (m' : MdlObj) (e : Exc) (h1 : readModels dev pre s = (s1, pre', .ok ())) (h2 : readPoints dev s1 m = (s2, m', .error e)) :
    readModels dev (pre ++ m :: post) s = (s2, pre' ++ m' :: post, .error e) := by
  induction pre generalizing s pre' with
  | nil =>
    cases h1
    rw [List.nil_append, readModels, h2]
    rfl
  | cons x pre ih =>
    rw [readModels] at h1
    rw [List.cons_append, readModels]
    generalize readPoints dev s x = X at h1 ⊢
    obtain ⟨t, x', r⟩ := X
    cases r with
    | error e => cases h1
    | ok u =>
      dsimp only at h1 ⊢
      cases hY : readModels dev pre t with
      | mk t2 Y =>
        obtain ⟨pre2, r2⟩ := Y
        rw [hY] at h1
        cases h1
        rw [ih t pre2 hY]
        rfl

/-- Non-vacuity: two copies of the example model, read over RTU. -/
example : ∃ s' ms', readModels (rtuDev (drippingSlave 7) 7) [exModel, exModel] ⟨exMem, []⟩ = (s', ms', .ok ()) ∧ ms'.length = 2 := by
  obtain ⟨s', ms', h1, _, h3⟩ := C55_read_all (rtuDev_isMem (drippingSlave_conforms 7)) (regMem exMem) [exModel, exModel] (by
    intro m hm
    have : m = exModel := by simpa using hm
    subst this
    exact ⟨exModel_ok, exModel_tiles, by rw [exModel_plan]; simp, by
      rw [exModel_span.1, exModel_span.2]; intro x h1 h2; unfold regMem; rw [if_pos (by omega)]; simp⟩) ⟨exMem, []⟩ rfl
  exact ⟨s', ms', h1, h3.length_eq.symm⟩

end Verif
