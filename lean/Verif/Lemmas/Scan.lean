import Verif.Spec.Scan
import Verif.Props.Load

/-!
# Lemmas on scanning
-/

namespace Verif
open Spec

theorem loadLoop_same (rep : Option BlockType) (endA : Int) (fuel : Nat) : ∀ (i : Nat) (bt : BlockType) (a l lr : Int) (m : MdlObj),
    (loadLoop rep endA fuel i bt a l lr m).1.id = m.id ∧ (loadLoop rep endA fuel i bt a l lr m).1.addr = m.addr ∧
    (loadLoop rep endA fuel i bt a l lr m).1.len = m.len ∧ (loadLoop rep endA fuel i bt a l lr m).1.loadError = m.loadError := by
  induction fuel with
  | zero => intros; exact ⟨rfl, rfl, rfl, rfl⟩
  | succ fuel ih =>
    intro i bt a l lr m
    unfold loadLoop
    split
    · exact ⟨rfl, rfl, rfl, rfl⟩
    · dsimp only
      split
      · exact ⟨rfl, rfl, rfl, rfl⟩
      · split
        · exact ⟨rfl, rfl, rfl, rfl⟩
        · split
          · exact ⟨rfl, rfl, rfl, rfl⟩
          · split
            · exact ⟨rfl, rfl, rfl, rfl⟩
            · exact ih _ _ _ _ _ _

theorem mdlLoad_same (mt : Py ModelType) (m : MdlObj) :
    (mdlLoad mt m).1.id = m.id ∧ (mdlLoad mt m).1.addr = m.addr ∧ (m.len ≠ 0 → (mdlLoad mt m).1.len = m.len) ∧
    (mdlLoad mt m).1.loadError = m.loadError := by
  unfold mdlLoad loadWith
  cases mt with
  | error e => exact ⟨rfl, rfl, fun _ => rfl, rfl⟩
  | ok mt =>
    dsimp only
    split
    · exact ⟨rfl, rfl, fun h => if_neg h, rfl⟩
    · rename_i flen hf
      generalize hm1 : ({ m with readBlocks := m.readBlocks ++ [m.addr], mtype := some mt, len := if m.len = 0 then mt.len else m.len } : MdlObj) = m1
      have h := loadLoop_same mt.rep (m.addr + if m.len = 0 then mt.len else m.len) (loadFuel (.ok mt) m) 0 mt.fixed m.addr
        (if m.id = 1 ∧ (if m.len = 0 then mt.len else m.len) = 65 then (if m.len = 0 then mt.len else m.len) else flen) m.addr m1
      generalize loadLoop mt.rep (m.addr + if m.len = 0 then mt.len else m.len) (loadFuel (.ok mt) m) 0 mt.fixed m.addr
        (if m.id = 1 ∧ (if m.len = 0 then mt.len else m.len) = 65 then (if m.len = 0 then mt.len else m.len) else flen) m.addr m1 = X at h
      obtain ⟨m2, r⟩ := X
      subst hm1
      dsimp only at h
      cases r with
      | error e => exact ⟨h.1, h.2.1, fun hl => by rw [h.2.2.1]; exact if_neg hl, h.2.2.2⟩
      | ok u => exact ⟨h.1, h.2.1, fun hl => by show m2.len = _; rw [h.2.2.1]; exact if_neg hl, h.2.2.2⟩

theorem scanLoad_found {lib : Int → Py ModelType} (hd : Definitions lib) (f : Found) :
    scanLoad (lib f.id) (mdlNew f.id f.addr f.len) = .ok (foundModel lib f) := by
  have h := (C29_terminates_partial (lib f.id) (mdlNew f.id f.addr f.len) (hd f.id).2 (hd f.id).1).1
  unfold scanLoad foundModel
  generalize mdlLoad (lib f.id) (mdlNew f.id f.addr f.len) = X at h
  obtain ⟨m, r⟩ := X
  dsimp only at h ⊢
  cases r with
  | ok u => rfl
  | error e =>
    have : e ≠ .diverge := fun he => h (by rw [he])
    dsimp only
    rw [if_neg this]

theorem scanLoad_cases (mt : Py ModelType) (m : MdlObj) :
    (∃ m', scanLoad mt m = .ok m') ∨ scanLoad mt m = .error .diverge := by
  unfold scanLoad
  split
  · exact .inl ⟨_, rfl⟩
  · split
    · exact .inr rfl
    · exact .inl ⟨_, rfl⟩

theorem cdRead_ok {σ} {dev : MbDev σ} {s s' : σ} {a n : Int} {d : Option Bytes} (h : dev.read s a n = (s', .ok d)) :
    cdRead dev s a n = (s', .ok d) := by
  unfold cdRead; rw [h]; rfl

theorem cdRead_err {σ} {dev : MbDev σ} {s s' : σ} {a n : Int} {e : Exc} (h : dev.read s a n = (s', .error e)) :
    cdRead dev s a n = (s', .error (if e.isModbusClient then .sunSpecClientError else e)) := by
  unfold cdRead; rw [h]; rfl

theorem word_regBytes (r : Reg) : wordOf (some (regBytes [r])) = some (word r) := by
  obtain ⟨a, b⟩ := r
  unfold wordOf word regBytes
  simp [beDec]

theorem word_ne {r : Reg} (h : r ≠ (0xff, 0xff)) : word r ≠ 65535 := by
  obtain ⟨a, b⟩ := r
  intro hw
  apply h
  unfold word at hw
  dsimp only at hw
  have ha := a.isLt
  have hb := b.isLt
  have h1 : a.toNat = 255 := by omega
  have h2 : b.toNat = 255 := by omega
  have e1 : a = 0xff := BitVec.eq_of_toNat_eq (by rw [h1]; rfl)
  have e2 : b = 0xff := BitVec.eq_of_toNat_eq (by rw [h2]; rfl)
  rw [e1, e2]

theorem read_word {σ} {dev : MbDev σ} {R : σ → RegMem → Prop} {wr : Nat → Prop} (hdev : IsMem dev R wr) {s : σ} {mem : RegMem}
    (hs : R s mem) {a : Int} {r : Reg} (h : mem a = some r) :
    ∃ s', cdRead dev s a 1 = (s', .ok (some (regBytes [r]))) ∧ R s' mem := by
  obtain ⟨s', h1, h2⟩ := hdev.read s mem a 1 [r] hs (by simp [memRegs, h])
  exact ⟨s', cdRead_ok h1, h2⟩

/-- One pass through the loop. -/
theorem scanLoop_model {σ} {dev : MbDev σ} {R : σ → RegMem → Prop} {wr : Nat → Prop} (hdev : IsMem dev R wr)
    {lib : Int → Py ModelType} (hd : Definitions lib) {mem : RegMem} {a : Int} {i l i2 : Reg} (hi : i ≠ (0xff, 0xff))
    (hl : mem (a + 1) = some l) (h2 : mem (a + 2 + word l) = some i2) (fuel : Nat) (c : CliDev σ) (hc : R c.st mem) :
    ∃ s', R s' mem ∧ scanLoop dev lib (fun _ _ => true) (fuel + 1) (word i) a c =
      scanLoop dev lib (fun _ _ => true) fuel (word i2) (a + 2 + word l) { addModel c (foundModel lib ⟨word i, a + 2, word l⟩) with st := s' } := by
  obtain ⟨s1, r1, R1⟩ := read_word hdev hc hl
  have e : a + (word l + 2) = a + 2 + word l := by omega
  obtain ⟨s2, r2, R2⟩ := read_word hdev R1 h2
  refine ⟨s2, R2, ?_⟩
  have sl := scanLoad_found hd ⟨word i, a + 2, word l⟩
  dsimp only at sl
  rw [scanLoop]
  rw [if_neg (word_ne hi), r1]
  dsimp only
  rw [word_regBytes]
  dsimp only
  rw [if_neg (by simp), sl]
  dsimp only
  rw [e, r2]
  dsimp only
  rw [word_regBytes]

theorem chain_head {mem : RegMem} {a : Int} {ms : List Found} (h : Chain mem a ms) : ∃ r, mem a = some r := by
  cases h with
  | stop h => exact ⟨_, h⟩
  | model h _ _ _ => exact ⟨_, h⟩

theorem scanLoop_chain {σ} {dev : MbDev σ} {R : σ → RegMem → Prop} {wr : Nat → Prop} (hdev : IsMem dev R wr)
    {lib : Int → Py ModelType} (hd : Definitions lib) {mem : RegMem} {a : Int} {ms : List Found} (h : Chain mem a ms) :
    ∀ (i : Reg), mem a = some i → ∀ (fuel : Nat) (c : CliDev σ), ms.length < fuel → R c.st mem →
      ∃ s', R s' mem ∧ scanLoop dev lib (fun _ _ => true) fuel (word i) a c =
        ({ (ms.map (foundModel lib)).foldl addModel c with st := s' }, .ok ()) := by
  induction h with
  | @stop a h =>
    intro i hi fuel c hf hc
    obtain ⟨fuel, rfl⟩ : ∃ k, fuel = k + 1 := ⟨fuel - 1, by simp at hf; omega⟩
    rw [h] at hi
    obtain rfl : ((0xff, 0xff) : Reg) = i := Option.some.inj hi
    refine ⟨c.st, hc, ?_⟩
    unfold scanLoop
    rw [if_pos (by decide)]
    rfl
  | @model a i l rest ha hi hl hr ih =>
    intro j hj fuel c hf hc
    obtain ⟨fuel, rfl⟩ : ∃ k, fuel = k + 1 := ⟨fuel - 1, by simp at hf; omega⟩
    rw [ha] at hj
    obtain rfl : i = j := Option.some.inj hj
    obtain ⟨i2, hi2⟩ := chain_head hr
    obtain ⟨s1, R1, e1⟩ := scanLoop_model hdev hd hi hl hi2 fuel c hc
    obtain ⟨s2, R2, e2⟩ := ih i2 hi2 fuel { addModel c (foundModel lib ⟨word i, a + 2, word l⟩) with st := s1 } (by simpa using hf) R1
    refine ⟨s2, R2, ?_⟩
    rw [e1, e2]
    have key : ∀ (ms : List MdlObj) (c : CliDev σ) (s s' : σ), ({ ms.foldl addModel { c with st := s } with st := s' } : CliDev σ) = { ms.foldl addModel c with st := s' } := by
      intro ms
      induction ms with
      | nil => intro c s s'; rfl
      | cons m ms ih => intro c s s'; exact ih (addModel c m) s s'
    rw [key]
    rfl

theorem addModels_list {σ} (ms : List MdlObj) : ∀ (c : CliDev σ),
    (ms.foldl addModel c).list = c.list ++ ms ∧ (ms.foldl addModel c).base = c.base ∧ (ms.foldl addModel c).bases = c.bases ∧
    (ms.foldl addModel c).st = c.st := by
  induction ms with
  | nil => intro c; simp
  | cons m ms ih =>
    intro c
    obtain ⟨h1, h2, h3, h4⟩ := ih (addModel c m)
    simp only [List.foldl_cons]
    refine ⟨?_, h2, h3, h4⟩
    rw [h1]
    simp [addModel]

theorem addModel_byId {σ} (c : CliDev σ) (m : MdlObj) (h : ById c) : ById (addModel c m) := by
  intro id
  unfold addModel
  dsimp only
  rw [dictGet_set, List.filter_append]
  by_cases hid : id = m.id
  · subst hid
    rw [if_pos rfl]
    simp [h m.id]
  · rw [if_neg hid, h id]
    simp [Ne.symm hid]

theorem addModels_byId {σ} (ms : List MdlObj) : ∀ (c : CliDev σ), ById c → ById (ms.foldl addModel c) := by
  induction ms with
  | nil => intro c h; exact h
  | cons m ms ih => intro c h; exact ih _ (addModel_byId c m h)

theorem probe_skip {σ} (dev : MbDev σ) (rest : List Int) (pre : List Int) : ∀ (s s' : σ), NoneSunS dev s pre s' →
    probe dev (pre ++ rest) s = probe dev rest s' := by
  induction pre with
  | nil => intro s s' h; rw [show s' = s from h]; rfl
  | cons a pre ih =>
    intro s s' h
    obtain ⟨s1, h1, h2⟩ := h
    have hrec := ih s1 s' h2
    rw [List.cons_append, ← hrec, probe]
    rcases h1 with ⟨e, h1, he⟩ | ⟨d, h1, hne⟩
    · rw [cdRead_err h1]
      have : e.isModbusClient = true := by
        rcases he with rfl | rfl | ⟨n, rfl⟩ <;> rfl
      rw [this]
      dsimp only
      exact if_pos rfl
    · rw [cdRead_ok h1]
      dsimp only
      exact if_neg hne

theorem scanLoop_base {σ} (dev : MbDev σ) (lib : Int → Py ModelType) (prog : List MdlObj → Int → Bool) (fuel : Nat) :
    ∀ (id a : Int) (c : CliDev σ), (scanLoop dev lib prog fuel id a c).1.base = c.base := by
  induction fuel with
  | zero => intros; rfl
  | succ fuel ih =>
    intro id a c
    unfold scanLoop
    repeat' split
    all_goals first | rfl | exact ih _ _ _

end Verif
