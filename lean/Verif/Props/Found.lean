import Verif.Spec.Found
import Verif.Props.Failure

/-!
# C71, C72: where scan finds models
-/

namespace Verif
open Spec

/-! ## Recording does not change anything -/

theorem cdRead_recorded {σ} (dev : ScanDev σ) (s : σ × List ReadEvent) (a n : Int) :
    cdRead (recorded dev).toMbDev s a n =
      (((cdRead dev.toMbDev s.1 a n).1, s.2 ++ [⟨a, n, (dev.read s.1 a n).2⟩]), (cdRead dev.toMbDev s.1 a n).2) := rfl

theorem probe_recorded {σ} (dev : ScanDev σ) : ∀ (bs : List Int) (s : σ × List ReadEvent), ∃ log,
    probe (recorded dev).toMbDev bs s = (((probe dev.toMbDev bs s.1).1, s.2 ++ log), (probe dev.toMbDev bs s.1).2) ∧
    log.length ≤ bs.length ∧ ∀ a d, (probe dev.toMbDev bs s.1).2 = .ok (some (a, d)) → a ∈ bs ∧ d.take 4 = sunS ∧
      ∃ e ∈ log, e.addr = a ∧ e.count = 3 ∧ e.result = .ok (some d) := by
  intro bs
  induction bs with
  | nil => intro s; exact ⟨[], by simp [probe], by simp, by simp [probe]⟩
  | cons a bs ih =>
    intro s
    rw [probe, probe, cdRead_recorded]
    cases hr : dev.read s.1 a 3 with
    | mk s1 r =>
      have hcd : cdRead dev.toMbDev s.1 a 3 = (s1, cdWrap r) := by unfold cdRead; rw [hr]
      rw [hcd]
      dsimp only
      cases r with
      | error e =>
        simp only [cdWrap]
        obtain ⟨log, h1, h2, h3⟩ := ih (s1, s.2 ++ [⟨a, 3, .error e⟩])
        generalize (if e.isModbusClient = true then Exc.sunSpecClientError else e) = e'
        by_cases he : e' = .sunSpecClientError
        · rw [if_pos he, if_pos he]
          refine ⟨⟨a, 3, .error e⟩ :: log, by rw [h1]; simp, by simp; omega, fun x d hx => ?_⟩
          obtain ⟨g1, g2, ev, g3, g4⟩ := h3 x d hx
          exact ⟨by simp [g1], g2, ev, by simp [g3], g4⟩
        · rw [if_neg he, if_neg he]
          exact ⟨[⟨a, 3, .error e⟩], rfl, by simp, fun x d hx => by cases hx⟩
      | ok d =>
        cases d with
        | none => exact ⟨[⟨a, 3, .ok none⟩], rfl, by simp, fun x d hx => by cases hx⟩
        | some d =>
          simp only [cdWrap]
          obtain ⟨log, h1, h2, h3⟩ := ih (s1, s.2 ++ [⟨a, 3, .ok (some d)⟩])
          by_cases hd : d.take 4 = sunS
          · rw [if_pos hd, if_pos hd]
            refine ⟨[⟨a, 3, .ok (some d)⟩], rfl, by simp, fun x y hx => ?_⟩
            cases hx
            exact ⟨by simp, hd, _, List.mem_singleton_self _, rfl, rfl, rfl⟩
          · rw [if_neg hd, if_neg hd]
            refine ⟨⟨a, 3, .ok (some d)⟩ :: log, by rw [h1]; simp, by simp; omega, fun x y hx => ?_⟩
            obtain ⟨g1, g2, ev, g3, g4⟩ := h3 x y hx
            exact ⟨by simp [g1], g2, ev, by simp [g3], g4⟩

theorem scanLoad_facts (mt : Py ModelType) (id addr len : Int) (m : MdlObj) (h : scanLoad mt (mdlNew id addr len) = .ok m) :
    m.id = id ∧ m.addr = addr ∧ (len ≠ 0 → m.len = len) := by
  have key : ∀ (rep : Option BlockType) (fuel index : Nat) (bt : BlockType) (B bl lr : Int) (m m' : MdlObj) (r : Py Unit) (endA : Int),
      loadLoop rep endA fuel index bt B bl lr m = (m', r) → m'.len = m.len ∧ m'.id = m.id ∧ m'.addr = m.addr := by
    intro rep fuel
    induction fuel with
    | zero => intro index bt B bl lr m m' r endA h; rw [loadLoop] at h; cases h; exact ⟨rfl, rfl, rfl⟩
    | succ fuel ih =>
      intro index bt B bl lr m m' r endA h
      rw [loadLoop] at h
      split at h
      · cases h; exact ⟨rfl, rfl, rfl⟩
      · dsimp only at h
        split at h
        · cases h; exact ⟨rfl, rfl, rfl⟩
        · split at h
          · cases h; exact ⟨rfl, rfl, rfl⟩
          · split at h
            · cases h; exact ⟨rfl, rfl, rfl⟩
            · split at h
              · cases h; exact ⟨rfl, rfl, rfl⟩
              · have := ih _ _ _ _ _ _ _ _ _ h
                exact this
  have hl : ∀ m' r, mdlLoad mt (mdlNew id addr len) = (m', r) → m'.id = id ∧ m'.addr = addr ∧ (len ≠ 0 → m'.len = len) := by
    intro m' r h
    unfold mdlLoad loadWith at h
    cases mt with
    | error e => cases h; exact ⟨rfl, rfl, fun _ => rfl⟩
    | ok t =>
      dsimp only at h
      cases hF : t.fixed.len.toInt with
      | error e =>
        rw [hF] at h
        cases h
        refine ⟨rfl, rfl, fun h0 => ?_⟩
        show (if len = 0 then t.len else len) = len
        rw [if_neg h0]
      | ok F =>
        rw [hF] at h
        dsimp only at h
        generalize hX : loadLoop _ _ _ _ _ _ _ _ _ = X at h
        obtain ⟨m2, r2⟩ := X
        obtain ⟨k1, k2, k3⟩ := key _ _ _ _ _ _ _ _ _ _ _ hX
        have hmm : m'.id = m2.id ∧ m'.addr = m2.addr ∧ m'.len = m2.len := by
          cases r2 with
          | error e => cases h; exact ⟨rfl, rfl, rfl⟩
          | ok u => cases h; exact ⟨rfl, rfl, rfl⟩
        refine ⟨hmm.1.trans k2, hmm.2.1.trans k3, fun h0 => ?_⟩
        rw [hmm.2.2, k1]
        show (if len = 0 then t.len else len) = len
        rw [if_neg h0]
  unfold scanLoad at h
  cases hx : mdlLoad mt (mdlNew id addr len) with
  | mk m' r =>
    rw [hx] at h
    have := hl m' r hx
    cases r with
    | ok u => cases h; exact this
    | error e =>
      dsimp only at h
      split at h
      · cases h
      · cases h; exact this

theorem Spec.Answered.mono {log log' : List ReadEvent} (h : ∀ e ∈ log, e ∈ log') {a v : Int} (ha : Answered log a v) : Answered log' a v := by
  obtain ⟨e, h1, h2⟩ := ha
  exact ⟨e, h e h1, h2⟩

theorem placed_mono {l l' : List ReadEvent} (hll : ∀ e ∈ l, e ∈ l') : ∀ (ms : List MdlObj) (a i : Int), Placed l a i ms → Placed l' a i ms := by
  intro ms
  induction ms with
  | nil => intro a i _; trivial
  | cons x xs ihx =>
    intro a i hx
    obtain ⟨x1, x2, ln, x3, x4, x5⟩ := hx
    refine ⟨x1, x2, ln, x3.mono hll, x4, ?_⟩
    rcases x5 with x5 | ⟨i', x5, x6⟩
    · exact .inl x5
    · exact .inr ⟨i', x5.mono hll, ihx _ _ x6⟩

theorem wordOf_some {d : Option Bytes} {v : Int} (h : wordOf d = some v) : ∃ b : Bytes, d = some b ∧ b.length = 2 ∧ v = beDec b := by
  cases d with
  | none => cases h
  | some b =>
    simp only [wordOf] at h
    split at h
    · rename_i hl; cases h; exact ⟨b, rfl, hl, rfl⟩
    · cases h

theorem scanLoop_recorded {σ} (dev : ScanDev σ) (lib : Int → Py ModelType) (prog : List MdlObj → Int → Bool) :
    ∀ (fuel : Nat) (id addr : Int) (c : CliDev (σ × List ReadEvent)), ∃ (log : List ReadEvent) (found : List MdlObj),
    plain (scanLoop (recorded dev).toMbDev lib prog fuel id addr c).1 = (scanLoop dev.toMbDev lib prog fuel id addr (plain c)).1 ∧
    (scanLoop (recorded dev).toMbDev lib prog fuel id addr c).2 = (scanLoop dev.toMbDev lib prog fuel id addr (plain c)).2 ∧
    (scanLoop (recorded dev).toMbDev lib prog fuel id addr c).1.st.2 = c.st.2 ++ log ∧
    (scanLoop (recorded dev).toMbDev lib prog fuel id addr c).1.list = c.list ++ found ∧
    (scanLoop (recorded dev).toMbDev lib prog fuel id addr c).1.base = c.base ∧
    Placed log addr id found ∧ log.length ≤ 2 * found.length + 1 := by
  intro fuel
  induction fuel with
  | zero => intro id addr c; exact ⟨[], [], rfl, rfl, by simp [scanLoop], by simp [scanLoop], rfl, trivial, by simp⟩
  | succ fuel ih =>
    intro id addr c
    rw [scanLoop, scanLoop]
    by_cases hid : id = 65535
    · rw [if_pos hid, if_pos hid]
      exact ⟨[], [], rfl, rfl, by simp, by simp, rfl, trivial, by simp⟩
    · rw [if_neg hid, if_neg hid, cdRead_recorded]
      have hp : (plain c).st = c.st.1 := rfl
      rw [hp]
      cases hr : dev.read c.st.1 (addr + 1) 1 with
      | mk s1 r =>
        have hcd : cdRead dev.toMbDev c.st.1 (addr + 1) 1 = (s1, cdWrap r) := by unfold cdRead; rw [hr]
        rw [hcd]
        dsimp only
        cases r with
        | error e =>
          exact ⟨[⟨addr + 1, 1, .error e⟩], [], rfl, rfl, rfl, by simp [cdWrap], rfl, trivial, by simp⟩
        | ok d =>
          simp only [cdWrap]
          cases hw : wordOf d with
          | none => exact ⟨[⟨addr + 1, 1, .ok d⟩], [], rfl, rfl, rfl, by simp, rfl, trivial, by simp⟩
          | some len =>
            dsimp only
            have hans : Answered [⟨addr + 1, 1, .ok d⟩] (addr + 1) len := by
              obtain ⟨b, h1, h2, h3⟩ := wordOf_some hw
              exact ⟨_, List.mem_singleton_self _, rfl, rfl, b, by rw [h1], h2, h3⟩
            have hpl : (plain c).list = c.list := rfl
            rw [hpl]
            by_cases hpr : prog c.list id = false
            · rw [if_pos hpr, if_pos hpr]
              exact ⟨[⟨addr + 1, 1, .ok d⟩], [], rfl, rfl, rfl, by simp, rfl, trivial, by simp⟩
            · rw [if_neg hpr, if_neg hpr]
              cases hm : scanLoad (lib id) (mdlNew id (addr + 2) len) with
              | error e => exact ⟨[⟨addr + 1, 1, .ok d⟩], [], rfl, rfl, rfl, by simp, rfl, trivial, by simp⟩
              | ok m =>
                dsimp only
                obtain ⟨f1, f2, f3⟩ := scanLoad_facts _ _ _ _ _ hm
                rw [cdRead_recorded]
                dsimp only
                cases hr2 : dev.read s1 (addr + (len + 2)) 1 with
                | mk s2 r2 =>
                  have hcd2 : cdRead dev.toMbDev s1 (addr + (len + 2)) 1 = (s2, cdWrap r2) := by unfold cdRead; rw [hr2]
                  rw [hcd2]
                  dsimp only
                  have hone : ∀ r2, Placed [⟨addr + 1, 1, .ok d⟩, ⟨addr + (len + 2), 1, r2⟩] addr id [m] := fun r2 =>
                    ⟨f1, f2, len, hans.mono (by simp), f3, .inl rfl⟩
                  cases r2 with
                  | error e => exact ⟨[⟨addr + 1, 1, .ok d⟩, ⟨addr + (len + 2), 1, .error e⟩], [m], rfl, rfl, by simp [cdWrap], rfl, rfl, hone _, by simp⟩
                  | ok d2 =>
                    simp only [cdWrap]
                    cases hw2 : wordOf d2 with
                    | none => exact ⟨[⟨addr + 1, 1, .ok d⟩, ⟨addr + (len + 2), 1, .ok d2⟩], [m], rfl, rfl, by simp, rfl, rfl, hone _, by simp⟩
                    | some id2 =>
                      dsimp only
                      obtain ⟨log, found, h1, h2, h3, h4, h5, h6, h7⟩ := ih id2 (addr + (len + 2))
                        { addModel c m with st := (s2, c.st.2 ++ [⟨addr + 1, 1, .ok d⟩] ++ [⟨addr + (len + 2), 1, .ok d2⟩]) }
                      refine ⟨[⟨addr + 1, 1, .ok d⟩, ⟨addr + (len + 2), 1, .ok d2⟩] ++ log, m :: found, h1, h2, ?_, ?_, h5, ?_, ?_⟩
                      · rw [h3]; simp
                      · rw [h4]; simp [addModel]
                      · refine ⟨f1, f2, len, hans.mono (by simp), f3, .inr ⟨id2, ?_, ?_⟩⟩
                        · obtain ⟨b, g1, g2, g3⟩ := wordOf_some hw2
                          exact ⟨⟨addr + (len + 2), 1, .ok d2⟩, by simp, by dsimp only; omega, rfl, b, by rw [g1], g2, g3⟩
                        · rw [show addr + 2 + len = addr + (len + 2) by omega]
                          exact placed_mono (by simp +contextual) found _ _ h6
                      · simp; omega

theorem scanBody_recorded {σ} (dev : ScanDev σ) (lib : Int → Py ModelType) (prog : List MdlObj → Int → Bool) (fuel : Nat)
    (c : CliDev (σ × List ReadEvent)) (hb : c.base = none) : ∃ (log : List ReadEvent) (found : List MdlObj),
    plain (scanBody fuel (recorded dev).toMbDev lib prog c).1 = (scanBody fuel dev.toMbDev lib prog (plain c)).1 ∧
    (scanBody fuel (recorded dev).toMbDev lib prog c).2 = (scanBody fuel dev.toMbDev lib prog (plain c)).2 ∧
    (scanBody fuel (recorded dev).toMbDev lib prog c).1.st.2 = c.st.2 ++ log ∧
    (scanBody fuel (recorded dev).toMbDev lib prog c).1.list = c.list ++ found ∧
    (found = [] ∨ ∃ a id, a ∈ c.bases ∧ (scanBody fuel (recorded dev).toMbDev lib prog c).1.base = some a ∧ Marked log a id ∧ Placed log (a + 2) id found) ∧
    log.length ≤ c.bases.length + 2 * found.length + 1 := by
  obtain ⟨plog, p1, p2, p3⟩ := probe_recorded dev c.bases c.st
  unfold scanBody
  rw [show (plain c).base = c.base from rfl, show (plain c).bases = c.bases from rfl, show (plain c).st = c.st.1 from rfl, hb]
  dsimp only
  rw [p1]
  cases hp : probe dev.toMbDev c.bases c.st.1 with
  | mk s1 r =>
    rw [hp] at p3
    cases r with
    | error e => exact ⟨plog, [], rfl, rfl, rfl, by simp, .inl rfl, by simp; omega⟩
    | ok x =>
      cases x with
      | none => exact ⟨plog, [], rfl, rfl, rfl, by simp, .inl rfl, by simp; omega⟩
      | some ad =>
        obtain ⟨a, d⟩ := ad
        obtain ⟨q1, q2, ev, q3, q4, q5, q6⟩ := p3 a d rfl
        dsimp only
        unfold scanFrom
        cases hw : wordOf (some ((d.drop 4).take 2)) with
        | none => exact ⟨plog, [], rfl, rfl, rfl, by simp, .inl rfl, by simp; omega⟩
        | some id =>
          dsimp only
          obtain ⟨log, found, h1, h2, h3, h4, h5, h6, h7⟩ := scanLoop_recorded dev lib prog fuel id (a + 2) { c with st := (s1, c.st.2 ++ plog), base := some a }
          refine ⟨plog ++ log, found, h1, h2, by rw [h3]; simp, h4, .inr ⟨a, id, q1, h5, ?_, placed_mono (by simp +contextual) found _ _ h6⟩, by simp; omega⟩
          obtain ⟨b, g1, g2, g3⟩ := wordOf_some hw
          cases g1
          exact ⟨ev, by simp [q3], q4, q5, d, q6, q2, g2, g3⟩

/-- C71: whatever the device does (and whether or not the scan ends with an exception), the models that `scan` adds to the list of models follow each
other without gaps, starting two registers after one of the base addresses, where the device has answered `SunS`; each has the id and the
length that the device has given for it, and lies right after its header. The scan takes at most two reads for each model found, one
for each base address, and one more. Recording the reads changes nothing: apart from the record, the scan of the recorded device is the scan of the
device. -/
theorem C71_found {σ} (dev : ScanDev σ) (lib : Int → Py ModelType) (prog : List MdlObj → Int → Bool) (fuel : Nat) (c : CliDev σ) (hb : c.base = none) :
    ∃ (R : CliDev (σ × List ReadEvent)) (found : List MdlObj),
      scan fuel (recorded dev) lib prog ⟨(c.st, []), c.base, c.bases, c.list, c.dict⟩ = (R, (scan fuel dev lib prog c).2) ∧
      plain R = (scan fuel dev lib prog c).1 ∧
      R.list = c.list ++ found ∧
      (found = [] ∨ ∃ a id, a ∈ c.bases ∧ R.base = some a ∧ Marked R.st.2 a id ∧ Placed R.st.2 (a + 2) id found) ∧
      R.st.2.length ≤ c.bases.length + 2 * found.length + 1 := by
  have hcd : (recorded dev).conn = dev.conn.map fun f s => (((f s.1).1, s.2), (f s.1).2) := rfl
  unfold scan
  rw [hcd]
  cases hc : dev.conn with
  | none =>
    dsimp only [Option.map]
    obtain ⟨log, found, h1, h2, h3, h4, h5, h6⟩ := scanBody_recorded dev lib prog fuel ⟨(c.st, []), c.base, c.bases, c.list, c.dict⟩ hb
    simp only [List.nil_append] at h3
    refine ⟨_, found, Prod.ext rfl h2, h1, h4, ?_, by rw [h3]; exact h6⟩
    rw [h3]; exact h5
  | some f =>
    dsimp only [Option.map]
    cases hf : f c.st with
    | mk s r =>
      cases r with
      | error e => exact ⟨_, [], rfl, rfl, by simp, .inl rfl, by simp⟩
      | ok u =>
        dsimp only
        obtain ⟨log, found, h1, h2, h3, h4, h5, h6⟩ := scanBody_recorded dev lib prog fuel ⟨(s, []), c.base, c.bases, c.list, c.dict⟩ hb
        have hpl : plain (⟨(s, []), c.base, c.bases, c.list, c.dict⟩ : CliDev (σ × List ReadEvent)) = { c with st := s } := rfl
        rw [hpl] at h1 h2
        generalize scanBody fuel (recorded dev).toMbDev lib prog ⟨(s, []), c.base, c.bases, c.list, c.dict⟩ = X at *
        generalize scanBody fuel dev.toMbDev lib prog { c with st := s } = Y at *
        obtain ⟨X1, X2⟩ := X
        obtain ⟨Y1, Y2⟩ := Y
        dsimp only at h1 h2 h3 h4 h5 h6
        simp only [List.nil_append] at h3
        subst h2
        subst h1
        cases X2 with
        | error e => exact ⟨X1, found, rfl, rfl, h4, by rw [h3]; exact h5, by rw [h3]; exact h6⟩
        | ok u =>
          refine ⟨{ X1 with st := (dev.disc X1.st.1, X1.st.2) }, found, rfl, rfl, h4, ?_, ?_⟩
          · dsimp only; rw [h3]; exact h5
          · dsimp only; rw [h3]; exact h6

theorem placed_apart (log : List ReadEvent) (a id : Int) (ms : List MdlObj) (h : Placed log a id ms) (h0 : ∀ m ∈ ms, ¬ Answered log (m.addr - 1) 0) :
    ms.Pairwise Apart := by
  have answered_nonneg : ∀ {a v}, Answered log a v → 0 ≤ v := by
    intro a v h
    obtain ⟨_, _, _, _, d, _, _, h⟩ := h
    omega
  have key : ∀ (ms : List MdlObj) (a id : Int), Placed log a id ms → ∀ m ∈ ms, a + 2 ≤ m.addr := by
    intro ms
    induction ms with
    | nil => intro a id _ m hm; cases hm
    | cons x xs ih =>
      intro a id h m hm
      obtain ⟨_, h2, len, h3, _, h5⟩ := h
      rcases List.mem_cons.1 hm with rfl | hm
      · omega
      · rcases h5 with rfl | ⟨id', _, h6⟩
        · cases hm
        · have := ih _ _ h6 m hm
          have := answered_nonneg h3
          omega
  induction ms generalizing a id with
  | nil => exact List.Pairwise.nil
  | cons x xs ih =>
    obtain ⟨_, h2, len, h3, h4, h5⟩ := h
    have hx := h0 x (by simp)
    have hlen : len ≠ 0 := by
      intro h
      subst h
      rw [h2, show a + 2 - 1 = a + 1 by omega] at hx
      exact hx h3
    refine List.Pairwise.cons ?_ ?_
    · intro m hm
      rcases h5 with rfl | ⟨id', _, h6⟩
      · cases hm
      · have := key xs _ _ h6 m hm
        have := h4 hlen
        unfold Apart
        omega
    · rcases h5 with rfl | ⟨id', _, h6⟩
      · exact List.Pairwise.nil
      · exact ih _ _ h6 (fun m hm => h0 m (by simp [hm]))

/-- C72, the part that holds: the registers of the models found, headers included, are all different, if the device has not given the
length 0 for one of them (see `C71_found` for the record of the reads). -/
theorem C72_apart_partial {σ} (dev : ScanDev σ) (lib : Int → Py ModelType) (prog : List MdlObj → Int → Bool) (fuel : Nat) (c : CliDev σ) (hb : c.base = none)
    (hl : c.list = [])
    (h0 : ∀ m ∈ (scan fuel dev lib prog c).1.list,
      ¬ Answered (scan fuel (recorded dev) lib prog ⟨(c.st, []), c.base, c.bases, c.list, c.dict⟩).1.st.2 (m.addr - 1) 0) :
    (scan fuel dev lib prog c).1.list.Pairwise Apart := by
  obtain ⟨R, found, h1, h2, h3, h4, _⟩ := C71_found dev lib prog fuel c hb
  have hlist : (scan fuel dev lib prog c).1.list = found := by
    rw [← h2]
    show R.list = found
    rw [h3, hl]; rfl
  rw [h1] at h0
  rw [hlist] at h0 ⊢
  rcases h4 with rfl | ⟨a, id, _, _, _, h4⟩
  · exact List.Pairwise.nil
  · exact placed_apart _ _ _ _ h4 h0

/-- C72 as stated: the models found have different registers. -/
def C72_full : Prop :=
  ∀ (σ : Type) (dev : ScanDev σ) (lib : Int → Py ModelType) (prog : List MdlObj → Int → Bool) (fuel : Nat) (c : CliDev σ), c.base = none → c.list = [] →
    (scan fuel dev lib prog c).1.list.Pairwise Apart

/-- A map with a model of length 0 in front of another one. -/
def zeroLenMap : MbMap := { newMap with
  base := .int 40000
  regs := [⟨.int 0, .int 10, some [0x53, 0x75, 0x6e, 0x53, 3, 0x84, 0, 0, 3, 0x84, 0, 3, 0, 100, 0, 0, 255, 255, 255, 255], (t!"r")⟩] }

/-- C72: a device that gives the length 0 for a model makes `scan` add a model with the length of the definition, whose registers are
those of the next model (its first point has the value of the next model's id). -/
theorem C72_zero :
    (scan 9 mapScanDev (fun _ => .ok exType) (fun _ _ => true) { st := zeroLenMap }).2 = .ok () ∧
    (scan 9 mapScanDev (fun _ => .ok exType) (fun _ _ => true) { st := zeroLenMap }).1.list.map (fun m => (m.id, m.addr, m.len)) =
      [(900, 40004, 3), (900, 40006, 3)] := by
  decide +kernel

theorem C72_violated : ¬ C72_full := by
  intro h
  have h1 := h MbMap mapScanDev (fun _ => .ok exType) (fun _ _ => true) 9 { st := zeroLenMap } rfl rfl
  have h2 := C72_zero.2
  generalize (scan 9 mapScanDev (fun _ => .ok exType) (fun _ _ => true) { st := zeroLenMap }).1.list = ms at h1 h2
  cases ms with
  | nil => simp at h2
  | cons m1 ms =>
    cases ms with
    | nil => simp at h2
    | cons m2 ms =>
      simp only [List.map_cons, List.cons.injEq, Prod.mk.injEq] at h2
      have h3 : Apart m1 m2 := (List.pairwise_cons.1 h1).1 m2 (by simp)
      unfold Apart at h3
      omega

/-- Non-vacuity: a device with two models; five reads. -/
example : (scan 9 (recorded mapScanDev) (fun _ => .ok exType) (fun _ _ => true) { st := (scanMap, []) }).1.list.map (fun m => (m.id, m.addr, m.len)) = [(900, 40004, 5), (9, 40011, 1)] ∧
    (scan 9 (recorded mapScanDev) (fun _ => .ok exType) (fun _ _ => true) { st := (scanMap, []) }).1.st.2.map (fun e => (e.addr, e.count)) =
      [(40000, 3), (40003, 1), (40009, 1), (40010, 1), (40012, 1)] := by
  decide +kernel

end Verif
