import Verif.Spec.Failure
import Verif.Props.Scan
import Verif.Props.Tls

/-!
# C68, C69, C70: failed reads, exceptions, silent devices
-/

namespace Verif
open Spec

/-! ## C68: a read that fails changes nothing -/

theorem resolveSfs_pts (index : Nat) (sfs sfs0 : List PointObj) (ps : List PointObj) : ∀ p ∈ (resolveSfs index sfs sfs0 ps).1,
    ∃ q ∈ ps, p.addr = q.addr ∧ p.pt = q.pt := by
  induction ps with
  | nil => simp [resolveSfs]
  | cons x xs ih =>
    rw [resolveSfs]
    cases hx : resolveSf index sfs sfs0 x with
    | error e => intro p hp; exact ⟨p, hp, rfl, rfl⟩
    | ok x' =>
      have hx' : x'.addr = x.addr ∧ x'.pt = x.pt := by
        unfold resolveSf at hx
        repeat' split at hx
        all_goals first
          | (cases hx; exact ⟨rfl, rfl⟩)
          | (cases hx)
      intro p hp
      simp only [List.mem_cons] at hp
      rcases hp with rfl | hp
      · exact ⟨x, by simp, hx'⟩
      · obtain ⟨q, h1, h2⟩ := ih p hp
        exact ⟨q, by simp [h1], h2⟩

/-- The points of a block lie inside it. -/
def InBlock (lo hi : Int) (b : BlockObj) : Prop :=
  ∀ p, p ∈ b.pts ∨ p ∈ b.sfs → (lo ≤ p.addr ∧ p.addr + p.pt.len ≤ hi) ∧ LenOK p.pt

theorem loadedBlock_in (bt : BlockType) (B bl lr lo hi : Int) (index : Nat) (sfs0 : List PointObj) (hf : BlockFits bt bl) (h1 : lo ≤ B) (h2 : B + bl ≤ hi) :
    InBlock lo hi ⟨bt, B, bl, index, (resolveSfs index (loadPoints B bt.points lr).sfs sfs0 (loadPoints B bt.points lr).pts).1, (loadPoints B bt.points lr).sfs⟩ := by
  have key : ∀ q, q ∈ (loadPoints B bt.points lr).pts ∨ q ∈ (loadPoints B bt.points lr).sfs → (lo ≤ q.addr ∧ q.addr + q.pt.len ≤ hi) ∧ LenOK q.pt := by
    have gen : ∀ (ts : List PointType) (lr : Int), (∀ t ∈ ts, t ∈ bt.points) → ∀ q, q ∈ (loadPoints B ts lr).pts ∨ q ∈ (loadPoints B ts lr).sfs →
        ∃ t ∈ bt.points, t.type ≠ .pad ∧ q.addr = B + t.offset ∧ q.pt = t := by
      intro ts
      induction ts with
      | nil => intro lr _ q hq; simp [loadPoints] at hq
      | cons t ts ih =>
        intro lr hm q hq
        rw [loadPoints] at hq
        by_cases hp : t.type = .pad
        · rw [if_pos hp] at hq
          exact ih lr (fun t ht => hm t (by simp [ht])) q hq
        · rw [if_neg hp] at hq
          dsimp only at hq
          have hq' : q = { pt := t, addr := B + t.offset } ∨
              (q ∈ (loadPoints B ts (if decide (maxReadCount < B + t.offset + t.len - lr) = true then B + t.offset else lr)).pts ∨
               q ∈ (loadPoints B ts (if decide (maxReadCount < B + t.offset + t.len - lr) = true then B + t.offset else lr)).sfs) := by
            by_cases hs : t.type = .sunssf
            · rw [if_pos hs, if_pos hs] at hq
              rcases hq with hq | hq
              · exact .inr (.inl hq)
              · rcases List.mem_cons.1 hq with hq | hq
                · exact .inl hq
                · exact .inr (.inr hq)
            · rw [if_neg hs, if_neg hs] at hq
              rcases hq with hq | hq
              · rcases List.mem_cons.1 hq with hq | hq
                · exact .inl hq
                · exact .inr (.inl hq)
              · exact .inr (.inr hq)
          rcases hq' with rfl | hq'
          · exact ⟨t, hm t (by simp), hp, rfl, rfl⟩
          · exact ih _ (fun t ht => hm t (by simp [ht])) q hq'
    intro q hq
    obtain ⟨t, ht, hp, ha, hpt⟩ := gen bt.points lr (fun t h => h) q hq
    obtain ⟨f1, f2, f3⟩ := hf t ht hp
    rw [ha, hpt]
    exact ⟨⟨by omega, by omega⟩, f3⟩
  intro p hp
  rcases hp with hp | hp
  · obtain ⟨q, hq, e1, e2⟩ := resolveSfs_pts _ _ _ _ p hp
    rw [e1, e2]
    exact key q (.inl hq)
  · exact key p (.inr hp)

theorem loadLoop_in (rep : Option BlockType) (endA lo : Int) (hrep : ∀ rb R, rep = some rb → rb.len.toInt = .ok R → BlockFits rb R ∧ 0 ≤ R) :
    ∀ (fuel index : Nat) (bt : BlockType) (B bl lr : Int) (m m' : MdlObj) (r : Py Unit), BlockFits bt bl → 0 ≤ bl → lo ≤ B →
    (∀ b ∈ m.blocks, InBlock lo endA b) → loadLoop rep endA fuel index bt B bl lr m = (m', r) →
    m'.addr = m.addr ∧ m'.len = m.len ∧ ∀ b ∈ m'.blocks, InBlock lo endA b := by
  intro fuel
  induction fuel with
  | zero =>
    intro index bt B bl lr m m' r _ _ _ hm h
    rw [loadLoop] at h
    cases h
    exact ⟨rfl, rfl, hm⟩
  | succ fuel ih =>
    intro index bt B bl lr m m' r hf hbl hlo hm h
    rw [loadLoop] at h
    by_cases he : endA < B + bl
    · rw [if_pos he] at h
      cases h
      exact ⟨rfl, rfl, hm⟩
    · rw [if_neg he] at h
      dsimp only at h
      have hb := loadedBlock_in bt B bl lr lo endA index (firstSfs m.blocks (loadPoints B bt.points lr).sfs) hf hlo (by omega)
      have hm1 : ∀ b ∈ m.blocks ++ [⟨bt, B, bl, index, (resolveSfs index (loadPoints B bt.points lr).sfs (firstSfs m.blocks (loadPoints B bt.points lr).sfs) (loadPoints B bt.points lr).pts).1, (loadPoints B bt.points lr).sfs⟩], InBlock lo endA b := by
        intro b hb'
        rcases List.mem_append.1 hb' with hb' | hb'
        · exact hm b hb'
        · rw [List.mem_singleton.1 hb']; exact hb
      split at h
      · cases h; exact ⟨rfl, rfl, hm1⟩
      · split at h
        · cases h; exact ⟨rfl, rfl, hm1⟩
        · split at h
          · cases h; exact ⟨rfl, rfl, hm1⟩
          · rename_i _ rb _ R hR
            split at h
            · cases h; exact ⟨rfl, rfl, hm1⟩
            · have := hrep rb R rfl hR
              have hh := ih _ _ _ _ _ _ _ _ this.1 this.2 (by omega) (by exact hm1) h
              exact hh

/-- Every model object, loaded or not, has its points inside, if the definition has. -/
theorem loadWith_in (fuel : Nat) (mt : Py ModelType) (id addr len : Int) (m : MdlObj) (r : Py Unit)
    (h : loadWith fuel mt (mdlNew id addr len) = (m, r)) (hd : ∀ t, mt = .ok t → DefFits t id m.len) : PointsFit m := by
  unfold loadWith at h
  cases mt with
  | error e =>
    cases h
    intro b hb
    cases hb
  | ok t =>
    have hd := hd t rfl
    dsimp only at h
    cases hF : t.fixed.len.toInt with
    | error e =>
      rw [hF] at h
      cases h
      intro b hb
      cases hb
    | ok F =>
      rw [hF] at h
      dsimp only at h
      generalize hl : loadLoop t.rep ((mdlNew id addr len).addr + if (mdlNew id addr len).len = 0 then t.len else (mdlNew id addr len).len) fuel 0 t.fixed
        (mdlNew id addr len).addr _ (mdlNew id addr len).addr _ = X at h
      obtain ⟨m2, r2⟩ := X
      have hmm : m.addr = m2.addr ∧ m.len = m2.len ∧ m.blocks = m2.blocks := by
        cases r2 with
        | error e => cases h; exact ⟨rfl, rfl, rfl⟩
        | ok u => cases h; exact ⟨rfl, rfl, rfl⟩
      rw [fixedLen_eq] at hl
      have hlen : m.len = if (mdlNew id addr len).len = 0 then t.len else (mdlNew id addr len).len := by
        rw [hmm.2.1]
        have : ∀ (fuel index : Nat) (bt : BlockType) (B bl lr : Int) (m m' : MdlObj) (r : Py Unit) (endA : Int),
            loadLoop t.rep endA fuel index bt B bl lr m = (m', r) → m'.len = m.len := by
          intro fuel
          induction fuel with
          | zero => intro index bt B bl lr m m' r endA h; rw [loadLoop] at h; cases h; rfl
          | succ fuel ih =>
            intro index bt B bl lr m m' r endA h
            rw [loadLoop] at h
            split at h
            · cases h; rfl
            · dsimp only at h
              split at h
              · cases h; rfl
              · split at h
                · cases h; rfl
                · split at h
                  · cases h; rfl
                  · split at h
                    · cases h; rfl
                    · have := ih _ _ _ _ _ _ _ _ _ h
                      exact this
        exact this _ _ _ _ _ _ _ _ _ _ hl
      have hfix := hd.fixed F hF
      rw [hlen] at hfix
      have := loadLoop_in t.rep _ (mdlNew id addr len).addr (fun rb R h1 h2 => hd.rep rb R h1 h2) _ _ _ _ _ _ _ _ _ hfix.1 hfix.2 (Int.le_refl _)
        (by intro b hb; cases hb) hl
      intro b hb
      rw [hmm.2.2] at hb
      rw [hmm.1, this.1, hlen]
      exact this.2.2 b hb

/-- Data of the size of the model can be decoded. -/
theorem readApply_total (m : MdlObj) (hm : PointsFit m) (d : Option Bytes) :
    ((readApply m d).2 = .error .sunSpecClientError ∧ (readApply m d).1 = m) ∨ (readApply m d).2 = .ok () := by
  unfold readApply
  cases d with
  | none => exact .inr rfl
  | some data =>
    dsimp only
    by_cases h0 : data = []
    · rw [if_pos h0]; exact .inr rfl
    · rw [if_neg h0]
      by_cases hl : (data.length : Int) = 2 * m.len
      · rw [if_neg (by simpa using hl)]
        right
        have hdec : ∀ b ∈ m.blocks, ∀ p, p ∈ b.pts ∨ p ∈ b.sfs → ∃ v, p.pt.type.fromData (pointBytes m.addr data p) = .ok v := by
          intro b hb p hp
          obtain ⟨h1, h2⟩ := hm b hb p hp
          have h3 := lenOK_pos h2
          apply fromData_total p.pt h2
          rw [pointBytes_eq m.addr m.len data p hl h1.1 h1.2 (by omega), List.length_take, List.length_drop]
          omega
        obtain ⟨out, e1, _⟩ := readBlocksLoop_ok m.addr data m.blocks [] hdec
        rw [e1]
      · rw [if_pos hl]; exact .inl ⟨rfl, rfl⟩

/-- C68: if `read_points` raises, whatever the device has done and whatever the exception, the model has the values it had
before. -/
theorem C68_unchanged {σ} (dev : MbDev σ) (s s' : σ) (m m' : MdlObj) (e : Exc) (hm : PointsFit m)
    (h : readPoints dev s m = (s', m', .error e)) : m' = m := by
  unfold readPoints at h
  by_cases hn : m.mtype = none
  · rw [if_pos hn] at h; cases h
  · rw [if_neg hn] at h
    cases hx : readData dev m s with
    | mk s1 r1 =>
      rw [hx] at h
      cases r1 with
      | error e1 => cases h; rfl
      | ok d =>
        dsimp only at h
        rcases readApply_total m hm d with ⟨_, h2⟩ | h2
        · simp only [Prod.mk.injEq] at h
          rw [← h.2.1, h2]
        · rw [h2] at h; cases h

/-- C68: this holds for all models of a device, also those that have not been loaded completely, if the points of the
definition lie inside their blocks and have the lengths of their types. -/
theorem C68_models (mt : Py ModelType) (id addr len : Int) (hd : ∀ t, mt = .ok t → DefFits t id (mdlLoad mt (mdlNew id addr len)).1.len) :
    PointsFit (mdlLoad mt (mdlNew id addr len)).1 :=
  loadWith_in _ mt id addr len _ _ (Prod.ext rfl rfl) hd

/-- C68: if `read_points` of a device raises, each of its models either has been read completely in this call or has the values it had
before; the model that failed and those after it have the values they had before. -/
theorem C68_device {σ} (dev : MbDev σ) (ms ms' : List MdlObj) (s s' : σ) (e : Exc) (hm : ∀ m ∈ ms, PointsFit m)
    (h : readModels dev ms s = (s', ms', .error e)) :
    ∃ (done done' rest : List MdlObj), ms = done ++ rest ∧ ms' = done' ++ rest ∧ done'.length = done.length ∧ rest ≠ [] ∧
      ∀ (i : Nat) (m m' : MdlObj), done[i]? = some m → done'[i]? = some m' → ∃ s1 s2, readPoints dev s1 m = (s2, m', .ok ()) := by
  induction ms generalizing s s' ms' with
  | nil => simp [readModels] at h
  | cons m ms ih =>
    rw [readModels] at h
    cases hx : readPoints dev s m with
    | mk s1 r1 =>
      obtain ⟨m1, r⟩ := r1
      rw [hx] at h
      cases r with
      | error e1 =>
        dsimp only at h
        have := C68_unchanged dev s s1 m m1 e1 (hm m (by simp)) hx
        subst this
        cases h
        exact ⟨[], [], _, rfl, rfl, rfl, by simp, by simp⟩
      | ok u =>
        dsimp only at h
        cases hy : readModels dev ms s1 with
        | mk s2 r2 =>
          obtain ⟨ms2, r2⟩ := r2
          rw [hy] at h
          cases h
          obtain ⟨done, done', rest, h1, h2, h3, h4, h5⟩ := ih _ _ _ (fun m hm' => hm m (by simp [hm'])) hy
          refine ⟨m :: done, m1 :: done', rest, by rw [h1]; rfl, by rw [h2]; rfl, by simp [h3], h4, ?_⟩
          intro i x x' hx1 hx2
          cases i with
          | zero =>
            simp only [List.getElem?_cons_zero, Option.some.injEq] at hx1 hx2
            subst hx1; subst hx2
            exact ⟨s, s1, hx⟩
          | succ i => exact h5 i x x' (by simpa using hx1) (by simpa using hx2)

/-- The example definition fits. -/
theorem exType_fits (len : Int) : DefFits exType 900 len := by
  refine ⟨fun F hF => ?_, fun rb R hr hR => ?_⟩
  · have h3 : exType.fixed.len.toInt = .ok 3 := by decide
    rw [h3] at hF
    cases hF
    have : fixedLen 900 len 3 = 3 := by unfold fixedLen; rw [if_neg (by omega)]
    rw [this]
    decide +kernel
  · have : rb = (exType.rep.get rfl) := by simp [exType] at hr ⊢; exact hr.symm
    subst this
    have h2 : (exType.rep.get rfl).len.toInt = .ok 2 := by decide
    rw [h2] at hR
    cases hR
    decide +kernel

/-- Non-vacuity: a slave that answers all reads with three registers makes the read of a model of seven registers
raise; a model that could not be loaded (8 registers) has points all the same. -/
example : (readPoints (rtuDev (constSlave (rtuFrame 1 [3, 6, 0, 1, 0, 2, 0, 3])) 1) ⟨(), []⟩ exModel).2 = (exModel, .error .sunSpecClientError) ∧
    PointsFit exModel ∧
    PointsFit (mdlLoad (.ok exType) (mdlNew 900 40002 8)).1 ∧
    (mdlLoad (.ok exType) (mdlNew 900 40002 8)).2 = .error .sunSpecError ∧ (mdlLoad (.ok exType) (mdlNew 900 40002 8)).1.blocks.length = 3 :=
  ⟨by decide +kernel, C68_models (.ok exType) 900 40002 7 (fun t h => by cases h; exact exType_fits _),
   C68_models (.ok exType) 900 40002 8 (fun t h => by cases h; exact exType_fits _), by decide +kernel, by decide +kernel⟩

/-- Why the definition has to fit: with a point of a length that is not that of its type, the read of the model raises after
the points before it have been changed. -/
def misfitType : ModelType :=
  { exType with rep := none, fixed := ⟨false, .int 3, t!"fixed", [{ id := t!"a", type := .uint16, offset := 0, len := 1 }, { id := t!"b", type := .uint16, offset := 1, len := 2 }]⟩ }

theorem C68_misfit : (readPoints mapDev exMap (mdlLoad (.ok misfitType) (mdlNew 900 40002 3)).1).2.2 = .error .structError ∧
    values (mdlLoad (.ok misfitType) (mdlNew 900 40002 3)).1 = [[(none, none), (none, none)]] ∧
    values (readPoints mapDev exMap (mdlLoad (.ok misfitType) (mdlNew 900 40002 3)).1).2.1 = [[(some (.int 100), none), (none, none)]] := by
  decide +kernel

end Verif
