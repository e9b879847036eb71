import Verif.Lemmas.Load
import Verif.Model.Client

/-!
# When loading succeeds, fails or diverges; the reads of a loaded model
-/

namespace Verif
open Spec

/-- The outcome of loading a definition all of whose scale factors can be resolved. -/
theorem loadWith_outcome (fuel : Nat) (mt : ModelType) (id addr len F : Int) (hsf : SfOK mt)
    (hF : mt.fixed.len.toInt = .ok F) (hfuel : (effLen mt len - F).toNat + 2 ≤ fuel) :
    (mt.rep = none → (loadWith fuel (.ok mt) (mdlNew id addr len)).2 =
      if fixedLen id (effLen mt len) F ≤ effLen mt len then .ok () else .error .sunSpecError) ∧
    (∀ rb R, mt.rep = some rb → rb.len.toInt = .ok R → 1 ≤ R →
      ((∃ n : Nat, effLen mt len = fixedLen id (effLen mt len) F + n * R) →
        (loadWith fuel (.ok mt) (mdlNew id addr len)).2 = .ok ()) ∧
      ((¬ ∃ n : Nat, effLen mt len = fixedLen id (effLen mt len) F + n * R) →
        (loadWith fuel (.ok mt) (mdlNew id addr len)).2 = .error .sunSpecError)) := by
  rw [loadWith_first fuel mt id addr len F hF]
  dsimp only
  generalize hm1 : ({ mdlNew id addr len with readBlocks := [addr], mtype := some mt, len := effLen mt len } : MdlObj) = m1
  have hbl : m1.blocks = [] := by rw [← hm1]; rfl
  generalize hL : effLen mt len = L at hm1 hfuel
  have key : ∀ (x : MdlObj × Py Unit) (r : Py Unit), x.2 = r →
      (match x with
        | (m2, .error e) => ((m2, .error e) : MdlObj × Py Unit)
        | (m2, .ok _) => ({ m2 with exposed := true }, .ok ())).2 = r := by
    rintro ⟨m2, r'⟩ r rfl
    cases r' <;> rfl
  have hFl : (fixedLen id L F = F) ∨ (fixedLen id L F = L) := by
    unfold fixedLen
    by_cases h : id = 1 ∧ L = 65
    · rw [if_pos h]; exact .inr h.2.symm
    · rw [if_neg h]; exact .inl rfl
  obtain ⟨fuel, rfl⟩ : ∃ f, fuel = f + 1 := ⟨fuel - 1, by omega⟩
  have hst := loadLoop_step mt.fixed addr mt.rep (addr + L) fuel 0 mt.fixed addr (fixedLen id L F) addr m1 (.inl ⟨hbl, rfl, rfl⟩)
  refine ⟨?_, ?_⟩
  · intro hrep
    by_cases hB : addr + L < addr + fixedLen id L F
    · rw [if_neg (by omega)]
      apply key
      rw [hst.1 hB]
    · rw [if_pos (by omega)]
      apply key
      rw [hst.2.2 hB hsf.1, hrep]
  · intro rb R hrep hR hR1
    have hfirst : FirstSfs mt.fixed addr (addBlocks m1 [mkBlock mt.fixed mt.fixed addr (fixedLen id L F) 0] addr) :=
      ⟨_, [], by simp [addBlocks, hbl]; rfl, rfl⟩
    have hone' : addBlocks m1 [mkBlock mt.fixed mt.fixed addr (fixedLen id L F) 0] addr =
            { m1 with blocks := m1.blocks ++ [mkBlock mt.fixed mt.fixed addr (fixedLen id L F) 0], readBlocks := m1.readBlocks ++ (loadPoints addr mt.fixed.points addr).reads } := addBlocks_one m1 (mkBlock mt.fixed mt.fixed addr (fixedLen id L F) 0) addr
    refine ⟨?_, ?_⟩
    · rintro ⟨n, hn⟩
      have hnR : (0 : Int) ≤ n * R := Int.mul_nonneg (by omega) (by omega)
      apply key
      rw [hst.2.2 (by omega) hsf.1, ← hone', hrep]
      dsimp only
      rw [hR]
      dsimp only
      by_cases he : addr + L = addr + fixedLen id L F
      · rw [if_pos he]
      · rw [if_neg he]
        cases n with
        | zero => simp at hn; omega
        | succ k =>
          have hk : (0 : Int) ≤ k * (R - 1) := Int.mul_nonneg (by omega) (by omega)
          have hk2 : ((k : Int) + 1) * R = k * (R - 1) + k + R := by
            rw [Int.mul_sub, Int.add_mul]; omega
          push_cast at hn
          rw [hk2] at hn
          rw [loadLoop_rep_fits hR hR1 (hsf.2 rb hrep) k fuel 0 _ _ _ hfirst (by omega) (by rw [hk2]; omega)]
    · intro hn
      apply key
      by_cases hB : addr + L < addr + fixedLen id L F
      · rw [hst.1 hB]
      · rw [hst.2.2 hB hsf.1, ← hone', hrep]
        dsimp only
        rw [hR]
        dsimp only
        by_cases he : addr + L = addr + fixedLen id L F
        · exact absurd ⟨0, by simp; omega⟩ hn
        · rw [if_neg he]
          refine loadLoop_rep_unfit hR hR1 (hsf.2 rb hrep) fuel 0 _ _ _ hfirst (by omega) ?_
          intro k hk
          exact hn ⟨k + 1, by push_cast; omega⟩

/-! ### Termination -/

theorem resolveSfs_no_diverge (index : Nat) (sfs sfs0 : List PointObj) (ps : List PointObj) :
    (resolveSfs index sfs sfs0 ps).2 = .ok () ∨ (resolveSfs index sfs sfs0 ps).2 = .error .typeError := by
  induction ps with
  | nil => exact .inl rfl
  | cons p ps ih =>
    rw [resolveSfs]
    cases h : resolveSf index sfs sfs0 p with
    | ok p' => dsimp only; exact ih
    | error e =>
      right
      dsimp only
      unfold resolveSf at h
      split at h
      · split at h
        · simp at h
        · split at h
          · simp at h
          · split at h
            · simp at h
            · simp at h; rw [h]
      · simp at h

theorem NumText.toInt_no_diverge (t : NumText) : t.toInt ≠ .error .diverge := by
  cases t with
  | int i => simp [BaseAddr.toInt]
  | str s => unfold BaseAddr.toInt; dsimp only; split <;> simp

theorem loadLoop_unfold (rep : Option BlockType) (endA : Int) (index : Nat) (bt : BlockType) (B bl lr : Int) (m : MdlObj)
    (hB : ¬ endA < B + bl) : ∃ (m1 : MdlObj) (lr' : Int), (∀ f, loadLoop rep endA (f + 1) index bt B bl lr m = (m1, .error .typeError)) ∨
      ∀ f, loadLoop rep endA (f + 1) index bt B bl lr m =
        match rep with
        | none => (m1, .ok ())
        | some rb =>
          match rb.len.toInt with
          | .error e => (m1, .error e)
          | .ok rlen => if endA = B + bl then (m1, .ok ()) else loadLoop rep endA f (index + 1) rb (B + bl) rlen lr' m1 := by
  have hres := resolveSfs_no_diverge index (loadPoints B bt.points lr).sfs (firstSfs m.blocks (loadPoints B bt.points lr).sfs) (loadPoints B bt.points lr).pts
  generalize hx : resolveSfs index (loadPoints B bt.points lr).sfs (firstSfs m.blocks (loadPoints B bt.points lr).sfs) (loadPoints B bt.points lr).pts = x at hres
  obtain ⟨pts, r⟩ := x
  dsimp only at hres
  refine ⟨{ m with blocks := m.blocks ++ [⟨bt, B, bl, index, pts, (loadPoints B bt.points lr).sfs⟩], readBlocks := m.readBlocks ++ (loadPoints B bt.points lr).reads }, (loadPoints B bt.points lr).lastRead, ?_⟩
  rcases hres with rfl | rfl
  · right
    intro f
    rw [loadLoop, if_neg hB]
    dsimp only
    rw [hx]
    rfl
  · left
    intro f
    rw [loadLoop, if_neg hB]
    dsimp only
    rw [hx]

/-- The loop neither diverges nor depends on the fuel, given enough. -/
theorem loadLoop_fuel (rep : Option BlockType) (endA : Int)
    (hrep : ∀ rb R, rep = some rb → rb.len.toInt = .ok R → 1 ≤ R) (fuel : Nat) :
    ∀ (index : Nat) (bt : BlockType) (B bl lr : Int) (m : MdlObj), (endA - B - bl).toNat + 2 ≤ fuel →
      (loadLoop rep endA fuel index bt B bl lr m).2 ≠ .error .diverge ∧
      ∀ fuel', fuel ≤ fuel' → loadLoop rep endA fuel' index bt B bl lr m = loadLoop rep endA fuel index bt B bl lr m := by
  induction fuel with
  | zero => intro _ _ _ _ _ _ h; omega
  | succ fuel ih =>
    intro index bt B bl lr m hf
    have pre : ∀ fuel', fuel + 1 ≤ fuel' → ∃ f, fuel' = f + 1 ∧ fuel ≤ f := fun fuel' h => ⟨fuel' - 1, by omega, by omega⟩
    by_cases hB : endA < B + bl
    · constructor
      · rw [loadLoop, if_pos hB]; simp
      · intro fuel' hf'
        obtain ⟨f', rfl, _⟩ := pre fuel' hf'
        rw [loadLoop, if_pos hB, loadLoop, if_pos hB]
    · obtain ⟨m1, lr', hu | hu⟩ := loadLoop_unfold rep endA index bt B bl lr m hB
      · constructor
        · rw [hu]; simp
        · intro fuel' hf'
          obtain ⟨f', rfl, _⟩ := pre fuel' hf'
          rw [hu, hu]
      · cases hr : rep with
        | none =>
          subst hr
          constructor
          · rw [hu]; simp
          · intro fuel' hf'
            obtain ⟨f', rfl, _⟩ := pre fuel' hf'
            rw [hu, hu]
        | some rb =>
          subst hr
          cases hR : rb.len.toInt with
          | error e =>
            have hnd := NumText.toInt_no_diverge rb.len
            rw [hR] at hnd
            simp only [hR] at hu
            constructor
            · rw [hu]; intro h; apply hnd; simpa using h
            · intro fuel' hf'
              obtain ⟨f', rfl, _⟩ := pre fuel' hf'
              rw [hu, hu]
          | ok R =>
            simp only [hR] at hu
            by_cases he : endA = B + bl
            · simp only [he, if_true] at hu
              rw [he]
              constructor
              · rw [hu]; simp
              · intro fuel' hf'
                obtain ⟨f', rfl, _⟩ := pre fuel' hf'
                rw [hu, hu]
            · simp only [he, if_false] at hu
              have hR1 := hrep rb R rfl hR
              have ihh := ih (index + 1) rb (B + bl) R lr' m1 (by omega)
              rw [hu]
              refine ⟨ihh.1, ?_⟩
              intro fuel' hf'
              obtain ⟨f', rfl, hf2⟩ := pre fuel' hf'
              rw [hu]
              exact ihh.2 f' hf2

/-- With a repeating block without registers the loop never ends. -/
theorem loadLoop_diverges {bt0 rb : BlockType} {a0 endA R : Int} (hR : rb.len.toInt = .ok R) (hR0 : R ≤ 0)
    (hsf : ∀ t ∈ dataPoints rb, ∀ i, sfTarget bt0 rb (i + 1) t ≠ none) (fuel : Nat) :
    ∀ (i : Nat) (B lr : Int) (m : MdlObj), FirstSfs bt0 a0 m → B < endA →
      (loadLoop (some rb) endA fuel (i + 1) rb B R lr m).2 = .error .diverge := by
  induction fuel with
  | zero => intro i B lr m _ _; rfl
  | succ fuel ih =>
    intro i B lr m h0 hB
    rw [loadLoop_rep_step hR fuel (i + 1) B lr m h0 (fun t ht => hsf t ht i) (by omega), if_neg (by omega)]
    exact ih (i + 1) (B + R) _ _ (h0.add _ _) (by omega)

/-! ### The reads -/

theorem readPlanLoop_tiles (stop : Int) (as : List Int) : ∀ a, Tiles a stop (readPlanLoop stop (a :: as)) := by
  induction as with
  | nil => intro a; simp [readPlanLoop, Tiles]
  | cons b as ih =>
    intro a
    rw [readPlanLoop]
    refine ⟨rfl, ?_⟩
    have : a + (b - a) = b := by omega
    rw [this]
    exact ih b

theorem readPlan_whole (stop : Int) (sp : List (Int × Int)) : ∀ lr : Int,
    sp.Pairwise (fun x y => x.1 + x.2 ≤ y.1) → (∀ x ∈ sp, lr ≤ x.1 ∧ x.1 + x.2 ≤ stop ∧ 1 ≤ x.2 ∧ x.2 ≤ 125) → lr ≤ stop →
    (∃ n rest, readPlanLoop stop (lr :: readsOf sp lr) = (lr, n) :: rest ∧
      ∀ x, x ≤ stop → (∀ y ∈ sp, x ≤ y.1) → x ≤ lr + n) ∧
    (∀ c ∈ readPlanLoop stop (lr :: readsOf sp lr), 0 ≤ c.2) ∧
    ∀ x ∈ sp, ∃ c ∈ readPlanLoop stop (lr :: readsOf sp lr), c.1 ≤ x.1 ∧ x.1 + x.2 ≤ c.1 + c.2 ∧ x.1 + x.2 ≤ c.1 + 125 := by
  induction sp with
  | nil =>
    intro lr _ _ hlr
    refine ⟨⟨stop - lr, [], rfl, fun x hx _ => by omega⟩, ?_, by simp⟩
    intro c hc
    simp [readsOf, readPlanLoop] at hc
    subst hc; dsimp only; omega
  | cons s sp ih =>
    intro lr hp hin hlr
    obtain ⟨a, l⟩ := s
    obtain ⟨hp1, hp2⟩ := List.pairwise_cons.1 hp
    have hs := hin (a, l) (by simp)
    dsimp only at hs hp1
    rw [readsOf]
    by_cases hc : 125 < a + l - lr
    · rw [if_pos hc, readPlanLoop]
      have ih' := ih a hp2 (fun x hx => by
        have h1 := hin x (by simp [hx])
        have h2 := hp1 x hx
        omega) (by omega)
      obtain ⟨⟨n, rest, e1, e2⟩, e3, e4⟩ := ih'
      refine ⟨⟨a - lr, _, rfl, ?_⟩, ?_, ?_⟩
      · intro x _ hx
        have := hx (a, l) (by simp)
        dsimp only at this
        omega
      · intro c hcm
        rcases List.mem_cons.1 hcm with rfl | hcm
        · dsimp only; omega
        · exact e3 c hcm
      · intro x hx
        rcases List.mem_cons.1 hx with rfl | hx
        · refine ⟨(a, n), by rw [e1]; simp, ?_⟩
          have := e2 (a + l) (by omega) (fun y hy => hp1 y hy)
          dsimp only
          omega
        · obtain ⟨c, hcm, hc'⟩ := e4 x hx
          exact ⟨c, by simp [hcm], hc'⟩
    · rw [if_neg hc]
      have ih' := ih lr hp2 (fun x hx => hin x (by simp [hx])) hlr
      obtain ⟨⟨n, rest, e1, e2⟩, e3, e4⟩ := ih'
      refine ⟨⟨n, rest, e1, fun x hx hy => e2 x hx fun y hy' => hy y (by simp [hy'])⟩, e3, ?_⟩
      intro x hx
      rcases List.mem_cons.1 hx with rfl | hx
      · refine ⟨(lr, n), by rw [e1]; simp, ?_⟩
        have := e2 (a + l) (by omega) (fun y hy => hp1 y hy)
        dsimp only
        omega
      · exact e4 x hx

end Verif
