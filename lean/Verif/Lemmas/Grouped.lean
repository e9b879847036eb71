import Verif.Spec.Grouped
import Verif.Model.Client

/-! Lemmas: the runs of a list of points, and the writes of `write_points`. -/

namespace Verif
open Verif.Spec

/-- The longest runs, computed. -/
def runs : List PointObj → List (List PointObj)
  | [] => []
  | p :: ps =>
    match runs ps with
    | (q :: g) :: gs => if q.addr = p.addr + p.pt.len then (p :: q :: g) :: gs else [p] :: (q :: g) :: gs
    | _ => [[p]]

theorem runs_head (p : PointObj) (ps : List PointObj) : ∃ g gs, runs (p :: ps) = (p :: g) :: gs := by
  rw [runs]
  split
  · split
    · exact ⟨_, _, rfl⟩
    · exact ⟨_, _, rfl⟩
  · exact ⟨_, _, rfl⟩

theorem runs_grouped (ps : List PointObj) : Grouped ps (runs ps) := by
  induction ps with
  | nil => exact ⟨rfl, (by intro g hg; cases hg), (by intro g hg; cases hg), trivial⟩
  | cons p ps ih =>
    cases ps with
    | nil =>
      refine ⟨rfl, ?_, ?_, trivial⟩
      · intro g hg
        cases hg with
        | head => simp
        | tail _ h => cases h
      · intro g hg
        cases hg with
        | head => trivial
        | tail _ h => cases h
    | cons q ps =>
      obtain ⟨g, gs, hg⟩ := runs_head q ps
      rw [runs]
      rw [hg] at ih ⊢
      obtain ⟨i1, i2, i3, i4⟩ := ih
      dsimp only
      split
      · rename_i hq
        refine ⟨congrArg (p :: ·) i1, ?_, ?_, ?_⟩
        · intro x hx
          cases hx with
          | head => simp
          | tail _ hx => exact i2 x (.tail _ hx)
        · intro x hx
          cases hx with
          | head => exact ⟨hq, i3 _ (.head _)⟩
          | tail _ hx => exact i3 x (.tail _ hx)
        · cases gs with
          | nil => trivial
          | cons h gs =>
            refine ⟨?_, i4.2⟩
            intro a ha b hb
            exact i4.1 a (by simpa using ha) b hb
      · rename_i hq
        refine ⟨congrArg (p :: ·) i1, ?_, ?_, ?_⟩
        · intro x hx
          cases hx with
          | head => simp
          | tail _ hx => exact i2 x hx
        · intro x hx
          cases hx with
          | head => trivial
          | tail _ hx => exact i3 x hx
        · refine ⟨?_, i4⟩
          intro a ha b hb
          simp only [List.getLast?_singleton, Option.mem_def, Option.some.injEq, List.head?_cons] at ha hb
          subst ha hb
          exact hq

theorem gapless_append {g : List PointObj} {p : PointObj} (h : Gapless g) (hp : ∀ x ∈ g.getLast?, p.addr = x.addr + x.pt.len) :
    Gapless (g ++ [p]) := by
  induction g with
  | nil => trivial
  | cons x g ih =>
    cases g with
    | nil => exact ⟨hp x rfl, trivial⟩
    | cons y g => exact ⟨h.1, ih h.2 (fun z hz => hp z (by simpa using hz))⟩

/-- A run that ends before `p` is the first run. -/
theorem runs_break (g : List PointObj) (hg : g ≠ []) (h : Gapless g) (p : PointObj) (ps : List PointObj)
    (hp : ∀ x ∈ g.getLast?, p.addr ≠ x.addr + x.pt.len) : runs (g ++ p :: ps) = g :: runs (p :: ps) := by
  induction g with
  | nil => exact absurd rfl hg
  | cons x g ih =>
    cases g with
    | nil =>
      obtain ⟨g', gs', h'⟩ := runs_head p ps
      show runs (x :: p :: ps) = _
      rw [runs, h']
      dsimp only
      rw [if_neg (hp x rfl)]
    | cons y g =>
      have := ih (by simp) h.2 (fun z hz => hp z (by simpa using hz))
      show runs (x :: (y :: g ++ p :: ps)) = _
      rw [runs, this]
      dsimp only
      rw [if_pos h.1]

theorem runs_one (g : List PointObj) (hg : g ≠ []) (h : Gapless g) : runs g = [g] := by
  induction g with
  | nil => exact absurd rfl hg
  | cons x g ih =>
    cases g with
    | nil => rfl
    | cons y g =>
      rw [runs, ih (by simp) h.2]
      dsimp only
      rw [if_pos h.1]

/-- The longest runs are unique. -/
theorem grouped_unique {ps : List PointObj} {gs : List (List PointObj)} (h : Grouped ps gs) : gs = runs ps := by
  induction gs generalizing ps with
  | nil => obtain ⟨h1, -, -, -⟩ := h; subst h1; rfl
  | cons g gs ih =>
    obtain ⟨h1, h2, h3, h4⟩ := h
    have hg := h2 g (.head _)
    cases gs with
    | nil =>
      subst h1
      rw [List.flatten_cons, List.flatten_nil, List.append_nil, runs_one g hg (h3 g (.head _))]
    | cons k gs =>
      have := ih (ps := (k :: gs).flatten) ⟨rfl, fun x hx => h2 x (.tail _ hx), fun x hx => h3 x (.tail _ hx), h4.2⟩
      cases k with
      | nil => exact absurd rfl (h2 [] (.tail _ (.head _)))
      | cons q k =>
        have e : ((q :: k) :: gs).flatten = q :: (k ++ gs.flatten) := rfl
        rw [← h1, List.flatten_cons, e, runs_break g hg (h3 g (.head _)) q _ (fun x hx => h4.1 x hx q rfl), ← e, ← this]

/-! ### The writes -/

/-- A device that keeps a log of the writes it is asked for, of the kind `G`. -/
def Records {σ β} (dev : MbDev σ) (log : σ → List β) (G : Int × Bytes → Prop) (f : Int × Bytes → β) : Prop :=
  ∀ s a d, G (a, d) → log (dev.write s a d).1 = log s ++ [f (a, d)] ∨
    (log (dev.write s a d).1 = log s ∧ ∃ e, (dev.write s a d).2 = .error e)

theorem cdWrite_records {σ β} {dev : MbDev σ} {log : σ → List β} {G f} (h : Records dev log G f) (s : σ) (a : Int) (d : Bytes)
    (hg : G (a, d)) : log (cdWrite dev s a d).1 = log s ++ [f (a, d)] ∨
      (log (cdWrite dev s a d).1 = log s ∧ ∃ e, (cdWrite dev s a d).2 = .error e) := by
  rcases h s a d hg with h | ⟨h1, e, h2⟩
  · exact .inl h
  · right
    refine ⟨h1, ?_⟩
    unfold cdWrite
    dsimp only
    rw [h2]
    unfold cdWrap
    cases e <;> exact ⟨_, rfl⟩

/-- The registers collected but not yet written are those of the run `g`. -/
def Collected {σ} (acc : WAcc σ) (g : List PointObj) : Prop :=
  (acc.addr = none ∧ g = []) ∨
  ∃ a, acc.addr = some a ∧ g ≠ [] ∧ Gapless g ∧ RunData g (a, acc.data) ∧ ∀ x ∈ g.getLast?, acc.next = x.addr + x.pt.len

theorem runData_snoc {g : List PointObj} {a : Int} {d e : Bytes} {p : PointObj} (h : RunData g (a, d)) (hg : g ≠ [])
    (he : p.pt.type.toData p.base (p.pt.len * 2).toNat = .ok e) : RunData (g ++ [p]) (a, d ++ e) := by
  obtain ⟨h1, es, h2, h3⟩ := h
  refine ⟨?_, es ++ [e], ?_, ?_⟩
  · cases g with
    | nil => exact absurd rfl hg
    | cons x g => exact h1
  · exact List.rel_append h2 (.cons he .nil)
  · rw [List.flatten_append]; dsimp only at h3 ⊢; rw [h3]; simp

theorem runData_one {e : Bytes} {p : PointObj} (he : p.pt.type.toData p.base (p.pt.len * 2).toNat = .ok e) :
    RunData [p] (p.addr, e) :=
  ⟨fun x hx => by cases hx; rfl, [e], .cons he .nil, by simp⟩

/-- The writes made so far: those of the first runs. -/
theorem wpPoints_records {σ β} {dev : MbDev σ} {log : σ → List β} {G f} (h : Records dev log G f)
    (ps : List PointObj) (acc : WAcc σ) (g : List PointObj) (hc : Collected acc g)
    (hG : ∀ x ∈ runs (g ++ ps.filter fun p => p.dirty), ∀ w, RunData x w → G w) :
    (∃ gs g' ws, runs (g ++ ps.filter fun p => p.dirty) = gs ++ (if g' = [] then [] else [g']) ∧
        (wpPoints dev ps acc).2.2 = .ok () ∧ Collected (wpPoints dev ps acc).2.1 g' ∧
        List.Forall₂ RunData gs ws ∧ log (wpPoints dev ps acc).2.1.s = log acc.s ++ ws.map f) ∨
    ∃ k ws e, (wpPoints dev ps acc).2.2 = .error e ∧ List.Forall₂ RunData ((runs (g ++ ps.filter fun p => p.dirty)).take k) ws ∧
        log (wpPoints dev ps acc).2.1.s = log acc.s ++ ws.map f := by
  induction ps generalizing acc g with
  | nil =>
    left
    refine ⟨[], g, [], ?_, rfl, hc, .nil, by simp [wpPoints]⟩
    rw [List.filter_nil, List.append_nil, List.nil_append]
    rcases hc with ⟨_, rfl⟩ | ⟨a, _, hg, hl, _⟩
    · rfl
    · rw [if_neg hg, runs_one g hg hl]
  | cons p ps ih =>
    rw [wpPoints]
    unfold wpPoint
    by_cases hd : p.dirty = true
    · rw [List.filter_cons_of_pos (by exact hd)] at hG ⊢
      rw [if_pos hd]
      cases he : p.pt.type.toData p.base (p.pt.len * 2).toNat with
      | error e => exact .inr ⟨0, [], e, rfl, by simp, by simp⟩
      | ok e =>
        dsimp only
        rcases hc with ⟨hn, rfl⟩ | ⟨a, hs, hg, hl, hr, hx⟩
        · rw [hn]
          dsimp only
          have hc' : Collected (⟨acc.s, some p.addr, p.addr + p.pt.len, e⟩ : WAcc σ) [p] :=
            .inr ⟨_, rfl, by simp, trivial, runData_one he, fun x hx => by cases hx; rfl⟩
          exact ih _ [p] hc' hG
        · rw [hs]
          dsimp only
          by_cases hb : p.addr = acc.next
          · rw [if_pos hb]
            have hc' : Collected (⟨acc.s, some a, p.addr + p.pt.len, acc.data ++ e⟩ : WAcc σ) (g ++ [p]) :=
              .inr ⟨_, rfl, by simp, gapless_append hl (fun x hx' => hb.trans (hx x hx')), runData_snoc hr hg he,
                fun x hx => by simp at hx; subst hx; rfl⟩
            have := ih _ (g ++ [p]) hc' (by rw [List.append_assoc]; exact hG)
            rw [List.append_assoc] at this
            exact this
          · rw [if_neg hb]
            have hbr := runs_break g hg hl p (ps.filter fun p => p.dirty) (fun x hx' => fun e => hb (e.trans (hx x hx').symm))
            rw [hbr] at hG ⊢
            have hw := cdWrite_records h acc.s a acc.data (hG g (.head _) _ hr)
            rcases ew : cdWrite dev acc.s a acc.data with ⟨s', r⟩
            rw [ew] at hw
            cases r with
            | error e =>
              rcases hw with hw | ⟨hw, _⟩
              · exact .inr ⟨1, [(a, acc.data)], e, rfl, .cons hr .nil, hw⟩
              · exact .inr ⟨0, [], e, rfl, .nil, by dsimp only at hw ⊢; rw [hw]; simp⟩
            | ok u =>
              dsimp only
              have hw : log s' = log acc.s ++ [f (a, acc.data)] := by
                rcases hw with hw | ⟨_, e, he⟩
                · exact hw
                · cases he
              have hc' : Collected (⟨s', some p.addr, p.addr + p.pt.len, e⟩ : WAcc σ) [p] :=
                .inr ⟨_, rfl, by simp, trivial, runData_one he, fun x hx => by cases hx; rfl⟩
              rcases ih _ [p] hc' (fun x hx => hG x (.tail _ hx)) with ⟨gs, g', ws, i1, i2, i3, i4, i5⟩ | ⟨k, ws, er, i1, i2, i3⟩
              · refine .inl ⟨g :: gs, g', (a, acc.data) :: ws, ?_, i2, i3, .cons hr i4, ?_⟩
                · exact congrArg (g :: ·) i1
                · dsimp only at i5 hw ⊢; rw [i5, hw]; simp
              · refine .inr ⟨k + 1, (a, acc.data) :: ws, er, i1, .cons hr i2, ?_⟩
                dsimp only at i3 hw ⊢; rw [i3, hw]; simp
    · rw [List.filter_cons_of_neg (by exact hd)] at hG ⊢
      rw [if_neg hd]
      exact ih acc g hc hG

theorem wpBlocks_records {σ β} {dev : MbDev σ} {log : σ → List β} {G f} (h : Records dev log G f) (bs : List BlockObj) (s : σ)
    (hG : ∀ x ∈ (bs.map fun b => runs (b.pts.filter fun p => p.dirty)).flatten, ∀ w, RunData x w → G w) :
    ∃ k ws, List.Forall₂ RunData (((bs.map fun b => runs (b.pts.filter fun p => p.dirty)).flatten).take k) ws ∧
      log (wpBlocks dev bs s).1 = log s ++ ws.map f ∧
      ((wpBlocks dev bs s).2.2 = .ok () → ((bs.map fun b => runs (b.pts.filter fun p => p.dirty)).flatten).length ≤ k) := by
  induction bs generalizing s with
  | nil => exact ⟨0, [], .nil, by simp [wpBlocks], by simp⟩
  | cons b bs ih =>
    rw [List.map_cons, List.flatten_cons] at hG ⊢
    rw [wpBlocks]
    have key := wpPoints_records h b.pts { s := s } [] (.inl ⟨rfl, rfl⟩) (fun x hx => hG x (List.mem_append_left _ hx))
    rw [List.nil_append] at key
    rcases ep : wpPoints dev b.pts { s := s } with ⟨pts, acc, r⟩
    rw [ep] at key
    dsimp only at key
    rcases key with ⟨gs, g', ws, i1, i2, i3, i4, i5⟩ | ⟨k, ws, er, i1, i2, i3⟩
    · subst i2
      dsimp only
      have hrest : ∀ x ∈ (bs.map fun b => runs (b.pts.filter fun p => p.dirty)).flatten, ∀ w, RunData x w → G w :=
        fun x hx => hG x (List.mem_append_right _ hx)
      unfold wpFlush
      rcases i3 with ⟨hn, rfl⟩ | ⟨a, hs, hg, hl, hr, hx⟩
      · rw [hn]
        dsimp only
        rw [if_pos rfl, List.append_nil] at i1
        obtain ⟨k, ws', j1, j2, j3⟩ := ih acc.s hrest
        rw [i1]
        refine ⟨gs.length + k, ws ++ ws', ?_, ?_, ?_⟩
        · rw [List.take_append, List.take_of_length_le (by omega), Nat.add_sub_cancel_left]
          exact List.rel_append i4 j1
        · rw [j2, i5]; simp
        · intro hk; have := j3 hk; rw [List.length_append]; omega
      · rw [hs]
        dsimp only
        rw [if_neg hg] at i1
        have hw := cdWrite_records h acc.s a acc.data (hG g' (List.mem_append_left _ (by rw [i1]; simp)) _ hr)
        rcases ew : cdWrite dev acc.s a acc.data with ⟨s', r⟩
        rw [ew] at hw
        dsimp only at hw
        have hall : List.Forall₂ RunData (gs ++ [g']) (ws ++ [(a, acc.data)]) := List.rel_append i4 (.cons hr .nil)
        rw [i1]
        cases r with
        | error e =>
          rcases hw with hw | ⟨hw, _⟩
          rotate_left
          · refine ⟨gs.length, ws, ?_, ?_, by simp⟩
            · rw [List.append_assoc, List.take_append_of_le_length (Nat.le_refl _), List.take_of_length_le (Nat.le_refl _)]
              exact i4
            · dsimp only; rw [hw, i5]
          refine ⟨(gs ++ [g']).length, ws ++ [(a, acc.data)], ?_, ?_, by simp⟩
          · rw [List.take_append_of_le_length (Nat.le_refl _), List.take_of_length_le (Nat.le_refl _)]
            exact hall
          · dsimp only; rw [hw, i5]; simp
        | ok u =>
          dsimp only
          have hw : log s' = log acc.s ++ [f (a, acc.data)] := by
            rcases hw with hw | ⟨_, e, he⟩
            · exact hw
            · cases he
          obtain ⟨k, ws', j1, j2, j3⟩ := ih s' hrest
          refine ⟨(gs ++ [g']).length + k, ws ++ [(a, acc.data)] ++ ws', ?_, ?_, ?_⟩
          · rw [List.take_append, List.take_of_length_le (by omega), Nat.add_sub_cancel_left]
            exact List.rel_append hall j1
          · rw [j2, hw, i5]; simp
          · intro hk; have := j3 hk; rw [List.length_append]; omega
    · subst i1
      dsimp only
      refine ⟨min k (runs (b.pts.filter fun p => p.dirty)).length, ws, ?_, i3, by simp⟩
      rw [List.take_append_of_le_length (Nat.min_le_right _ _), ← List.take_eq_take_min]
      exact i2

theorem modelGrouped_eq {m : MdlObj} {gs : List (List PointObj)} :
    ModelGrouped m gs ↔ gs = (m.blocks.map fun b => runs (b.pts.filter fun p => p.dirty)).flatten := by
  constructor
  · rintro ⟨parts, h1, rfl⟩
    congr 1
    generalize m.blocks = bs at h1 ⊢
    induction h1 with
    | nil => rfl
    | cons h _ ih => rw [List.map_cons, ← ih, grouped_unique h]
  · rintro rfl
    refine ⟨_, ?_, rfl⟩
    generalize m.blocks = bs
    induction bs with
    | nil => exact .nil
    | cons b bs ih => exact .cons (runs_grouped _) ih

end Verif
