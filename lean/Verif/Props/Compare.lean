import Verif.Model.Compare
import Verif.Spec.Compare
import Verif.Props.PicsValue

/-!
# C48: comparing devices
-/

namespace Verif
open Spec

/-! ### Values -/

theorem flt_pyEq {x y : Flt} : x.pyEq y = true ↔ unsignedZero x = unsignedZero y ∧ unsignedZero x ≠ .nan := by
  cases x <;> cases y <;> simp [Flt.pyEq, unsignedZero]

theorem val_pyEq {a b : Val} : a.pyEq b = true ↔ SameVal (some a) (some b) := by
  constructor
  · intro h
    cases a <;> cases b <;> simp only [Val.pyEq, decide_eq_true_eq, Bool.false_eq_true] at h
    all_goals first
      | (rw [flt_pyEq] at h; exact .num rfl (by rw [h.1]; rfl) h.2)
      | (rw [flt_pyEq] at h; exact .num rfl (congrArg some h.1.symm) h.2)
      | (subst h; exact .num rfl rfl (by simp))
      | (subst h; exact .text _)
  · intro h
    cases h with
    | text s => simp [Val.pyEq]
    | num h1 h2 h3 =>
      rename_i x
      cases a <;> cases b <;> simp only [number, Option.some.injEq, reduceCtorEq] at h1 h2 <;> simp only [Val.pyEq, flt_pyEq, decide_eq_true_eq]
      all_goals first
        | (rw [← h2] at h1; simpa using h1)
        | (rw [h1, h2]; exact ⟨rfl, h3⟩)
        | (rw [h1]; exact ⟨h2.symm, h3⟩)
        | (rw [h2, ← h1]; exact ⟨rfl, by rw [← h1] at h3; exact h3⟩)

theorem valueNe_false {a b : Option Val} : valueNe a b = false ↔ SameVal a b := by
  cases a with
  | none =>
    cases b with
    | none => simp [valueNe, SameVal.missing]
    | some y => simp only [valueNe, reduceCtorEq, false_iff]; intro h; cases h
  | some x =>
    cases b with
    | none => simp only [valueNe, reduceCtorEq, false_iff]; intro h; cases h
    | some y => rw [← val_pyEq]; simp [valueNe]

/-! ### Definitions -/

theorem attrNe_false {a b : Option Text} : attrNe a b = false ↔ Agree a b := by
  unfold attrNe Agree
  cases a <;> cases b <;> simp

theorem Spec.PointTypeAgree.refl (t : PointType) : PointTypeAgree t t := by
  have : ∀ a : Option Text, Agree a a := fun a x y h1 h2 => by rw [h1] at h2; exact Option.some.inj h2
  exact ⟨rfl, rfl, rfl, rfl, rfl, rfl, this _, this _, this _, this _, this _⟩

theorem Spec.BlockTypeAgree.refl (a : BlockType) : BlockTypeAgree a a := ⟨rfl, rfl, rfl, fun t ht => ⟨t, ht, .refl t⟩⟩

theorem Spec.ModelTypeAgree.refl (a : ModelType) : ModelTypeAgree a a := by
  refine ⟨rfl, rfl, rfl, rfl, rfl, .refl _, ?_⟩
  cases a.rep with
  | none => trivial
  | some x => exact .refl x

theorem pointTypeNe_none {same : Bool} {t : PointType} {u : Option PointType} (h : pointTypeNe same t u = none) :
    ∃ v, u = some v ∧ PointTypeAgree t v := by
  cases u with
  | none => cases h
  | some u =>
    refine ⟨u, rfl, ?_⟩
    unfold pointTypeNe at h
    dsimp only at h
    by_cases hs : (same && decide (t = u)) = true
    · simp only [Bool.and_eq_true, decide_eq_true_eq] at hs
      rw [hs.2]; exact .refl u
    · rw [if_neg hs] at h
      have key : ∀ {c : Prop} [Decidable c] {r : Reason} {x : Option Reason}, (if c then some r else x) = none → ¬ c ∧ x = none := by
        intro c _ r x hx
        by_cases hc : c
        · rw [if_pos hc] at hx; cases hx
        · rw [if_neg hc] at hx; exact ⟨hc, hx⟩
      obtain ⟨h1, h⟩ := key h
      obtain ⟨h2, h⟩ := key h
      obtain ⟨h3, h⟩ := key h
      obtain ⟨h4, h⟩ := key h
      obtain ⟨h5, h⟩ := key h
      obtain ⟨h6, h⟩ := key h
      obtain ⟨h7, h⟩ := key h
      obtain ⟨h8, h⟩ := key h
      obtain ⟨h9, h⟩ := key h
      obtain ⟨h10, h⟩ := key h
      obtain ⟨h11, h⟩ := key h
      have dn : ∀ {α : Type} [DecidableEq α] {a b : α}, ¬ (a ≠ b) → b = a := fun h => (Decidable.not_not.1 h).symm
      have bn : ∀ {b : Bool}, ¬ (b = true) → b = false := fun h => by simpa using h
      exact ⟨dn h1, dn h2, dn h3, dn h4, dn h5, dn h6, attrNe_false.1 (bn h7), attrNe_false.1 (bn h8), attrNe_false.1 (bn h9),
        attrNe_false.1 (bn h10), attrNe_false.1 (bn h11)⟩

theorem pointTypesNe_none {same : Bool} {us : List PointType} {ts : List PointType} (h : pointTypesNe same us ts = none) :
    ∀ t ∈ ts, ∃ u ∈ us, PointTypeAgree t u := by
  induction ts with
  | nil => intro t ht; cases ht
  | cons x ts ih =>
    rw [pointTypesNe] at h
    cases hx : pointTypeNe same x (us.find? fun u => decide (u.id = x.id)) with
    | some r => rw [hx] at h; cases h
    | none =>
      rw [hx] at h
      intro t ht
      rcases List.mem_cons.1 ht with rfl | ht
      · obtain ⟨v, h1, h2⟩ := pointTypeNe_none hx
        exact ⟨v, List.mem_of_find?_eq_some h1, h2⟩
      · exact ih h t ht

theorem blockTypeNe_none {same : Bool} {a : BlockType} {ob : Option BlockType} (h : blockTypeNe same a ob = none) :
    ∃ b, ob = some b ∧ BlockTypeAgree a b := by
  cases ob with
  | none => cases h
  | some b =>
    refine ⟨b, rfl, ?_⟩
    unfold blockTypeNe at h
    dsimp only at h
    by_cases hs : (same && decide (a = b)) = true
    · simp only [Bool.and_eq_true, decide_eq_true_eq] at hs
      rw [hs.2]; exact .refl b
    · rw [if_neg hs] at h
      by_cases h1 : a.repeating ≠ b.repeating
      · rw [if_pos h1] at h; cases h
      rw [if_neg h1] at h
      by_cases h2 : a.len ≠ b.len
      · rw [if_pos h2] at h; cases h
      rw [if_neg h2] at h
      by_cases h3 : a.points.length ≠ b.points.length
      · rw [if_pos h3] at h; cases h
      rw [if_neg h3] at h
      exact ⟨(Decidable.not_not.1 h1).symm, (Decidable.not_not.1 h2).symm, (Decidable.not_not.1 h3).symm, pointTypesNe_none h⟩

theorem modelTypeNe_none {same : Bool} {a : ModelType} {ob : Option ModelType} (h : modelTypeNe same a ob = none) :
    ∃ b, ob = some b ∧ ModelTypeAgree a b := by
  cases ob with
  | none => cases h
  | some b =>
    refine ⟨b, rfl, ?_⟩
    unfold modelTypeNe at h
    dsimp only at h
    by_cases hs : (same && decide (a = b)) = true
    · simp only [Bool.and_eq_true, decide_eq_true_eq] at hs
      rw [hs.2]; exact .refl b
    · rw [if_neg hs] at h
      by_cases h1 : a.id ≠ b.id
      · rw [if_pos h1] at h; cases h
      rw [if_neg h1] at h
      by_cases h2 : a.len ≠ b.len
      · rw [if_pos h2] at h; cases h
      rw [if_neg h2] at h
      by_cases h3 : a.label ≠ b.label
      · rw [if_pos h3] at h; cases h
      rw [if_neg h3] at h
      by_cases h4 : a.description ≠ b.description
      · rw [if_pos h4] at h; cases h
      rw [if_neg h4] at h
      by_cases h5 : a.notes ≠ b.notes
      · rw [if_pos h5] at h; cases h
      rw [if_neg h5] at h
      cases hf : blockTypeNe same a.fixed (some b.fixed) with
      | some r => rw [hf] at h; cases h
      | none =>
        rw [hf] at h
        dsimp only at h
        obtain ⟨_, e, hfix⟩ := blockTypeNe_none hf
        cases e
        refine ⟨(Decidable.not_not.1 h1).symm, (Decidable.not_not.1 h2).symm, (Decidable.not_not.1 h3).symm,
          (Decidable.not_not.1 h4).symm, (Decidable.not_not.1 h5).symm, hfix, ?_⟩
        cases ha : a.rep with
        | none =>
          rw [ha] at h
          cases hb : b.rep with
          | none => trivial
          | some y => rw [hb] at h; cases h
        | some x =>
          rw [ha] at h
          dsimp only at h
          obtain ⟨y, e, hr⟩ := blockTypeNe_none h
          rw [e]; exact hr

/-! ### The result False -/

theorem pointsNe_none {same : Bool} {qs ps : List PointObj} (h : pointsNe same qs ps = .ok none) :
    ∀ p ∈ ps, ∃ q ∈ qs, PointTypeAgree p.pt q.pt ∧ SameVals p q := by
  induction ps with
  | nil => intro p hp; cases hp
  | cons x ps ih =>
    rw [pointsNe] at h
    cases hx : pointNe same x (qs.find? fun q => decide (q.pt.id = x.pt.id)) with
    | error e => rw [hx] at h; cases h
    | ok o =>
      rw [hx] at h
      cases o with
      | some r => cases h
      | none =>
        dsimp only at h
        intro p hp
        rcases List.mem_cons.1 hp with rfl | hp
        · cases hq : qs.find? fun q => decide (q.pt.id = p.pt.id) with
          | none => rw [hq] at hx; cases hx
          | some q =>
            rw [hq] at hx
            unfold pointNe at hx
            dsimp only at hx
            cases ht : pointTypeNe same p.pt (some q.pt) with
            | some r => rw [ht] at hx; cases hx
            | none =>
              rw [ht] at hx
              dsimp only at hx
              by_cases hv : (valueNe p.base q.base || valueNe p.vsf q.vsf) = true
              · rw [if_pos hv] at hx; cases hx
              · simp only [Bool.or_eq_true, not_or, Bool.not_eq_true] at hv
                obtain ⟨_, e, ha⟩ := pointTypeNe_none ht
                cases e
                exact ⟨q, List.mem_of_find?_eq_some hq, ha, valueNe_false.1 hv.1, valueNe_false.1 hv.2⟩
        · exact ih h p hp

theorem blockNe_none {same : Bool} {b c : BlockObj} (h : blockNe same b c = .ok none) : BlockAgree b c := by
  unfold blockNe at h
  cases hb : blockTypeNe same b.bt (some c.bt) with
  | some r => rw [hb] at h; cases h
  | none =>
    rw [hb] at h
    dsimp only at h
    obtain ⟨_, e, ha⟩ := blockTypeNe_none hb
    cases e
    cases hp : pointsNe same c.pts b.pts with
    | error x => rw [hp] at h; cases h
    | ok o =>
      rw [hp] at h
      cases o with
      | some r => cases h
      | none => exact ⟨ha, pointsNe_none hp⟩

theorem blocksNe_none {same : Bool} {bs : List BlockObj} : ∀ {cs : List BlockObj}, bs.length = cs.length → blocksNe same bs cs = .ok none →
    List.Forall₂ BlockAgree bs cs := by
  induction bs with
  | nil => intro cs hl _; cases cs with
    | nil => exact .nil
    | cons c cs => simp at hl
  | cons b bs ih =>
    intro cs hl h
    cases cs with
    | nil => simp at hl
    | cons c cs =>
      rw [blocksNe] at h
      cases hb : blockNe same b c with
      | error x => rw [hb] at h; cases h
      | ok o =>
        rw [hb] at h
        cases o with
        | some r => cases h
        | none => exact .cons (blockNe_none hb) (ih (by simpa using hl) h)

theorem modelNe_none {same : Bool} {m n : MdlObj} (h : modelNe same m n = .ok none) : ModelAgree m n := by
  unfold modelNe at h
  cases hm : m.mtype with
  | none => rw [hm] at h; cases h
  | some t =>
    rw [hm] at h
    dsimp only at h
    by_cases hl : m.blocks.length ≠ n.blocks.length
    · rw [if_pos hl] at h; cases h
    rw [if_neg hl] at h
    cases ht : modelTypeNe same t n.mtype with
    | some r => rw [ht] at h; cases h
    | none =>
      rw [ht] at h
      dsimp only at h
      obtain ⟨u, hu, ha⟩ := modelTypeNe_none ht
      cases hb : blocksNe same m.blocks n.blocks with
      | error x => rw [hb] at h; cases h
      | ok o =>
        rw [hb] at h
        cases o with
        | some r => cases h
        | none => exact ⟨⟨t, u, hm, hu, ha⟩, blocksNe_none (Decidable.not_not.1 hl) hb⟩

/-- C48: if comparing two devices (any two) gives False, then they have the same number of models, and model by model and
block by block their definitions are equal (up to missing attributes and names) and every point has an equal point in the other
device: the same value and the same value of the scale factor. -/
theorem C48_false_means_equal (same : Bool) (ms ns : List MdlObj) (h : deviceNe same ms ns = .ok none) : List.Forall₂ ModelAgree ms ns := by
  unfold deviceNe at h
  by_cases hl : ms.length ≠ ns.length
  · rw [if_pos hl] at h; cases h
  rw [if_neg hl] at h
  replace hl := Decidable.not_not.1 hl
  induction ms generalizing ns with
  | nil => cases ns with
    | nil => exact .nil
    | cons n ns => simp at hl
  | cons m ms ih =>
    cases ns with
    | nil => simp at hl
    | cons n ns =>
      rw [modelsNe] at h
      cases hm : modelNe same m n with
      | error x => rw [hm] at h; cases h
      | ok o =>
        rw [hm] at h
        cases o with
        | some r => cases h
        | none => exact .cons (modelNe_none hm) (ih ns h (by simpa using hl))

/-! ### Errors -/

theorem Spec.Complete.iff {b : BlockObj} (h : Complete b) (t : PointType) :
    (∃ p ∈ b.pts, p.pt = t) ↔ t ∈ b.bt.points ∧ t.type ≠ .pad ∧ t.type ≠ .sunssf := by
  have : (∃ p ∈ b.pts, p.pt = t) ↔ t ∈ b.pts.map (·.pt) := by simp
  rw [this, h.pts]
  simp

theorem Spec.Complete.nodup {b : BlockObj} (h : Complete b) : (b.pts.map (·.pt.id)).Nodup := by
  have : b.pts.map (·.pt.id) = (b.pts.map (·.pt)).map (·.id) := by simp
  rw [this, h.pts]
  exact h.ids.sublist (List.filter_sublist.map _)

/-- The point of a complete block that agrees with a point of another block whose definition agrees. -/
theorem complete_found {b c : BlockObj} (hb : Complete b) (hc : Complete c) (ha : BlockTypeAgree b.bt c.bt) {p : PointObj} (hp : p ∈ b.pts) :
    ∃ q, c.pts.find? (fun q => decide (q.pt.id = p.pt.id)) = some q := by
  obtain ⟨h1, h2, h3⟩ := (hb.iff p.pt).1 ⟨p, hp, rfl⟩
  obtain ⟨u, hu, hag⟩ := ha.points p.pt h1
  obtain ⟨q, hq, e⟩ := (hc.iff u).2 ⟨hu, by rw [hag.type]; exact h2, by rw [hag.type]; exact h3⟩
  cases hf : c.pts.find? (fun q => decide (q.pt.id = p.pt.id)) with
  | some q => exact ⟨q, rfl⟩
  | none =>
    rw [List.find?_eq_none] at hf
    have := hf q hq
    simp only [decide_eq_true_eq] at this
    exact absurd (by rw [e]; exact hag.id) this

theorem pointsNe_ok {same : Bool} {qs ps : List PointObj} (h : ∀ p ∈ ps, ∃ q, qs.find? (fun q => decide (q.pt.id = p.pt.id)) = some q) :
    ∃ o, pointsNe same qs ps = .ok o := by
  induction ps with
  | nil => exact ⟨_, rfl⟩
  | cons p ps ih =>
    rw [pointsNe]
    obtain ⟨q, hq⟩ := h p (by simp)
    rw [hq]
    have : ∃ o, pointNe same p (some q) = .ok o := by
      unfold pointNe
      dsimp only
      cases pointTypeNe same p.pt (some q.pt) with
      | some r => exact ⟨_, rfl⟩
      | none => dsimp only; split <;> exact ⟨_, rfl⟩
    obtain ⟨o, ho⟩ := this
    rw [ho]
    cases o with
    | some r => exact ⟨_, rfl⟩
    | none => exact ih fun p hp => h p (by simp [hp])

theorem blocksNe_ok {same : Bool} {bs : List BlockObj} : ∀ {cs : List BlockObj}, (∀ b ∈ bs, Complete b) → (∀ c ∈ cs, Complete c) →
    ∃ o, blocksNe same bs cs = .ok o := by
  induction bs with
  | nil => intro cs _ _; exact ⟨none, by rw [blocksNe]; simp⟩
  | cons b bs ih =>
    intro cs hb hc
    cases cs with
    | nil => exact ⟨none, by rw [blocksNe]; simp⟩
    | cons c cs =>
      rw [blocksNe]
      have : ∃ o, blockNe same b c = .ok o := by
        unfold blockNe
        cases ht : blockTypeNe same b.bt (some c.bt) with
        | some r => exact ⟨_, rfl⟩
        | none =>
          dsimp only
          obtain ⟨_, e, ha⟩ := blockTypeNe_none ht
          cases e
          obtain ⟨o, ho⟩ := pointsNe_ok (same := same) (qs := c.pts) (ps := b.pts) fun p hp => complete_found (hb b (by simp)) (hc c (by simp)) ha hp
          rw [ho]
          exact ⟨_, rfl⟩
      obtain ⟨o, ho⟩ := this
      rw [ho]
      cases o with
      | some r => exact ⟨_, rfl⟩
      | none => exact ih (fun b h => hb b (by simp [h])) (fun c h => hc c (by simp [h]))

/-- C48: comparing devices raises no exception if the definitions of all models of the first could be loaded and the blocks
have the points of their definitions. -/
theorem C48_no_error_partial (same : Bool) (ms ns : List MdlObj) (hm : ∀ m ∈ ms, m.mtype ≠ none ∧ ∀ b ∈ m.blocks, Complete b)
    (hn : ∀ n ∈ ns, ∀ b ∈ n.blocks, Complete b) : ∃ o, deviceNe same ms ns = .ok o := by
  unfold deviceNe
  split
  · exact ⟨_, rfl⟩
  · clear * - hm hn
    induction ms generalizing ns with
    | nil => exact ⟨none, by rw [modelsNe]; simp⟩
    | cons m ms ih =>
      cases ns with
      | nil => exact ⟨none, by rw [modelsNe]; simp⟩
      | cons n ns =>
        rw [modelsNe]
        have : ∃ o, modelNe same m n = .ok o := by
          unfold modelNe
          cases ht : m.mtype with
          | none => exact absurd ht (hm m (by simp)).1
          | some t =>
            dsimp only
            split
            · exact ⟨_, rfl⟩
            · cases modelTypeNe same t n.mtype with
              | some r => exact ⟨_, rfl⟩
              | none =>
                dsimp only
                obtain ⟨o, ho⟩ := blocksNe_ok (same := same) (hm m (by simp)).2 (hn n (by simp))
                rw [ho]
                exact ⟨_, rfl⟩
        obtain ⟨o, ho⟩ := this
        rw [ho]
        cases o with
        | some r => exact ⟨_, rfl⟩
        | none => exact ih ns (fun m h => hm m (by simp [h])) (fun n h => hn n (by simp [h]))

/-- C48: a reason is given when the value of a point (or the value of its scale factor) differs: if a point at some place of a
device has no equal point at the same place of the other, comparing the devices gives a reason. -/
theorem C48_differs_partial (same : Bool) (ms ns : List MdlObj) (hm : ∀ m ∈ ms, m.mtype ≠ none ∧ ∀ b ∈ m.blocks, Complete b)
    (hn : ∀ n ∈ ns, ∀ b ∈ n.blocks, Complete b) (i k : Nat) (m n : MdlObj) (b c : BlockObj) (p : PointObj)
    (h1 : ms[i]? = some m) (h2 : ns[i]? = some n) (h3 : m.blocks[k]? = some b) (h4 : n.blocks[k]? = some c) (hp : p ∈ b.pts)
    (hd : ∀ q ∈ c.pts, q.pt.id = p.pt.id → ¬ SameVals p q) : ∃ r, deviceNe same ms ns = .ok (some r) := by
  obtain ⟨o, ho⟩ := C48_no_error_partial same ms ns hm hn
  cases o with
  | some r => exact ⟨r, ho⟩
  | none =>
    exfalso
    have h := C48_false_means_equal same ms ns ho
    have hb := forall₂_get (forall₂_get h i m n h1 h2).blocks k b c h3 h4
    obtain ⟨q, hq, ha, hv⟩ := hb.pts p hp
    exact hd q hq ha.id hv

/-! ### Equal devices -/

theorem pointTypeNe_self {same : Bool} {t : PointType} (h : same = true ∨ t.symbols = []) : pointTypeNe same t (some t) = none := by
  unfold pointTypeNe
  dsimp only
  cases same with
  | true => rw [if_pos (by simp)]
  | false =>
    have hs : t.symbols = [] := h.resolve_left (by simp)
    have : ∀ a : Option Text, attrNe a a = false := fun a => by cases a <;> simp [attrNe]
    simp [this, symbolsNe, hs]

theorem find_self {ts : List PointType} (hn : (ts.map (·.id)).Nodup) {t : PointType} (ht : t ∈ ts) :
    ts.find? (fun u => decide (u.id = t.id)) = some t := by
  induction ts with
  | nil => cases ht
  | cons x ts ih =>
    rw [List.map_cons, List.nodup_cons] at hn
    rcases List.mem_cons.1 ht with rfl | ht
    · simp
    · have hne : ¬ x.id = t.id := fun e => hn.1 (List.mem_map.2 ⟨t, ht, e.symm⟩)
      rw [List.find?_cons, decide_eq_false hne]
      exact ih hn.2 ht

theorem blockTypeNe_self {same : Bool} {a : BlockType} (hn : (a.points.map (·.id)).Nodup) (h : same = true ∨ ∀ t ∈ a.points, t.symbols = []) :
    blockTypeNe same a (some a) = none := by
  unfold blockTypeNe
  dsimp only
  by_cases hs : same = true
  · rw [if_pos (by simp [hs])]
  · rw [if_neg (by simp [hs]), if_neg (by simp), if_neg (by simp), if_neg (by simp)]
    have h' := h.resolve_left hs
    have : ∀ ts : List PointType, (∀ t ∈ ts, t ∈ a.points) → pointTypesNe same a.points ts = none := by
      intro ts
      induction ts with
      | nil => intro _; rfl
      | cons t ts ih =>
        intro hm
        have ht := hm t (by simp)
        rw [pointTypesNe, find_self hn ht, pointTypeNe_self (.inr (h' t ht))]
        exact ih fun t h => hm t (by simp [h])
    exact this _ fun _ h => h

theorem modelTypeNe_self {same : Bool} {a : ModelType} (hn : (a.fixed.points.map (·.id)).Nodup ∧ ∀ rb, a.rep = some rb → (rb.points.map (·.id)).Nodup)
    (h : same = true ∨ ((∀ t ∈ a.fixed.points, t.symbols = []) ∧ ∀ rb, a.rep = some rb → ∀ t ∈ rb.points, t.symbols = [])) :
    modelTypeNe same a (some a) = none := by
  unfold modelTypeNe
  dsimp only
  by_cases hs : (same && decide (a = a)) = true
  · rw [if_pos hs]
  · rw [if_neg hs, if_neg (by simp), if_neg (by simp), if_neg (by simp), if_neg (by simp), if_neg (by simp),
      blockTypeNe_self hn.1 (h.imp id (·.1))]
    dsimp only
    cases hr : a.rep with
    | none => rfl
    | some x => exact blockTypeNe_self (hn.2 x hr) (h.imp id fun h => h.2 x hr)

theorem pointsNe_self {same : Bool} {b c : BlockObj} (hb : Complete b) (hc : Complete c) (hbt : c.bt = b.bt)
    (h : same = true ∨ ∀ t ∈ b.bt.points, t.symbols = []) (hpq : List.Forall₂ (fun p q => q.pt = p.pt ∧ SameVals p q) b.pts c.pts) :
    pointsNe same c.pts b.pts = .ok none := by
  have key : ∀ ps : List PointObj, (∀ p ∈ ps, p ∈ b.pts) → pointsNe same c.pts ps = .ok none := by
    intro ps
    induction ps with
    | nil => intro _; rfl
    | cons p ps ih =>
      intro hm
      have hp := hm p (by simp)
      obtain ⟨q, hq⟩ := complete_found hb hc (by rw [hbt]; exact .refl _) hp
      have hqm := List.mem_of_find?_eq_some hq
      have hqid : q.pt.id = p.pt.id := by simpa using List.find?_some hq
      -- the point found is the one at the same position
      obtain ⟨k, hk⟩ := List.getElem?_of_mem hqm
      obtain ⟨p', hp', e1, e2⟩ := forall₂_at hpq k q hk
      have hpp : p' = p := by
        have hm' := List.mem_of_getElem? hp'
        have hid : p'.pt.id = p.pt.id := by rw [← e1, hqid]
        exact List.inj_on_of_nodup_map hb.nodup hm' hp hid
      subst hpp
      rw [pointsNe, hq]
      have ht : pointTypeNe same p'.pt (some q.pt) = none := by
        rw [e1]
        exact pointTypeNe_self (h.imp id fun h => h _ ((hb.iff p'.pt).1 ⟨p', hp, rfl⟩).1)
      unfold pointNe
      dsimp only
      rw [ht]
      dsimp only
      rw [valueNe_false.2 e2.1, valueNe_false.2 e2.2]
      exact ih fun p h => hm p (by simp [h])
  exact key _ fun _ h => h

theorem kind_map_pt' {ps qs : List PointObj} (h : List.Forall₂ (fun p q => q.pt = p.pt ∧ SameVals p q) ps qs) :
    qs.map (·.pt) = ps.map (·.pt) := by
  induction h with
  | nil => rfl
  | cons r _ ih => rw [List.map_cons, List.map_cons, ih, r.1]

theorem complete_of_same {b c : BlockObj} (hb : Complete b) (hbt : c.bt = b.bt)
    (hpq : List.Forall₂ (fun p q => q.pt = p.pt ∧ SameVals p q) b.pts c.pts) : Complete c := by
  refine ⟨by rw [hbt]; exact hb.ids, ?_⟩
  rw [hbt, ← hb.pts]
  exact kind_map_pt' hpq

/-- C48: comparing a device with one that has equal definitions and values gives False, if the definitions are the same
objects or have no symbols. Missing: separately loaded definitions with symbols (`C48_symbols`), models without a definition
(`C48_unknown_model`). -/
theorem C48_equal_partial (same : Bool) (ms ns : List MdlObj) (hm : ∀ m ∈ ms, UniqueDefs m ∧ (same = true ∨ NoSymbols m))
    (h : List.Forall₂ EqualModel ms ns) : deviceNe same ms ns = .ok none := by
  unfold deviceNe
  rw [if_neg (by simp [h.length_eq])]
  induction h with
  | nil => rw [modelsNe]; simp
  | cons r _ ih =>
    rename_i m n ms ns _
    obtain ⟨⟨t, h1, h2⟩, hb⟩ := r
    obtain ⟨hu, hs⟩ := hm m (by simp)
    have hmod : modelNe same m n = .ok none := by
      unfold modelNe
      rw [h1]
      dsimp only
      rw [if_neg (by simp [hb.length_eq]), h2, modelTypeNe_self (hu.1 t h1) (hs.imp id fun h => h.1 t h1)]
      dsimp only
      have hblocks : ∀ (bs cs : List BlockObj), (∀ b ∈ bs, b ∈ m.blocks) →
          List.Forall₂ (fun b c => c.bt = b.bt ∧ List.Forall₂ (fun p q => q.pt = p.pt ∧ SameVals p q) b.pts c.pts) bs cs →
          blocksNe same bs cs = .ok none := by
        intro bs cs hmem hbc
        induction hbc with
        | nil => rw [blocksNe]; simp
        | cons r _ ihb =>
          rename_i b c bs cs _
          have hcb := hu.2 b (hmem b (by simp))
          have hsym : same = true ∨ ∀ t ∈ b.bt.points, t.symbols = [] := hs.imp id fun h => h.2 b (hmem b (by simp))
          have : blockNe same b c = .ok none := by
            unfold blockNe
            rw [r.1, blockTypeNe_self hcb.ids hsym]
            dsimp only
            rw [pointsNe_self hcb (complete_of_same hcb r.1 r.2) r.1 hsym r.2]
            rfl
          rw [blocksNe, this]
          exact ihb fun b h => hmem b (by simp [h])
      rw [hblocks _ _ (fun _ h => h) hb]
      rfl
    rw [modelsNe, hmod]
    exact ih fun m h => hm m (by simp [h])

/-- Every loaded model with a well-formed definition meets the hypotheses of the theorems above, whatever the values. -/
theorem C48_loaded (types : Int → Py ModelType) (m : MdlObj) (hl : LoadedModel types m) (hd : ∀ mt, types m.id = .ok mt → DefOK mt) :
    UniqueDefs m ∧ m.mtype ≠ none := by
  obtain ⟨addr, len, m0, h1, h2, h3, h4⟩ := hl
  obtain ⟨mt, m', e1, e2, e3, e4, e5, e6, e7⟩ := mdlLoad_shift _ _ _ addr _ _ h1
  have hdef := hd mt e1
  rw [e1] at h1
  obtain ⟨F, R, n, hL⟩ := loadWith_ok _ mt m.id addr len m0 h1
  refine ⟨⟨?_, ?_⟩, ?_⟩
  · intro t ht
    rw [h3, hL.htype] at ht
    cases ht
    exact ⟨hdef.ids, hdef.repIds⟩
  · intro b hb
    obtain ⟨k, hk⟩ := List.getElem?_of_mem hb
    obtain ⟨b0, hb0, hkind⟩ := forall₂_at h4 k b hk
    obtain ⟨bt, a, bl, q, q1, q2⟩ := loaded_block hL k b0 hb0
    have hids : (bt.points.map (·.id)).Nodup := by
      by_cases hk : k = 0
      · rw [q1 hk]; exact hdef.ids
      · exact hdef.repIds bt (q2 (by omega))
    subst q
    have hg := good_of_kind hkind (mkBlock_good _ _ _ _ _ hids)
    refine ⟨hg.ids, ?_⟩
    rw [hg.pts]
    unfold dataPoints
    congr 1
  · rw [h3, hL.htype]; simp

/-! ### What goes wrong -/

/-- A model of a device: loaded with its definition or with an error, and with any values. -/
def DeviceModel (types : Int → Py ModelType) (m : MdlObj) : Prop :=
  LoadedModel types m ∨ ∃ x addr len, types m.id = .error x ∧ m = { (mdlLoad (types m.id) (mdlNew m.id addr len)).1 with loadError := true }

/-- The property in full: for all devices whose models have been loaded with well-formed definitions (or could not be loaded),
comparing gives False if all definitions and values are equal, and a reason if the value of a point, scale factor points
included, differs. Violated: see `C48_violated`. -/
def C48_full : Prop :=
  ∀ (types : Int → Py ModelType) (same : Bool) (ms ns : List MdlObj), (∀ id mt, types id = .ok mt → DefOK mt) →
    (∀ m ∈ ms, DeviceModel types m) → (∀ n ∈ ns, DeviceModel types n) →
    (List.Forall₂ (fun m n => n.mtype = m.mtype ∧ List.Forall₂ (fun b c => c.bt = b.bt ∧
      List.Forall₂ (fun p q => q.pt = p.pt ∧ SameVals p q) b.pts c.pts ∧ List.Forall₂ (fun p q => q.pt = p.pt ∧ SameVals p q) b.sfs c.sfs)
        m.blocks n.blocks) ms ns → deviceNe same ms ns = .ok none) ∧
    (∀ (i k : Nat) m n b c p, ms[i]? = some m → ns[i]? = some n → m.blocks[k]? = some b → n.blocks[k]? = some c →
      p ∈ b.pts ++ b.sfs → (∀ q ∈ c.pts ++ c.sfs, q.pt.id = p.pt.id → ¬ SameVals p q) → ∃ r, deviceNe same ms ns = .ok (some r))

/-- A device with a model whose definition is not known. -/
def unknownModel : MdlObj := { (mdlLoad (.error .sunSpecError) (mdlNew 5 40002 4)).1 with loadError := true }

/-- C48: comparing a device that has a model without a definition raises `AttributeError`, even with itself. -/
theorem C48_unknown_model (same : Bool) (ms : List MdlObj) (ns : List MdlObj) (hl : ms.length = ns.length) :
    deviceNe same (unknownModel :: ms) (unknownModel :: ns) = .error .attributeError := by
  unfold deviceNe
  rw [if_neg (by simp [hl])]
  rfl

theorem C48_violated : ¬ C48_full := by
  intro h
  have hd : ∀ m ∈ [unknownModel], DeviceModel (fun _ => .error .sunSpecError) m := by
    intro m hm
    rw [List.mem_singleton] at hm
    subst hm
    exact .inr ⟨.sunSpecError, 40002, 4, rfl, rfl⟩
  have := (h (fun _ => .error .sunSpecError) true [unknownModel] [unknownModel] (by intro _ _ h; cases h) hd hd).1
    (.cons ⟨rfl, .nil⟩ .nil)
  rw [C48_unknown_model true [] [] rfl] at this
  cases this

/-- A definition with a symbol, as of most published models. -/
def symType : ModelType where
  id := 901
  len := 1
  name := t!"symbols"
  fixed := ⟨false, .str (t!"1"), t!"fixed", [
    { id := t!"S", offset := 0, type := .enum16, len := 1, symbols := [⟨some (t!"OFF"), some (t!"1"), none, none, none⟩] }]⟩
  rep := none

/-- A device with this model. -/
def symModel : MdlObj := (mdlLoad (.ok symType) (mdlNew 901 40002 1)).1

theorem symModel_loaded : LoadedModel (fun _ => .ok symType) symModel :=
  ⟨40002, 1, symModel, by
    have : mdlLoad (.ok symType) (mdlNew 901 40002 1) = (symModel, .ok ()) := Prod.ext rfl (by decide +kernel)
    exact this, rfl, rfl, List.forall₂_same.2 fun _ _ =>
      ⟨rfl, rfl, rfl, List.forall₂_same.2 fun _ _ => ⟨rfl, rfl⟩, List.forall₂_same.2 fun _ _ => ⟨rfl, rfl⟩⟩⟩

/-- C48: two devices with the same model, loaded one after the other, are not equal if a point has symbols (the definition is
parsed for each of them, see C45). -/
theorem C48_symbols : deviceNe false [symModel] [symModel] = .ok (some (.inModel 901 (.attr "symbols"))) := by
  decide +kernel

/-- C48: the values of scale factor points are not compared. -/
theorem C48_scale_unseen : ∃ ms ns, (∀ m ∈ ms ++ ns, LoadedModel (fun _ => .ok exType) m) ∧
    (∃ b c p q, ((ms[0]?).bind (·.blocks[0]?)) = some b ∧ ((ns[0]?).bind (·.blocks[0]?)) = some c ∧ b.sfs[0]? = some p ∧ c.sfs[0]? = some q ∧
      q.pt = p.pt ∧ ¬ SameVals p q) ∧ deviceNe true ms ns = .ok none := by
  refine ⟨[exModel], [withVal exModel 0 (t!"A_SF") (some (.int (-2))) none], ?_, ?_, by decide +kernel⟩
  · intro m hm
    simp only [List.cons_append, List.nil_append, List.mem_cons, List.not_mem_nil, or_false] at hm
    rcases hm with rfl | rfl
    · exact exModel_loadedModel
    · exact loadedModel_withVal exModel_loadedModel _ _ _ _
  · refine ⟨_, _, _, _, rfl, rfl, rfl, rfl, rfl, ?_⟩
    rintro ⟨h, _⟩
    cases h

/-- C48: a value that is not a number is not equal to itself. -/
theorem C48_nan (same : Bool) (p : PointObj) (b : BitVec 32) (hb : f32Val b = .nan) (hp : p.base = some (.flt b))
    (hs : same = true ∨ p.pt.symbols = []) : pointNe same p (some p) = .ok (some (.inPoint p.pt.id .value)) := by
  unfold pointNe
  dsimp only
  rw [pointTypeNe_self hs]
  dsimp only
  rw [if_pos]
  rw [hp]
  simp [valueNe, Val.pyEq, hb, Flt.pyEq]

example : f32Val 0x7f800001#32 = .nan := by
  unfold f32Val
  rw [if_pos (by decide), if_neg (by decide)]

/-- Names and missing attributes do not count: a point without units agrees with one in any units. -/
example : pointTypeNe false { id := t!"A", offset := 0, type := .int16, len := 1 }
    (some { id := t!"A", offset := 0, type := .int16, len := 1, units := some (t!"W") }) = none := by decide

/-! ### The hypotheses can be met -/

theorem exModel_noSymbols (m : MdlObj) (h : LoadedModel (fun _ => .ok exType) m) : NoSymbols m := by
  obtain ⟨addr, len, m0, h1, h2, h3, h4⟩ := h
  obtain ⟨F, R, n, hL⟩ := loadWith_ok _ exType m.id addr len m0 h1
  have hfix : ∀ p ∈ exType.fixed.points, p.symbols = [] := by decide
  have hrep : ∀ rb, exType.rep = some rb → ∀ p ∈ rb.points, p.symbols = [] := by intro rb h; cases h; decide
  refine ⟨?_, ?_⟩
  · intro t ht
    rw [h3, hL.htype] at ht
    cases ht
    exact ⟨hfix, hrep⟩
  · intro b hb
    obtain ⟨k, hk⟩ := List.getElem?_of_mem hb
    obtain ⟨b0, hb0, hkind⟩ := forall₂_at h4 k b hk
    obtain ⟨bt, a, bl, q, q1, q2⟩ := loaded_block hL k b0 hb0
    subst q
    rw [hkind.bt]
    show ∀ p ∈ bt.points, _
    by_cases hk : k = 0
    · rw [q1 hk]; exact hfix
    · exact hrep bt (q2 (by omega))

/-- Equal devices, loaded separately. -/
example : deviceNe false [fullModel, leakModel] [fullModel, leakModel] = .ok none := by
  have hid : ∀ {m : MdlObj}, m = fullModel ∨ m = leakModel → m.id = 900 := by rintro m (rfl | rfl) <;> rfl
  refine C48_equal_partial false _ _ ?_ (List.forall₂_same.2 ?_)
  · intro m hm
    have hl : LoadedModel (fun _ => .ok exType) m := by
      simp only [List.mem_cons, List.not_mem_nil, or_false] at hm
      rcases hm with rfl | rfl
      · exact fullModel_loaded
      · exact leakModel_loaded
    exact ⟨(C48_loaded _ m hl (by intro mt h; cases h; exact exType_defOK)).1, .inr (exModel_noSymbols m hl)⟩
  · intro m hm
    have hi : ∀ b ∈ m.blocks, ∀ p ∈ b.pts, valueNe p.base p.base = false ∧ valueNe p.vsf p.vsf = false := by
      simp only [List.mem_cons, List.not_mem_nil, or_false] at hm
      rcases hm with rfl | rfl <;> decide +kernel
    refine ⟨?_, List.forall₂_same.2 fun b hb => ⟨rfl, List.forall₂_same.2 fun p hp => ⟨rfl, ?_⟩⟩⟩
    · simp only [List.mem_cons, List.not_mem_nil, or_false] at hm
      rcases hm with rfl | rfl <;> exact ⟨_, rfl, rfl⟩
    · exact ⟨valueNe_false.1 (hi b hb p hp).1, valueNe_false.1 (hi b hb p hp).2⟩

/-- Devices whose values differ (V in the first repeating block is 5 or missing). -/
example : ∃ r, deviceNe false [fullModel] [unimplModel] = .ok (some r) := by
  have hu : LoadedModel (fun _ => .ok exType) unimplModel := loadedModel_withVal exModel_loadedModel _ _ _ _
  have hd : ∀ mt, (Except.ok exType : Py ModelType) = .ok mt → DefOK mt := by intro mt h; cases h; exact exType_defOK
  refine C48_differs_partial false [fullModel] [unimplModel] ?_ ?_ 0 1 fullModel unimplModel _ _ _ rfl rfl rfl rfl (List.mem_cons_self ..) ?_
  · intro m hm
    rw [List.mem_singleton] at hm
    subst hm
    have := C48_loaded _ _ fullModel_loaded hd
    exact ⟨this.2, this.1.2⟩
  · intro m hm
    rw [List.mem_singleton] at hm
    subst hm
    exact (C48_loaded _ _ hu hd).1.2
  · have : ∀ q ∈ (unimplModel.blocks[1]?.get rfl).pts, q.base = none := by decide +kernel
    intro q hq _ hs
    have h1 := hs.1
    rw [this q hq] at h1
    cases h1

end Verif
