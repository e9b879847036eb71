import Verif.Spec.Sends
import Verif.Lemmas.Atomic
import Verif.Props.Session
import Verif.Props.Grouped
import Verif.Props.ReadOnly
import Verif.Props.CopyBack

/-!
# C102: an assignment is sent at most once
-/

namespace Verif
open Spec

/-- C102 in full: a register of a point is not sent more often than assignments to the point (and writes of the point alone, and writes
that raised) ask for. -/
def C102_full : Prop :=
  ∀ {σ} (dev : MbDev σ) (lib : FloatLib) (m0 m : MdlObj) (h : List Did) (s : σ) (log : List (Int × Bytes)), ModelOK m0 → Separate m0 →
    Sends dev lib m0 h s m log → ∀ i j p0, ptAt m0 i j = some p0 → p0.dirty = false → ∀ x, Covers p0 x →
      timesSent x log ≤ causes i j h

/-- A list of points without common registers has at most one point with register `x`. -/
theorem covers_one {ps : List PointObj} (h : ps.Pairwise fun p q => p.addr + p.pt.len ≤ q.addr ∨ q.addr + q.pt.len ≤ p.addr) (x : Int)
    (hx : ∀ p ∈ ps, Covers p x) : ps.length ≤ 1 := by
  cases h with
  | nil => exact Nat.zero_le _
  | @cons p ps h1 _ =>
    cases ps with
    | nil => exact Nat.le_refl _
    | cons q ps =>
      have a := h1 q (.head _)
      have b := hx p (.head _)
      have c := hx q (.tail _ (.head _))
      unfold Covers at b c
      omega

/-- The points of the model are strings of at least 8 registers, or have the length of their type. -/
def Spec.Sized (m : MdlObj) : Prop := ∀ b ∈ m.blocks, ∀ p ∈ b.pts, LenOK p.pt ∧ (p.pt.type = .string → 8 ≤ p.pt.len)

instance (p : PointObj) (x : Int) : Decidable (Covers p x) := inferInstanceAs (Decidable (_ ∧ _))

/-- The requests of runs of points: no more of them have data for register `x` than points have that register. -/
theorem runs_touch (x : Int) {gs : List (List PointObj)} {ws : List (Int × Bytes)} (h : List.Forall₂ RunData gs ws)
    (hg : ∀ g ∈ gs, Gapless g) (hs : ∀ g ∈ gs, ∀ p ∈ g, LenOK p.pt ∧ (p.pt.type = .string → 8 ≤ p.pt.len)) :
    ws.countP (touches x) ≤ gs.flatten.countP (fun p => decide (Covers p x)) := by
  induction h with
  | nil => exact Nat.zero_le _
  | @cons g w gs ws hw _ ih =>
    have i := ih (fun g hg' => hg g (.tail _ hg')) (fun g hg' => hs g (.tail _ hg'))
    rw [List.flatten_cons, List.countP_append, List.countP_cons]
    by_cases ht : touches x w = true
    · obtain ⟨rs, r1, r2, r3, _⟩ := run_regs hw (hg g (.head _))
        (fun p hp d hd => encoded_of_toData p (hs g (.head _) p hp).1 (hs g (.head _) p hp).2 d hd)
        (fun p hp => lenOK_pos (hs g (.head _) p hp).1)
      have t := of_decide_eq_true ht
      rw [r1, regBytes_length] at t
      obtain ⟨p, p1, p2⟩ := r3 x t.1 (by omega)
      have : 0 < g.countP (fun p => decide (Covers p x)) := List.countP_pos_iff.2 ⟨p, p1, decide_eq_true p2⟩
      rw [if_pos ht]
      omega
    · rw [if_neg ht]
      omega

/-- The runs have the modified points, in the same order, each run without gaps. -/
theorem grouped_flatten {m : MdlObj} {gs : List (List PointObj)} (h : ModelGrouped m gs) :
    gs.flatten = (m.blocks.flatMap fun b => b.pts).filter (fun p => p.dirty) ∧ ∀ g ∈ gs, Gapless g := by
  obtain ⟨parts, q1, q2⟩ := h
  subst q2
  generalize m.blocks = bs at q1
  induction q1 with
  | nil => exact ⟨rfl, by simp⟩
  | @cons b part bs parts r _ ih =>
    rw [List.flatten_cons, List.flatten_append, List.flatMap_cons, List.filter_append, r.all, ih.1]
    refine ⟨rfl, fun g hg => ?_⟩
    rcases List.mem_append.1 hg with hg | hg
    · exact r.gapless g hg
    · exact ih.2 g hg

/-- The points of the model that are marked as modified and have register `x`. -/
def modifiedAt (m : MdlObj) (x : Int) : Nat := (m.blocks.flatMap fun b => b.pts).countP fun p => p.dirty && decide (Covers p x)

/-- `write_points` appends its requests to the log, and no more of them have data for register `x` than modified points do. -/
theorem writePoints_touch {σ} (dev : MbDev σ) (s : σ) (log : List (Int × Bytes)) (m : MdlObj) (x : Int) (hs : Sized m) :
    timesSent x (writePoints (recording dev) (s, log) m).1.2 ≤ timesSent x log + modifiedAt m x := by
  have h : Records (recording dev) (fun x => x.2) (fun _ => True) id := fun _ _ _ _ => .inl rfl
  obtain ⟨k, ws, h1, h2, _⟩ := wpBlocks_records h m.blocks (s, log) (fun _ _ _ _ => trivial)
  have h3 : (writePoints (recording dev) (s, log) m).1.2 = log ++ ws := by
    have : (wpBlocks (recording dev) m.blocks (s, log)).1.2 = log ++ ws.map id := h2
    rw [List.map_id] at this
    exact this
  obtain ⟨f1, f2⟩ := grouped_flatten (modelGrouped_eq.2 rfl : ModelGrouped m _)
  generalize (m.blocks.map fun b => runs (b.pts.filter fun p => p.dirty)).flatten = gs at *
  have hsz : ∀ g ∈ gs, ∀ p ∈ g, LenOK p.pt ∧ (p.pt.type = .string → 8 ≤ p.pt.len) := by
    intro g hg p hp
    have : p ∈ gs.flatten := List.mem_flatten.2 ⟨g, hg, hp⟩
    rw [f1] at this
    obtain ⟨b, hb, hp'⟩ := List.mem_flatMap.1 (List.mem_filter.1 this).1
    exact hs b hb p hp'
  have t := runs_touch x h1 (fun g hg => f2 g (List.mem_of_mem_take hg)) (fun g hg => hsz g (List.mem_of_mem_take hg))
  rw [h3]
  unfold timesSent
  rw [List.countP_append]
  refine Nat.add_le_add_left (Nat.le_trans t ?_) _
  have hk : (gs.take k).flatten.countP (fun p => decide (Covers p x)) ≤ gs.flatten.countP (fun p => decide (Covers p x)) := by
    conv => rhs; rw [← List.take_append_drop k gs, List.flatten_append, List.countP_append]
    exact Nat.le_add_right _ _
  refine Nat.le_trans hk ?_
  rw [f1, List.countP_filter]
  unfold modifiedAt
  exact Nat.le_of_eq (List.countP_congr fun p _ => by simp [and_comm])

/-- Among points without common registers, only the point with register `x` counts. -/
theorem modifiedAt_le {m : MdlObj} (hsep : Separate m) {i j : Nat} {p : PointObj} (hp : ptAt m i j = some p) {x : Int} (hx : Covers p x) :
    modifiedAt m x ≤ if p.dirty then 1 else 0 := by
  have hsub : List.Sublist (m.blocks.flatMap fun b => b.pts) (m.blocks.flatMap fun b => b.pts ++ b.sfs) := by
    generalize m.blocks = bs
    induction bs with
    | nil => exact .slnil
    | cons b bs ih => rw [List.flatMap_cons, List.flatMap_cons]; exact (List.sublist_append_left _ _).append ih
  have hpw := List.Pairwise.sublist hsub hsep
  obtain ⟨b, hb, hpb⟩ := ptAt_mem hp
  have hmem : p ∈ m.blocks.flatMap fun b => b.pts := List.mem_flatMap.2 ⟨b, hb, hpb⟩
  unfold modifiedAt
  generalize (m.blocks.flatMap fun b => b.pts) = ps at *
  rw [List.countP_eq_length_filter]
  have one := covers_one (List.Pairwise.sublist List.filter_sublist hpw : (ps.filter fun p => p.dirty && decide (Covers p x)).Pairwise _) x
    (fun q hq => by simpa using (by simpa using (List.mem_filter.1 hq).2 : q.dirty = true ∧ Covers q x).2)
  by_cases hd : p.dirty
  · rw [if_pos hd]; exact one
  · rw [if_neg hd]
    have : (ps.filter fun p => p.dirty && decide (Covers p x)) = [] := by
      rw [List.filter_eq_nil_iff]
      intro q hq hc
      have hc : q.dirty = true ∧ Covers q x := by simpa using hc
      have hne : q ≠ p := fun e => hd (e ▸ hc.1)
      have := pairwise_two (fun a b h => h.symm) hpw hq hmem hne
      have a := hc.2
      unfold Covers at a hx
      omega
    rw [this]
    exact Nat.le_refl _

/-- A write of one point is at most one request, for the registers of the point. -/
theorem writePoint_touch {σ} (dev : MbDev σ) (s : σ) (log : List (Int × Bytes)) (p : PointObj) (x : Int)
    (hs : LenOK p.pt ∧ (p.pt.type = .string → 8 ≤ p.pt.len)) :
    timesSent x (writePoint (recording dev) (s, log) p).1.2 ≤ timesSent x log + if Covers p x then 1 else 0 := by
  unfold writePoint
  cases hd : p.pt.type.toData p.base (p.pt.len * 2).toNat with
  | error e => exact Nat.le_add_right _ _
  | ok d =>
    dsimp only
    have h1 : (cdWrite (recording dev) (s, log) p.addr d).1.2 = log ++ [(p.addr, d)] := rfl
    obtain ⟨rs, r1, r2⟩ := encoded_of_toData p hs.1 hs.2 d hd
    have key : timesSent x (log ++ [(p.addr, d)]) ≤ timesSent x log + if Covers p x then 1 else 0 := by
      unfold timesSent
      rw [List.countP_append]
      refine Nat.add_le_add_left ?_ _
      rw [List.countP_singleton]
      by_cases ht : touches x (p.addr, d) = true
      · have t := of_decide_eq_true ht
        dsimp only at t
        rw [r2, regBytes_length] at t
        have e := r1.2
        rw [if_pos ht, if_pos ⟨t.1, by omega⟩]
      · rw [if_neg ht]
        exact Nat.zero_le _
    generalize cdWrite (recording dev) (s, log) p.addr d = r at h1
    obtain ⟨s1, r⟩ := r
    dsimp only at h1
    cases r with
    | error e => dsimp only; rw [h1]; exact key
    | ok u => dsimp only; rw [h1]; exact key

theorem sized_layout {m m0 : MdlObj} (hl : layout m = layout m0) (h : Sized m0) : Sized m := by
  intro b hb p hp
  obtain ⟨i, j, hij⟩ := mem_ptAt hb hp
  obtain ⟨p0, h0, hu⟩ := same_layout hl i j p hij
  obtain ⟨b0, hb0, hp0⟩ := ptAt_mem h0
  have e : p.pt = p0.pt := by have := congrArg (fun x : PointObj => x.pt) hu; exact this
  rw [e]
  exact h b0 hb0 p0 hp0

/-- The layout is the same after all programs. -/
theorem sends_layout {σ} {dev : MbDev σ} {lib : FloatLib} {m0 m : MdlObj} {h : List Did} {s : σ} {log : List (Int × Bytes)}
    (hh : Sends dev lib m0 h s m log) : layout m = layout m0 := by
  induction hh with
  | start s => rfl
  | assign i j p p' v _ hp hv ih =>
    have e := setValue_ok hv
    exact (layout_putAt hp (by rw [e]; rfl)).trans ih
  | refused i j p p' v e _ hp hv ih => rw [setValue_error hv, putAt_self hp]; exact ih
  | @read h s m log s' log' m' r _ hr ih =>
    have hb := readPoints_bare (recording dev) (s, log) m
    rw [hr] at hb
    dsimp only at hb
    rw [← layout_bare m', hb, layout_bare]; exact ih
  | write _ hw ih =>
    have e := writePoints_ok hw
    subst e
    rw [layout_clean]; exact ih
  | @fail h s m log s' log' m' e _ hw ih =>
    have hu := (writePoints_unmarked (recording dev) (s, log) m).1
    rw [hw] at hu
    rw [← layout_clean m', hu, layout_clean]; exact ih
  | writeOne i j p p' _ hp hw ih =>
    have e := writePoint_ok hw
    exact (layout_putAt hp (by rw [e]; rfl)).trans ih
  | failOne i j p p' e _ hp hw ih => rw [writePoint_error hw, putAt_self hp]; exact ih
  | change s' _ ih => exact ih

theorem pairwise_at {α} {P : α → α → Prop} (hsymm : ∀ a b, P a b → P b a) {l : List α} (h : l.Pairwise P) {j j' : Nat} {a b : α}
    (ha : l[j]? = some a) (hb : l[j']? = some b) (hne : j ≠ j') : P a b := by
  induction h generalizing j j' with
  | nil => cases ha
  | @cons x l h1 _ ih =>
    cases j with
    | zero =>
      cases j' with
      | zero => exact absurd rfl hne
      | succ j' =>
        cases ha
        exact h1 b (List.mem_of_getElem? (by simpa using hb))
    | succ j =>
      cases j' with
      | zero =>
        cases hb
        exact hsymm _ _ (h1 a (List.mem_of_getElem? (by simpa using ha)))
      | succ j' => exact ih (by simpa using ha) (by simpa using hb) (by omega)

/-- Points at different places of a model have different registers. -/
theorem separate_at {m : MdlObj} (h : Separate m) {i j i' j' : Nat} {p q : PointObj} (hp : ptAt m i j = some p) (hq : ptAt m i' j' = some q)
    (hne : ¬ (i = i' ∧ j = j')) : p.addr + p.pt.len ≤ q.addr ∨ q.addr + q.pt.len ≤ p.addr := by
  unfold Separate at h
  unfold ptAt at hp hq
  generalize m.blocks = bs at h hp hq
  induction bs generalizing i i' with
  | nil => simp at hp
  | cons b bs ih =>
    rw [List.flatMap_cons, List.pairwise_append] at h
    obtain ⟨h1, h2, h3⟩ := h
    have later : ∀ {k l : Nat} {r : PointObj}, (bs[k]?).bind (·.pts[l]?) = some r → r ∈ bs.flatMap fun b => b.pts ++ b.sfs := by
      intro k l r hr
      cases hb : bs[k]? with
      | none => rw [hb] at hr; cases hr
      | some c =>
        rw [hb] at hr
        exact List.mem_flatMap.2 ⟨c, List.mem_of_getElem? hb, List.mem_append_left _ (List.mem_of_getElem? hr)⟩
    cases i with
    | zero =>
      have hp' : b.pts[j]? = some p := by simpa using hp
      cases i' with
      | zero =>
        have hq' : b.pts[j']? = some q := by simpa using hq
        exact pairwise_at (fun _ _ h => h.symm) (List.Pairwise.sublist (List.sublist_append_left _ _) h1) hp' hq' (fun e => hne ⟨rfl, e⟩)
      | succ i' => exact h3 p (List.mem_append_left _ (List.mem_of_getElem? hp')) q (later (k := i') (l := j') (by simpa using hq))
    | succ i =>
      cases i' with
      | zero =>
        have hq' : b.pts[j']? = some q := by simpa using hq
        exact (h3 q (List.mem_append_left _ (List.mem_of_getElem? hq')) p (later (k := i) (l := j) (by simpa using hp))).symm
      | succ i' => exact ih (i := i) (i' := i') (fun e => hne ⟨by omega, e.2⟩) h2 (by simpa using hp) (by simpa using hq)

/-- The mark of a point, as a number. -/
def Spec.marked (p : PointObj) : Nat := if p.dirty then 1 else 0

theorem causes_cons (i j : Nat) (d : Did) (h : List Did) :
    causes i j (d :: h) = causes i j h + if (d = .assigned i j ∨ d = .failed ∨ d = .wroteOne i j ∨ d = .failedOne i j) then 1 else 0 := by
  unfold causes
  rw [List.countP_cons]
  by_cases hd : d = .assigned i j ∨ d = .failed ∨ d = .wroteOne i j ∨ d = .failedOne i j
  · rw [if_pos hd, if_pos (decide_eq_true hd)]
  · rw [if_neg hd, if_neg (by simpa using hd)]

/-- C102: whatever a program does with a model (and whatever the device does), a register of a point is sent at most once for each
assignment to the point, for each write of the point alone, and for each write of the model that raised; and once more if the point had
been assigned before. Strings of less than 8 registers are excluded (see `C102_violated`). -/
theorem C102_sent_partial {σ} (dev : MbDev σ) (lib : FloatLib) (m0 m : MdlObj) (h : List Did) (s : σ) (log : List (Int × Bytes))
    (hsz : Sized m0) (hsep : Separate m0) (hh : Sends dev lib m0 h s m log) (i j : Nat) (p0 : PointObj) (hp0 : ptAt m0 i j = some p0)
    (x : Int) (hx : Covers p0 x) :
    ∃ p, ptAt m i j = some p ∧ timesSent x log + marked p ≤ causes i j h + marked p0 := by
  have cov : ∀ {m : MdlObj}, layout m = layout m0 → ∀ {p : PointObj}, ptAt m i j = some p → Covers p x := by
    intro m hl p hp
    obtain ⟨q, h0, hu⟩ := same_layout hl i j p hp
    rw [hp0] at h0
    cases h0
    have e1 : p.pt = p0.pt := by have := congrArg (fun x : PointObj => x.pt) hu; exact this
    have e2 : p.addr = p0.addr := by have := congrArg (fun x : PointObj => x.addr) hu; exact this
    unfold Covers at hx ⊢
    rw [e1, e2]
    exact hx
  have other : ∀ {m : MdlObj}, layout m = layout m0 → ∀ {p q : PointObj} {i' j' : Nat}, ptAt m i j = some p → ptAt m i' j' = some q →
      ¬ (i = i' ∧ j = j') → ¬ Covers q x := by
    intro m hl p q i' j' hp hq hne hc
    have := separate_at ((separate_layout m).1 (by rw [hl]; exact (separate_layout m0).2 hsep)) hp hq hne
    have hp' := cov hl hp
    unfold Covers at hp' hc
    omega
  induction hh with
  | start s => exact ⟨p0, hp0, Nat.le_of_eq (by simp [timesSent, causes])⟩
  | @assign h s m log i' j' p p' v hh hp hv ih =>
    obtain ⟨q, q1, q2⟩ := ih
    rw [ptAt_putAt, causes_cons]
    by_cases hij : i = i' ∧ j = j'
    · obtain ⟨rfl, rfl⟩ := hij
      rw [if_pos ⟨rfl, rfl⟩, hp, if_pos (.inl rfl)]
      have e : marked p' = 1 := by rw [setValue_ok hv]; rfl
      exact ⟨p', rfl, by omega⟩
    · rw [if_neg hij]
      exact ⟨q, q1, by omega⟩
  | refused i j p p' v e _ hp hv ih => rw [setValue_error hv, putAt_self hp]; exact ih
  | @read h s m log s' log' m' r hh hr ih =>
    obtain ⟨q, q1, q2⟩ := ih
    have hb := readPoints_bare (recording dev) (s, log) m
    have hk := readPoints_keeps (I := fun t : σ × List (Int × Bytes) => t.2 = log) (dev := recording dev) (fun _ _ _ ht => ht) (s, log) rfl m
    rw [hr] at hb hk
    dsimp only at hb hk
    subst hk
    have e := ptAt_bare m' i j
    rw [hb, ptAt_bare, q1] at e
    cases hp : ptAt m' i j with
    | none => rw [hp] at e; cases e
    | some p =>
      rw [hp] at e
      have e : bareP q = bareP p := Option.some.inj e
      have e : q.dirty = p.dirty := (congrArg PointObj.dirty e :)
      refine ⟨p, rfl, ?_⟩
      unfold marked at q2 ⊢
      rw [← e]
      exact q2
  | @write h s m log s' log' m' hh hw ih =>
    obtain ⟨q, q1, q2⟩ := ih
    have hl := sends_layout hh
    have t := writePoints_touch dev s log m x (sized_layout hl hsz)
    have u := modifiedAt_le ((separate_layout m).1 (by rw [hl]; exact (separate_layout m0).2 hsep)) q1 (cov hl q1)
    rw [hw] at t
    dsimp only at t
    have e := writePoints_ok hw
    subst e
    rw [ptAt_clean, q1, causes_cons]
    refine ⟨clean q, rfl, ?_⟩
    have z : marked (clean q) = 0 := rfl
    have w : (if q.dirty then 1 else 0) = marked q := rfl
    omega
  | @fail h s m log s' log' m' e hh hw ih =>
    obtain ⟨q, q1, q2⟩ := ih
    have hl := sends_layout hh
    have t := writePoints_touch dev s log m x (sized_layout hl hsz)
    have u := modifiedAt_le ((separate_layout m).1 (by rw [hl]; exact (separate_layout m0).2 hsep)) q1 (cov hl q1)
    obtain ⟨hu, _⟩ := writePoints_unmarked (recording dev) (s, log) m
    rw [hw] at t hu
    dsimp only at t hu
    have he := ptAt_clean m' i j
    rw [hu, ptAt_clean, q1] at he
    cases hp : ptAt m' i j with
    | none => rw [hp] at he; cases he
    | some p =>
      refine ⟨p, rfl, ?_⟩
      rw [causes_cons, if_pos (.inr (.inl rfl))]
      have z : marked p ≤ 1 := by unfold marked; split <;> omega
      have w : (if q.dirty then 1 else 0) = marked q := rfl
      omega
  | @writeOne h s m log s' log' i' j' p p' hh hp hw ih =>
    obtain ⟨q, q1, q2⟩ := ih
    have hl := sends_layout hh
    obtain ⟨b, hb, hpb⟩ := ptAt_mem hp
    have t := writePoint_touch dev s log p x (sized_layout hl hsz b hb p hpb)
    rw [hw] at t
    dsimp only at t
    rw [ptAt_putAt, causes_cons]
    by_cases hij : i = i' ∧ j = j'
    · obtain ⟨rfl, rfl⟩ := hij
      rw [if_pos ⟨rfl, rfl⟩, hp, if_pos (.inr (.inr (.inl rfl)))]
      have e : marked p' = 0 := by rw [writePoint_ok hw]; rfl
      refine ⟨p', rfl, ?_⟩
      have : (if Covers p x then 1 else 0) ≤ 1 := by split <;> omega
      omega
    · rw [if_neg hij]
      rw [if_neg (other hl q1 hp hij)] at t
      exact ⟨q, q1, by omega⟩
  | @failOne h s m log s' log' i' j' p p' e hh hp hw ih =>
    obtain ⟨q, q1, q2⟩ := ih
    have hl := sends_layout hh
    obtain ⟨b, hb, hpb⟩ := ptAt_mem hp
    have t := writePoint_touch dev s log p x (sized_layout hl hsz b hb p hpb)
    rw [hw] at t
    dsimp only at t
    rw [writePoint_error hw, putAt_self hp, causes_cons]
    refine ⟨q, q1, ?_⟩
    by_cases hij : i = i' ∧ j = j'
    · obtain ⟨rfl, rfl⟩ := hij
      rw [if_pos (.inr (.inr (.inr rfl)))]
      have : (if Covers p x then 1 else 0) ≤ 1 := by split <;> omega
      omega
    · rw [if_neg (other hl q1 hp hij)] at t
      omega
  | change s' _ ih => exact ih

/-- C102 in the usual case: no point had been assigned before, no write raises and points are not written alone. Then each register of
a point has been sent at most as often as the point has been assigned; if the point has never been assigned, never. -/
theorem C102_once_partial {σ} (dev : MbDev σ) (lib : FloatLib) (m0 m : MdlObj) (h : List Did) (s : σ) (log : List (Int × Bytes))
    (hsz : Sized m0) (hsep : Separate m0) (hh : Sends dev lib m0 h s m log) (hok : ∀ d ∈ h, d = .wrote ∨ ∃ i j, d = .assigned i j)
    (i j : Nat) (p0 : PointObj) (hp0 : ptAt m0 i j = some p0) (hd : p0.dirty = false) (x : Int) (hx : Covers p0 x) :
    timesSent x log ≤ h.count (.assigned i j) := by
  obtain ⟨p, _, h2⟩ := C102_sent_partial dev lib m0 m h s log hsz hsep hh i j p0 hp0 x hx
  have e : marked p0 = 0 := by unfold marked; rw [hd]; rfl
  have c : causes i j h = h.count (.assigned i j) := by
    unfold causes List.count
    apply List.countP_congr
    intro d hdm
    rcases hok d hdm with rfl | ⟨a, b, rfl⟩ <;> simp
  omega

/-- `exModel` assigned, written, written again. -/
def sentLog : List (Int × Bytes) := [(40002, [0, 5])]

theorem sends_example : Sends mapDev noLib exModel [.wrote, .wrote, .assigned 0 0]
    (writePoints (recording mapDev) (exMap, []) sess1).1.1 (cleanModel (cleanModel sess1)) sentLog := by
  have h1 : Sends mapDev noLib exModel [.assigned 0 0] exMap sess1 [] :=
    .assign 0 0 (exPoint exModel 0 0) { exPoint exModel 0 0 with base := some (.int 5), dirty := true } (.int 5) (.start exMap)
      (by decide +kernel) (by decide +kernel)
  have w1 : writePoints (recording mapDev) (exMap, []) sess1 = (((writePoints (recording mapDev) (exMap, []) sess1).1.1, sentLog), cleanModel sess1, .ok ()) := by
    have a : (writePoints (recording mapDev) (exMap, []) sess1).1.2 = sentLog := by decide +kernel
    have b : (writePoints (recording mapDev) (exMap, []) sess1).2.2 = .ok () := by decide +kernel
    have c := writePoints_ok (Prod.ext rfl (Prod.ext rfl b) : writePoints (recording mapDev) (exMap, []) sess1 = (_, _, .ok ()))
    exact Prod.ext (Prod.ext rfl a) (Prod.ext c b)
  have h2 := Sends.write h1 w1
  generalize (writePoints (recording mapDev) (exMap, []) sess1).1.1 = s at h2 ⊢
  have w2 := C59_rewrite (recording mapDev) (exMap, []) _ (s, sentLog) sess1 (cleanModel sess1) w1
  have e : cleanModel (cleanModel sess1) = cleanModel sess1 := by
    simp [cleanModel, clean, Function.comp_def]
  rw [e]
  exact Sends.write h2 w2

/-- Non-vacuity: the register of the assigned point has been sent once, the others never. -/
example : timesSent 40002 sentLog = 1 ∧ timesSent 40003 sentLog = 0 := by decide

example := C102_sent_partial mapDev noLib exModel _ _ _ _
  (fun b hb p hp => ⟨exModel_ok.len b hb p (.inl hp), by
    have : ∀ b ∈ exModel.blocks, ∀ p ∈ b.pts, p.pt.type = .string → 8 ≤ p.pt.len := by decide +kernel
    exact this b hb p hp⟩) exModel_separate sends_example 0 0 _ exPoint_eq 40002 (by decide +kernel)

example := C102_once_partial mapDev noLib exModel _ _ _ _
  (fun b hb p hp => ⟨exModel_ok.len b hb p (.inl hp), by
    have : ∀ b ∈ exModel.blocks, ∀ p ∈ b.pts, p.pt.type = .string → 8 ≤ p.pt.len := by decide +kernel
    exact this b hb p hp⟩) exModel_separate sends_example
  (by
    intro d hd
    rcases List.mem_cons.1 hd with rfl | hd
    · exact .inl rfl
    · rcases List.mem_cons.1 hd with rfl | hd
      · exact .inl rfl
      · rcases List.mem_cons.1 hd with rfl | hd
        · exact .inr ⟨0, 0, rfl⟩
        · cases hd) 0 0 _ exPoint_eq (by decide +kernel) 40002 (by decide +kernel)

/-! ### Strings of less than 8 registers -/

/-- `strModel0` with "ab" assigned to both strings. -/
def strSet1 : MdlObj := putAt strModel0 0 0 { exPoint strModel0 0 0 with base := some (.str (t!"ab")), dirty := true }
def strSet2 : MdlObj := putAt strSet1 0 1 { exPoint strSet1 0 1 with base := some (.str (t!"ab")), dirty := true }

/-- C102 does not hold: two strings of 2 registers next to each other are written with 10 bytes, so that a register of the next point is
sent, although that point has never been assigned. -/
theorem C102_violated : ¬ C102_full := by
  intro hf
  have h1 : Sends mapDev noLib strModel0 [.assigned 0 0] strMap strSet1 [] :=
    .assign 0 0 (exPoint strModel0 0 0) { exPoint strModel0 0 0 with base := some (.str (t!"ab")), dirty := true } (.str (t!"ab")) (.start strMap)
      (by decide +kernel) (by decide +kernel)
  have h2 : Sends mapDev noLib strModel0 [.assigned 0 1, .assigned 0 0] strMap strSet2 [] :=
    .assign 0 1 (exPoint strSet1 0 1) { exPoint strSet1 0 1 with base := some (.str (t!"ab")), dirty := true } (.str (t!"ab")) h1
      (by decide +kernel) (by decide +kernel)
  have w1 : writePoints (recording mapDev) (strMap, []) strSet2 = (((writePoints (recording mapDev) (strMap, []) strSet2).1.1,
      [(0, [0x61, 0x62, 0, 0, 0, 0x61, 0x62, 0, 0, 0])]), (writePoints (recording mapDev) (strMap, []) strSet2).2.1, .ok ()) := by
    have a : (writePoints (recording mapDev) (strMap, []) strSet2).1.2 = [(0, [0x61, 0x62, 0, 0, 0, 0x61, 0x62, 0, 0, 0])] := by decide +kernel
    have b : (writePoints (recording mapDev) (strMap, []) strSet2).2.2 = .ok () := by decide +kernel
    exact Prod.ext (Prod.ext rfl a) (Prod.ext rfl b)
  have h3 := Sends.write h2 w1
  have key := hf mapDev noLib strModel0 _ _ _ _ strModel0_ok (by unfold Separate; decide +kernel) h3 0 2 (exPoint strModel0 0 2) (by decide +kernel)
    (by decide +kernel) 4 (by decide +kernel)
  exact absurd key (by decide)

end Verif
