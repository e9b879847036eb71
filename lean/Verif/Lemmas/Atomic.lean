import Verif.Spec.Atomic
import Verif.Props.TwoClients
import Verif.Lemmas.Mimic

/-! Lemmas for C95. -/

namespace Verif
open Verif.Spec

/-! ## Invariants of `write_points` -/

theorem wpPoints_inv {σ} {dev : MbDev σ} {G B : σ → Prop} (h : ∀ s a d, G s → ((dev.write s a d).2 = .ok () → G (dev.write s a d).1) ∧
    ((dev.write s a d).2 ≠ .ok () → B (dev.write s a d).1)) (ps : List PointObj) :
    ∀ acc : WAcc σ, G acc.s → ((wpPoints dev ps acc).2.2 = .ok () → G (wpPoints dev ps acc).2.1.s) ∧
      (G (wpPoints dev ps acc).2.1.s ∨ B (wpPoints dev ps acc).2.1.s) := by
  have hp : ∀ (acc : WAcc σ) (p : PointObj), G acc.s → ((wpPoint dev acc p).2.2 = .ok () → G (wpPoint dev acc p).2.1.s) ∧
      (G (wpPoint dev acc p).2.1.s ∨ B (wpPoint dev acc p).2.1.s) := by
    intro acc p hi
    unfold wpPoint
    split
    · split
      · exact ⟨fun _ => hi, .inl hi⟩
      · split
        · exact ⟨fun _ => hi, .inl hi⟩
        · rename_i a _
          split
          · exact ⟨fun _ => hi, .inl hi⟩
          · have := h acc.s a acc.data hi
            unfold cdWrite
            generalize dev.write acc.s a acc.data = q at this
            obtain ⟨s', r⟩ := q
            cases r with
            | error e => exact ⟨fun x => by simp [cdWrap] at x, .inr (this.2 (by simp))⟩
            | ok u => exact ⟨fun _ => this.1 rfl, .inl (this.1 rfl)⟩
    · exact ⟨fun _ => hi, .inl hi⟩
  induction ps with
  | nil => intro acc hi; exact ⟨fun _ => hi, .inl hi⟩
  | cons p ps ih =>
    intro acc hi
    have h1 := hp acc p hi
    rw [wpPoints]
    generalize wpPoint dev acc p = q at h1
    obtain ⟨p', acc', r⟩ := q
    cases r with
    | error e => exact ⟨fun x => by simp at x, h1.2⟩
    | ok u => exact ih acc' (h1.1 rfl)

/-- What holds as long as all writes succeed (`G`), and what holds after one has failed (`B`). -/
theorem writePoints_inv {σ} {dev : MbDev σ} {G B : σ → Prop} (h : ∀ s a d, G s → ((dev.write s a d).2 = .ok () → G (dev.write s a d).1) ∧
    ((dev.write s a d).2 ≠ .ok () → B (dev.write s a d).1)) (s : σ) (m : MdlObj) (hs : G s) :
    ((writePoints dev s m).2.2 = .ok () → G (writePoints dev s m).1) ∧ (G (writePoints dev s m).1 ∨ B (writePoints dev s m).1) := by
  have hb : ∀ (bs : List BlockObj) (s : σ), G s → ((wpBlocks dev bs s).2.2 = .ok () → G (wpBlocks dev bs s).1) ∧
      (G (wpBlocks dev bs s).1 ∨ B (wpBlocks dev bs s).1) := by
    intro bs
    induction bs with
    | nil => intro s hi; exact ⟨fun _ => hi, .inl hi⟩
    | cons b bs ih =>
      intro s hi
      have h1 := wpPoints_inv h b.pts { s := s } hi
      rw [wpBlocks]
      generalize wpPoints dev b.pts { s := s } = q at h1
      obtain ⟨pts, acc, r⟩ := q
      cases r with
      | error e => exact ⟨fun x => by simp at x, h1.2⟩
      | ok u =>
        have h0 := h1.1 rfl
        have h2 : ((wpFlush dev acc).2 = .ok () → G (wpFlush dev acc).1) ∧ (G (wpFlush dev acc).1 ∨ B (wpFlush dev acc).1) := by
          unfold wpFlush
          split
          · exact ⟨fun _ => h0, .inl h0⟩
          · rename_i a _
            have := h acc.s a acc.data h0
            unfold cdWrite
            generalize dev.write acc.s a acc.data = q at this
            obtain ⟨s', r⟩ := q
            cases r with
            | error e => exact ⟨fun x => by simp [cdWrap] at x, .inr (this.2 (by simp))⟩
            | ok u => exact ⟨fun _ => this.1 rfl, .inl (this.1 rfl)⟩
        dsimp only
        generalize wpFlush dev acc = q at h2
        obtain ⟨s', r⟩ := q
        cases r with
        | error e => exact ⟨fun x => by simp at x, h2.2⟩
        | ok u => exact ih s' (h2.1 rfl)
  exact hb m.blocks s hs

/-! ## Runs of points -/

/-- The write of a run of points that can be encoded stores registers, those of its points. -/
theorem run_regs {g : List PointObj} {w : Int × Bytes} (hw : RunData g w) (hg : Gapless g)
    (hok : ∀ p ∈ g, ∀ d, p.pt.type.toData p.base (p.pt.len * 2).toNat = .ok d → ∃ rs, Encoded p rs ∧ d = regBytes rs)
    (hpos : ∀ p ∈ g, 0 < p.pt.len) :
    ∃ rs, w.2 = regBytes rs ∧ rs.length = (g.map fun p => p.pt.len.toNat).sum ∧
      (∀ x, w.1 ≤ x → x < w.1 + rs.length → ∃ p ∈ g, p.addr ≤ x ∧ x < p.addr + p.pt.len) ∧
      ∀ p ∈ g, ∃ ps, Encoded p ps ∧ ∀ mem, memRegs (stored mem w.1 rs) p.addr p.pt.len.toNat = some ps := by
  obtain ⟨a, d⟩ := w
  obtain ⟨h1, es, h2, h3⟩ := hw
  dsimp only at h1 h3 ⊢
  subst h3
  induction g generalizing a es with
  | nil => cases h2; exact ⟨[], rfl, rfl, (by intro x x1 x2; simp at x2; omega), by simp⟩
  | cons p g ih =>
    cases h2 with
    | @cons _ e _ es' he hes =>
      have ha : a = p.addr := h1 p rfl
      subst ha
      obtain ⟨ps, hps, rfl⟩ := hok p (by simp) _ he
      have hp0 := hpos p (by simp)
      have hlen := hps.2
      obtain ⟨rs, r1, r2, r3, r4⟩ := ih (a := p.addr + p.pt.len) (es := es') (by
          cases g with
          | nil => trivial
          | cons q g => exact hg.2) (fun q hq => hok q (by simp [hq])) (fun q hq => hpos q (by simp [hq]))
        (fun q hq => by
          cases g with
          | nil => cases hq
          | cons q' g => cases hq; exact hg.1.symm) hes
      refine ⟨ps ++ rs, ?_, ?_, ?_, ?_⟩
      · rw [List.flatten_cons, r1, regBytes_append]
      · rw [List.length_append, r2, List.map_cons, List.sum_cons]; omega
      · intro x x1 x2
        rw [List.length_append] at x2
        by_cases hx : x < p.addr + p.pt.len
        · exact ⟨p, by simp, x1, hx⟩
        · obtain ⟨q, q1, q2⟩ := r3 x (by omega) (by push_cast at x2; omega)
          exact ⟨q, by simp [q1], q2⟩
      · have hsplit : ∀ mem, stored mem p.addr (ps ++ rs) = stored (stored mem p.addr ps) (p.addr + p.pt.len) rs := by
          intro mem; rw [stored_append, hlen]
        intro q hq
        rcases List.mem_cons.1 hq with rfl | hq
        · refine ⟨ps, hps, fun mem => ?_⟩
          have hex : ∀ x, q.addr ≤ x → x < q.addr + ((q.pt.len.toNat : Nat) : Int) → stored mem q.addr (ps ++ rs) x ≠ none := by
            intro x x1 x2
            unfold stored
            rw [if_pos (by rw [List.length_append]; push_cast; omega), List.getElem?_eq_getElem (by rw [List.length_append]; omega)]
            simp
          obtain ⟨rs', e⟩ := memRegs_exists hex
          rw [e]
          obtain ⟨l1, l2⟩ := memRegs_get e
          congr 1
          apply List.ext_getElem?
          intro i
          by_cases hi : i < q.pt.len.toNat
          · rw [← l2 i hi]
            unfold stored
            rw [if_pos (by rw [List.length_append]; push_cast; omega), List.getElem?_append_left (by omega)]
            congr 1; omega
          · rw [List.getElem?_eq_none (by omega), List.getElem?_eq_none (by omega)]
        · obtain ⟨qs, q1, q2⟩ := r4 q hq
          exact ⟨qs, q1, fun mem => by rw [hsplit]; exact q2 _⟩

end Verif

namespace Verif
open Verif.Spec

theorem putBytes_stored (mem : RegMem) (a : Int) (rs : List Reg) : putBytes mem a (regBytes rs) = stored mem a rs := by
  funext x
  unfold putBytes stored
  rw [regBytes_length, show 2 * rs.length / 2 = rs.length by omega]
  by_cases hx : a ≤ x ∧ x < a + rs.length
  · rw [if_pos hx, if_pos hx, regBytes_get rs (x - a).toNat (by omega)]
  · rw [if_neg hx, if_neg hx]

theorem stored_off {mem : RegMem} {a : Int} {rs : List Reg} {x : Int} (h : ¬ (a ≤ x ∧ x < a + rs.length)) : stored mem a rs x = mem x := by
  unfold stored; rw [if_neg h]

/-- A run of modified points of a block. -/
structure RunOf (m : MdlObj) (g : List PointObj) : Prop where
  nonempty : g ≠ []
  gapless : Gapless g
  block : ∃ b ∈ m.blocks, (∀ p ∈ g, p ∈ b.pts ∧ p.dirty = true) ∧ (g.map fun p => p.pt.len.toNat).sum ≤ dirtyLen b.pts

theorem le_sum_mem {l : List Nat} {n : Nat} (h : n ∈ l) : n ≤ l.sum := by
  induction l with
  | nil => cases h
  | cons x l ih =>
    rw [List.sum_cons]
    rcases List.mem_cons.1 h with rfl | h
    · omega
    · have := ih h; omega

theorem pairwise_two {α} {P : α → α → Prop} (hsymm : ∀ a b, P a b → P b a) {l : List α} (h : l.Pairwise P) {a b : α} (ha : a ∈ l) (hb : b ∈ l)
    (hne : a ≠ b) : P a b := by
  induction h with
  | nil => cases ha
  | cons h _ ih =>
    rcases List.mem_cons.1 ha with h1 | h1 <;> rcases List.mem_cons.1 hb with h2 | h2
    · exact absurd (h1.trans h2.symm) hne
    · rw [h1]; exact h _ h2
    · rw [h2]; exact hsymm _ _ (h _ h1)
    · exact ih h1 h2

theorem forall₂_left {α β} {P : α → β → Prop} {l : List α} {r : List β} (h : List.Forall₂ P l r) {a : α} (ha : a ∈ l) : ∃ b ∈ r, P a b := by
  induction h with
  | nil => cases ha
  | cons h _ ih =>
    rcases List.mem_cons.1 ha with rfl | ha
    · exact ⟨_, by simp, h⟩
    · obtain ⟨b, b1, b2⟩ := ih ha
      exact ⟨b, by simp [b1], b2⟩

theorem dirtyLen_filter (ps : List PointObj) : dirtyLen ps = ((ps.filter fun p => p.dirty).map fun p => p.pt.len.toNat).sum := by
  induction ps with
  | nil => rfl
  | cons p ps ih =>
    unfold dirtyLen at ih ⊢
    rw [List.map_cons, List.sum_cons, ih]
    by_cases h : p.dirty
    · rw [if_pos h, List.filter_cons_of_pos (by simpa using h), List.map_cons, List.sum_cons]
    · rw [if_neg h, List.filter_cons_of_neg (by simpa using h), Nat.zero_add]

theorem runOf_grouped {m : MdlObj} {gs : List (List PointObj)} (h : ModelGrouped m gs) :
    (∀ g ∈ gs, RunOf m g) ∧ ∀ b ∈ m.blocks, ∀ p ∈ b.pts, p.dirty = true → ∃ g ∈ gs, p ∈ g := by
  obtain ⟨parts, q1, q2⟩ := h
  subst q2
  generalize hbs : m.blocks = bs at q1
  have hsub : ∀ b ∈ bs, b ∈ m.blocks := by rw [hbs]; exact fun _ h => h
  clear hbs
  induction q1 with
  | nil => exact ⟨by simp, by simp⟩
  | @cons b part bs parts r _ ih =>
    obtain ⟨i1, i2⟩ := ih (fun x hx => hsub x (by simp [hx]))
    constructor
    · intro g hg
      rw [List.flatten_cons] at hg
      rcases List.mem_append.1 hg with hg | hg
      · refine ⟨r.nonempty g hg, r.gapless g hg, b, hsub b (by simp), ?_, ?_⟩
        · intro p hp
          have : p ∈ b.pts.filter fun p => p.dirty := by rw [← r.all]; exact List.mem_flatten.2 ⟨g, hg, hp⟩
          simpa using this
        · rw [dirtyLen_filter, ← r.all, List.map_flatten, List.sum_flatten]
          exact le_sum_mem (List.mem_map.2 ⟨g.map fun p => p.pt.len.toNat, List.mem_map.2 ⟨g, hg, rfl⟩, rfl⟩)
      · exact i1 g hg
    · intro b' hb' p hp hd
      rcases List.mem_cons.1 hb' with rfl | hb'
      · have : p ∈ part.flatten := by rw [r.all]; simpa using ⟨hp, hd⟩
        obtain ⟨g, g1, g2⟩ := List.mem_flatten.1 this
        exact ⟨g, by rw [List.flatten_cons]; exact List.mem_append_left _ g1, g2⟩
      · obtain ⟨g, g1, g2⟩ := i2 b' hb' p hp hd
        exact ⟨g, by rw [List.flatten_cons]; exact List.mem_append_right _ g1, g2⟩

/-- What one write of a run does. -/
theorem run_write {mem : RegMem} {wr : Nat → Prop} {m : MdlObj} (hm : CanStore mem wr m) {g : List PointObj} (hg : RunOf m g) {w : Int × Bytes}
    (hw : RunData g w) :
    (∃ rs, w.2 = regBytes rs ∧ 0 < rs.length ∧ wr rs.length ∧ ∀ x, w.1 ≤ x → x < w.1 + rs.length → mem x ≠ none) ∧
    (∀ mem0 x, ¬ Mine m x → putBytes mem0 w.1 w.2 x = mem0 x) ∧
    ∀ b ∈ m.blocks, ∀ p ∈ b.pts, p.dirty = true →
      (p ∉ g ∧ ∀ mem0, memRegs (putBytes mem0 w.1 w.2) p.addr p.pt.len.toNat = memRegs mem0 p.addr p.pt.len.toNat) ∨
      (p ∈ g ∧ ∃ rs, Encoded p rs ∧ ∀ mem0, memRegs (putBytes mem0 w.1 w.2) p.addr p.pt.len.toNat = some rs) := by
  obtain ⟨b0, hb0, hin, hsum⟩ := hg.block
  have hpos : ∀ p ∈ g, 0 < p.pt.len := fun p hp => by
    have := lenOK_pos (hm.points b0 hb0 p (hin p hp).1 (hin p hp).2).1
    omega
  obtain ⟨rs, r1, r2, r3, r4⟩ := run_regs hw hg.gapless (fun p hp d hd => by
    obtain ⟨h1, h2, _⟩ := hm.points b0 hb0 p (hin p hp).1 (hin p hp).2
    exact encoded_of_toData p h1 h2 d hd) hpos
  have hrl : 0 < rs.length := by
    cases g with
    | nil => exact absurd rfl hg.nonempty
    | cons p g =>
      have := hpos p (by simp)
      rw [r2, List.map_cons, List.sum_cons]
      omega
  refine ⟨⟨rs, r1, hrl, hm.size b0 hb0 _ hrl (by omega), ?_⟩, ?_, ?_⟩
  · intro x x1 x2
    obtain ⟨p, p1, p2, p3⟩ := r3 x x1 x2
    exact (hm.points b0 hb0 p (hin p p1).1 (hin p p1).2).2.2 x p2 p3
  · intro mem0 x hx
    rw [r1, putBytes_stored]
    apply stored_off
    rintro ⟨x1, x2⟩
    obtain ⟨p, p1, p2, p3⟩ := r3 x x1 x2
    exact hx ⟨b0, hb0, p, (hin p p1).1, (hin p p1).2, p2, p3⟩
  · intro b hb p hp hd
    classical
    by_cases hpg : p ∈ g
    · obtain ⟨ps, p1, p2⟩ := r4 p hpg
      refine .inr ⟨hpg, ps, p1, fun mem0 => ?_⟩
      rw [r1, putBytes_stored]
      exact p2 mem0
    · refine .inl ⟨hpg, fun mem0 => ?_⟩
      rw [r1, putBytes_stored]
      apply memRegs_congr
      intro x x1 x2
      apply stored_off
      rintro ⟨y1, y2⟩
      obtain ⟨q, q1, q2, q3⟩ := r3 x y1 y2
      have hne : p ≠ q := fun h => hpg (h ▸ q1)
      have hl := lenOK_pos (hm.points b hb p hp hd).1
      have := pairwise_two (fun _ _ h => h.symm) hm.separate (a := p) (b := q)
        (List.mem_flatMap.2 ⟨b, hb, List.mem_append_left _ hp⟩) (List.mem_flatMap.2 ⟨b0, hb0, List.mem_append_left _ (hin q q1).1⟩) hne
      omega

/-- What writes of runs do, whichever they are. -/
theorem runs_write {mem : RegMem} {wr : Nat → Prop} {m : MdlObj} (hm : CanStore mem wr m) (l : List (Int × Bytes))
    (hl : ∀ w ∈ l, ∃ g, RunOf m g ∧ RunData g w) : ∀ mem0,
    (∀ x, ¬ Mine m x → storeAll mem0 l x = mem0 x) ∧
    ∀ b ∈ m.blocks, ∀ p ∈ b.pts, p.dirty = true →
      (memRegs (storeAll mem0 l) p.addr p.pt.len.toNat = memRegs mem0 p.addr p.pt.len.toNat ∨
        ∃ rs, Encoded p rs ∧ memRegs (storeAll mem0 l) p.addr p.pt.len.toNat = some rs) ∧
      ((∃ w ∈ l, ∃ g, RunOf m g ∧ RunData g w ∧ p ∈ g) →
        ∃ rs, Encoded p rs ∧ memRegs (storeAll mem0 l) p.addr p.pt.len.toNat = some rs) := by
  induction l with
  | nil => intro mem0; exact ⟨fun _ _ => rfl, fun b _ p _ _ => ⟨.inl rfl, by rintro ⟨w, hw, _⟩; cases hw⟩⟩
  | cons w l ih =>
    intro mem0
    obtain ⟨g, g1, g2⟩ := hl w (by simp)
    obtain ⟨i1, i2⟩ := ih (fun v hv => hl v (by simp [hv])) (putBytes mem0 w.1 w.2)
    obtain ⟨_, w1, w2⟩ := run_write hm g1 g2
    refine ⟨fun x hx => (i1 x hx).trans (w1 mem0 x hx), ?_⟩
    intro b hb p hp hd
    obtain ⟨j1, j2⟩ := i2 b hb p hp hd
    have hnew : (∃ rs, Encoded p rs ∧ ∀ mem0, memRegs (putBytes mem0 w.1 w.2) p.addr p.pt.len.toNat = some rs) →
        ∃ rs, Encoded p rs ∧ memRegs (storeAll mem0 (w :: l)) p.addr p.pt.len.toNat = some rs := by
      rintro ⟨rs, e1, e2⟩
      rcases j1 with h | h
      · exact ⟨rs, e1, h.trans (e2 mem0)⟩
      · exact h
    constructor
    · rcases w2 b hb p hp hd with ⟨_, h⟩ | ⟨_, h⟩
      · rcases j1 with h' | h'
        · exact .inl (h'.trans (h mem0))
        · exact .inr h'
      · exact .inr (hnew h)
    · rintro ⟨v, hv, g', g3, g4, g5⟩
      rcases List.mem_cons.1 hv with rfl | hv
      · rcases (run_write hm g3 g4).2.2 b hb p hp hd with ⟨h, _⟩ | ⟨_, h⟩
        · exact absurd g5 h
        · exact hnew h
      · exact j2 ⟨v, hv, g', g3, g4, g5⟩

theorem writePoints_atomic {σ} {dev : MbDev σ} {R : σ → RegMem → Prop} {ready : σ → Prop} {wr : Nat → Prop} (hdev : AtomicMem dev R ready wr)
    (s : σ) (mem : RegMem) (hs : R s mem) (hr : ready s) (m : MdlObj) (hm : CanStore mem wr m) :
    ∃ mem', R (writePoints dev s m).1 mem' ∧ (∀ x, ¬ Mine m x → mem' x = mem x) ∧
      (∀ b ∈ m.blocks, ∀ p ∈ b.pts, p.dirty = true →
        memRegs mem' p.addr p.pt.len.toNat = memRegs mem p.addr p.pt.len.toNat ∨
        ∃ rs, Encoded p rs ∧ memRegs mem' p.addr p.pt.len.toNat = some rs) ∧
      ((writePoints dev s m).2.2 = .ok () → ready (writePoints dev s m).1 ∧ Written m mem') := by
  obtain ⟨gs, hgs, _⟩ := C76_grouping m
  obtain ⟨hrun, hall⟩ := runOf_grouped hgs
  -- writes of runs are good requests
  let good : Int × Bytes → Prop := fun w =>
    ∃ rs, w.2 = regBytes rs ∧ 0 < rs.length ∧ wr rs.length ∧ ∀ x, w.1 ≤ x → x < w.1 + rs.length → mem x ≠ none
  let G : σ × List (Int × Bytes) → Prop := fun t => (∀ w ∈ t.2, good w) → R t.1 (storeAll mem t.2) ∧ ready t.1
  let B : σ × List (Int × Bytes) → Prop := fun t => (∀ w ∈ t.2, good w) → ∃ sub, List.Sublist sub t.2 ∧ R t.1 (storeAll mem sub)
  have hkeep : ∀ t a d, G t → (((recording dev).write t a d).2 = .ok () → G ((recording dev).write t a d).1) ∧
      (((recording dev).write t a d).2 ≠ .ok () → B ((recording dev).write t a d).1) := by
    rintro ⟨t, log⟩ a d hG
    have key : (∀ w ∈ log ++ [(a, d)], good w) → ∃ s' r, dev.write t a d = (s', r) ∧
        (r = .ok () ∧ ready s' ∧ R s' (storeAll mem (log ++ [(a, d)])) ∨
          r ≠ .ok () ∧ (R s' (storeAll mem (log ++ [(a, d)])) ∨ R s' (storeAll mem log))) := by
      intro hg
      obtain ⟨s1, s2⟩ := hG fun w hw => hg w (List.mem_append_left _ hw)
      obtain ⟨rs, e1, e2, e3, e4⟩ := hg (a, d) (by simp)
      dsimp only at e1 e4 s1 s2
      subst e1
      have : storeAll mem (log ++ [(a, regBytes rs)]) = stored (storeAll mem log) a rs := by
        unfold storeAll
        rw [List.foldl_append]
        exact putBytes_stored _ _ _
      rw [this]
      exact hdev t (storeAll mem log) a rs s1 s2 e2 e3 (fun x x1 x2 => storeAll_ne log (e4 x x1 x2))
    constructor
    · intro h hg
      obtain ⟨s', r, k1, k2⟩ := key hg
      have h' : (dev.write t a d).2 = .ok () := h
      show R (dev.write t a d).1 (storeAll mem (log ++ [(a, d)])) ∧ ready (dev.write t a d).1
      rw [k1] at h' ⊢
      rcases k2 with ⟨_, k3, k4⟩ | ⟨k3, _⟩
      · exact ⟨k4, k3⟩
      · exact absurd h' k3
    · intro h hg
      obtain ⟨s', r, k1, k2⟩ := key hg
      have h' : (dev.write t a d).2 ≠ .ok () := h
      show ∃ sub, List.Sublist sub (log ++ [(a, d)]) ∧ R (dev.write t a d).1 (storeAll mem sub)
      rw [k1] at h' ⊢
      rcases k2 with ⟨k3, _⟩ | ⟨_, k3 | k3⟩
      · exact absurd k3 h'
      · exact ⟨_, List.Sublist.refl _, k3⟩
      · exact ⟨_, List.sublist_append_left _ _, k3⟩
  obtain ⟨i1, i2⟩ := writePoints_inv hkeep (s, []) m (fun _ => ⟨hs, hr⟩)
  obtain ⟨k, ws, c1, c2, c3⟩ := C76_requests dev s m gs hgs
  obtain ⟨d1, d2⟩ := C76_recording dev s [] m
  have hws : ∀ w ∈ ws, ∃ g, RunOf m g ∧ RunData g w := by
    intro w hw
    obtain ⟨g, g1, g2⟩ := forall₂_left c1.flip hw
    exact ⟨g, hrun g (List.mem_of_mem_take g1), g2⟩
  have hgood : ∀ w ∈ ws, good w := by
    intro w hw
    obtain ⟨g, g1, g2⟩ := hws w hw
    exact (run_write hm g1 g2).1
  have fin : ∀ sub : List (Int × Bytes), List.Sublist sub ws → R (writePoints dev s m).1 (storeAll mem sub) →
      ((writePoints dev s m).2.2 = .ok () → ready (writePoints dev s m).1 ∧ sub = ws) →
      ∃ mem', R (writePoints dev s m).1 mem' ∧ (∀ x, ¬ Mine m x → mem' x = mem x) ∧
      (∀ b ∈ m.blocks, ∀ p ∈ b.pts, p.dirty = true →
        memRegs mem' p.addr p.pt.len.toNat = memRegs mem p.addr p.pt.len.toNat ∨
        ∃ rs, Encoded p rs ∧ memRegs mem' p.addr p.pt.len.toNat = some rs) ∧
      ((writePoints dev s m).2.2 = .ok () → ready (writePoints dev s m).1 ∧ Written m mem') := by
    intro sub s1 s2 s3
    obtain ⟨f1, f2⟩ := runs_write hm sub (fun w hw => hws w (s1.subset hw)) mem
    refine ⟨storeAll mem sub, s2, f1, fun b hb p hp hd => (f2 b hb p hp hd).1, fun hok => ?_⟩
    obtain ⟨r1, rfl⟩ := s3 hok
    refine ⟨r1, fun b hb p hp hd => ?_⟩
    apply (f2 b hb p hp hd).2
    obtain ⟨g, g1, g2⟩ := hall b hb p hp hd
    rw [List.take_of_length_le (c3 (by rw [d2]; exact hok))] at c1
    obtain ⟨w, w4, w5⟩ := forall₂_left c1 g1
    exact ⟨w, w4, g, hrun g g1, w5, g2⟩
  by_cases hok : (writePoints dev s m).2.2 = .ok ()
  · have := i1 (by rw [d2]; exact hok) (by rw [c2]; exact hgood)
    rw [c2, d1] at this
    exact fin ws (List.Sublist.refl _) this.1 fun _ => ⟨this.2, rfl⟩
  · rcases i2 with h | h
    · have := h (by rw [c2]; exact hgood)
      rw [c2, d1] at this
      exact fin ws (List.Sublist.refl _) this.1 fun h => absurd h hok
    · obtain ⟨sub, s1, s2⟩ := h (by rw [c2]; exact hgood)
      rw [c2] at s1
      rw [d1] at s2
      exact fin sub s1 s2 fun h => absurd h hok

end Verif
