import Verif.Lemmas.Mem
import Verif.Model.Client
import Verif.Spec.Client

/-!
# Lemmas on writing models
-/

namespace Verif
open Spec

theorem stored_append (mem : RegMem) (a : Int) (r1 r2 : List Reg) :
    stored mem a (r1 ++ r2) = stored (stored mem a r1) (a + r1.length) r2 := by
  funext x
  unfold stored
  rw [List.length_append]
  by_cases c : a + r1.length ≤ x ∧ x < a + r1.length + r2.length
  · rw [if_pos c, if_pos (by push_cast; omega), List.getElem?_append_right (by omega)]
    congr 1
    omega
  · rw [if_neg c]
    by_cases c2 : a ≤ x ∧ x < a + r1.length
    · rw [if_pos c2, if_pos (by push_cast; omega), List.getElem?_append_left (by omega)]
    · rw [if_neg c2, if_neg (by push_cast; omega)]

theorem stored_exists (mem : RegMem) (a : Int) (rs : List Reg) (x : Int) (h : mem x ≠ none) : stored mem a rs x ≠ none := by
  unfold stored
  by_cases c : a ≤ x ∧ x < a + rs.length
  · rw [if_pos c, List.getElem?_eq_getElem (by omega)]; simp
  · rw [if_neg c]; exact h

/-- The pending data of `write_points`. -/
def Pending {σ} (acc : WAcc σ) (prs : List Reg) : Prop :=
  match acc.addr with
  | none => prs = []
  | some a => acc.data = regBytes prs ∧ acc.next = a + prs.length ∧ 0 < prs.length

/-- The memory as it will be when the pending data has been written. -/
def pend {σ} (acc : WAcc σ) (prs : List Reg) (mem : RegMem) : RegMem :=
  match acc.addr with
  | none => mem
  | some a => stored mem a prs

theorem cdWrite_mem {σ} {dev : MbDev σ} {R : σ → RegMem → Prop} {wr : Nat → Prop} (hdev : IsMem dev R wr) (s : σ) (mem : RegMem)
    (hs : R s mem) (a : Int) (rs : List Reg) (hw : wr rs.length) (hex : ∀ x, a ≤ x → x < a + rs.length → mem x ≠ none) :
    ∃ s', cdWrite dev s a (regBytes rs) = (s', .ok ()) ∧ R s' (stored mem a rs) := by
  have hne := memRegs_iff.2 hex
  obtain ⟨s', h1, h2⟩ := hdev.write s mem a rs hs hw hne
  refine ⟨s', ?_, ?_⟩
  · unfold cdWrite; rw [h1]; rfl
  · rw [memStore_all rs mem a hne] at h2; exact h2

theorem wpPoints_mem {σ} {dev : MbDev σ} {R : σ → RegMem → Prop} {wr : Nat → Prop} (hdev : IsMem dev R wr)
    (ps : List PointObj) : ∀ (acc : WAcc σ) (mem : RegMem) (prs : List Reg), R acc.s mem → Pending acc prs →
    (∀ a, acc.addr = some a → ∀ x, a ≤ x → x < a + prs.length → mem x ≠ none) →
    (∀ n, 0 < n → n ≤ prs.length + dirtyLen ps → wr n) →
    (∀ p ∈ ps, p.dirty → 0 < p.pt.len ∧ (∃ rs, Encoded p rs) ∧ ∀ x, p.addr ≤ x → x < p.addr + p.pt.len → mem x ≠ none) →
    ∃ acc' mem' prs', wpPoints dev ps acc = (ps.map clean, acc', .ok ()) ∧ R acc'.s mem' ∧ Pending acc' prs' ∧
      (∀ a, acc'.addr = some a → ∀ x, a ≤ x → x < a + prs'.length → mem' x ≠ none) ∧
      prs'.length ≤ prs.length + dirtyLen ps ∧ (∀ x, mem x ≠ none → mem' x ≠ none) ∧
      DirtyStored (pend acc prs mem) ps (pend acc' prs' mem') := by
  induction ps with
  | nil =>
    intro acc mem prs hs hp hex hwr hps
    exact ⟨acc, mem, prs, rfl, hs, hp, hex, by omega, fun _ h => h, rfl⟩
  | cons p ps ih =>
    intro acc mem prs hs hp hex hwr hps
    have hps' : ∀ q ∈ ps, q.dirty → 0 < q.pt.len ∧ (∃ rs, Encoded q rs) ∧ ∀ x, q.addr ≤ x → x < q.addr + q.pt.len → mem x ≠ none :=
      fun q hq => hps q (by simp [hq])
    by_cases hd : p.dirty = true
    · obtain ⟨hlen, ⟨rs, henc⟩, hpx⟩ := hps p (by simp) hd
      have hrl : rs.length = p.pt.len.toNat := by have := henc.2; omega
      have hdl : dirtyLen (p :: ps) = rs.length + dirtyLen ps := by
        simp only [dirtyLen, List.map_cons, List.sum_cons, if_pos hd, hrl]
      have hclean : clean p = { p with dirty := false } := rfl
      -- the step for this point
      have hstep : ∃ acc1 mem1 prs1, wpPoint dev acc p = (clean p, acc1, .ok ()) ∧ R acc1.s mem1 ∧ Pending acc1 prs1 ∧
          (∀ a, acc1.addr = some a → ∀ x, a ≤ x → x < a + prs1.length → mem1 x ≠ none) ∧
          prs1.length ≤ prs.length + rs.length ∧ (∀ x, mem x ≠ none → mem1 x ≠ none) ∧
          pend acc1 prs1 mem1 = stored (pend acc prs mem) p.addr rs := by
        unfold wpPoint
        rw [if_pos hd, henc.1]
        dsimp only
        cases ha : acc.addr with
        | none =>
          unfold Pending at hp
          rw [ha] at hp
          dsimp only at hp
          refine ⟨⟨acc.s, some p.addr, p.addr + p.pt.len, regBytes rs⟩, mem, rs, rfl, hs, ⟨rfl, ?_, by omega⟩, ?_, by omega, fun _ h => h, ?_⟩
          · dsimp only; omega
          · intro a ha' x h1 h2
            cases ha'
            exact hpx x h1 (by omega)
          · unfold pend; rw [ha]
        | some a =>
          unfold Pending at hp
          rw [ha] at hp
          dsimp only at hp
          obtain ⟨p1, p2, p3⟩ := hp
          dsimp only
          by_cases hn : p.addr = acc.next
          · rw [if_pos hn]
            refine ⟨⟨acc.s, some a, p.addr + p.pt.len, acc.data ++ regBytes rs⟩, mem, prs ++ rs, rfl, hs, ⟨?_, ?_, ?_⟩, ?_, ?_, fun _ h => h, ?_⟩
            · dsimp only; rw [p1, regBytes_append]
            · dsimp only; rw [List.length_append]; push_cast; omega
            · rw [List.length_append]; omega
            · intro a' ha' x h1 h2
              cases ha'
              rw [List.length_append] at h2
              by_cases hx : x < a + prs.length
              · exact hex a ha x h1 hx
              · exact hpx x (by omega) (by omega)
            · rw [List.length_append]
            · unfold pend
              dsimp only
              rw [ha]
              dsimp only
              rw [stored_append, hn, p2]
          · rw [if_neg hn]
            obtain ⟨s', w1, w2⟩ := cdWrite_mem hdev acc.s mem hs a prs (hwr _ p3 (by omega)) (hex a ha)
            rw [p1, w1]
            dsimp only
            refine ⟨⟨s', some p.addr, p.addr + p.pt.len, regBytes rs⟩, stored mem a prs, rs, rfl, w2, ⟨rfl, ?_, by omega⟩, ?_, by omega, ?_, ?_⟩
            · dsimp only; omega
            · intro a' ha' x h1 h2
              cases ha'
              exact stored_exists _ _ _ _ (hpx x h1 (by omega))
            · intro x hx; exact stored_exists _ _ _ _ hx
            · unfold pend
              rw [ha]
      obtain ⟨acc1, mem1, prs1, e1, e2, e3, e4, e5, e6, e7⟩ := hstep
      obtain ⟨acc2, mem2, prs2, f1, f2, f3, f4, f5, f6, f7⟩ := ih acc1 mem1 prs1 e2 e3 e4 (fun n h1 h2 => hwr n h1 (by omega))
        (fun q hq hqd => by
          obtain ⟨g1, g2, g3⟩ := hps' q hq hqd
          exact ⟨g1, g2, fun x h1 h2 => e6 x (g3 x h1 h2)⟩)
      refine ⟨acc2, mem2, prs2, ?_, f2, f3, f4, by omega, fun x hx => f6 x (e6 x hx), ?_⟩
      · unfold wpPoints
        rw [e1]
        dsimp only
        rw [f1]
        rfl
      · unfold DirtyStored
        rw [if_pos hd]
        exact ⟨rs, henc, by rw [← e7]; exact f7⟩
    · have hdl : dirtyLen (p :: ps) = dirtyLen ps := by
        simp only [dirtyLen, List.map_cons, List.sum_cons, if_neg hd]
        omega
      have hclean : clean p = p := by
        have hd' : p.dirty = false := by simpa using hd
        unfold clean
        rw [← hd']
      obtain ⟨acc2, mem2, prs2, f1, f2, f3, f4, f5, f6, f7⟩ := ih acc mem prs hs hp hex (fun n h1 h2 => hwr n h1 (by omega)) hps'
      refine ⟨acc2, mem2, prs2, ?_, f2, f3, f4, by omega, f6, ?_⟩
      · unfold wpPoints
        have hw : wpPoint dev acc p = (p, acc, .ok ()) := by unfold wpPoint; rw [if_neg hd]
        rw [hw]
        dsimp only
        rw [f1, List.map_cons, hclean]
      · unfold DirtyStored
        rw [if_neg hd]
        exact f7

theorem dirtyStored_append (ps qs : List PointObj) : ∀ (mem mem' mem'' : RegMem), DirtyStored mem ps mem' → DirtyStored mem' qs mem'' →
    DirtyStored mem (ps ++ qs) mem'' := by
  induction ps with
  | nil => intro mem mem' mem'' h1 h2; have h1' : mem' = mem := h1; subst h1'; exact h2
  | cons p ps ih =>
    intro mem mem' mem'' h1 h2
    rw [List.cons_append]
    unfold DirtyStored at h1 ⊢
    by_cases hd : p.dirty = true
    · rw [if_pos hd] at h1 ⊢
      obtain ⟨rs, e, h⟩ := h1
      exact ⟨rs, e, ih _ _ _ h h2⟩
    · rw [if_neg hd] at h1 ⊢
      exact ih _ _ _ h1 h2

theorem wpBlocks_mem {σ} {dev : MbDev σ} {R : σ → RegMem → Prop} {wr : Nat → Prop} (hdev : IsMem dev R wr)
    (bs : List BlockObj) : ∀ (s : σ) (mem : RegMem), R s mem →
    (∀ b ∈ bs, ∀ n, 0 < n → n ≤ dirtyLen b.pts → wr n) →
    (∀ b ∈ bs, ∀ p ∈ b.pts, p.dirty → 0 < p.pt.len ∧ (∃ rs, Encoded p rs) ∧ ∀ x, p.addr ≤ x → x < p.addr + p.pt.len → mem x ≠ none) →
    ∃ s' mem', wpBlocks dev bs s = (s', bs.map (fun b => { b with pts := b.pts.map clean }), .ok ()) ∧ R s' mem' ∧
      DirtyStored mem (bs.flatMap (·.pts)) mem' := by
  induction bs with
  | nil => intro s mem hs _ _; exact ⟨s, mem, rfl, hs, rfl⟩
  | cons b bs ih =>
    intro s mem hs hwr hps
    obtain ⟨acc, mem1, prs, f1, f2, f3, f4, f5, f6, f7⟩ := wpPoints_mem hdev b.pts { s := s } mem [] hs rfl
      (by intro a ha; cases ha) (fun n h1 h2 => hwr b (by simp) n h1 (by simpa using h2)) (hps b (by simp))
    have hfl : ∃ s', wpFlush dev acc = (s', .ok ()) ∧ R s' (pend acc prs mem1) := by
      unfold wpFlush pend
      unfold Pending at f3
      cases ha : acc.addr with
      | none => exact ⟨acc.s, rfl, f2⟩
      | some a =>
        rw [ha] at f3
        obtain ⟨p1, p2, p3⟩ := f3
        dsimp only
        obtain ⟨s', w1, w2⟩ := cdWrite_mem hdev acc.s mem1 f2 a prs (hwr b (by simp) _ p3 (by simpa using f5)) (f4 a ha)
        exact ⟨s', by rw [p1]; exact w1, w2⟩
    obtain ⟨s1, g1, g2⟩ := hfl
    have hex1 : ∀ x, mem x ≠ none → pend acc prs mem1 x ≠ none := by
      intro x hx
      unfold pend
      cases acc.addr with
      | none => exact f6 x hx
      | some a => exact stored_exists _ _ _ _ (f6 x hx)
    obtain ⟨s2, mem2, i1, i2, i3⟩ := ih s1 _ g2 (fun b' hb' => hwr b' (by simp [hb'])) (fun b' hb' p hp hpd => by
      obtain ⟨k1, k2, k3⟩ := hps b' (by simp [hb']) p hp hpd
      exact ⟨k1, k2, fun x h1 h2 => hex1 x (k3 x h1 h2)⟩)
    refine ⟨s2, mem2, ?_, i2, ?_⟩
    · unfold wpBlocks
      rw [f1]
      dsimp only
      rw [g1]
      dsimp only
      rw [i1]
      rfl
    · rw [List.flatMap_cons]
      exact dirtyStored_append _ _ _ _ _ f7 i3

/-- What has been stored, if the points do not overlap. -/
theorem dirtyStored_spec (ps : List PointObj) : ∀ (mem mem' : RegMem), DirtyStored mem ps mem' →
    ps.Pairwise (fun p q => p.addr + p.pt.len ≤ q.addr ∨ q.addr + q.pt.len ≤ p.addr) →
    (∀ p ∈ ps, p.dirty → ∃ rs, Encoded p rs ∧ memRegs mem' p.addr p.pt.len.toNat = some rs) ∧
    ∀ x, (∀ p ∈ ps, p.dirty → ¬ (p.addr ≤ x ∧ x < p.addr + p.pt.len)) → mem' x = mem x := by
  induction ps with
  | nil => intro mem mem' h _; have h' : mem' = mem := h; subst h'; exact ⟨by simp, fun _ _ => rfl⟩
  | cons p ps ih =>
    intro mem mem' h hpw
    rw [List.pairwise_cons] at hpw
    unfold DirtyStored at h
    by_cases hd : p.dirty = true
    · rw [if_pos hd] at h
      obtain ⟨rs, henc, h⟩ := h
      obtain ⟨i1, i2⟩ := ih _ _ h hpw.2
      have hl := henc.2
      constructor
      · intro q hq hqd
        rcases List.mem_cons.1 hq with rfl | hq
        · refine ⟨rs, henc, ?_⟩
          have hreg : ∀ x, q.addr ≤ x → x < q.addr + q.pt.len → mem' x = rs[(x - q.addr).toNat]? := by
            intro x h1 h2
            rw [i2 x (by
              intro r hr _ hc
              have := hpw.1 r hr
              omega)]
            unfold stored
            rw [if_pos (by omega)]
          have hex : ∀ x, q.addr ≤ x → x < q.addr + q.pt.len.toNat → mem' x ≠ none := by
            intro x h1 h2
            rw [hreg x h1 (by omega), List.getElem?_eq_getElem (by omega)]
            simp
          obtain ⟨rs', hrs'⟩ := memRegs_exists hex
          obtain ⟨g1, g2⟩ := memRegs_get hrs'
          rw [hrs']
          congr 1
          apply List.ext_getElem?
          intro i
          by_cases hi : i < q.pt.len.toNat
          · rw [← g2 i hi, hreg _ (by omega) (by omega)]
            congr 1
            omega
          · rw [List.getElem?_eq_none (by omega), List.getElem?_eq_none (by omega)]
        · exact i1 q hq hqd
      · intro x hx
        rw [i2 x (fun q hq => hx q (by simp [hq]))]
        unfold stored
        rw [if_neg (by have := hx p (by simp) hd; omega)]
    · rw [if_neg hd] at h
      obtain ⟨i1, i2⟩ := ih _ _ h hpw.2
      constructor
      · intro q hq hqd
        rcases List.mem_cons.1 hq with rfl | hq
        · exact absurd hqd hd
        · exact i1 q hq hqd
      · intro x hx
        exact i2 x (fun q hq => hx q (by simp [hq]))

end Verif
