import Verif.Lemmas.ClientWrite

/-!
# Lemmas on the marks of modified points
-/

namespace Verif
open Spec

/-- The pending data covers the point. -/
def PendCov {σ} (acc : WAcc σ) (p : PointObj) : Prop := ∃ a, acc.addr = some a ∧ CoveredBy (a, acc.data) p

/-- The pending data is whole registers, `next` is the address after it. -/
def PendOK {σ} (acc : WAcc σ) : Prop := ∀ a, acc.addr = some a → 2 * (acc.next - a) = acc.data.length

theorem coveredBy_append {a : Int} {d d' : Bytes} {p : PointObj} (h : CoveredBy (a, d) p) : CoveredBy (a, d ++ d') p := by
  obtain ⟨rs, h1, h2, h3, h4⟩ := h
  dsimp only at h2 h3 h4
  refine ⟨rs, h1, h2, by dsimp only; rw [List.length_append]; push_cast; omega, ?_⟩
  dsimp only
  have hl := h1.2
  rw [List.drop_append_of_le_length (by omega), List.take_append_of_le_length (by rw [List.length_drop]; omega)]
  exact h4

theorem coveredBy_new {p : PointObj} {rs : List Reg} (h : Encoded p rs) (a : Int) (d : Bytes) (hd : 2 * (p.addr - a) = d.length) :
    CoveredBy (a, d ++ regBytes rs) p := by
  have hl := h.2
  refine ⟨rs, h, by dsimp only; omega, ?_, ?_⟩
  · dsimp only; rw [List.length_append, regBytes_length]; push_cast; omega
  · dsimp only
    have e : (2 * (p.addr - a)).toNat = d.length := by omega
    rw [e, List.drop_left]
    apply List.take_of_length_le
    rw [regBytes_length]
    omega

theorem cdWrite_log {σ} (dev : MbDev σ) (s : σ × List (Int × Bytes)) (a : Int) (d : Bytes) :
    (∃ s', cdWrite (logDev dev) s a d = ((s', s.2 ++ [(a, d)]), .ok ())) ∨
    (∃ s' e, cdWrite (logDev dev) s a d = ((s', s.2), .error e)) := by
  unfold cdWrite logDev
  dsimp only
  cases h : dev.write s.1 a d with
  | mk s' r =>
    cases r with
    | ok u => left; exact ⟨s', rfl⟩
    | error e => right; exact ⟨s', _, rfl⟩

theorem accepted_mono {log l : List (Int × Bytes)} {p : PointObj} (h : Accepted log p) : Accepted (log ++ l) p := by
  obtain ⟨w, h1, h2⟩ := h
  exact ⟨w, by simp [h1], h2⟩

/-- Everything that happens to a point list. -/
theorem wpPoints_any {σ} (dev : MbDev σ) (ps : List PointObj) : ∀ (acc : WAcc (σ × List (Int × Bytes))), PendOK acc →
    (∀ p ∈ ps, p.dirty → ∀ d, p.pt.type.toData p.base (p.pt.len * 2).toNat = .ok d → ∃ rs, Encoded p rs) →
    ∃ (k : Nat) (acc' : WAcc (σ × List (Int × Bytes))) (r : Py Unit) (l : List (Int × Bytes)), k ≤ ps.length ∧
      wpPoints (logDev dev) ps acc = ((ps.take k).map clean ++ ps.drop k, acc', r) ∧
      acc'.s.2 = acc.s.2 ++ l ∧
      (r = .ok () → k = ps.length ∧ PendOK acc' ∧
        (∀ p, PendCov acc p → PendCov acc' p ∨ Accepted acc'.s.2 p) ∧
        ∀ p ∈ ps, p.dirty → PendCov acc' p ∨ Accepted acc'.s.2 p) := by
  induction ps with
  | nil =>
    intro acc hp _
    exact ⟨0, acc, .ok (), [], by simp, rfl, by simp, fun _ => ⟨rfl, hp, fun p h => .inl h, by simp⟩⟩
  | cons p ps ih =>
    intro acc hp henc
    have henc' : ∀ q ∈ ps, q.dirty → ∀ d, q.pt.type.toData q.base (q.pt.len * 2).toNat = .ok d → ∃ rs, Encoded q rs :=
      fun q hq => henc q (by simp [hq])
    have hstep : (∃ acc1 e l, wpPoint (logDev dev) acc p = (p, acc1, .error e) ∧ acc1.s.2 = acc.s.2 ++ l) ∨
        (∃ acc1 l, wpPoint (logDev dev) acc p = (clean p, acc1, .ok ()) ∧ acc1.s.2 = acc.s.2 ++ l ∧ PendOK acc1 ∧
          (∀ q, PendCov acc q → PendCov acc1 q ∨ Accepted acc1.s.2 q) ∧ (p.dirty → PendCov acc1 p ∨ Accepted acc1.s.2 p)) := by
      unfold wpPoint
      by_cases hd : p.dirty = true
      · rw [if_pos hd]
        cases ht : p.pt.type.toData p.base (p.pt.len * 2).toNat with
        | error e => left; exact ⟨acc, e, [], rfl, by simp⟩
        | ok pd =>
          obtain ⟨rs, hrs⟩ := henc p (by simp) hd pd ht
          have hpd : pd = regBytes rs := by have := hrs.1; rw [ht] at this; exact Except.ok.inj this
          have hl := hrs.2
          subst hpd
          dsimp only
          cases ha : acc.addr with
          | none =>
            right
            refine ⟨⟨acc.s, some p.addr, p.addr + p.pt.len, regBytes rs⟩, [], rfl, by simp, ?_, ?_, ?_⟩
            · intro a h; cases h; dsimp only; rw [regBytes_length]; push_cast; omega
            · rintro q ⟨a, h, _⟩; rw [ha] at h; cases h
            · intro _
              left
              exact ⟨p.addr, rfl, by simpa using coveredBy_new hrs p.addr [] (by simp)⟩
          | some a =>
            have hpo := hp a ha
            dsimp only
            by_cases hn : p.addr = acc.next
            · rw [if_pos hn]
              right
              refine ⟨⟨acc.s, some a, p.addr + p.pt.len, acc.data ++ regBytes rs⟩, [], rfl, by simp, ?_, ?_, ?_⟩
              · intro a' h; cases h; dsimp only; rw [List.length_append, regBytes_length]; push_cast; omega
              · rintro q ⟨a', h, hc⟩
                rw [ha] at h; cases h
                left
                exact ⟨a, rfl, coveredBy_append hc⟩
              · intro _
                left
                exact ⟨a, rfl, coveredBy_new hrs a acc.data (by omega)⟩
            · rw [if_neg hn]
              rcases cdWrite_log dev acc.s a acc.data with ⟨s', hw⟩ | ⟨s', e, hw⟩
              · right
                rw [hw]
                refine ⟨⟨(s', acc.s.2 ++ [(a, acc.data)]), some p.addr, p.addr + p.pt.len, regBytes rs⟩, [(a, acc.data)], rfl, rfl, ?_, ?_, ?_⟩
                · intro a h; cases h; dsimp only; rw [regBytes_length]; push_cast; omega
                · rintro q ⟨a', h, hc⟩
                  rw [ha] at h; cases h
                  right
                  exact ⟨(a, acc.data), by simp, hc⟩
                · intro _
                  left
                  exact ⟨p.addr, rfl, by simpa using coveredBy_new hrs p.addr [] (by simp)⟩
              · left
                rw [hw]
                exact ⟨⟨(s', acc.s.2), some a, acc.next, acc.data⟩, e, [], rfl, by simp⟩
      · rw [if_neg hd]
        right
        have hclean : clean p = p := by
          have hd' : p.dirty = false := by simpa using hd
          unfold clean
          rw [← hd']
        exact ⟨acc, [], by rw [hclean], by simp, hp, fun q h => .inl h, fun h => absurd h hd⟩
    rcases hstep with ⟨acc1, e, l, h1, h2⟩ | ⟨acc1, l, h1, h2, h3, h4, h5⟩
    · refine ⟨0, acc1, .error e, l, by simp, ?_, h2, by simp⟩
      unfold wpPoints
      rw [h1]
      rfl
    · obtain ⟨k, acc2, r, l2, i1, i2, i3, i4⟩ := ih acc1 h3 henc'
      refine ⟨k + 1, acc2, r, l ++ l2, by simp; omega, ?_, by rw [i3, h2, List.append_assoc], ?_⟩
      · unfold wpPoints
        rw [h1]
        dsimp only
        rw [i2]
        rfl
      · intro hr
        obtain ⟨j1, j2, j3, j4⟩ := i4 hr
        refine ⟨by simp [j1], j2, ?_, ?_⟩
        · intro q hq
          rcases h4 q hq with h | h
          · exact j3 q h
          · right; rw [i3]; exact accepted_mono h
        · intro q hq hqd
          rcases List.mem_cons.1 hq with rfl | hq
          · rcases h5 hqd with h | h
            · exact j3 _ h
            · right; rw [i3]; exact accepted_mono h
          · exact j4 q hq hqd

/-- Everything that happens to a block list: the blocks before number `i` are clean and their modified points have been
accepted, block `i` is clean up to point `k`, the others are unchanged. -/
theorem wpBlocks_any {σ} (dev : MbDev σ) (bs : List BlockObj) : ∀ (s : σ × List (Int × Bytes)),
    (∀ b ∈ bs, ∀ p ∈ b.pts, p.dirty → ∀ d, p.pt.type.toData p.base (p.pt.len * 2).toNat = .ok d → ∃ rs, Encoded p rs) →
    ∃ (s' : σ × List (Int × Bytes)) (bs' : List BlockObj) (r : Py Unit) (l : List (Int × Bytes)) (i k : Nat),
      wpBlocks (logDev dev) bs s = (s', bs', r) ∧ s'.2 = s.2 ++ l ∧ bs'.length = bs.length ∧
      (r = .ok () → bs.length ≤ i) ∧
      ∀ (j : Nat) (b b' : BlockObj), bs[j]? = some b → bs'[j]? = some b' →
        (j < i → b' = { b with pts := b.pts.map clean } ∧ ∀ p ∈ b.pts, p.dirty → Accepted s'.2 p) ∧
        (j = i → b' = { b with pts := (b.pts.take k).map clean ++ b.pts.drop k }) ∧
        (i < j → b' = b) := by
  induction bs with
  | nil => intro s _; exact ⟨s, [], .ok (), [], 0, 0, rfl, by simp, rfl, by simp, by simp⟩
  | cons b bs ih =>
    intro s henc
    obtain ⟨k, acc, r, l, h1, h2, h3, h4⟩ := wpPoints_any dev b.pts { s := s } (by intro a h; cases h) (henc b (by simp))
    cases r with
    | error e =>
      refine ⟨acc.s, { b with pts := (b.pts.take k).map clean ++ b.pts.drop k } :: bs, .error e, l, 0, k, ?_, h3, rfl, by simp, ?_⟩
      · unfold wpBlocks
        rw [h2]
      · intro j c c' hj hj'
        refine ⟨fun h => by omega, ?_, ?_⟩
        · rintro rfl
          rw [List.getElem?_cons_zero] at hj hj'
          cases hj
          cases hj'
          rfl
        · intro h
          obtain ⟨j, rfl⟩ : ∃ j', j = j' + 1 := ⟨j - 1, by omega⟩
          rw [List.getElem?_cons_succ] at hj hj'
          rw [hj] at hj'
          exact (Option.some.inj hj').symm
    | ok u =>
      obtain ⟨hk, hpo, hq1, hq2⟩ := h4 rfl
      rw [hk, List.take_length, List.drop_length, List.append_nil] at h2
      -- the flush
      have hfl : (∃ s' e, wpFlush (logDev dev) acc = ((s', acc.s.2), .error e)) ∨
          (∃ s' l', wpFlush (logDev dev) acc = ((s', acc.s.2 ++ l'), .ok ()) ∧ ∀ p, PendCov acc p → Accepted (acc.s.2 ++ l') p) := by
        unfold wpFlush
        cases ha : acc.addr with
        | none =>
          right
          exact ⟨acc.s.1, [], by simp, by rintro p ⟨a, h, _⟩; rw [ha] at h; cases h⟩
        | some a =>
          dsimp only
          rcases cdWrite_log dev acc.s a acc.data with ⟨s', hw⟩ | ⟨s', e, hw⟩
          · right
            refine ⟨s', [(a, acc.data)], hw, ?_⟩
            rintro p ⟨a', h, hc⟩
            rw [ha] at h; cases h
            exact ⟨(a, acc.data), by simp, hc⟩
          · left; exact ⟨s', e, hw⟩
      rcases hfl with ⟨s', e, hf⟩ | ⟨s', l', hf, hcov⟩
      · refine ⟨(s', acc.s.2), { b with pts := b.pts.map clean } :: bs, .error e, l, 0, b.pts.length, ?_, h3, rfl, by simp, ?_⟩
        · unfold wpBlocks
          rw [h2]
          dsimp only
          rw [hf]
        · intro j c c' hj hj'
          refine ⟨fun h => by omega, ?_, ?_⟩
          · rintro rfl
            simp at hj hj'
            subst hj
            rw [List.take_length, List.drop_length, List.append_nil]
            exact hj'.symm
          · intro h
            obtain ⟨j, rfl⟩ : ∃ j', j = j' + 1 := ⟨j - 1, by omega⟩
            rw [List.getElem?_cons_succ] at hj hj'
            rw [hj] at hj'
            exact (Option.some.inj hj').symm
      · obtain ⟨s2, bs2, r2, l2, i2, k2, g1, g2, g3, g4, g5⟩ := ih (s', acc.s.2 ++ l') (fun b' hb' => henc b' (by simp [hb']))
        refine ⟨s2, { b with pts := b.pts.map clean } :: bs2, r2, l ++ l' ++ l2, i2 + 1, k2, ?_, ?_, by simp [g3], ?_, ?_⟩
        · unfold wpBlocks
          rw [h2]
          dsimp only
          rw [hf]
          dsimp only
          rw [g1]
        · rw [g2, h3]; simp
        · intro hr; have := g4 hr; simp; omega
        · intro j c c' hj hj'
          cases j with
          | zero =>
            simp at hj hj'
            subst hj
            refine ⟨fun _ => ⟨hj'.symm, ?_⟩, fun h => by omega, fun h => by omega⟩
            intro p hp hpd
            rw [g2]
            rcases hq2 p hp hpd with h | h
            · exact accepted_mono (hcov p h)
            · exact accepted_mono (accepted_mono h)
          | succ j =>
            rw [List.getElem?_cons_succ] at hj hj'
            obtain ⟨q1, q2, q3⟩ := g5 j c c' hj hj'
            exact ⟨fun h => q1 (by omega), fun h => q2 (by omega), fun h => q3 (by omega)⟩

end Verif
