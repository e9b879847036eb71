import Verif.Lemmas.PicsModel

/-!
# Writing a device to a PICS document and loading it
-/

namespace Verif
open Spec

variable {lib : FloatLib}

/-! ### Values -/

theorem forall₂_fill {b : BlockObj} (hb : GoodBlock b) (ps : List PointObj) : ∀ (qs : List PointObj),
    (∀ p ∈ ps, p ∈ b.pts ∨ p ∈ b.sfs) → List.Forall₂ SameKind ps qs →
    (∀ p ∈ ps, ∀ q ∈ qs, q.pt = p.pt → p.base = none → q.base = none) →
    List.Forall₂ SamePoint ps (qs.map (fillFrom b)) := by
  induction ps with
  | nil => intro qs _ h _; cases h; exact .nil
  | cons p ps ih =>
    intro qs hm h hn
    cases h with
    | cons hpq hrest =>
      rename_i q qs
      rw [List.map_cons]
      refine .cons ?_ (ih qs (fun x hx => hm x (by simp [hx])) hrest fun x hx y hy => hn x (by simp [hx]) y (by simp [hy]))
      have hf : fillFrom b q = fill q p := by
        unfold fillFrom
        rw [hpq.1, picsFind_mem hb (hm p (by simp))]
      rw [hf]
      refine ⟨(fill_pt q p).trans hpq.1, (fill_sf q p).trans hpq.2, ?_⟩
      unfold fill
      cases hpb : p.base with
      | none => exact hn p (by simp) q (by simp) hpq.1 hpb
      | some v => rfl

theorem same_fill {b c : BlockObj} (hb : GoodBlock b) (h : BlockKind b c)
    (hn : ∀ p ∈ b.pts ++ b.sfs, ∀ q ∈ c.pts ++ c.sfs, q.pt = p.pt → p.base = none → q.base = none) : SameBlock b (fillBlk b c) :=
  ⟨h.bt, h.index, h.len,
    forall₂_fill hb b.pts c.pts (fun _ h => .inl h) h.pts fun p hp q hq => hn p (by simp [hp]) q (by simp [hq]),
    forall₂_fill hb b.sfs c.sfs (fun _ h => .inr h) h.sfs fun p hp q hq => hn p (by simp [hp]) q (by simp [hq])⟩

theorem same_strip {b c : BlockObj} (h : SameBlock b (strip c)) : SameBlock b c := by
  refine ⟨h.bt, h.index, h.len, ?_, h.sfs⟩
  have := h.pts
  simp only [strip, List.forall₂_map_right_iff] at this
  exact this

theorem kind_strip {b c : BlockObj} (h : BlockKind b c) : BlockKind b (strip c) := by
  refine ⟨h.bt, h.index, h.len, ?_, h.sfs⟩
  simp only [strip, List.forall₂_map_right_iff]
  exact h.pts

theorem kind_fill {b b' c : BlockObj} (h : BlockKind b c) : BlockKind b (fillBlk b' c) := by
  refine ⟨h.bt, h.index, h.len, ?_, ?_⟩
  · simp only [fillBlk, List.forall₂_map_right_iff]
    exact h.pts.imp fun p q hpq => ⟨(fillFrom_pt b' q).trans hpq.1, (fillFrom_sf b' q).trans hpq.2⟩
  · simp only [fillBlk, List.forall₂_map_right_iff]
    exact h.sfs.imp fun p q hpq => ⟨(fillFrom_pt b' q).trans hpq.1, (fillFrom_sf b' q).trans hpq.2⟩

/-- No point has a value. -/
def FreshBlock (c : BlockObj) : Prop := ∀ q ∈ c.pts ++ c.sfs, q.base = none

theorem fresh_strip {c : BlockObj} (h : FreshBlock c) : FreshBlock (strip c) := by
  intro q hq
  simp only [strip, List.mem_append, List.mem_map] at hq
  rcases hq with ⟨x, hx, rfl⟩ | hq
  · exact h x (by simp [hx])
  · exact h q (by simp [hq])

/-- After the element of `b1` has been applied to a fresh block, a point has a value only if the point of that name has one in
`b1`. -/
theorem fill_base {b1 c : BlockObj} (h : FreshBlock c) {q : PointObj} (hq : q ∈ (fillBlk b1 c).pts ++ (fillBlk b1 c).sfs)
    (hn : ∀ p1 ∈ b1.pts ++ b1.sfs, p1.pt.id = q.pt.id → p1.base = none) : q.base = none := by
  have key : ∀ x ∈ c.pts ++ c.sfs, (∀ p1 ∈ b1.pts ++ b1.sfs, p1.pt.id = (fillFrom b1 x).pt.id → p1.base = none) →
      (fillFrom b1 x).base = none := by
    intro x hx hn
    rw [fillFrom_pt] at hn
    unfold fillFrom
    cases hf : picsFind b1 x.pt.id with
    | none => exact h x hx
    | some p =>
      obtain ⟨hm, hid⟩ := picsFind_some hf
      have := hn p (by simpa using hm) hid
      dsimp only
      unfold fill
      rw [this]
      exact h x hx
  simp only [fillBlk, List.mem_append, List.mem_map] at hq
  rcases hq with ⟨x, hx, rfl⟩ | ⟨x, hx, rfl⟩
  · exact key x (by simp [hx]) hn
  · exact key x (by simp [hx]) hn

/-! ### Models -/

/-- The blocks `bs` of a model with definition `mt`, and its freshly loaded blocks `cs`. -/
structure PicsPair (lib : FloatLib) (mt : ModelType) (bs cs : List BlockObj) : Prop where
  len : cs.length = bs.length
  ne : bs ≠ []
  kind : ∀ (k : Nat) b c, bs[k]? = some b → cs[k]? = some c → BlockKind b c
  good : ∀ (k : Nat) b, bs[k]? = some b → GoodBlock b ∧ b.index = k ∧ BlockText lib b
  fixed : ∀ b, bs[0]? = some b → b.bt.repeating = false
  rep : ∀ k b, bs[k + 1]? = some b → mt.rep = some b.bt ∧ b.bt.repeating = true
  fresh : ∀ (k : Nat) c, cs[k]? = some c → GoodBlock c ∧ RefsLocal k c ∧ FreshBlock c

/-- What the blocks are after the document has been loaded: block 0 from its own element, the repeating blocks from that of the
first repeating block and then (unless `single`) from their own. -/
structure PicsResult (single : Bool) (bs cs ds : List BlockObj) : Prop where
  len : ds.length = cs.length
  zero : ∀ b c, bs[0]? = some b → cs[0]? = some c → ∃ d, ds[0]? = some d ∧ strip d = fillBlk b (strip c)
  one : ∀ b c, bs[1]? = some b → cs[1]? = some c → ∃ d, ds[1]? = some d ∧ strip d = fillBlk b (strip c)
  rest : ∀ k b b1 c, bs[k + 2]? = some b → bs[1]? = some b1 → cs[k + 2]? = some c →
    ∃ d, ds[k + 2]? = some d ∧ strip d = if single then fillBlk b1 (strip c) else fillBlk b (fillBlk b1 (strip c))
  scales : ∀ k, k < ds.length → ScalesOK ds k

theorem fits_of {b c : BlockObj} {k : Nat} (hg : GoodBlock c) (hr : RefsLocal k c) (hbt : c.bt = b.bt) : Fits b k c := ⟨hg, hbt, hr⟩

theorem blocksToPics_single (tl : List BlockObj) (h : ∀ b ∈ tl, 1 < b.index) : blocksToPics lib true tl = .ok [] := by
  induction tl with
  | nil => rfl
  | cons b tl ih =>
    rw [blocksToPics, if_neg]
    · exact ih fun b hb => h b (by simp [hb])
    · have := h b (by simp)
      simp; omega

theorem modelBlocks_result {mt : ModelType} {bs cs : List BlockObj} (hp : PicsPair lib mt bs cs) (single : Bool) (els : List Elem)
    (h : blocksToPics lib single bs = .ok els) :
    ∃ ds, modelBlocksFromPics lib cs els = (ds, .ok ()) ∧ PicsResult single bs cs ds := by
  cases bs with
  | nil => exact absurd rfl hp.ne
  | cons b0 rest =>
    obtain ⟨hg0, hi0, ht0⟩ := hp.good 0 b0 rfl
    have hr0 := hp.fixed b0 rfl
    have hclen := hp.len
    rw [List.length_cons] at hclen
    have hc0 : ∃ c0, cs[0]? = some c0 := ⟨_, List.getElem?_eq_getElem (by omega : 0 < cs.length)⟩
    obtain ⟨c0, hc0⟩ := hc0
    have hk0 := hp.kind 0 b0 c0 rfl hc0
    obtain ⟨hcg0, hcr0, _⟩ := hp.fresh 0 c0 hc0
    rw [blocksToPics, if_pos (.inr (by omega))] at h
    cases he0 : blockToPics lib b0 with
    | error e => rw [he0] at h; cases h
    | ok el0 =>
      rw [he0] at h
      dsimp only at h
      cases her : blocksToPics lib single rest with
      | error e => rw [her] at h; cases h
      | ok elr =>
        rw [her] at h
        have hels := (Except.ok.inj h).symm
        subst hels
        obtain ⟨cs1, hs1, ha1, hsc1⟩ := blockFromPics_one cs 0 b0 c0 el0 hc0 hg0 hcg0 ht0 hk0.bt he0
        have hm0 := modelBlock_fixed he0 hr0 cs (by omega)
        obtain ⟨d0, hd0, hd0s⟩ := ha1.hit 0 c0 (by simp) hc0
        cases rest with
        | nil =>
          rw [blocksToPics] at her
          have := (Except.ok.inj her).symm
          subst this
          refine ⟨cs1, ?_, ⟨ha1.len, ?_, by simp, by simp, ?_⟩⟩
          · rw [modelBlocksFromPics, hm0, hs1]; rfl
          · intro b c hb hc
            rw [List.getElem?_cons_zero] at hb
            cases hb
            exact ha1.hit 0 c (by simp) hc
          · intro k hk
            rw [ha1.len, hclen] at hk
            have : k = 0 := by simp at hk; exact hk
            subst this; exact hsc1
        | cons b1 tl =>
          rw [List.length_cons] at hclen
          obtain ⟨hg1, hi1, ht1⟩ := hp.good 1 b1 rfl
          obtain ⟨hrep, hr1⟩ := hp.rep 0 b1 rfl
          rw [blocksToPics, if_pos (.inr (by omega))] at her
          cases he1 : blockToPics lib b1 with
          | error e => rw [he1] at her; cases her
          | ok el1 =>
            rw [he1] at her
            dsimp only at her
            cases het : blocksToPics lib single tl with
            | error e => rw [het] at her; cases her
            | ok elt =>
              rw [het] at her
              have := (Except.ok.inj her).symm
              subst this
              -- the kinds of the other blocks
              have hfit : ∀ k, 0 < k → k < cs.length → ∃ c, cs1[k]? = some c ∧ cs[k]? = some c ∧ Fits b1 k c := by
                intro k hk hkl
                obtain ⟨k, rfl⟩ : ∃ j, k = j + 1 := ⟨k - 1, by omega⟩
                have hbk : ∃ b, (b0 :: b1 :: tl)[k + 1]? = some b := ⟨_, List.getElem?_eq_getElem (by simp; omega)⟩
                obtain ⟨b, hb⟩ := hbk
                have hck : ∃ c, cs[k + 1]? = some c := ⟨_, List.getElem?_eq_getElem hkl⟩
                obtain ⟨c, hc⟩ := hck
                refine ⟨c, by rw [ha1.miss _ (by simp)]; exact hc, hc, ?_⟩
                obtain ⟨g1, g2, g3⟩ := hp.fresh (k + 1) c hc
                refine fits_of g1 g2 ?_
                rw [(hp.kind (k + 1) b c hb hc).bt]
                have := (hp.rep k b hb).1
                rw [hrep] at this
                exact (Option.some.inj this).symm
              obtain ⟨cs2, hs2, ha2, hsc2, hkeep2⟩ := blocksFromPics_many b1 el1 hg1 ht1 he1 (List.range' 1 (cs1.length - 1)) cs1
                (List.nodup_range' (step := 1)) (by
                  intro k hk
                  have := List.mem_range'_1.1 hk
                  omega) (by
                  intro k hk
                  have := List.mem_range'_1.1 hk
                  rw [ha1.len] at this
                  obtain ⟨c, h1, _, h3⟩ := hfit k (by omega) (by omega)
                  exact ⟨c, h1, h3⟩)
              have hm1 := modelBlock_first he1 hr1 hi1 cs1
              have hin : ∀ k, 0 < k → k < cs.length → k ∈ List.range' 1 (cs1.length - 1) := by
                intro k h1 h2
                rw [List.mem_range'_1, ha1.len]; omega
              have hnin : 0 ∉ List.range' 1 (cs1.length - 1) := by
                intro hc
                have := List.mem_range'_1.1 hc
                omega
              have hsc2' : ∀ k, k < cs2.length → ScalesOK cs2 k := by
                intro k hk
                rw [ha2.len, ha1.len] at hk
                by_cases hk0 : k = 0
                · subst hk0
                  refine hkeep2 0 hnin hsc1 ?_
                  intro c hc
                  rw [hd0] at hc
                  cases hc
                  exact fillStrip_refs hd0s hcr0
                · exact hsc2 k (hin k (by omega) hk)
              have hzero : ∀ c, cs[0]? = some c → ∃ d, cs2[0]? = some d ∧ strip d = fillBlk b0 (strip c) := by
                intro c hc
                rw [ha2.miss 0 hnin]
                exact ha1.hit 0 c (by simp) hc
              have hpos : ∀ k c, 0 < k → cs[k]? = some c → ∃ d, cs2[k]? = some d ∧ strip d = fillBlk b1 (strip c) := by
                intro k c hk hc
                have hkl : k < cs.length := by
                  apply Classical.byContradiction
                  intro hn
                  rw [List.getElem?_eq_none (by omega)] at hc; cases hc
                exact ha2.hit k c (hin k hk hkl) (by rw [ha1.miss k (by simp; omega)]; exact hc)
              cases single with
              | true =>
                have htl : blocksToPics lib true tl = .ok [] := by
                  apply blocksToPics_single
                  intro b hb
                  obtain ⟨i, hi⟩ := List.getElem?_of_mem hb
                  have := (hp.good (i + 2) b (by simpa using hi)).2.1
                  omega
                rw [htl] at het
                have := (Except.ok.inj het).symm
                subst this
                refine ⟨cs2, ?_, ⟨by rw [ha2.len, ha1.len], ?_, ?_, ?_, hsc2'⟩⟩
                · rw [modelBlocksFromPics, hm0, hs1]
                  dsimp only
                  rw [modelBlocksFromPics, hm1, hs2]
                  rfl
                · intro b c hb hc
                  rw [List.getElem?_cons_zero] at hb
                  cases hb
                  exact hzero c hc
                · intro b c hb hc
                  simp at hb
                  subst hb
                  exact hpos 1 c (by omega) hc
                · intro k b b1' c hb hb1 hc
                  simp at hb1
                  subst hb1
                  rw [if_pos rfl]
                  exact hpos (k + 2) c (by omega) hc
              | false =>
                have hrefs2 : ∀ k c, cs2[k]? = some c → RefsLocal k c := by
                  intro k d hd
                  by_cases hkl : k < cs.length
                  · have hck : ∃ c, cs[k]? = some c := ⟨_, List.getElem?_eq_getElem hkl⟩
                    obtain ⟨c, hc⟩ := hck
                    have hrc := (hp.fresh k c hc).2.1
                    by_cases hk0 : k = 0
                    · subst hk0
                      obtain ⟨d', h1, h2⟩ := hzero c hc
                      rw [hd] at h1; cases h1
                      exact fillStrip_refs h2 hrc
                    · obtain ⟨d', h1, h2⟩ := hpos k c (by omega) hc
                      rw [hd] at h1; cases h1
                      exact fillStrip_refs h2 hrc
                  · rw [List.getElem?_eq_none (by rw [ha2.len, ha1.len]; omega)] at hd; cases hd
                obtain ⟨cs3, hs3, hl3, hh3, hm3, hk3⟩ := modelBlocks_tail tl 0 elt cs2 (by
                  intro i b hb
                  obtain ⟨g1, g2, g3⟩ := hp.good (i + 2) b (by simpa using hb)
                  obtain ⟨r1, r2⟩ := hp.rep (i + 1) b (by simpa using hb)
                  have hil : i + 2 < cs.length := by
                    have : i < tl.length := by
                      apply Classical.byContradiction
                      intro hn
                      rw [List.getElem?_eq_none (by omega)] at hb; cases hb
                    omega
                  obtain ⟨c, _, hc, hf⟩ := hfit (i + 2) (by omega) hil
                  obtain ⟨d, q1, q2⟩ := hpos (i + 2) c (by omega) hc
                  refine ⟨by omega, r2, g1, g3, d, by rw [show 0 + 2 + i = i + 2 by omega]; exact q1, ?_⟩
                  rw [show 0 + 2 + i = i + 2 by omega]
                  have hfb : Fits b (i + 2) c := by
                    refine ⟨hf.1, ?_, hf.2.2⟩
                    rw [hf.2.1]
                    rw [hrep] at r1
                    exact Option.some.inj r1
                  exact hfb.applied q2) hrefs2 het
                refine ⟨cs3, ?_, ⟨by rw [hl3, ha2.len, ha1.len], ?_, ?_, ?_, ?_⟩⟩
                · rw [modelBlocksFromPics, hm0, hs1]
                  dsimp only
                  rw [modelBlocksFromPics, hm1, hs2]
                  exact hs3
                · intro b c hb hc
                  rw [List.getElem?_cons_zero] at hb
                  cases hb
                  rw [hm3 0 (by omega)]
                  exact hzero c hc
                · intro b c hb hc
                  simp at hb
                  subst hb
                  rw [hm3 1 (by omega)]
                  exact hpos 1 c (by omega) hc
                · intro k b b1' c hb hb1 hc
                  simp at hb1
                  subst hb1
                  rw [if_neg (by simp)]
                  obtain ⟨d, q1, q2⟩ := hpos (k + 2) c (by omega) hc
                  have := hh3 k b d (by simpa using hb) (by rw [show 0 + 2 + k = k + 2 by omega]; exact q1)
                  rw [show 0 + 2 + k = k + 2 by omega] at this
                  obtain ⟨d', q3, q4⟩ := this
                  exact ⟨d', q3, by rw [q4, q2]⟩
                · intro k hk
                  rw [hl3] at hk
                  exact hk3 k (hsc2' k hk)

end Verif
