import Verif.Lemmas.PicsBlock

/-!
# Writing a model to a PICS document and loading it
-/

namespace Verif
open Spec

variable {lib : FloatLib}

/-- A block without the values of scale factors in its scaled points. -/
def strip (c : BlockObj) : BlockObj := { c with pts := c.pts.map fun p => { p with vsf := if p.sf.isSome then none else p.vsf } }

theorem strip_good {c : BlockObj} (h : GoodBlock (strip c)) : GoodBlock c := by
  refine ⟨h.ids, ?_, h.sfs⟩
  have := h.pts
  simp only [strip, List.map_map, Function.comp_def] at this
  exact this

theorem good_strip {c : BlockObj} (h : GoodBlock c) : GoodBlock (strip c) := by
  refine ⟨h.ids, ?_, h.sfs⟩
  simp only [strip, List.map_map, Function.comp_def]
  exact h.pts

theorem fill_good {b c : BlockObj} (h : GoodBlock c) : GoodBlock (fillBlk b c) :=
  h.of_map _ _ (fillFrom_pt b) (fillFrom_pt b)

theorem fillFrom_vsf (b : BlockObj) (q : PointObj) : fillFrom b { q with vsf := if q.sf.isSome then none else q.vsf } =
    { fillFrom b q with vsf := if (fillFrom b q).sf.isSome then none else (fillFrom b q).vsf } := by
  unfold fillFrom
  dsimp only
  cases picsFind b q.pt.id with
  | none => rfl
  | some p =>
    obtain ⟨_, _, _, _, base, _, _⟩ := p
    cases base <;> rfl

theorem strip_resolve (bs : List BlockObj) (b c : BlockObj) :
    strip { fillBlk b c with pts := resolveValues bs (fillBlk b c).pts } = fillBlk b (strip c) := by
  unfold strip fillBlk resolveValues
  simp only [List.map_map, BlockObj.mk.injEq, true_and, and_true]
  apply List.map_congr_left
  intro q _
  simp only [Function.comp_apply]
  rw [fillFrom_vsf]
  generalize fillFrom b q = x
  obtain ⟨pt, addr, sf, impl, base, vsf, dirty⟩ := x
  cases sf <;> rfl

/-- The scale factors of a block are constants or points of the block itself or of the first block. -/
def RefsLocal (k : Nat) (c : BlockObj) : Prop :=
  ∀ p ∈ c.pts, ∀ blk id, p.sf = some (.point blk id) → blk = k ∨ blk = 0

/-- The values of scale factors in the points of block `k` are those of the scale factor points. -/
def ScalesOK (bs : List BlockObj) (k : Nat) : Prop :=
  ∀ c, bs[k]? = some c → ∀ p ∈ c.pts, ∀ ref, p.sf = some ref → p.vsf = sfValue bs ref

/-- What applying the element of block `b` to the blocks `ks` does. -/
structure Applied (b : BlockObj) (ks : List Nat) (bs bs' : List BlockObj) : Prop where
  len : bs'.length = bs.length
  hit : ∀ k c, k ∈ ks → bs[k]? = some c → ∃ c', bs'[k]? = some c' ∧ strip c' = fillBlk b (strip c)
  miss : ∀ k, k ∉ ks → bs'[k]? = bs[k]?

theorem strip_refs {k : Nat} {c c' : BlockObj} (h : ∀ p' ∈ c'.pts, ∃ p ∈ c.pts, p.sf = p'.sf) (hr : RefsLocal k c) : RefsLocal k c' := by
  intro p' hp' blk id e
  obtain ⟨p, hp, e'⟩ := h p' hp'
  exact hr p hp blk id (e'.trans e)

theorem fillStrip_refs {k : Nat} {b c c' : BlockObj} (h : strip c' = fillBlk b (strip c)) (hr : RefsLocal k c) : RefsLocal k c' := by
  apply strip_refs ?_ hr
  intro p' hp'
  have e : (strip c').pts = (fillBlk b (strip c)).pts := by rw [h]
  simp only [strip, fillBlk, List.map_map] at e
  have hm : ({ p' with vsf := if p'.sf.isSome then none else p'.vsf } : PointObj) ∈
      c'.pts.map (fun p => ({ p with vsf := if p.sf.isSome then none else p.vsf } : PointObj)) :=
    List.mem_map.2 ⟨p', hp', rfl⟩
  rw [e] at hm
  obtain ⟨p, hp, he⟩ := List.mem_map.1 hm
  refine ⟨p, hp, ?_⟩
  simp only [Function.comp_apply] at he
  have := congrArg PointObj.sf he
  rw [fillFrom_sf] at this
  exact this

theorem picsSf_congr {bs bs' : List BlockObj} {ref : SfRef} (h : ∀ blk id, ref = .point blk id → bs'[blk]? = bs[blk]?) :
    sfValue bs' ref = sfValue bs ref := by
  cases ref with
  | const v => rfl
  | point blk id => unfold sfValue; dsimp only; rw [h blk id rfl]

/-- The values of scale factor points do not depend on the points. -/
theorem sfValue_pts (bs : List BlockObj) (k : Nat) (c : BlockObj) (ps : List PointObj) (ref : SfRef) :
    sfValue (bs.set k { c with pts := ps }) ref = sfValue (bs.set k c) ref := by
  cases ref with
  | const v => rfl
  | point blk id =>
    unfold sfValue
    dsimp only
    by_cases h : blk = k
    · subst h
      rw [List.getElem?_set_self', List.getElem?_set_self']
      cases bs[blk]? <;> rfl
    · rw [List.getElem?_set_ne (Ne.symm h), List.getElem?_set_ne (Ne.symm h)]

/-- The element of a block applied to one block. -/
theorem blockFromPics_one (bs : List BlockObj) (k : Nat) (b c : BlockObj) (el : Elem) (hk : bs[k]? = some c) (hb : GoodBlock b)
    (hc : GoodBlock c) (hv : BlockText lib b) (hbt : c.bt = b.bt) (h : blockToPics lib b = .ok el) :
    ∃ bs', blockFromPics lib bs k el = (bs', .ok ()) ∧ Applied b [k] bs bs' ∧ ScalesOK bs' k := by
  unfold blockToPics at h
  cases hp : pointsToPics lib b b.bt.points with
  | error e => rw [hp] at h; cases h
  | ok els =>
    rw [hp] at h
    have he := (Except.ok.inj h).symm
    subst he
    refine ⟨bs.set k { fillBlk b c with pts := resolveValues (bs.set k (fillBlk b c)) (fillBlk b c).pts }, ?_, ⟨?_, ?_, ?_⟩, ?_⟩
    · unfold blockFromPics
      rw [hk]
      dsimp only [Elem.children]
      rw [blockPointsFromPics_block b c hb hc hv hbt els hp]
    · simp
    · intro k' c' hk' hc'
      rw [List.mem_singleton] at hk'
      subst hk'
      rw [hk] at hc'
      have := Option.some.inj hc'
      subst this
      refine ⟨_, ?_, strip_resolve (bs.set k' (fillBlk b c)) b c⟩
      rw [List.getElem?_set_self', hk]; rfl
    · intro k' hk'
      rw [List.mem_singleton] at hk'
      rw [List.getElem?_set_ne (Ne.symm hk')]
    · intro c' hc' p hp' ref href
      rw [List.getElem?_set_self', hk] at hc'
      have := Option.some.inj hc'
      subst this
      rw [sfValue_pts]
      dsimp only at hp'
      unfold resolveValues at hp'
      obtain ⟨q, hq, rfl⟩ := List.mem_map.1 hp'
      cases hs : q.sf with
      | none => rw [hs] at href; dsimp only at href; rw [hs] at href; cases href
      | some r =>
        rw [hs] at href
        dsimp only at href ⊢
        rw [Option.some.inj href]

/-- Other blocks keep the values of their scale factors. -/
theorem ScalesOK.keep {b : BlockObj} {j k : Nat} {bs bs' : List BlockObj} (h : ScalesOK bs k) (ha : Applied b [j] bs bs') (hj : 0 < j)
    (hjk : k ≠ j) (hr : ∀ c, bs[k]? = some c → RefsLocal k c) : ScalesOK bs' k := by
  intro c hc p hp ref href
  rw [ha.miss k (by simp [hjk])] at hc
  rw [h c hc p hp ref href]
  refine (picsSf_congr ?_).symm
  intro blk id e
  subst e
  rcases hr c hc p hp blk id href with rfl | rfl
  · exact ha.miss _ (by simp [hjk])
  · exact ha.miss _ (by simp; omega)

/-- Blocks to which the element of `b` can be applied. -/
def Fits (b : BlockObj) (k : Nat) (c : BlockObj) : Prop := GoodBlock c ∧ c.bt = b.bt ∧ RefsLocal k c

theorem Fits.applied {b b' : BlockObj} {k : Nat} {c c' : BlockObj} (h : Fits b' k c) (e : strip c' = fillBlk b (strip c)) : Fits b' k c' := by
  refine ⟨strip_good ?_, ?_, fillStrip_refs e h.2.2⟩
  · rw [e]; exact fill_good (good_strip h.1)
  · have : (strip c').bt = (fillBlk b (strip c)).bt := by rw [e]
    exact this.trans h.2.1

theorem blocksFromPics_many (b : BlockObj) (el : Elem) (hb : GoodBlock b) (hv : BlockText lib b) (h : blockToPics lib b = .ok el)
    (ks : List Nat) : ∀ bs : List BlockObj, ks.Nodup → (∀ k ∈ ks, 0 < k) → (∀ k ∈ ks, ∃ c, bs[k]? = some c ∧ Fits b k c) →
      ∃ bs', blocksFromPics lib el ks bs = (bs', .ok ()) ∧ Applied b ks bs bs' ∧ (∀ k ∈ ks, ScalesOK bs' k) ∧
        ∀ k, k ∉ ks → ScalesOK bs k → (∀ c, bs[k]? = some c → RefsLocal k c) → ScalesOK bs' k := by
  induction ks with
  | nil =>
    intro bs _ _ _
    exact ⟨bs, rfl, ⟨rfl, by simp, fun _ _ => rfl⟩, by simp, fun _ _ h _ => h⟩
  | cons k ks ih =>
    intro bs hn hpos hfit
    rw [List.nodup_cons] at hn
    obtain ⟨c, hkc, hc⟩ := hfit k (by simp)
    obtain ⟨bs1, hs1, ha1, hsc1⟩ := blockFromPics_one bs k b c el hkc hb hc.1 hv hc.2.1 h
    have hfit1 : ∀ k' ∈ ks, ∃ c, bs1[k']? = some c ∧ Fits b k' c := by
      intro k' hk'
      have hne : k' ≠ k := fun e => hn.1 (e ▸ hk')
      rw [ha1.miss k' (by simp [hne])]
      exact hfit k' (by simp [hk'])
    obtain ⟨bs2, hs2, ha2, hsc2, hkeep2⟩ := ih bs1 hn.2 (fun k hk => hpos k (by simp [hk])) hfit1
    refine ⟨bs2, ?_, ⟨?_, ?_, ?_⟩, ?_, ?_⟩
    · rw [blocksFromPics, hs1]; exact hs2
    · rw [ha2.len, ha1.len]
    · intro k' c' hk' hc'
      by_cases e : k' = k
      · subst e
        rw [hkc] at hc'
        have := Option.some.inj hc'
        subst this
        obtain ⟨c1, h1, h2⟩ := ha1.hit k' c (by simp) hkc
        exact ⟨c1, by rw [ha2.miss k' hn.1]; exact h1, h2⟩
      · have hm : k' ∈ ks := by simpa [e] using hk'
        exact ha2.hit k' c' hm (by rw [ha1.miss k' (by simp [e])]; exact hc')
    · intro k' hk'
      simp only [List.mem_cons, not_or] at hk'
      rw [ha2.miss k' hk'.2, ha1.miss k' (by simp [hk'.1])]
    · intro k' hk'
      by_cases e : k' = k
      · subst e
        refine hkeep2 k' hn.1 hsc1 ?_
        intro c1 hc1
        obtain ⟨c1', h1, h2⟩ := ha1.hit k' c (by simp) hkc
        rw [hc1] at h1
        have := Option.some.inj h1
        subst this
        exact fillStrip_refs h2 hc.2.2
      · exact hsc2 k' (by simpa [e] using hk')
    · intro k' hk' hsc hr
      simp only [List.mem_cons, not_or] at hk'
      refine hkeep2 k' hk'.2 (hsc.keep ha1 (hpos k (by simp)) hk'.1 hr) ?_
      intro c1 hc1
      rw [ha1.miss k' (by simp [hk'.1])] at hc1
      exact hr c1 hc1

/-! ### The elements of a model -/

theorem blockToPics_attrs {b : BlockObj} {el : Elem} (h : blockToPics lib b = .ok el) :
    el.tag = "block" ∧ el.get "type" = (if b.bt.repeating then some (t!"repeating") else none) ∧
      el.get "index" = (if b.index > 1 then some (natDec b.index) else none) := by
  unfold blockToPics at h
  cases hp : pointsToPics lib b b.bt.points with
  | error e => rw [hp] at h; cases h
  | ok els =>
    rw [hp] at h
    have he := (Except.ok.inj h).symm
    subst he
    refine ⟨rfl, ?_, ?_⟩
    · by_cases h1 : b.index > 1 <;> by_cases h2 : b.bt.repeating <;> simp [Elem.get, Elem.attrib, dictGet, h1, h2]
    · by_cases h1 : b.index > 1 <;> by_cases h2 : b.bt.repeating <;> simp [Elem.get, Elem.attrib, dictGet, h1, h2]

theorem modelBlock_fixed {b : BlockObj} {el : Elem} (h : blockToPics lib b = .ok el) (hr : b.bt.repeating = false) (bs : List BlockObj)
    (hl : 0 < bs.length) : modelBlockFromPics lib bs el = blockFromPics lib bs 0 el := by
  obtain ⟨h1, h2, h3⟩ := blockToPics_attrs h
  unfold modelBlockFromPics
  rw [if_neg (by simp [h1]), h2, hr]
  dsimp only
  rw [if_pos (by decide), if_pos hl]

theorem modelBlock_first {b : BlockObj} {el : Elem} (h : blockToPics lib b = .ok el) (hr : b.bt.repeating = true) (hi : b.index = 1)
    (bs : List BlockObj) : modelBlockFromPics lib bs el = blocksFromPics lib el (List.range' 1 (bs.length - 1)) bs := by
  obtain ⟨h1, h2, h3⟩ := blockToPics_attrs h
  unfold modelBlockFromPics
  rw [if_neg (by simp [h1]), h2, hr]
  dsimp only
  rw [if_neg (by decide), if_pos (by decide), h3, if_neg (by omega)]

theorem modelBlock_other {b : BlockObj} {el : Elem} (h : blockToPics lib b = .ok el) (hr : b.bt.repeating = true) (k : Nat)
    (hi : b.index = k + 2) (bs : List BlockObj) (hl : k + 2 < bs.length) :
    modelBlockFromPics lib bs el = blockFromPics lib bs (k + 2) el := by
  obtain ⟨h1, h2, h3⟩ := blockToPics_attrs h
  have hpi : pyInt 10 (natDec (k + 2)) = some ((k + 2 : Nat) : Int) := by
    have := pyInt_intDec 10 (.inr rfl) ((k + 2 : Nat) : Int)
    unfold intDec at this
    rw [if_neg (by omega), Int.natAbs_natCast] at this
    exact this
  unfold modelBlockFromPics
  rw [if_neg (by simp [h1]), h2, hr]
  dsimp only
  rw [if_neg (by decide), if_pos (by decide), h3, if_pos (by omega), hi]
  dsimp only
  rw [hpi]
  dsimp only
  rw [if_neg (by omega), if_pos (by omega), Int.toNat_natCast]

/-- The repeating blocks from the second one on. -/
theorem modelBlocks_tail (tl : List BlockObj) : ∀ (j : Nat) (els : List Elem) (bs : List BlockObj),
    (∀ i b, tl[i]? = some b → b.index = j + 2 + i ∧ b.bt.repeating = true ∧ GoodBlock b ∧ BlockText lib b ∧
      ∃ c, bs[j + 2 + i]? = some c ∧ Fits b (j + 2 + i) c) →
    (∀ k c, bs[k]? = some c → RefsLocal k c) →
    blocksToPics lib false tl = .ok els →
    ∃ bs', modelBlocksFromPics lib bs els = (bs', .ok ()) ∧ bs'.length = bs.length ∧
      (∀ i b c, tl[i]? = some b → bs[j + 2 + i]? = some c → ∃ c', bs'[j + 2 + i]? = some c' ∧ strip c' = fillBlk b (strip c)) ∧
      (∀ k, k < j + 2 → bs'[k]? = bs[k]?) ∧ ∀ k, ScalesOK bs k → ScalesOK bs' k := by
  induction tl with
  | nil =>
    intro j els bs _ _ h
    rw [blocksToPics] at h
    rw [← Except.ok.inj h]
    exact ⟨bs, rfl, rfl, by simp, fun _ _ => rfl, fun _ h => h⟩
  | cons b tl ih =>
    intro j els bs hall hrefs h
    obtain ⟨hi, hr, hg, hv, c, hc, hf⟩ := hall 0 b (by simp)
    simp only [Nat.add_zero] at hi hc hf
    rw [blocksToPics, if_pos (.inl rfl)] at h
    cases hb : blockToPics lib b with
    | error e => rw [hb] at h; cases h
    | ok el =>
      rw [hb] at h
      dsimp only at h
      cases ht : blocksToPics lib false tl with
      | error e => rw [ht] at h; cases h
      | ok els' =>
        rw [ht] at h
        have he := (Except.ok.inj h).symm
        subst he
        have hlt : j + 2 < bs.length := by
          apply Classical.byContradiction
          intro hn
          rw [List.getElem?_eq_none (by omega)] at hc; cases hc
        obtain ⟨bs1, hs1, ha1, hsc1⟩ := blockFromPics_one bs (j + 2) b c el hc hg hf.1 hv hf.2.1 hb
        have hall1 : ∀ i b', tl[i]? = some b' → b'.index = (j + 1) + 2 + i ∧ b'.bt.repeating = true ∧ GoodBlock b' ∧ BlockText lib b' ∧
            ∃ c, bs1[(j + 1) + 2 + i]? = some c ∧ Fits b' ((j + 1) + 2 + i) c := by
          intro i b' hb'
          have := hall (i + 1) b' (by simpa using hb')
          rw [show j + 2 + (i + 1) = (j + 1) + 2 + i by omega] at this
          rw [ha1.miss _ (by simp; omega)]
          exact this
        have hrefs1 : ∀ k c, bs1[k]? = some c → RefsLocal k c := by
          intro k c1 hc1
          by_cases e : k = j + 2
          · subst e
            obtain ⟨c1', h1, h2⟩ := ha1.hit (j + 2) c (by simp) hc
            rw [hc1] at h1
            have := Option.some.inj h1
            subst this
            exact fillStrip_refs h2 (hrefs _ c hc)
          · rw [ha1.miss k (by simp [e])] at hc1
            exact hrefs k c1 hc1
        obtain ⟨bs2, hs2, hl2, hh2, hm2, hk2⟩ := ih (j + 1) els' bs1 hall1 hrefs1 ht
        refine ⟨bs2, ?_, by rw [hl2, ha1.len], ?_, ?_, ?_⟩
        · rw [modelBlocksFromPics, modelBlock_other hb hr j hi bs hlt, hs1]; exact hs2
        · intro i b' c' hb' hc'
          cases i with
          | zero =>
            simp only [List.getElem?_cons_zero] at hb'
            have := Option.some.inj hb'
            subst this
            rw [Nat.add_zero] at hc' ⊢
            rw [hm2 (j + 2) (by omega)]
            exact ha1.hit _ c' (by simp) hc'
          | succ i =>
            rw [List.getElem?_cons_succ] at hb'
            have := hh2 i b' c' hb' (by rw [ha1.miss _ (by simp; omega), show j + 1 + 2 + i = j + 2 + (i + 1) by omega]; exact hc')
            rwa [show j + 1 + 2 + i = j + 2 + (i + 1) by omega] at this
        · intro k hk
          rw [hm2 k (by omega), ha1.miss k (by simp; omega)]
        · intro k hk
          apply hk2
          by_cases e : k = j + 2
          · subst e; exact hsc1
          · exact hk.keep ha1 (by omega) e (hrefs k)

end Verif
