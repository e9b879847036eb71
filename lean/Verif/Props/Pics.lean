import Verif.Lemmas.PicsDevice
import Verif.Props.Load

/-!
# C41: PICS documents
-/

namespace Verif
open Spec

variable {lib : FloatLib}

theorem forall₂_cross {α β γ : Type} {R : α → β → Prop} {S : α → γ → Prop} {T : β → γ → Prop} (h : ∀ a b c, R a b → S a c → T b c)
    {as : List α} : ∀ {bs : List β} {cs : List γ}, List.Forall₂ R as bs → List.Forall₂ S as cs → List.Forall₂ T bs cs := by
  induction as with
  | nil => intro bs cs h1 h2; cases h1; cases h2; exact .nil
  | cons a as ih =>
    intro bs cs h1 h2
    cases h1 with
    | cons r rs => cases h2 with
      | cons s ss => exact .cons (h a _ _ r s) (ih rs ss)

theorem forall₂_get {α β : Type} {R : α → β → Prop} {as : List α} {bs : List β} (h : List.Forall₂ R as bs) (k : Nat) (a : α) (b : β)
    (ha : as[k]? = some a) (hb : bs[k]? = some b) : R a b := by
  induction h generalizing k with
  | nil => simp at ha
  | cons r _ ih =>
    cases k with
    | zero => simp at ha hb; subst ha; subst hb; exact r
    | succ k => exact ih k (by simpa using ha) (by simpa using hb)

theorem forall₂_of_get {α β : Type} {R : α → β → Prop} {as : List α} : ∀ {bs : List β}, bs.length = as.length →
    (∀ (k : Nat) a b, as[k]? = some a → bs[k]? = some b → R a b) → List.Forall₂ R as bs := by
  induction as with
  | nil => intro bs hl _; cases bs with
    | nil => exact .nil
    | cons b bs => simp at hl
  | cons a as ih =>
    intro bs hl h
    cases bs with
    | nil => simp at hl
    | cons b bs =>
      exact .cons (h 0 a b rfl rfl) (ih (by simpa using hl) fun k x y hx hy => h (k + 1) x y (by simpa using hx) (by simpa using hy))

theorem Spec.BlockKind.cross {a b c : BlockObj} (h1 : BlockKind a b) (h2 : BlockKind a c) : BlockKind b c :=
  ⟨h2.bt.trans h1.bt.symm, h2.index.trans h1.index.symm, h2.len.trans h1.len.symm,
    forall₂_cross (fun _ _ _ r s => ⟨s.1.trans r.1.symm, s.2.trans r.2.symm⟩) h1.pts h2.pts,
    forall₂_cross (fun _ _ _ r s => ⟨s.1.trans r.1.symm, s.2.trans r.2.symm⟩) h1.sfs h2.sfs⟩

theorem kind_map_pt {ps qs : List PointObj} (h : List.Forall₂ SameKind ps qs) : qs.map (·.pt) = ps.map (·.pt) := by
  induction h with
  | nil => rfl
  | cons r _ ih => rw [List.map_cons, List.map_cons, ih, r.1]

theorem good_of_kind {a b : BlockObj} (h : BlockKind a b) (ha : GoodBlock a) : GoodBlock b := by
  refine ⟨by rw [h.bt]; exact ha.ids, ?_, ?_⟩
  · rw [kind_map_pt h.pts, h.bt]; exact ha.pts
  · rw [kind_map_pt h.sfs, h.bt]; exact ha.sfs

theorem mkBlock_good (bt0 bt : BlockType) (a bl : Int) (k : Nat) (h : (bt.points.map (·.id)).Nodup) : GoodBlock (mkBlock bt0 bt a bl k) := by
  refine ⟨h, ?_, ?_⟩
  · simp [mkBlock, mkPoint, Function.comp_def]
  · simp [mkBlock, mkPoint, Function.comp_def]

theorem mkBlock_fresh (bt0 bt : BlockType) (a bl : Int) (k : Nat) : FreshBlock (mkBlock bt0 bt a bl k) := by
  intro q hq
  simp only [mkBlock, List.mem_append, List.mem_map] at hq
  rcases hq with ⟨x, _, rfl⟩ | ⟨x, _, rfl⟩ <;> rfl

theorem mkBlock_refs (bt0 bt : BlockType) (a bl : Int) (k : Nat) (p : PointObj) (hp : p ∈ (mkBlock bt0 bt a bl k).pts) (blk : Nat) (id : Text)
    (h : p.sf = some (.point blk id)) : (blk = k ∧ id ∈ (sfPoints bt).map (·.id)) ∨ (blk = 0 ∧ id ∈ (sfPoints bt0).map (·.id)) := by
  simp only [mkBlock, List.mem_map] at hp
  obtain ⟨t, _, rfl⟩ := hp
  simp only [mkPoint] at h
  unfold sfTarget at h
  cases hs : t.sf with
  | none => rw [hs] at h; simp at h
  | some s =>
    rw [hs] at h
    dsimp only at h
    cases hi : pyInt 10 s with
    | some v => rw [hi] at h; simp at h
    | none =>
      rw [hi] at h
      dsimp only at h
      by_cases h1 : s ∈ (sfPoints bt).map (·.id)
      · rw [if_pos h1] at h
        simp at h
        rw [← h.1, ← h.2]
        exact .inl ⟨rfl, h1⟩
      · rw [if_neg h1] at h
        by_cases h2 : 0 < k ∧ s ∈ (sfPoints bt0).map (·.id)
        · rw [if_pos h2] at h
          simp at h
          rw [← h.1, ← h.2]
          exact .inr ⟨rfl, h2.2⟩
        · rw [if_neg h2] at h
          simp at h

/-- A loaded model and the model of the same kind loaded at another address. -/
theorem picsPair (types : Int → Py ModelType) (m : MdlObj) (hl : LoadedModel types m) (hd : ∀ mt, types m.id = .ok mt → DefOK mt)
    (hv : ValuesOK lib m) (addr' : Int) :
    ∃ mt m', mdlLoad (types m.id) (mdlNew m.id addr' m.len) = (m', .ok ()) ∧ m'.len = m.len ∧ m'.mtype = m.mtype ∧ m'.id = m.id ∧
      m'.index = .int 1 ∧ m'.loadError = false ∧ PicsPair lib mt m.blocks m'.blocks ∧
      (∀ b, m'.blocks[0]? = some b → b.bt = mt.fixed) ∧
      (∀ (k : Nat) b, m'.blocks[k]? = some b → ∃ bt a bl, b = mkBlock mt.fixed bt a bl k) := by
  obtain ⟨addr, len, m0, h1, h2, h3, h4⟩ := hl
  obtain ⟨mt, m', e1, e2, e3, e4, e5, e6, e7⟩ := mdlLoad_shift _ _ _ addr' _ _ h1
  have hdef := hd mt e1
  rw [e1] at h1 e2
  obtain ⟨F, R, n, hL⟩ := loadWith_ok _ mt m.id addr len m0 h1
  obtain ⟨F', R', n', hL'⟩ := loadWith_ok _ mt m.id addr' m0.len m' e2
  have hids : ∀ (k : Nat) bt, (k = 0 → bt = mt.fixed) → (0 < k → mt.rep = some bt) → (bt.points.map (·.id)).Nodup := by
    intro k bt q1 q2
    by_cases hk : k = 0
    · rw [q1 hk]; exact hdef.ids
    · exact hdef.repIds bt (q2 (by omega))
  have hlen0 : m.blocks.length = m0.blocks.length := h4.length_eq.symm
  have hlen1 : m'.blocks.length = m0.blocks.length := e3.length_eq.symm
  have get0 : ∀ (k : Nat) b, m.blocks[k]? = some b → ∃ b0, m0.blocks[k]? = some b0 := by
    intro k b hb
    have : k < m.blocks.length := by
      apply Classical.byContradiction
      intro hn
      rw [List.getElem?_eq_none (by omega)] at hb; cases hb
    exact ⟨_, List.getElem?_eq_getElem (by omega)⟩
  refine ⟨mt, m', by rw [e1, h2]; exact e2, by rw [e4, h2], by rw [e5, h3], e6, e7, hL'.err, ⟨?_, ?_, ?_, ?_, ?_, ?_, ?_⟩, ?_, ?_⟩
  · omega
  · intro hc
    have : m0.blocks ≠ [] := by rw [hL.blocks]; simp
    apply this
    rw [← List.length_eq_zero_iff, ← hlen0, hc]; rfl
  · intro k b c hb hc
    obtain ⟨b0, hb0⟩ := get0 k b hb
    exact (forall₂_get h4 k b0 b hb0 hb).cross (forall₂_get e3 k b0 c hb0 hc)
  · intro k b hb
    obtain ⟨b0, hb0⟩ := get0 k b hb
    have hk := forall₂_get h4 k b0 b hb0 hb
    obtain ⟨bt, a, bl, q, q1, q2⟩ := loaded_block hL k b0 hb0
    have hi := hids k bt q1 q2
    subst q
    exact ⟨good_of_kind hk (mkBlock_good _ _ _ _ _ hi), hk.index, fun p hp => hv b (List.mem_of_getElem? hb) p hp⟩
  · intro b hb
    obtain ⟨b0, hb0⟩ := get0 0 b hb
    have hk := forall₂_get h4 0 b0 b hb0 hb
    obtain ⟨bt, a, bl, q, q1, q2⟩ := loaded_block hL 0 b0 hb0
    subst q
    have : b.bt = bt := hk.bt
    rw [this, q1 rfl]
    exact hdef.fixed
  · intro k b hb
    obtain ⟨b0, hb0⟩ := get0 _ b hb
    have hk := forall₂_get h4 _ b0 b hb0 hb
    obtain ⟨bt, a, bl, q, q1, q2⟩ := loaded_block hL _ b0 hb0
    subst q
    have : b.bt = bt := hk.bt
    rw [this]
    exact ⟨q2 (by omega), hdef.rep bt (q2 (by omega))⟩
  · intro k c hc
    obtain ⟨bt, a, bl, q, q1, q2⟩ := loaded_block hL' k c hc
    have hi := hids k bt q1 q2
    subst q
    refine ⟨mkBlock_good _ _ _ _ _ hi, ?_, mkBlock_fresh _ _ _ _ _⟩
    intro p hp blk id e
    rcases mkBlock_refs _ _ _ _ _ p hp blk id e with h | h
    · exact .inl h.1
    · exact .inr h.1
  · intro b hb
    obtain ⟨bt, a, bl, q, q1, q2⟩ := loaded_block hL' 0 b hb
    subst q; exact q1 rfl
  · intro k b hb
    obtain ⟨bt, a, bl, q, _⟩ := loaded_block hL' k b hb
    exact ⟨bt, a, bl, q⟩

theorem bt_of_strip {b c d : BlockObj} (h : strip d = fillBlk b (strip c)) : d.bt = c.bt := by
  have : (strip d).bt = (fillBlk b (strip c)).bt := by rw [h]
  exact this

/-- Points without a scale factor have no value of it. -/
def Unscaled (c : BlockObj) : Prop := ∀ p ∈ c.pts, p.sf = none → p.vsf = none

theorem unscaled_strip {c : BlockObj} : Unscaled (strip c) ↔ Unscaled c := by
  unfold Unscaled strip
  simp only [List.mem_map]
  constructor
  · intro h p hp hs
    have := h _ ⟨p, hp, rfl⟩ hs
    simpa [hs] using this
  · rintro h _ ⟨p, hp, rfl⟩ hs
    dsimp only at hs ⊢
    rw [hs]
    exact h p hp hs

theorem fillFrom_vsf' (b : BlockObj) (q : PointObj) : (fillFrom b q).vsf = q.vsf := by
  unfold fillFrom
  cases picsFind b q.pt.id with
  | none => rfl
  | some p => dsimp only; unfold fill; cases p.base <;> rfl

theorem unscaled_fill {b c : BlockObj} (h : Unscaled c) : Unscaled (fillBlk b c) := by
  intro p hp hs
  simp only [fillBlk, List.mem_map] at hp
  obtain ⟨q, hq, rfl⟩ := hp
  rw [fillFrom_sf] at hs
  rw [fillFrom_vsf']
  exact h q hq hs

theorem mkBlock_unscaled (bt0 bt : BlockType) (a bl : Int) (k : Nat) : Unscaled (mkBlock bt0 bt a bl k) := by
  intro p hp _
  simp only [mkBlock, List.mem_map] at hp
  obtain ⟨t, _, rfl⟩ := hp
  rfl

/-- What is known about a loaded model after the elements have been applied. -/
theorem scaled_of_result {mt : ModelType} {single : Bool} {bs cs : List BlockObj} (hp : PicsPair lib mt bs cs) {m : MdlObj}
    (hr : PicsResult single bs cs m.blocks) (h0 : ∀ b, cs[0]? = some b → b.bt = mt.fixed)
    (hmk : ∀ (k : Nat) b, cs[k]? = some b → ∃ bt a bl, b = mkBlock mt.fixed bt a bl k) : ScaledModel m := by
  -- every block is the loaded one with other values
  have hkind : ∀ (k : Nat) c, cs[k]? = some c → ∃ d, m.blocks[k]? = some d ∧ BlockKind c d ∧ Unscaled d := by
    intro k c hc
    have hun : Unscaled (strip c) := by
      obtain ⟨bt, a, bl, rfl⟩ := hmk k c hc
      exact unscaled_strip.2 (mkBlock_unscaled _ _ _ _ _)
    have hself : BlockKind c (strip c) := kind_strip ⟨rfl, rfl, rfl, List.forall₂_same.2 fun _ _ => ⟨rfl, rfl⟩, List.forall₂_same.2 fun _ _ => ⟨rfl, rfl⟩⟩
    have back : ∀ d, BlockKind c (strip d) → BlockKind c d := by
      intro d h
      refine ⟨h.bt, h.index, h.len, ?_, h.sfs⟩
      have := h.pts
      simp only [strip, List.forall₂_map_right_iff] at this
      exact this
    have hkl : k < bs.length := by
      rw [← hp.len]
      apply Classical.byContradiction
      intro hn
      rw [List.getElem?_eq_none (by omega)] at hc; cases hc
    have hb : ∃ b, bs[k]? = some b := ⟨_, List.getElem?_eq_getElem hkl⟩
    obtain ⟨b, hb⟩ := hb
    match k, hb, hc, hkl with
    | 0, hb, hc, _ =>
      obtain ⟨d, h1, h2⟩ := hr.zero b c hb hc
      exact ⟨d, h1, back d (by rw [h2]; exact kind_fill hself), unscaled_strip.1 (by rw [h2]; exact unscaled_fill hun)⟩
    | 1, hb, hc, _ =>
      obtain ⟨d, h1, h2⟩ := hr.one b c hb hc
      exact ⟨d, h1, back d (by rw [h2]; exact kind_fill hself), unscaled_strip.1 (by rw [h2]; exact unscaled_fill hun)⟩
    | k + 2, hb, hc, hkl =>
      have hb1 : ∃ b, bs[1]? = some b := ⟨_, List.getElem?_eq_getElem (by omega)⟩
      obtain ⟨b1, hb1⟩ := hb1
      obtain ⟨d, h1, h2⟩ := hr.rest k b b1 c hb hb1 hc
      refine ⟨d, h1, back d ?_, unscaled_strip.1 ?_⟩
      · rw [h2]
        split
        · exact kind_fill hself
        · exact kind_fill (kind_fill hself)
      · rw [h2]
        split
        · exact unscaled_fill hun
        · exact unscaled_fill (unscaled_fill hun)
  have hlen := hr.len
  intro d hd p hpm
  obtain ⟨k, hk⟩ := List.getElem?_of_mem hd
  have hkl : k < m.blocks.length := by
    apply Classical.byContradiction
    intro hn
    rw [List.getElem?_eq_none (by omega)] at hk; cases hk
  refine ⟨?_, ?_⟩
  rotate_left
  · obtain ⟨c, hc⟩ : ∃ c, cs[k]? = some c := ⟨_, List.getElem?_eq_getElem (by omega)⟩
    obtain ⟨d', hd', _, hu⟩ := hkind k c hc
    rw [hk] at hd'; cases hd'
    exact hu p hpm
  intro ref href
  have hv := hr.scales k hkl d hk p hpm ref href
  cases ref with
  | const v => exact hv
  | point blk id =>
    have hck : ∃ c, cs[k]? = some c := ⟨_, List.getElem?_eq_getElem (by omega)⟩
    obtain ⟨c, hc⟩ := hck
    obtain ⟨d', hd', hcd, _⟩ := hkind k c hc
    rw [hk] at hd'; cases hd'
    obtain ⟨bt, a, bl, rfl⟩ := hmk k c hc
    -- the scale factor point exists
    have href' : ∃ q ∈ (mkBlock mt.fixed bt a bl k).pts, q.sf = some (.point blk id) := by
      obtain ⟨j, hj⟩ := List.getElem?_of_mem hpm
      have hjl : j < (mkBlock mt.fixed bt a bl k).pts.length := by
        rw [hcd.pts.length_eq]
        apply Classical.byContradiction
        intro hn
        rw [List.getElem?_eq_none (by omega)] at hj; cases hj
      refine ⟨_, List.getElem_mem hjl, ?_⟩
      have := forall₂_get hcd.pts j _ p (List.getElem?_eq_getElem hjl) hj
      rw [← this.2, href]
    obtain ⟨q, hq, hqs⟩ := href'
    have hex : ∃ c', cs[blk]? = some c' ∧ id ∈ (sfPoints c'.bt).map (·.id) := by
      rcases mkBlock_refs _ _ _ _ _ q hq blk id hqs with ⟨rfl, h⟩ | ⟨rfl, h⟩
      · exact ⟨_, hc, h⟩
      · have h0c : ∃ c, cs[0]? = some c := ⟨_, List.getElem?_eq_getElem (by omega)⟩
        obtain ⟨c0, hc0⟩ := h0c
        exact ⟨c0, hc0, by rw [h0 c0 hc0]; exact h⟩
    obtain ⟨c', hc', hid⟩ := hex
    obtain ⟨d', hd', hk', _⟩ := hkind blk c' hc'
    have hgood := (hp.fresh blk c' hc').1
    have hsf : d'.sfs.map (·.pt) = sfPoints c'.bt := by rw [kind_map_pt hk'.sfs]; exact hgood.sfs
    rw [← hsf, List.map_map] at hid
    obtain ⟨x, hx, hxid⟩ := List.mem_map.1 hid
    have hfind : ∃ y, d'.sfs.find? (fun q => decide (q.pt.id = id)) = some y := by
      cases hf : d'.sfs.find? (fun q => decide (q.pt.id = id)) with
      | some y => exact ⟨y, rfl⟩
      | none =>
        rw [List.find?_eq_none] at hf
        have := hf x hx
        simp at this
        exact absurd hxid this
    obtain ⟨y, hy⟩ := hfind
    refine ⟨d', y, hd', List.mem_of_find?_eq_some hy, by simpa using List.find?_some hy, ?_⟩
    rw [hv]
    unfold sfValue
    dsimp only
    rw [hd']
    dsimp only
    rw [hy]

/-- One model. -/
theorem model_roundtrip (types : Int → Py ModelType) (single : Bool) (m : MdlObj) (el : Elem) (hl : LoadedModel types m)
    (hd : ∀ mt, types m.id = .ok mt → DefOK mt) (hv : ValuesOK lib m) (h : modelToPics lib single m = .ok el) (addr : Int) :
    ∃ mt n cs, deviceModelFromPics lib types addr el = .ok n ∧ n.id = m.id ∧ n.len = m.len ∧ n.index.text = m.index.text ∧
      n.mtype = m.mtype ∧ n.loadError = false ∧ PicsPair lib mt m.blocks cs ∧ PicsResult single m.blocks cs n.blocks ∧ ScaledModel n := by
  unfold modelToPics at h
  cases hb : blocksToPics lib single m.blocks with
  | error e => rw [hb] at h; cases h
  | ok els =>
    rw [hb] at h
    have he := (Except.ok.inj h).symm
    obtain ⟨mt, m', h1, h2, h3, h4, h5, h6, hp, h7, h8⟩ := picsPair (lib := lib) types m hl hd hv (addr + 2)
    obtain ⟨ds, hds, hres⟩ := modelBlocks_result hp single els hb
    have hid : el.get "id" = some (intDec m.id) := by rw [he]; simp [Elem.get, Elem.attrib, dictGet]
    have hln : el.get "len" = some (intDec m.len) := by rw [he]; simp [Elem.get, Elem.attrib, dictGet]
    have hix : el.get "index" = if m.index = .int 1 then none else some m.index.text := by
      rw [he]
      by_cases hc : m.index = .int 1 <;> simp [Elem.get, Elem.attrib, dictGet, hc]
    have hch : el.children = els := by rw [he]; rfl
    have htag : el.tag = "model" := by rw [he]; rfl
    have hfrom : ∃ ix : NumText, ix.text = m.index.text ∧ modelFromPics lib m' el = ({ m' with index := ix, blocks := ds }, .ok ()) := by
      unfold modelFromPics
      rw [hix, hch]
      by_cases hc : m.index = .int 1
      · rw [if_pos hc]
        dsimp only
        rw [hds]
        exact ⟨m'.index, by rw [h5, hc], rfl⟩
      · rw [if_neg hc]
        dsimp only
        rw [hds]
        exact ⟨.str m.index.text, rfl, rfl⟩
    obtain ⟨ix, hix', hfrom⟩ := hfrom
    refine ⟨mt, { m' with index := ix, blocks := ds }, m'.blocks, ?_, h4, h2, hix', h3, h6, hp, hres, ?_⟩
    · unfold deviceModelFromPics
      rw [if_neg (by simp [htag]), hid, hln]
      dsimp only
      rw [pyInt_intDec 10 (.inr rfl), pyInt_intDec 10 (.inr rfl)]
      dsimp only
      rw [h1]
      dsimp only
      rw [hfrom]
      rfl
    · exact scaled_of_result hp hres h7 h8

/-- Model by model. -/
theorem device_roundtrip (types : Int → Py ModelType) (single : Bool) (P : MdlObj → MdlObj → Prop) (ms : List MdlObj) (e : Elem)
    (hP : ∀ m ∈ ms, ∀ el addr, modelToPics lib single m = .ok el → ∃ n, deviceModelFromPics lib types addr el = .ok n ∧ P m n)
    (h : deviceToPics lib single ms = .ok e) : ∃ ms', deviceFromPics lib types e = (ms', .ok ()) ∧ List.Forall₂ P ms ms' := by
  have key : ∀ (ms : List MdlObj) (els : List Elem) (addr : Int),
      (∀ m ∈ ms, ∀ el addr, modelToPics lib single m = .ok el → ∃ n, deviceModelFromPics lib types addr el = .ok n ∧ P m n) →
      modelsToPics lib single ms = .ok els →
      ∃ ms', modelsFromPics lib types addr els = (ms', .ok ()) ∧ List.Forall₂ P ms ms' := by
    intro ms
    induction ms with
    | nil =>
      intro els addr _ h
      rw [modelsToPics] at h
      rw [← Except.ok.inj h]
      exact ⟨[], rfl, .nil⟩
    | cons m ms ih =>
      intro els addr hP h
      rw [modelsToPics] at h
      cases hm : modelToPics lib single m with
      | error x => rw [hm] at h; cases h
      | ok el =>
        rw [hm] at h
        dsimp only at h
        cases hr : modelsToPics lib single ms with
        | error x => rw [hr] at h; cases h
        | ok els' =>
          rw [hr] at h
          have he := (Except.ok.inj h).symm
          subst he
          obtain ⟨n, h1, h2⟩ := hP m (by simp) el addr hm
          obtain ⟨ms', h3, h4⟩ := ih els' (addr + n.len + 2) (fun x hx => hP x (by simp [hx])) hr
          refine ⟨n :: ms', ?_, .cons h2 h4⟩
          rw [modelsFromPics, h1]
          dsimp only
          rw [h3]
  unfold deviceToPics at h
  cases hm : modelsToPics lib single ms with
  | error x => rw [hm] at h; cases h
  | ok els =>
    rw [hm] at h
    have he := (Except.ok.inj h).symm
    subst he
    obtain ⟨ms', h1, h2⟩ := key ms els 40002 hP hm
    refine ⟨ms', ?_, h2⟩
    unfold deviceFromPics
    rw [if_neg (by simp [Elem.tag])]
    simp only [Elem.get, Elem.attrib, dictGet, Elem.children]
    rw [h1]
    rfl

theorem get_of_lt {α : Type} {l : List α} {k : Nat} {a : α} (h : l[k]? = some a) : k < l.length := by
  apply Classical.byContradiction
  intro hn
  rw [List.getElem?_eq_none (by omega)] at h; cases h

theorem get_exists {α : Type} {l : List α} {k : Nat} (h : k < l.length) : ∃ a, l[k]? = some a := ⟨_, List.getElem?_eq_getElem h⟩

theorem same_of_fresh {b c : BlockObj} (hb : GoodBlock b) (h : BlockKind b c) (hf : FreshBlock c) : SameBlock b (fillBlk b (strip c)) :=
  same_fill hb (kind_strip h) fun _ _ q hq _ _ => fresh_strip hf q hq

/-- C41, the whole document: for a device whose models have been loaded (with well-formed definitions) and whose values can be
carried by text, if a point that has a value in the first repeating block of a model has a value in all of them, then loading
the document of the device gives a device with the same models and the same point values; and the scale factors of the points
are those of the scale factor points. -/
theorem C41_roundtrip_partial (types : Int → Py ModelType) (ms : List MdlObj) (e : Elem)
    (hms : ∀ m ∈ ms, LoadedModel types m ∧ (∀ mt, types m.id = .ok mt → DefOK mt) ∧ ValuesOK lib m ∧ FirstLeast m)
    (h : deviceToPics lib false ms = .ok e) :
    ∃ ms', deviceFromPics lib types e = (ms', .ok ()) ∧ List.Forall₂ SameModel ms ms' ∧ ∀ n ∈ ms', n.loadError = false ∧ ScaledModel n := by
  have hP : ∀ m ∈ ms, ∀ el addr, modelToPics lib false m = .ok el →
      ∃ n, deviceModelFromPics lib types addr el = .ok n ∧ (SameModel m n ∧ n.loadError = false ∧ ScaledModel n) := by
    intro m hm el addr hel
    obtain ⟨q1, q2, q3, q4⟩ := hms m hm
    obtain ⟨mt, n, cs, r1, r2, r3, r4, r5, r6, hp, hr, r7⟩ := model_roundtrip types false m el q1 q2 q3 hel addr
    refine ⟨n, r1, ⟨r2, r3, r4, r5, ?_⟩, r6, r7⟩
    apply forall₂_of_get
    · rw [hr.len, hp.len]
    · intro k b d hb hd
      have hkl : k < cs.length := by rw [hp.len]; exact get_of_lt hb
      obtain ⟨c, hc⟩ := get_exists hkl
      have hk := hp.kind k b c hb hc
      have hg := (hp.good k b hb).1
      have hf := (hp.fresh k c hc).2.2
      match k, hb, hd, hc, hk, hkl with
      | 0, hb, hd, hc, hk, _ =>
        obtain ⟨d', e1, e2⟩ := hr.zero b c hb hc
        rw [hd] at e1; cases e1
        exact same_strip (by rw [e2]; exact same_of_fresh hg hk hf)
      | 1, hb, hd, hc, hk, _ =>
        obtain ⟨d', e1, e2⟩ := hr.one b c hb hc
        rw [hd] at e1; cases e1
        exact same_strip (by rw [e2]; exact same_of_fresh hg hk hf)
      | k + 2, hb, hd, hc, hk, hkl =>
        obtain ⟨b1, hb1⟩ := get_exists (l := m.blocks) (k := 1) (by have := hp.len; omega)
        obtain ⟨d', e1, e2⟩ := hr.rest k b b1 c hb hb1 hc
        rw [hd] at e1; cases e1
        rw [if_neg (by simp)] at e2
        refine same_strip ?_
        rw [e2]
        refine same_fill hg (kind_fill (kind_strip hk)) ?_
        intro p hp' q hq hqp hpn
        refine fill_base (fresh_strip hf) hq ?_
        intro p1 hp1 hid
        exact q4 b1 hb1 k b hb p hp' hpn p1 hp1 (by rw [hid, hqp])
  obtain ⟨ms', h1, h2⟩ := device_roundtrip (lib := lib) types false
    (fun m n => SameModel m n ∧ n.loadError = false ∧ ScaledModel n) ms e hP h
  refine ⟨ms', h1, h2.imp fun _ _ h => h.1, ?_⟩
  intro n hn
  obtain ⟨k, hk⟩ := List.getElem?_of_mem hn
  have hkl := get_of_lt hk
  rw [← h2.length_eq] at hkl
  obtain ⟨m, hm⟩ := get_exists hkl
  exact (forall₂_get h2 k m n hm hk).2

/-! ### What happens to points without a value in later blocks -/

theorem later_fill_list {b1 b : BlockObj} (hb1 : GoodBlock b1) (hb : GoodBlock b) (ps : List PointObj) : ∀ (qs : List PointObj),
    (∀ p ∈ ps, p ∈ b.pts ∨ p ∈ b.sfs) → List.Forall₂ SameKind ps qs →
    List.Forall₂ (fun p q => SameKind p q ∧ (p.base ≠ none → q.base = p.base) ∧
      (p.base = none → ∀ p1 ∈ b1.pts ++ b1.sfs, p1.pt.id = p.pt.id → (∀ x ∈ qs, x.base = none) → q.base = p1.base)) ps
      (qs.map (fun q => fillFrom b (fillFrom b1 q))) := by
  induction ps with
  | nil => intro qs _ h; cases h; exact .nil
  | cons p ps ih =>
    intro qs hm h
    cases h with
    | cons hpq hrest =>
      rename_i q qs
      rw [List.map_cons]
      refine .cons ?_ ((ih qs (fun x hx => hm x (by simp [hx])) hrest).imp fun _ _ h => ⟨h.1, h.2.1, fun a p1 h1 h2 h3 =>
        h.2.2 a p1 h1 h2 fun x hx => h3 x (by simp [hx])⟩)
      have hf : fillFrom b (fillFrom b1 q) = fill (fillFrom b1 q) p := by
        have e := fillFrom_pt b1 q
        generalize fillFrom b1 q = x at e
        unfold fillFrom
        rw [e, hpq.1, picsFind_mem hb (hm p (by simp))]
      rw [hf]
      refine ⟨⟨((fill_pt _ p).trans (fillFrom_pt b1 q)).trans hpq.1, ((fill_sf _ p).trans (fillFrom_sf b1 q)).trans hpq.2⟩, ?_, ?_⟩
      · intro hne
        unfold fill
        cases hpb : p.base with
        | none => exact absurd hpb hne
        | some v => rfl
      · intro hpb p1 hp1 hid hfr
        have e : fillFrom b1 q = fill q p1 := by
          unfold fillFrom
          rw [hpq.1, ← hid, picsFind_mem hb1 (by simpa using hp1)]
        rw [e]
        unfold fill
        rw [hpb]
        dsimp only
        cases h1 : p1.base with
        | none => exact hfr q (by simp)
        | some v => rfl

/-- C41, exactly what happens, also if points have a value in the first repeating block only: the fixed block and the first
repeating block have the original values; the points of later repeating blocks have the original value if there is one and
that of the point in the first repeating block otherwise. -/
theorem C41_exact_partial (types : Int → Py ModelType) (ms : List MdlObj) (e : Elem)
    (hms : ∀ m ∈ ms, LoadedModel types m ∧ (∀ mt, types m.id = .ok mt → DefOK mt) ∧ ValuesOK lib m)
    (h : deviceToPics lib false ms = .ok e) :
    ∃ ms', deviceFromPics lib types e = (ms', .ok ()) ∧ List.Forall₂ ExactModel ms ms' := by
  refine device_roundtrip (lib := lib) types false ExactModel ms e ?_ h
  intro m hm el addr hel
  obtain ⟨q1, q2, q3⟩ := hms m hm
  obtain ⟨mt, n, cs, r1, r2, r3, r4, r5, r6, hp, hr, r7⟩ := model_roundtrip types false m el q1 q2 q3 hel addr
  refine ⟨n, r1, r2, r3, r4, r5, by rw [hr.len, hp.len], ?_, ?_⟩
  · intro k b d hk2 hb hd
    obtain ⟨c, hc⟩ := get_exists (l := cs) (k := k) (by rw [hp.len]; exact get_of_lt hb)
    have hk := hp.kind k b c hb hc
    have hg := (hp.good k b hb).1
    have hf := (hp.fresh k c hc).2.2
    match k, hb, hd, hc, hk, hk2 with
    | 0, hb, hd, hc, hk, _ =>
      obtain ⟨d', e1, e2⟩ := hr.zero b c hb hc
      rw [hd] at e1; cases e1
      exact same_strip (by rw [e2]; exact same_of_fresh hg hk hf)
    | 1, hb, hd, hc, hk, _ =>
      obtain ⟨d', e1, e2⟩ := hr.one b c hb hc
      rw [hd] at e1; cases e1
      exact same_strip (by rw [e2]; exact same_of_fresh hg hk hf)
  · intro k b1 b d hb1 hb hd
    obtain ⟨c, hc⟩ := get_exists (l := cs) (k := k + 2) (by rw [hp.len]; exact get_of_lt hb)
    have hk := kind_strip (hp.kind _ b c hb hc)
    have hg := (hp.good _ b hb).1
    have hg1 := (hp.good _ b1 hb1).1
    have hf := fresh_strip (hp.fresh _ c hc).2.2
    obtain ⟨d', e1, e2⟩ := hr.rest k b b1 c hb hb1 hc
    rw [hd] at e1; cases e1
    rw [if_neg (by simp)] at e2
    have p1 := later_fill_list hg1 hg b.pts (strip c).pts (fun _ h => .inl h) hk.pts
    have p2 := later_fill_list hg1 hg b.sfs (strip c).sfs (fun _ h => .inr h) hk.sfs
    have ed : ∀ {α : Type} (F : BlockObj → α), F (strip d) = F (fillBlk b (fillBlk b1 (strip c))) := fun F => congrArg F e2
    have epts := ed (·.pts)
    have esfs := ed (·.sfs)
    simp only [fillBlk, List.map_map] at epts esfs
    refine ⟨(ed (·.bt)).trans hk.bt, (ed (·.index)).trans hk.index, (ed (·.len)).trans hk.len, ?_, ?_⟩
    · have q : List.Forall₂ (fun p q => SameKind p q ∧ (p.base ≠ none → q.base = p.base) ∧
          (p.base = none → ∀ p1 ∈ b1.pts ++ b1.sfs, p1.pt.id = p.pt.id → q.base = p1.base)) b.pts (strip d).pts := by
        rw [epts]
        exact p1.imp fun _ _ h => ⟨h.1, h.2.1, fun a x h1 h2 => h.2.2 a x h1 h2 fun y hy => hf y (by simp [hy])⟩
      simp only [strip, List.forall₂_map_right_iff] at q
      exact q
    · have q : List.Forall₂ (fun p q => SameKind p q ∧ (p.base ≠ none → q.base = p.base) ∧
          (p.base = none → ∀ p1 ∈ b1.pts ++ b1.sfs, p1.pt.id = p.pt.id → q.base = p1.base)) b.sfs (strip d).sfs := by
        rw [esfs]
        exact p2.imp fun _ _ h => ⟨h.1, h.2.1, fun a x h1 h2 => h.2.2 a x h1 h2 fun y hy => hf y (by simp [hy])⟩
      exact q

/-! ### A single repeating block -/

theorem values_fill_list {b : BlockObj} (hb : GoodBlock b) (ps : List PointObj) : ∀ (qs : List PointObj),
    (∀ p ∈ ps, p ∈ b.pts ∨ p ∈ b.sfs) → qs.map (·.pt) = ps.map (·.pt) → (∀ q ∈ qs, q.base = none) →
    List.Forall₂ (fun p q => q.pt = p.pt ∧ q.base = p.base) ps (qs.map (fillFrom b)) := by
  induction ps with
  | nil => intro qs _ h _; cases qs with
    | nil => exact .nil
    | cons q qs => simp at h
  | cons p ps ih =>
    intro qs hm h hn
    cases qs with
    | nil => simp at h
    | cons q qs =>
      rw [List.map_cons, List.map_cons, List.cons.injEq] at h
      rw [List.map_cons]
      refine .cons ?_ (ih qs (fun x hx => hm x (by simp [hx])) h.2 fun x hx => hn x (by simp [hx]))
      have hf : fillFrom b q = fill q p := by
        unfold fillFrom
        rw [h.1, picsFind_mem hb (hm p (by simp))]
      rw [hf]
      refine ⟨(fill_pt q p).trans h.1, ?_⟩
      unfold fill
      cases hpb : p.base with
      | none => exact hn q (by simp)
      | some v => rfl

theorem values_fill {b c : BlockObj} (hb : GoodBlock b) (hc : GoodBlock c) (hbt : c.bt = b.bt) (hf : FreshBlock c) : SameValues b (fillBlk b c) :=
  ⟨hbt, values_fill_list hb b.pts c.pts (fun _ h => .inl h) (by rw [hc.pts, hb.pts, hbt]) fun q hq => hf q (by simp [hq]),
    values_fill_list hb b.sfs c.sfs (fun _ h => .inr h) (by rw [hc.sfs, hb.sfs, hbt]) fun q hq => hf q (by simp [hq])⟩

theorem values_strip {b c : BlockObj} (h : SameValues b (strip c)) : SameValues b c := by
  refine ⟨h.bt, ?_, h.sfs⟩
  have := h.pts
  simp only [strip, List.forall₂_map_right_iff] at this
  exact this

/-- C41, a document with a single repeating block for each model: the models loaded from it have as many blocks as the
original ones, the fixed blocks have the original values, all repeating blocks have the values of the first. -/
theorem C41_single (types : Int → Py ModelType) (ms : List MdlObj) (e : Elem)
    (hms : ∀ m ∈ ms, LoadedModel types m ∧ (∀ mt, types m.id = .ok mt → DefOK mt) ∧ ValuesOK lib m)
    (h : deviceToPics lib true ms = .ok e) :
    ∃ ms', deviceFromPics lib types e = (ms', .ok ()) ∧ List.Forall₂ SameFirst ms ms' ∧ ∀ n ∈ ms', n.loadError = false ∧ ScaledModel n := by
  have hP : ∀ m ∈ ms, ∀ el addr, modelToPics lib true m = .ok el →
      ∃ n, deviceModelFromPics lib types addr el = .ok n ∧ (SameFirst m n ∧ n.loadError = false ∧ ScaledModel n) := by
    intro m hm el addr hel
    obtain ⟨q1, q2, q3⟩ := hms m hm
    obtain ⟨mt, n, cs, r1, r2, r3, r4, r5, r6, hp, hr, r7⟩ := model_roundtrip types true m el q1 q2 q3 hel addr
    have val : ∀ (k : Nat) b1 c, GoodBlock b1 → b1.bt = c.bt → cs[k]? = some c → SameValues b1 (fillBlk b1 (strip c)) := by
      intro k b1 c hg hbt hc
      have hf := hp.fresh k c hc
      exact values_fill hg (good_strip hf.1) hbt.symm (fresh_strip hf.2.2)
    refine ⟨n, r1, ⟨r2, r3, r4, r5, by rw [hr.len, hp.len], ?_, ?_⟩, r6, r7⟩
    · intro b d hb hd
      obtain ⟨c, hc⟩ := get_exists (l := cs) (k := 0) (by rw [hp.len]; exact get_of_lt hb)
      obtain ⟨d', e1, e2⟩ := hr.zero b c hb hc
      rw [hd] at e1; cases e1
      exact values_strip (by rw [e2]; exact val 0 b c (hp.good 0 b hb).1 (hp.kind 0 b c hb hc).bt.symm hc)
    · intro k b1 d hb1 hd
      have hkl : k + 1 < cs.length := by rw [← hr.len]; exact get_of_lt hd
      obtain ⟨c, hc⟩ := get_exists hkl
      obtain ⟨b, hb⟩ := get_exists (l := m.blocks) (k := k + 1) (by rw [← hp.len]; exact hkl)
      have hbt : b1.bt = c.bt := by
        have e1 := (hp.rep 0 b1 hb1).1
        have e2 := (hp.rep k b hb).1
        rw [(hp.kind _ b c hb hc).bt]
        rw [e1] at e2
        exact Option.some.inj e2
      have hv := val (k + 1) b1 c (hp.good 1 b1 hb1).1 hbt hc
      match k, hd, hc, hb, hv with
      | 0, hd, hc, hb, hv =>
        obtain ⟨d', e1, e2⟩ := hr.one b1 c hb1 hc
        rw [hd] at e1; cases e1
        exact values_strip (by rw [e2]; exact hv)
      | k + 1, hd, hc, hb, hv =>
        obtain ⟨d', e1, e2⟩ := hr.rest k b b1 c hb hb1 hc
        rw [hd] at e1; cases e1
        rw [if_pos rfl] at e2
        exact values_strip (by rw [e2]; exact hv)
  obtain ⟨ms', h1, h2⟩ := device_roundtrip (lib := lib) types true
    (fun m n => SameFirst m n ∧ n.loadError = false ∧ ScaledModel n) ms e hP h
  refine ⟨ms', h1, h2.imp fun _ _ h => h.1, ?_⟩
  intro n hn
  obtain ⟨k, hk⟩ := List.getElem?_of_mem hn
  have hkl := get_of_lt hk
  rw [← h2.length_eq] at hkl
  obtain ⟨m, hm⟩ := get_exists hkl
  exact (forall₂_get h2 k m n hm hk).2

/-! ### Errors -/

/-- C41: whatever the document, loading it raises nothing but `SunSpecError` (`diverge`: the loading of a model does
not end, see C29). -/
theorem C41_errors (types : Int → Py ModelType) (root : Elem) (x : Exc) (h : (deviceFromPicsFile lib types root).2 = .error x) :
    x = .sunSpecError ∨ x = .diverge := by
  have key : ∀ e, (deviceFromPics lib types e).2 = .error x → x = .sunSpecError ∨ x = .diverge := by
    intro e h
    unfold deviceFromPics at h
    split at h
    · exact .inl (Except.error.inj h).symm
    · split at h
      · exact .inl (Except.error.inj h).symm
      · split at h
        · cases h
        · exact .inr (Except.error.inj h).symm
        · exact .inl (Except.error.inj h).symm
  unfold deviceFromPicsFile at h
  split at h
  · exact .inl (Except.error.inj h).symm
  · split at h
    · exact .inl (Except.error.inj h).symm
    · exact key _ h

end Verif
