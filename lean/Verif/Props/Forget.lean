import Verif.Spec.Forget
import Verif.Props.Transfer
import Verif.Lemmas.Truthful
import Verif.Props.Command

/-!
# C98: a read forgets the past
-/

namespace Verif
open Spec

/-! ### The same data gives the same values -/

/-- A point without what the next read replaces. -/
def stale (p : PointObj) : PointObj := { p with base := none, vsf := if p.sf = none then p.vsf else none, dirty := false }

/-- A scale factor point without what plays no part. -/
def sfClean (p : PointObj) : PointObj := { p with vsf := none, dirty := false }

def staleB (b : BlockObj) : BlockObj := { b with pts := b.pts.map stale, sfs := b.sfs.map unvalued }

def readB (b : BlockObj) : BlockObj := { b with pts := b.pts.map clean, sfs := b.sfs.map sfClean }

theorem readSfs_same (maddr : Int) (data : Bytes) (ps : List PointObj) : ∀ qs : List PointObj, ps.map unvalued = qs.map unvalued →
    (readSfs maddr data ps).2 = (readSfs maddr data qs).2 ∧
    ((readSfs maddr data ps).2 = .ok () → (readSfs maddr data ps).1.map sfClean = (readSfs maddr data qs).1.map sfClean) := by
  induction ps with
  | nil => intro qs h; cases qs with
    | nil => exact ⟨rfl, fun _ => rfl⟩
    | cons => cases h
  | cons p ps ih =>
    intro qs h
    cases qs with
    | nil => cases h
    | cons q qs =>
      simp only [List.map_cons, List.cons.injEq] at h
      obtain ⟨hp, hps⟩ := h
      have ih := ih qs hps
      have e := unvalued_eq hp
      have e1 : p.pt = q.pt := by rw [e]
      have e2 : pointBytes maddr data p = pointBytes maddr data q := by rw [e]; rfl
      rw [readSfs, readSfs, e1, e2]
      cases hv : q.pt.type.fromData (pointBytes maddr data q) with
      | error x => exact ⟨rfl, fun h => by cases h⟩
      | ok v =>
        dsimp only
        refine ⟨ih.1, fun h => ?_⟩
        simp only [List.map_cons, List.cons.injEq]
        refine ⟨?_, ih.2 h⟩
        rw [e]; rfl

theorem readPoint_same {maddr : Int} {data : Bytes} {bs bs' : List BlockObj} {p q : PointObj} (h : stale p = stale q)
    (hs : ∀ ref, p.sf = some ref → sfValue bs ref = sfValue bs' ref) :
    (readPoint maddr data bs p).map clean = (readPoint maddr data bs' q).map clean := by
  obtain ⟨a, b, c, d, e, f, g⟩ := p
  obtain ⟨a', b', c', d', e', f', g'⟩ := q
  simp only [stale, PointObj.mk.injEq] at h
  obtain ⟨rfl, rfl, rfl, rfl, _, h1, _⟩ := h
  unfold readPoint pointBytes
  dsimp only at hs ⊢
  generalize a.type.fromData _ = r
  cases r with
  | error x => rfl
  | ok v =>
    dsimp only
    split
    · cases c with
      | none => simp at h1; subst h1; rfl
      | some ref => dsimp only; rw [hs ref rfl]; rfl
    · rfl

theorem readPts_same {maddr : Int} {data : Bytes} {bs bs' : List BlockObj} (ps : List PointObj) :
    ∀ qs : List PointObj, ps.map stale = qs.map stale → (∀ p ∈ ps, ∀ ref, p.sf = some ref → sfValue bs ref = sfValue bs' ref) →
    (readPts maddr data bs ps).2 = (readPts maddr data bs' qs).2 ∧
    ((readPts maddr data bs ps).2 = .ok () → (readPts maddr data bs ps).1.map clean = (readPts maddr data bs' qs).1.map clean) := by
  induction ps with
  | nil => intro qs h _; cases qs with
    | nil => exact ⟨rfl, fun _ => rfl⟩
    | cons => cases h
  | cons p ps ih =>
    intro qs h hs
    cases qs with
    | nil => cases h
    | cons q qs =>
      simp only [List.map_cons, List.cons.injEq] at h
      obtain ⟨hp, hps⟩ := h
      have ih := ih qs hps fun x hx => hs x (by simp [hx])
      have e := readPoint_same (maddr := maddr) (data := data) hp (hs p (by simp))
      rw [readPts, readPts]
      generalize readPoint maddr data bs p = r at e ⊢
      generalize readPoint maddr data bs' q = r' at e ⊢
      cases r with
      | error x =>
        cases r' with
        | error y => cases e; exact ⟨rfl, fun h => by cases h⟩
        | ok y => cases e
      | ok x =>
        cases r' with
        | error y => cases e
        | ok y =>
          have e : clean x = clean y := Except.ok.inj e
          dsimp only
          refine ⟨ih.1, fun h => ?_⟩
          simp only [List.map_cons, List.cons.injEq]
          exact ⟨e, ih.2 h⟩

theorem sfValue_same {bs bs' : List BlockObj} {ref : SfRef}
    (h : ∀ blk id, ref = .point blk id → bs[blk]?.map (fun b => b.sfs.map sfClean) = bs'[blk]?.map (fun b => b.sfs.map sfClean)) :
    sfValue bs ref = sfValue bs' ref := by
  cases ref with
  | const v => rfl
  | point blk id =>
    have h := h blk id rfl
    have key : ∀ l l' : List PointObj, l.map sfClean = l'.map sfClean →
        (l.find? fun q => decide (q.pt.id = id)).map (·.base) = (l'.find? fun q => decide (q.pt.id = id)).map (·.base) := by
      intro l
      induction l with
      | nil => intro l' h; cases l' with
        | nil => rfl
        | cons => cases h
      | cons p l ih =>
        intro l' h
        cases l' with
        | nil => cases h
        | cons q l' =>
          simp only [List.map_cons, List.cons.injEq] at h
          have e1 : p.pt = q.pt := by have := congrArg (fun x : PointObj => x.pt) h.1; exact this
          have e2 : p.base = q.base := by have := congrArg (fun x : PointObj => x.base) h.1; exact this
          rw [List.find?_cons, List.find?_cons, e1]
          split
          · simp [e2]
          · exact ih l' h.2
    unfold sfValue
    dsimp only
    cases h1 : bs[blk]? with
    | none =>
      cases h2 : bs'[blk]? with
      | none => rfl
      | some b' => rw [h1, h2] at h; simp at h
    | some b =>
      cases h2 : bs'[blk]? with
      | none => rw [h1, h2] at h; simp at h
      | some b' =>
        rw [h1, h2] at h
        simp only [Option.map_some, Option.some.injEq] at h
        have := key _ _ h
        dsimp only
        generalize List.find? _ b.sfs = x at this ⊢
        generalize List.find? _ b'.sfs = y at this ⊢
        cases x <;> cases y <;> simp_all

theorem readBlocksLoop_same {maddr : Int} {data : Bytes} (rest : List BlockObj) : ∀ (rest' done done' : List BlockObj),
    rest.map staleB = rest'.map staleB → done.map readB = done'.map readB →
    (∀ (i : Nat) (b : BlockObj), rest[i]? = some b → ∀ p ∈ b.pts, ∀ blk id, p.sf = some (.point blk id) → blk ≤ done.length + i) →
    (readBlocksLoop maddr data done rest).2 = (readBlocksLoop maddr data done' rest').2 ∧
    ((readBlocksLoop maddr data done rest).2 = .ok () →
      (readBlocksLoop maddr data done rest).1.map readB = (readBlocksLoop maddr data done' rest').1.map readB) := by
  induction rest with
  | nil =>
    intro rest' done done' h hd _
    cases rest' with
    | nil => exact ⟨rfl, fun _ => hd⟩
    | cons => cases h
  | cons b rest ih =>
    intro rest' done done' h hd href
    cases rest' with
    | nil => cases h
    | cons c rest' =>
      simp only [List.map_cons, List.cons.injEq] at h
      obtain ⟨hb, hrest⟩ := h
      have hlen : done.length = done'.length := by have := congrArg List.length hd; simpa using this
      have hpts : b.pts.map stale = c.pts.map stale := by have := congrArg (fun x : BlockObj => x.pts) hb; exact this
      have hsfs : b.sfs.map unvalued = c.sfs.map unvalued := by have := congrArg (fun x : BlockObj => x.sfs) hb; exact this
      have h1 := readSfs_same maddr data b.sfs c.sfs hsfs
      rw [readBlocksLoop, readBlocksLoop]
      generalize readSfs maddr data b.sfs = x at h1 ⊢
      generalize readSfs maddr data c.sfs = y at h1 ⊢
      obtain ⟨sfs, r⟩ := x
      obtain ⟨sfs', r'⟩ := y
      dsimp only at h1
      obtain ⟨rfl, h1⟩ := h1
      cases r with
      | error e => exact ⟨rfl, fun h => by cases h⟩
      | ok u =>
        have h1 := h1 rfl
        dsimp only
        have h2 := readPts_same (maddr := maddr) (data := data) (bs := done ++ { b with sfs := sfs } :: rest)
          (bs' := done' ++ { c with sfs := sfs' } :: rest') b.pts c.pts hpts (by
            intro p hp ref hr
            apply sfValue_same
            intro blk id hre
            subst hre
            have := href 0 b rfl p hp blk id hr
            by_cases hlt : blk < done.length
            · rw [List.getElem?_append_left hlt, List.getElem?_append_left (by omega)]
              have := congrArg (fun l : List BlockObj => l[blk]?.map (·.sfs)) hd
              simp only [List.getElem?_map, Option.map_map] at this
              exact this
            · have hbe : blk = done.length := by omega
              subst hbe
              rw [List.getElem?_append_right (Nat.le_refl _), List.getElem?_append_right (by omega), hlen]
              simp [h1])
        generalize readPts maddr data (done ++ { b with sfs := sfs } :: rest) b.pts = x at h2 ⊢
        generalize readPts maddr data (done' ++ { c with sfs := sfs' } :: rest') c.pts = y at h2 ⊢
        obtain ⟨pts, r⟩ := x
        obtain ⟨pts', r'⟩ := y
        dsimp only at h2
        obtain ⟨rfl, h2⟩ := h2
        cases r with
        | error e => exact ⟨rfl, fun h => by cases h⟩
        | ok u =>
          have h2 := h2 rfl
          dsimp only
          refine ih _ _ _ hrest ?_ ?_
          · rw [List.map_append, List.map_append, hd]
            have : readB { b with sfs := sfs, pts := pts } = readB { c with sfs := sfs', pts := pts' } := by
              obtain ⟨a1, a2, a3, a4, a5, a6⟩ := b
              obtain ⟨b1, b2, b3, b4, b5, b6⟩ := c
              simp only [staleB, BlockObj.mk.injEq] at hb
              obtain ⟨rfl, rfl, rfl, rfl, _⟩ := hb
              unfold readB
              dsimp only
              rw [h1, h2]
            simp only [List.map_cons, List.map_nil, this]
          · intro i d hdd p hp blk id hsf
            have := href (i + 1) d (by simpa using hdd) p hp blk id hsf
            simp; omega

/-! ### What has been read of points without scale factor -/

theorem readPts_unused {maddr : Int} {data : Bytes} {bs : List BlockObj} (ps : List PointObj) (h : ∀ p ∈ ps, p.sf = none → p.vsf = none) :
    ∀ p ∈ (readPts maddr data bs ps).1, p.sf = none → p.vsf = none := by
  induction ps with
  | nil => intro p hp; rw [readPts] at hp; cases hp
  | cons q ps ih =>
    rw [readPts]
    cases hq : readPoint maddr data bs q with
    | error e => exact h
    | ok q' =>
      dsimp only
      intro p hp
      rcases List.mem_cons.1 hp with rfl | hp
      · unfold readPoint at hq
        split at hq
        · cases hq
        · split at hq
          · split at hq
            · rename_i ref hr
              have := (Except.ok.inj hq).symm; subst this
              intro hn; rw [hn] at hr; cases hr
            · have := (Except.ok.inj hq).symm; subst this
              exact h q (by simp)
          · have := (Except.ok.inj hq).symm; subst this
            exact fun _ => rfl
      · exact ih (fun x hx => h x (by simp [hx])) p hp

/-- No point without scale factor has a scale factor value. -/
def UnusedB (bs : List BlockObj) : Prop := ∀ b ∈ bs, ∀ p ∈ b.pts, p.sf = none → p.vsf = none

theorem readBlocksLoop_unused {maddr : Int} {data : Bytes} (rest : List BlockObj) : ∀ done : List BlockObj, UnusedB done → UnusedB rest →
    UnusedB (readBlocksLoop maddr data done rest).1 := by
  induction rest with
  | nil => intro done hd _; rw [readBlocksLoop]; exact hd
  | cons b rest ih =>
    intro done hd hr
    have key : ∀ (c : BlockObj) (l : List BlockObj), (∀ p ∈ c.pts, p.sf = none → p.vsf = none) → UnusedB l → UnusedB (done ++ c :: l) := by
      intro c l hc hl x hx
      rcases List.mem_append.1 hx with hx | hx
      · exact hd x hx
      · rcases List.mem_cons.1 hx with rfl | hx
        · exact hc
        · exact hl x hx
    have hr' : UnusedB rest := fun x hx => hr x (by simp [hx])
    rw [readBlocksLoop]
    generalize readSfs maddr data b.sfs = x
    obtain ⟨sfs, r⟩ := x
    cases r with
    | error e => exact key _ _ (hr b (by simp)) hr'
    | ok u =>
      dsimp only
      have h2 := readPts_unused (maddr := maddr) (data := data) (bs := done ++ { b with sfs := sfs } :: rest) b.pts (hr b (by simp))
      generalize readPts maddr data (done ++ { b with sfs := sfs } :: rest) b.pts = x at h2 ⊢
      obtain ⟨pts, r⟩ := x
      cases r with
      | error e => exact key _ _ h2 hr'
      | ok u => exact ih _ (key _ _ h2 (fun x hx => by cases hx)) hr'

theorem unusedB_iff (m : MdlObj) : UnusedB m.blocks ↔ Unused m := by
  constructor
  · intro h i j p hp hs
    unfold ptAt at hp
    cases hb : m.blocks[i]? with
    | none => rw [hb] at hp; cases hp
    | some b =>
      rw [hb] at hp
      exact h b (List.mem_of_getElem? hb) p (List.mem_of_getElem? hp) hs
  · intro h b hb p hp hs
    obtain ⟨i, hi⟩ := List.mem_iff_getElem?.1 hb
    obtain ⟨j, hj⟩ := List.mem_iff_getElem?.1 hp
    exact h i j p (by unfold ptAt; rw [hi]; exact hj) hs

theorem readPoints_unused {σ} (dev : MbDev σ) (s : σ) (m : MdlObj) (h : Unused m) : Unused (readPoints dev s m).2.1 := by
  unfold readPoints
  split
  · exact h
  · generalize readData dev m s = x
    obtain ⟨s', r⟩ := x
    cases r with
    | error e => exact h
    | ok d =>
      dsimp only
      unfold readApply
      cases d with
      | none => exact h
      | some d =>
        dsimp only
        split
        · exact h
        · split
          · exact h
          · exact (unusedB_iff _).1 (readBlocksLoop_unused m.blocks [] (fun x hx => by cases hx) ((unusedB_iff m).2 h))

theorem unused_clean {m m' : MdlObj} (he : cleanModel m' = cleanModel m) (h : Unused m) : Unused m' := by
  intro i j p hp hs
  have e := ptAt_clean m' i j
  rw [he, ptAt_clean, hp] at e
  cases hq : ptAt m i j with
  | none => rw [hq] at e; cases e
  | some q =>
    rw [hq] at e
    have e : clean q = clean p := Option.some.inj e
    have e1 : q.sf = p.sf := by have := congrArg (fun x : PointObj => x.sf) e; exact this
    have e2 : q.vsf = p.vsf := by have := congrArg (fun x : PointObj => x.vsf) e; exact this
    rw [← e2]; exact h i j q hq (e1.trans hs)

theorem unused_putAt {m : MdlObj} {i j : Nat} {p p' : PointObj} (hp : ptAt m i j = some p) (e1 : p'.sf = p.sf) (e2 : p'.vsf = p.vsf)
    (h : Unused m) : Unused (putAt m i j p') := by
  rw [← unusedB_iff] at h ⊢
  intro b hb q hq hs
  unfold putAt at hb
  obtain ⟨k, hk⟩ := List.mem_iff_getElem?.1 hb
  dsimp only at hk
  rw [List.getElem?_modify] at hk
  unfold ptAt at hp
  by_cases hik : i = k
  · subst hik
    cases hb' : m.blocks[i]? with
    | none => rw [hb'] at hk; cases hk
    | some b' =>
      rw [hb'] at hk hp
      simp only [if_true, Option.map_eq_map, Option.map_some, Option.some.injEq] at hk
      subst hk
      rcases List.mem_or_eq_of_mem_set hq with hq | rfl
      · exact h b' (List.mem_of_getElem? hb') q hq hs
      · rw [e2]; exact h b' (List.mem_of_getElem? hb') p (List.mem_of_getElem? hp) (e1 ▸ hs)
  · simp only [if_neg hik] at hk
    have hk : m.blocks[k]? = some b := by cases hx : m.blocks[k]? with
      | none => rw [hx] at hk; cases hk
      | some y => rw [hx] at hk; exact hk
    exact h b (List.mem_of_getElem? hk) q hq hs

theorem history_unused {σ} {dev : MbDev σ} {lib : FloatLib} {m0 m : MdlObj} {h : List Event} {s : σ} (h0 : Unused m0)
    (hh : History dev lib m0 h s m) : Unused m := by
  induction hh with
  | start s => exact h0
  | assign i j p p' v _ hp hv ih => exact unused_putAt hp (by rw [setValue_ok hv]) (by rw [setValue_ok hv]) ih
  | refused i j p p' v e _ hp hv ih => rw [setValue_error hv, putAt_self hp]; exact ih
  | @read h s m s' m' r _ hr ih =>
    have := readPoints_unused dev s m ih
    rw [hr] at this
    exact this
  | @write h s m s' m' _ hw ih =>
    have e := writePoints_ok hw
    subst e
    exact unused_clean (by simp [cleanModel, Function.comp_def, clean]) ih
  | @fail h s m s' m' e _ hw ih =>
    have hu := (writePoints_unmarked dev s m).1
    rw [hw] at hu
    exact unused_clean hu ih
  | writeOne i j p p' _ hp hw ih => exact unused_putAt hp (by rw [writePoint_ok hw]; rfl) (by rw [writePoint_ok hw]; rfl) ih
  | failOne i j p p' e _ hp hw ih => rw [writePoint_error hw, putAt_self hp]; exact ih
  | change s' _ ih => exact ih

/-! ### C98 -/

theorem layout_stale {m m0 : MdlObj} (hl : layout m = layout m0) (h : Unused m) (h0 : Unused m0) : m.blocks.map staleB = m0.blocks.map staleB := by
  have key : ∀ m : MdlObj, Unused m → m.blocks.map staleB = (layout m).blocks := by
    intro m h
    rw [← unusedB_iff] at h
    unfold layout
    apply List.map_congr_left
    intro b hb
    unfold staleB
    congr 1
    apply List.map_congr_left
    intro p hp
    unfold stale unvalued
    split
    · rename_i hs; rw [h b hb p hp hs]
    · rfl
  rw [key m h, key m0 h0, hl]

theorem readData_layout {σ} (dev : MbDev σ) {m m0 : MdlObj} (hl : layout m = layout m0) (s : σ) : readData dev m s = readData dev m0 s := by
  have e1 : m.readBlocks = m0.readBlocks := by have := congrArg (fun x : MdlObj => x.readBlocks) hl; exact this
  have e2 : m.addr = m0.addr := by have := congrArg (fun x : MdlObj => x.addr) hl; exact this
  have e3 : m.len = m0.len := by have := congrArg (fun x : MdlObj => x.len) hl; exact this
  unfold readData readPlan
  rw [e1, e2, e3]

theorem readings_of {bs bs' : List BlockObj} (h : bs.map readB = bs'.map readB) (i j : Nat) :
    ((bs[i]?).bind (·.pts[j]?)).map clean = ((bs'[i]?).bind (·.pts[j]?)).map clean := by
  have e := congrArg (fun l : List BlockObj => ((l[i]?).bind (·.pts[j]?))) h
  simp only [List.getElem?_map] at e
  cases h1 : bs[i]? with
  | none =>
    cases h2 : bs'[i]? with
    | none => rfl
    | some b' =>
      have := congrArg (fun l : List BlockObj => l[i]?) h
      simp [h1, h2] at this
  | some b =>
    cases h2 : bs'[i]? with
    | none =>
      have := congrArg (fun l : List BlockObj => l[i]?) h
      simp [h1, h2] at this
    | some b' =>
      rw [h1, h2] at e
      simpa [readB] using e

/-- C98, any device: whatever has been done with a model before, reading it sends the same requests and ends (returning or raising) in
the same way as reading the model as it was loaded; if the device has delivered data and the read has returned, then all points show
the same. -/
theorem C98_forgets {σ} (dev : MbDev σ) (lib : FloatLib) (m0 m : MdlObj) (h : List Event) (s : σ) (hm : ModelOK m0) (hu : Unused m0)
    (hh : History dev lib m0 h s m) :
    (readPoints dev s m).1 = (readPoints dev s m0).1 ∧ (readPoints dev s m).2.2 = (readPoints dev s m0).2.2 ∧
    ∀ s' d, readData dev m0 s = (s', .ok (some d)) → d ≠ [] → (readPoints dev s m).2.2 = .ok () →
      SameReadings (readPoints dev s m).2.1 (readPoints dev s m0).2.1 := by
  have hl := history_layout hh
  have e4 : m.mtype = m0.mtype := by have := congrArg (fun x : MdlObj => x.mtype) hl; exact this
  have e2 : m.addr = m0.addr := by have := congrArg (fun x : MdlObj => x.addr) hl; exact this
  have e3 : m.len = m0.len := by have := congrArg (fun x : MdlObj => x.len) hl; exact this
  have hm' : ModelOK m := (modelOK_layout m).1 (hl ▸ (modelOK_layout m0).2 hm)
  have key := fun data => readBlocksLoop_same (maddr := m0.addr) (data := data) m.blocks m0.blocks [] []
    (layout_stale hl (history_unused hu hh) hu) rfl (by
      intro i b hb p hp blk id hs
      have := (hm'.refs i b hb p hp blk id hs).1
      simp; omega)
  unfold readPoints
  rw [if_neg (e4 ▸ hm.mtype), if_neg hm.mtype, readData_layout dev hl]
  generalize readData dev m0 s = x
  obtain ⟨s', r⟩ := x
  cases r with
  | error e => exact ⟨rfl, rfl, fun s' d hd => by simp at hd⟩
  | ok d =>
    refine ⟨rfl, ?_, ?_⟩
    · dsimp only
      congr 1
      unfold readApply
      cases d with
      | none => rfl
      | some d =>
        dsimp only
        rw [e2, e3]
        split
        · rfl
        · split
          · rfl
          · exact (key d).1
    · intro s'' d' hd hne hok
      simp only [Prod.mk.injEq, Except.ok.injEq] at hd
      obtain ⟨_, rfl⟩ := hd
      dsimp only at hok ⊢
      unfold readApply at hok ⊢
      dsimp only at hok ⊢
      rw [if_neg hne, e2, e3] at hok
      simp only [if_neg hne, e2, e3]
      split
      · rename_i hc
        rw [if_pos hc] at hok
        cases hok
      · rename_i hc
        rw [if_neg hc] at hok
        dsimp only at hok ⊢
        intro i j
        refine readings_of ((key d').2 ?_) i j
        generalize (readBlocksLoop m0.addr d' [] m.blocks).2 = r at hok ⊢
        cases r with
        | ok u => rfl
        | error e => cases hok

/-- Points that show the same have the same value. -/
theorem C98_values (lib : FloatLib) (m m' : MdlObj) (h : SameReadings m m') (i j : Nat) (p p' : PointObj) (hp : ptAt m i j = some p)
    (hp' : ptAt m' i j = some p') : getValue lib p = getValue lib p' := by
  have e := h i j
  rw [hp, hp'] at e
  have e : clean p = clean p' := Option.some.inj e
  have e1 : p.base = p'.base := by have := congrArg (fun x : PointObj => x.base) e; exact this
  have e2 : p.vsf = p'.vsf := by have := congrArg (fun x : PointObj => x.vsf) e; exact this
  unfold getValue
  rw [e1, e2]

theorem readChunks_size {σ} {dev : MbDev σ} {I : σ → Prop} (hd : FullReplies dev I) (plan : List (Int × Int)) :
    ∀ (s s' : σ) (acc data : Bytes), I s → (∀ c ∈ plan, 0 ≤ c.2) → readChunks dev plan acc s = (s', .ok data) →
    (data.length : Int) = acc.length + 2 * (plan.map (·.2)).sum := by
  induction plan with
  | nil =>
    intro s s' acc data _ _ h
    simp only [readChunks, Prod.mk.injEq, Except.ok.injEq] at h
    rw [h.2]; simp
  | cons c plan ih =>
    intro s s' acc data hI hpos h
    obtain ⟨a, n⟩ := c
    unfold readChunks at h
    cases hx : cdRead dev s a n with
    | mk s1 r1 =>
      rw [hx] at h
      cases r1 with
      | error e => simp at h
      | ok r =>
        have hr := cdRead_ok_iff hx
        obtain ⟨hI1, d, rfl, hl⟩ := hd s a n s1 r hI (hpos (a, n) (by simp)) hr
        dsimp only at h
        have := ih s1 s' _ data hI1 (fun c hc => hpos c (by simp [hc])) h
        rw [this]
        simp only [List.length_append, List.map_cons, List.sum_cons]
        omega

theorem readData_size {σ} {dev : MbDev σ} {I : σ → Prop} (hd : FullReplies dev I) {m : MdlObj}
    (ht : Tiles m.addr (m.addr + m.len) (readPlan m)) (hpos : ∀ c ∈ readPlan m, 0 ≤ c.2) {s s' : σ} (hI : I s) {r : Option Bytes}
    (h : readData dev m s = (s', .ok r)) : ∃ d, r = some d ∧ (d.length : Int) = 2 * m.len := by
  unfold readData at h
  by_cases h1 : m.readBlocks.length = 1
  · rw [if_pos h1] at h
    have hp : readPlan m = [(m.addr, m.len)] := by unfold readPlan; rw [if_pos h1]
    exact (hd s _ _ s' r hI (hpos (m.addr, m.len) (by rw [hp]; simp)) (cdRead_ok_iff h)).2
  · rw [if_neg h1] at h
    cases hx : readChunks dev (readPlan m) [] s with
    | mk s1 r1 =>
      rw [hx] at h
      cases r1 with
      | error e => simp at h
      | ok data =>
        simp only [Prod.mk.injEq, Except.ok.injEq] at h
        refine ⟨data, h.2.symm, ?_⟩
        have := readChunks_size hd _ s s1 [] data hI hpos hx
        rw [tiles_total ht] at this
        simp at this
        omega

/-- C98, devices that deliver what is requested or raise (mapped devices, RTU and TCP devices whose slave conforms to Modbus:
`mapDev_full`, `rtuDev_full`, `tcpDev_full`): whatever two programs have done with a model since it was loaded, if they read it from the
device in the same state, then the reads send the same requests, end in the same way, and if they return, all points show the same. -/
theorem C98_programs {σ} {dev : MbDev σ} {I : σ → Prop} (hd : FullReplies dev I) (lib : FloatLib) (m0 m m' : MdlObj) (h h' : List Event)
    (s : σ) (hI : I s) (hm : ModelOK m0) (hu : Unused m0) (ht : Tiles m0.addr (m0.addr + m0.len) (readPlan m0))
    (hpos : ∀ c ∈ readPlan m0, 0 ≤ c.2) (hh : History dev lib m0 h s m) (hh' : History dev lib m0 h' s m') :
    (readPoints dev s m).1 = (readPoints dev s m').1 ∧ (readPoints dev s m).2.2 = (readPoints dev s m').2.2 ∧
    ((readPoints dev s m).2.2 = .ok () → SameReadings (readPoints dev s m).2.1 (readPoints dev s m').2.1) := by
  obtain ⟨a1, a2, a3⟩ := C98_forgets dev lib m0 m h s hm hu hh
  obtain ⟨b1, b2, b3⟩ := C98_forgets dev lib m0 m' h' s hm hu hh'
  refine ⟨a1.trans b1.symm, a2.trans b2.symm, fun hok => ?_⟩
  have hok0 : (readPoints dev s m0).2.2 = .ok () := a2 ▸ hok
  cases hx : readData dev m0 s with
  | mk s1 r =>
    cases r with
    | error e => unfold readPoints at hok0; rw [if_neg hm.mtype, hx] at hok0; cases hok0
    | ok r =>
      obtain ⟨d, rfl, hl⟩ := readData_size hd ht hpos hI hx
      by_cases hne : d = []
      · -- no registers, no points
        have h0 : m0.len = 0 := by rw [hne] at hl; simp at hl; omega
        have none : ∀ (x : MdlObj) (i j : Nat), layout x = layout m0 → ptAt x i j = none := by
          intro x i j hx
          cases hp : ptAt x i j with
          | none => rfl
          | some p =>
            obtain ⟨p0, hp0, _⟩ := same_layout hx i j p hp
            unfold ptAt at hp0
            cases hb : m0.blocks[i]? with
            | none => rw [hb] at hp0; cases hp0
            | some b =>
              rw [hb] at hp0
              have hbm := List.mem_of_getElem? hb
              have hpm : p0 ∈ b.pts := List.mem_of_getElem? hp0
              have h1 := hm.inside b hbm p0 (.inl hpm)
              have h2 := lenOK_pos (hm.len b hbm p0 (.inl hpm))
              omega
        intro i j
        have l1 : layout (readPoints dev s m).2.1 = layout m0 := by
          rw [← layout_bare, readPoints_bare, layout_bare]; exact history_layout hh
        have l2 : layout (readPoints dev s m').2.1 = layout m0 := by
          rw [← layout_bare, readPoints_bare, layout_bare]; exact history_layout hh'
        rw [none _ i j l1, none _ i j l2]
      · intro i j
        exact (a3 s1 d hx hne hok i j).trans (b3 s1 d hx hne (b2 ▸ hok0) i j).symm

/-- C98: the models of a device that has been scanned are as the theorems above require (for `ModelOK` see `loaded_modelOK`, for `Tiles`
and the sizes `C31_cover` and `C31_whole`), whatever the definition and even if loading it has failed. -/
theorem C98_loaded (mt : Py ModelType) (id addr len : Int) : Unused (mdlLoad mt (mdlNew id addr len)).1 :=
  (unusedB_iff _).1 fun b hb p hp _ => (mdlLoad_fresh mt id addr len b hb p hp).2

/-- Non-vacuity of `C98_programs`: one program has assigned 5 to a point and not written it, the other has done nothing. -/
example : SameReadings (readPoints mapDev exMap sess1).2.1 (readPoints mapDev exMap exModel).2.1 ∧
    ¬ SameReadings sess1 exModel := by
  refine ⟨(C98_programs mapDev_full noLib exModel sess1 exModel _ [] exMap trivial exModel_ok ?_ exModel_tiles
    (by rw [exModel_plan]; simp) sess1_history (.start exMap)).2.2 (by decide +kernel), ?_⟩
  · rw [← unusedB_iff]; unfold UnusedB; decide +kernel
  · intro h
    have := h 0 0
    revert this
    decide +kernel

end Verif
