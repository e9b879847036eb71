import Verif.Spec.Session
import Verif.Lemmas.ClientRead

/-!
# Lemmas: what operations on a model keep
-/

namespace Verif
open Spec

/-! ### Reading keeps everything but the values -/

/-- The point without its value, but with its mark. -/
def bareP (p : PointObj) : PointObj := { p with base := none, vsf := none }

def bareB (b : BlockObj) : BlockObj := { b with pts := b.pts.map bareP, sfs := b.sfs.map bareP }

def bareM (m : MdlObj) : MdlObj := { m with blocks := m.blocks.map bareB }

theorem readSfs_bare (maddr : Int) (data : Bytes) (ps : List PointObj) : (readSfs maddr data ps).1.map bareP = ps.map bareP := by
  induction ps with
  | nil => rfl
  | cons p ps ih =>
    rw [readSfs]
    split
    · rfl
    · dsimp only
      rw [List.map_cons, ih]
      rfl

theorem readPoint_bare {maddr : Int} {data : Bytes} {bs : List BlockObj} {p p' : PointObj} (h : readPoint maddr data bs p = .ok p') :
    bareP p' = bareP p := by
  unfold readPoint at h
  split at h
  · cases h
  · split at h
    · split at h <;> cases h <;> rfl
    · cases h; rfl

theorem readPts_bare (maddr : Int) (data : Bytes) (bs : List BlockObj) (ps : List PointObj) :
    (readPts maddr data bs ps).1.map bareP = ps.map bareP := by
  induction ps with
  | nil => rfl
  | cons p ps ih =>
    rw [readPts]
    split
    · rfl
    · rename_i p' h
      dsimp only
      rw [List.map_cons, ih, readPoint_bare h]
      rfl

theorem readBlocksLoop_bare (maddr : Int) (data : Bytes) (rest : List BlockObj) :
    ∀ done, (readBlocksLoop maddr data done rest).1.map bareB = (done ++ rest).map bareB := by
  induction rest with
  | nil => intro done; simp [readBlocksLoop]
  | cons b rest ih =>
    intro done
    have h1 := readSfs_bare maddr data b.sfs
    rw [readBlocksLoop]
    split <;> rename_i heq <;> rw [heq] at h1
    · dsimp only at h1 ⊢
      simp only [List.map_append, List.map_cons]
      simp only [bareB, h1]
    · rename_i sfs _
      have h2 := readPts_bare maddr data (done ++ { b with sfs := sfs } :: rest) b.pts
      split <;> rename_i heq2 <;> rw [heq2] at h2
      · dsimp only at h1 h2 ⊢
        simp only [List.map_append, List.map_cons]
        simp only [bareB, h1, h2]
      · rw [ih]
        dsimp only at h1 h2 ⊢
        simp only [List.map_append, List.map_cons, List.map_nil, List.append_assoc, List.cons_append, List.nil_append]
        simp only [bareB, h1, h2]

theorem readApply_bare (m : MdlObj) (data : Option Bytes) : bareM (readApply m data).1 = bareM m := by
  unfold readApply
  split
  · rfl
  · split
    · rfl
    · split
      · rfl
      · show ({ m with blocks := (readBlocksLoop m.addr _ [] m.blocks).1.map bareB } : MdlObj) = _
        rw [readBlocksLoop_bare]
        rfl

/-- Reading a model, whatever the device answers, changes only values and scale factors. -/
theorem readPoints_bare {σ} (dev : MbDev σ) (s : σ) (m : MdlObj) : bareM (readPoints dev s m).2.1 = bareM m := by
  unfold readPoints
  split
  · rfl
  · split
    · rfl
    · exact readApply_bare m _

/-! ### A write that returns clears all marks -/

theorem wpPoint_ok {σ} {dev : MbDev σ} {acc acc' : WAcc σ} {p p' : PointObj} (h : wpPoint dev acc p = (p', acc', .ok ())) : p' = clean p := by
  unfold wpPoint at h
  by_cases hd : p.dirty = true
  · rw [if_pos hd] at h
    split at h
    · cases h
    · split at h
      · cases h; rfl
      · split at h
        · cases h; rfl
        · split at h
          · cases h
          · cases h; rfl
  · rw [if_neg hd] at h
    cases h
    have hd : p.dirty = false := by simpa using hd
    show p = _
    rw [clean, ← hd]

theorem wpPoints_ok {σ} {dev : MbDev σ} (ps : List PointObj) : ∀ {acc acc' : WAcc σ} {ps' : List PointObj},
    wpPoints dev ps acc = (ps', acc', .ok ()) → ps' = ps.map clean := by
  induction ps with
  | nil => intro acc acc' ps' h; rw [wpPoints] at h; cases h; rfl
  | cons p ps ih =>
    intro acc acc' ps' h
    rw [wpPoints] at h
    split at h
    · cases h
    · rename_i p1 acc1 u heq
      dsimp only at h
      have h1 := wpPoint_ok heq
      have h2 := @ih acc1 (wpPoints dev ps acc1).2.1 (wpPoints dev ps acc1).1
      simp only [Prod.mk.injEq] at h
      obtain ⟨e1, e2, e3⟩ := h
      have := h2 (Prod.ext rfl (Prod.ext rfl e3))
      rw [← e1, this, h1]
      rfl

theorem wpBlocks_ok {σ} {dev : MbDev σ} (bs : List BlockObj) : ∀ {s s' : σ} {bs' : List BlockObj},
    wpBlocks dev bs s = (s', bs', .ok ()) → bs' = bs.map fun b => { b with pts := b.pts.map clean } := by
  induction bs with
  | nil => intro s s' bs' h; rw [wpBlocks] at h; cases h; rfl
  | cons b bs ih =>
    intro s s' bs' h
    rw [wpBlocks] at h
    split at h
    · cases h
    · rename_i pts acc u heq
      have h1 := wpPoints_ok _ heq
      split at h
      · cases h
      · rename_i s1 u2 heq2
        simp only [Prod.mk.injEq] at h
        obtain ⟨e1, e2, e3⟩ := h
        have := @ih s1 (wpBlocks dev bs s1).1 (wpBlocks dev bs s1).2.1 (Prod.ext rfl (Prod.ext rfl e3))
        rw [← e2, this, h1]
        rfl

/-- If `write_points` returns, the model is the same with all marks cleared, whatever the device. -/
theorem writePoints_ok {σ} {dev : MbDev σ} {s s' : σ} {m m' : MdlObj} (h : writePoints dev s m = (s', m', .ok ())) : m' = cleanModel m := by
  unfold writePoints at h
  simp only [Prod.mk.injEq] at h
  obtain ⟨e1, e2, e3⟩ := h
  rw [← e2, wpBlocks_ok m.blocks (Prod.ext rfl (Prod.ext rfl e3) : wpBlocks dev m.blocks s = ((wpBlocks dev m.blocks s).1, (wpBlocks dev m.blocks s).2.1, .ok ()))]
  rfl

/-! ### What any write, also one that raises, keeps -/

theorem wpPoint_unmarked {σ} (dev : MbDev σ) (acc : WAcc σ) (p : PointObj) :
    (wpPoint dev acc p).1 = p ∨ (wpPoint dev acc p).1 = clean p := by
  unfold wpPoint
  split
  · split
    · exact .inl rfl
    · split
      · exact .inr rfl
      · split
        · exact .inr rfl
        · split
          · exact .inl rfl
          · exact .inr rfl
  · exact .inl rfl

theorem wpPoints_unmarked {σ} (dev : MbDev σ) (ps : List PointObj) : ∀ acc : WAcc σ,
    (wpPoints dev ps acc).1.map clean = ps.map clean ∧
    ∀ (j : Nat) (p : PointObj), (wpPoints dev ps acc).1[j]? = some p → p.dirty = true → ps[j]? = some p := by
  induction ps with
  | nil => exact fun acc => ⟨rfl, fun j p h => by simp [wpPoints] at h⟩
  | cons q ps ih =>
    intro acc
    have hq := wpPoint_unmarked dev acc q
    rw [wpPoints]
    generalize wpPoint dev acc q = w at hq
    obtain ⟨q', acc', r⟩ := w
    dsimp only at hq
    have hc : clean q' = clean q := by rcases hq with rfl | rfl <;> rfl
    have hd : ∀ p, q' = p → p.dirty = true → q = p := by
      rintro p rfl hp
      rcases hq with rfl | rfl
      · rfl
      · cases hp
    cases r with
    | error e =>
      refine ⟨by rw [List.map_cons, hc]; rfl, ?_⟩
      intro j p h hp
      cases j with
      | zero => rw [List.getElem?_cons_zero] at h ⊢; rw [hd p (Option.some.inj h) hp]
      | succ j => rw [List.getElem?_cons_succ] at h ⊢; exact h
    | ok u =>
      dsimp only
      refine ⟨by rw [List.map_cons, hc, (ih acc').1]; rfl, ?_⟩
      intro j p h hp
      cases j with
      | zero => rw [List.getElem?_cons_zero] at h ⊢; rw [hd p (Option.some.inj h) hp]
      | succ j => rw [List.getElem?_cons_succ] at h ⊢; exact (ih acc').2 j p h hp

theorem wpBlocks_unmarked {σ} (dev : MbDev σ) (bs : List BlockObj) : ∀ s : σ,
    (wpBlocks dev bs s).2.1.map (fun b => { b with pts := b.pts.map clean }) = bs.map (fun b => { b with pts := b.pts.map clean }) ∧
    ∀ (i j : Nat) (p : PointObj), ((wpBlocks dev bs s).2.1[i]?).bind (·.pts[j]?) = some p → p.dirty = true →
      (bs[i]?).bind (·.pts[j]?) = some p := by
  induction bs with
  | nil => exact fun s => ⟨rfl, fun i j p h => by simp [wpBlocks] at h⟩
  | cons b bs ih =>
    intro s
    obtain ⟨h1, h2⟩ := wpPoints_unmarked dev b.pts { s := s }
    rw [wpBlocks]
    generalize wpPoints dev b.pts { s := s } = w at h1 h2
    obtain ⟨pts, acc, r⟩ := w
    dsimp only at h1 h2
    have key : ∀ bs', bs'.map (fun b : BlockObj => { b with pts := b.pts.map clean }) = bs.map (fun b => { b with pts := b.pts.map clean }) →
        (∀ (i j : Nat) (p : PointObj), (bs'[i]?).bind (·.pts[j]?) = some p → p.dirty = true → (bs[i]?).bind (·.pts[j]?) = some p) →
        (({ b with pts := pts } : BlockObj) :: bs').map (fun b => { b with pts := b.pts.map clean }) =
          (b :: bs).map (fun b => { b with pts := b.pts.map clean }) ∧
        ∀ (i j : Nat) (p : PointObj), ((({ b with pts := pts } : BlockObj) :: bs')[i]?).bind (·.pts[j]?) = some p → p.dirty = true →
          ((b :: bs)[i]?).bind (·.pts[j]?) = some p := by
      intro bs' k1 k2
      refine ⟨?_, ?_⟩
      · rw [List.map_cons, List.map_cons, k1]
        dsimp only
        rw [h1]
      · intro i j p h hp
        cases i with
        | zero => rw [List.getElem?_cons_zero] at h ⊢; exact h2 j p h hp
        | succ i => rw [List.getElem?_cons_succ] at h ⊢; exact k2 i j p h hp
    cases r with
    | error e => exact key bs rfl (fun i j p h _ => h)
    | ok u =>
      dsimp only
      generalize wpFlush dev acc = f
      obtain ⟨s', r⟩ := f
      cases r with
      | error e => exact key bs rfl (fun i j p h _ => h)
      | ok u => exact key _ (ih s').1 (ih s').2

/-- Whatever its outcome, `write_points` changes nothing in the model but marks, and these only from marked to not marked. -/
theorem writePoints_unmarked {σ} (dev : MbDev σ) (s : σ) (m : MdlObj) :
    cleanModel (writePoints dev s m).2.1 = cleanModel m ∧
    ∀ (i j : Nat) (p : PointObj), ptAt (writePoints dev s m).2.1 i j = some p → p.dirty = true → ptAt m i j = some p := by
  obtain ⟨h1, h2⟩ := wpBlocks_unmarked dev m.blocks s
  refine ⟨?_, h2⟩
  unfold writePoints cleanModel
  dsimp only
  rw [h1]

/-! ### Nothing to write -/

theorem wpPoints_clean {σ} (dev : MbDev σ) (ps : List PointObj) (acc : WAcc σ) (h : ∀ p ∈ ps, p.dirty = false) :
    wpPoints dev ps acc = (ps, acc, .ok ()) := by
  induction ps with
  | nil => rfl
  | cons p ps ih =>
    have hp : wpPoint dev acc p = (p, acc, .ok ()) := by
      unfold wpPoint
      rw [if_neg (by rw [h p (by simp)]; simp)]
    rw [wpPoints, hp]
    dsimp only
    rw [ih fun q hq => h q (by simp [hq])]

theorem wpBlocks_clean {σ} (dev : MbDev σ) (bs : List BlockObj) (s : σ) (h : ∀ b ∈ bs, ∀ p ∈ b.pts, p.dirty = false) :
    wpBlocks dev bs s = (s, bs, .ok ()) := by
  induction bs with
  | nil => rfl
  | cons b bs ih =>
    rw [wpBlocks, wpPoints_clean dev b.pts _ (h b (by simp))]
    dsimp only [wpFlush]
    rw [ih fun c hc => h c (by simp [hc])]

theorem writePoints_clean {σ} (dev : MbDev σ) (s : σ) (m : MdlObj) (h : ∀ b ∈ m.blocks, ∀ p ∈ b.pts, p.dirty = false) :
    writePoints dev s m = (s, m, .ok ()) := by
  unfold writePoints
  rw [wpBlocks_clean dev m.blocks s h]

/-! ### Reading the same data again -/

theorem updSf_idem (maddr : Int) (data : Bytes) (p : PointObj) : updSf maddr data (updSf maddr data p) = updSf maddr data p := rfl

theorem readPoint_again {maddr : Int} {data : Bytes} {bs bs' : List BlockObj} {p p' : PointObj} (h : readPoint maddr data bs p = .ok p')
    (hs : ∀ ref, p.sf = some ref → sfValue bs' ref = sfValue bs ref) : readPoint maddr data bs' p' = .ok p' := by
  unfold readPoint at h
  split at h
  · cases h
  · rename_i v hv
    have hv' : ∀ q : PointObj, q.pt = p.pt → q.addr = p.addr → q.pt.type.fromData (pointBytes maddr data q) = .ok v := by
      intro q h1 h2
      unfold pointBytes at hv ⊢
      rw [h1, h2, hv]
    split at h
    · rename_i hi
      split at h
      · rename_i ref href
        cases h
        unfold readPoint
        rw [hv' { p with base := v, vsf := sfValue bs ref } rfl rfl]
        dsimp only
        rw [if_pos hi, href]
        dsimp only
        rw [hs ref href]
      · rename_i hno
        cases h
        unfold readPoint
        rw [hv' { p with base := v } rfl rfl]
        dsimp only
        rw [if_pos hi]
        cases hp : p.sf with
        | none => rfl
        | some ref => rw [hp] at hno; cases hno
    · rename_i hi
      cases h
      unfold readPoint
      rw [hv' { p with base := none, vsf := none } rfl rfl]
      dsimp only
      rw [if_neg hi]

theorem readPts_again {maddr : Int} {data : Bytes} {bs bs' : List BlockObj} (ps : List PointObj) :
    ∀ {ps' : List PointObj}, readPts maddr data bs ps = (ps', .ok ()) →
      (∀ p ∈ ps, ∀ ref, p.sf = some ref → sfValue bs' ref = sfValue bs ref) → readPts maddr data bs' ps' = (ps', .ok ()) := by
  induction ps with
  | nil => intro ps' h _; rw [readPts] at h; cases h; rfl
  | cons p ps ih =>
    intro ps' h hs
    rw [readPts] at h
    split at h
    · cases h
    · rename_i p' hp
      simp only [Prod.mk.injEq] at h
      obtain ⟨e1, e2⟩ := h
      have h1 := readPoint_again hp (hs p (by simp))
      have h2 := ih (Prod.ext rfl e2 : readPts maddr data bs ps = ((readPts maddr data bs ps).1, .ok ())) fun q hq => hs q (by simp [hq])
      rw [← e1, readPts, h1]
      dsimp only
      rw [h2]

theorem readSfs_again {maddr : Int} {data : Bytes} (ps : List PointObj) :
    ∀ {ps' : List PointObj}, readSfs maddr data ps = (ps', .ok ()) → readSfs maddr data ps' = (ps', .ok ()) := by
  induction ps with
  | nil => intro ps' h; rw [readSfs] at h; cases h; rfl
  | cons p ps ih =>
    intro ps' h
    rw [readSfs] at h
    split at h
    · cases h
    · rename_i v hv
      simp only [Prod.mk.injEq] at h
      obtain ⟨e1, e2⟩ := h
      have h2 := ih (Prod.ext rfl e2 : readSfs maddr data ps = ((readSfs maddr data ps).1, .ok ()))
      rw [← e1, readSfs]
      unfold pointBytes at hv ⊢
      dsimp only
      rw [hv]
      dsimp only
      rw [h2]

theorem readBlocksLoop_again {maddr : Int} {data : Bytes} (rest : List BlockObj) : ∀ {done all : List BlockObj},
    readBlocksLoop maddr data done rest = (all, .ok ()) →
    (∀ (i : Nat) (b : BlockObj), rest[i]? = some b → ∀ p ∈ b.pts, ∀ blk id, p.sf = some (.point blk id) → blk ≤ done.length + i) →
    ∃ out, all = done ++ out ∧ readBlocksLoop maddr data done out = (all, .ok ()) := by
  induction rest with
  | nil => intro done all h _; rw [readBlocksLoop] at h; cases h; exact ⟨[], by simp, rfl⟩
  | cons b rest ih =>
    intro done all h href
    rw [readBlocksLoop] at h
    split at h
    · cases h
    · rename_i sfs u hsfs
      split at h
      · cases h
      · rename_i pts u2 hpts
        obtain ⟨out, e1, e2⟩ := ih h (by
          intro i c hc p hp blk id hsf
          have := href (i + 1) c (by simpa using hc) p hp blk id hsf
          simp; omega)
        refine ⟨{ b with sfs := sfs, pts := pts } :: out, by rw [e1]; simp, ?_⟩
        rw [readBlocksLoop]
        dsimp only
        rw [readSfs_again _ hsfs]
        dsimp only
        have h3 := readPts_again (bs' := done ++ { b with sfs := sfs, pts := pts } :: out) b.pts hpts (by
          intro p hp ref hr
          apply sfValue_congr
          intro blk id hre
          subst hre
          have := href 0 b rfl p hp blk id hr
          by_cases hlt : blk < done.length
          · rw [List.getElem?_append_left hlt, List.getElem?_append_left hlt]
          · have hbe : blk = done.length := by omega
            subst hbe
            rw [List.getElem?_append_right (Nat.le_refl _), List.getElem?_append_right (Nat.le_refl _)]
            simp)
        rw [h3]
        exact e2

end Verif
