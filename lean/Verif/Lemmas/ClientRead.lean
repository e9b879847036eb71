import Verif.Spec.Client

/-!
# Lemmas about reading models
-/

namespace Verif
open Spec

/-! ### The data -/

theorem cdRead_ok {σ} {dev : MbDev σ} {s s' : σ} {a n : Int} {r : Option Bytes} (h : dev.read s a n = (s', .ok r)) :
    cdRead dev s a n = (s', .ok r) := by
  unfold cdRead
  rw [h]
  rfl

/-- All the data delivered. -/
def flatLog (log : List (Int × Bytes)) : Bytes := log.flatMap (·.2)

theorem readChunks_reads {σ} {dev : MbDev σ} (plan : List (Int × Int)) : ∀ (s s' : σ) (log : List (Int × Bytes)) (acc : Bytes),
    Reads dev s plan s' log → readChunks dev plan acc s = (s', .ok (acc ++ flatLog log)) := by
  induction plan with
  | nil =>
    rintro s s' log acc ⟨rfl, rfl⟩
    simp [readChunks, flatLog]
  | cons c plan ih =>
    obtain ⟨a, n⟩ := c
    rintro s s' log acc ⟨s1, d, log1, h1, h2, h3, rfl⟩
    rw [readChunks, cdRead_ok h1]
    dsimp only
    rw [ih s1 s' log1 _ h3]
    simp [flatLog]

theorem flat_get {σ} {dev : MbDev σ} (plan : List (Int × Int)) : ∀ (s s' : σ) (log : List (Int × Bytes)) (a b : Int),
    Reads dev s plan s' log → Tiles a b plan →
    ((flatLog log).length : Int) = 2 * (b - a) ∧
    ∀ x, a ≤ x → x < b → replyMem log x = some ((flatLog log).getD (2 * (x - a)).toNat 0, (flatLog log).getD (2 * (x - a) + 1).toNat 0) := by
  induction plan with
  | nil =>
    rintro s s' log a b ⟨rfl, rfl⟩ hT
    have : a = b := hT
    subst this
    exact ⟨by simp [flatLog], fun x h1 h2 => by omega⟩
  | cons c plan ih =>
    obtain ⟨c, n⟩ := c
    rintro s s' log a b ⟨s1, d, log1, h1, h2, h3, rfl⟩ ⟨rfl, hT⟩
    obtain ⟨i1, i2⟩ := ih s1 s' log1 (c + n) b h3 hT
    have e : flatLog ((c, d) :: log1) = d ++ flatLog log1 := rfl
    rw [e]
    constructor
    · rw [List.length_append]; push_cast; omega
    · intro x hx1 hx2
      rw [replyMem]
      dsimp only
      by_cases hx : c ≤ x ∧ 2 * (x - c) + 1 < (d.length : Int)
      · rw [if_pos hx]
        have g : ∀ k : Nat, k < d.length → d.getD k 0 = (d ++ flatLog log1).getD k 0 := by
          intro k hk
          rw [List.getD_eq_getElem?_getD, List.getD_eq_getElem?_getD, List.getElem?_append_left hk]
        rw [g _ (by omega), g _ (by omega)]
      · rw [if_neg hx, i2 x (by omega) hx2]
        have g : ∀ k : Nat, d.length ≤ k → (flatLog log1).getD (k - d.length) 0 = (d ++ flatLog log1).getD k 0 := by
          intro k hk
          rw [List.getD_eq_getElem?_getD, List.getD_eq_getElem?_getD, List.getElem?_append_right hk]
        have g1 := g (2 * (x - c)).toNat (by omega)
        have g2 := g (2 * (x - c) + 1).toNat (by omega)
        have e1 : (2 * (x - c)).toNat - d.length = (2 * (x - (c + n))).toNat := by omega
        have e2 : (2 * (x - c) + 1).toNat - d.length = (2 * (x - (c + n)) + 1).toNat := by omega
        rw [e1] at g1
        rw [e2] at g2
        rw [g1, g2]

theorem memRegs_flat (mem : RegMem) (flat : Bytes) (a b : Int) (hlen : (flat.length : Int) = 2 * (b - a))
    (hm : ∀ x, a ≤ x → x < b → mem x = some (flat.getD (2 * (x - a)).toNat 0, flat.getD (2 * (x - a) + 1).toNat 0)) (k : Nat) :
    ∀ o, a ≤ o → o + k ≤ b →
      ∃ rs, memRegs mem o k = some rs ∧ regBytes rs = (flat.drop (2 * (o - a)).toNat).take (2 * k) := by
  induction k with
  | zero => intro o h1 h2; exact ⟨[], rfl, by simp [regBytes]⟩
  | succ k ih =>
    intro o h1 h2
    obtain ⟨rs, e1, e2⟩ := ih (o + 1) (by omega) (by omega)
    rw [memRegs, hm o h1 (by omega), e1]
    refine ⟨_, rfl, ?_⟩
    have hi : (2 * (o - a)).toNat + 1 < flat.length := by omega
    generalize hj : (2 * (o - a)).toNat = i at hi
    have hj2 : (2 * (o - a) + 1).toNat = i + 1 := by omega
    have hj3 : (2 * (o + 1 - a)).toNat = i + 2 := by omega
    rw [hj3] at e2
    rw [hj2]
    have hr : regBytes ((flat.getD i 0, flat.getD (i + 1) 0) :: rs) = flat.getD i 0 :: flat.getD (i + 1) 0 :: regBytes rs := rfl
    rw [hr, e2]
    rw [List.drop_eq_getElem_cons (show i < flat.length by omega), List.drop_eq_getElem_cons hi]
    rw [show 2 * (k + 1) = (2 * k + 1) + 1 by omega, List.take_succ_cons, List.take_succ_cons]
    rw [List.getD_eq_getElem?_getD, List.getD_eq_getElem?_getD, List.getElem?_eq_getElem (show i < flat.length by omega), List.getElem?_eq_getElem hi]
    rfl

/-- The bytes of a point inside the model. -/
theorem pointBytes_eq (maddr L : Int) (data : Bytes) (p : PointObj) (hd : (data.length : Int) = 2 * L)
    (h1 : maddr ≤ p.addr) (h2 : p.addr + p.pt.len ≤ maddr + L) (h3 : 0 ≤ p.pt.len) :
    pointBytes maddr data p = (data.drop (2 * (p.addr - maddr)).toNat).take (2 * p.pt.len.toNat) := by
  unfold pointBytes pySlice pyIdx
  rw [if_neg (by omega), if_neg (by omega), List.drop_take]
  have e1 : min data.length ((p.addr - maddr) * 2).toNat = (2 * (p.addr - maddr)).toNat := by omega
  rw [e1]
  congr 1
  omega

theorem fromData_total (t : PointType) (h : LenOK t) (d : Bytes) (hd : (d.length : Int) = 2 * t.len) :
    ∃ v, t.type.fromData d = .ok v := by
  have hk : ∀ k : Nat, typeRegs t.type = some k → d.length = 2 * k := by
    intro k hk
    unfold LenOK at h
    rw [hk] at h
    dsimp only at h
    omega
  have hu : ∀ k, d.length = k → ∃ v, unpackU k d = .ok v := fun k h => ⟨_, if_pos h⟩
  have hs : ∀ k, d.length = k → ∃ v, unpackS k d = .ok v := fun k h => ⟨_, if_pos h⟩
  unfold PT.fromData
  cases ht : t.type <;> rw [ht] at hk <;> simp only [typeRegs] at hk
  all_goals first
    | exact ⟨_, rfl⟩
    | (obtain ⟨v, hv⟩ := hu 2 (hk 1 rfl); exact ⟨_, by dsimp only; rw [hv]; rfl⟩)
    | (obtain ⟨v, hv⟩ := hs 2 (hk 1 rfl); exact ⟨_, by dsimp only; rw [hv]; rfl⟩)
    | (obtain ⟨v, hv⟩ := hu 4 (hk 2 rfl); exact ⟨_, by dsimp only; rw [hv]; rfl⟩)
    | (obtain ⟨v, hv⟩ := hs 4 (hk 2 rfl); exact ⟨_, by dsimp only; rw [hv]; rfl⟩)
    | (obtain ⟨v, hv⟩ := hs 8 (hk 4 rfl); exact ⟨_, by dsimp only; rw [hv]; rfl⟩)
    | (have hf : ∃ v, dataToFloat d = .ok v := ⟨_, if_pos (hk 2 rfl)⟩
       obtain ⟨v, hv⟩ := hf; exact ⟨_, by dsimp only; rw [hv]; rfl⟩)

theorem lenOK_pos {t : PointType} (h : LenOK t) : 1 ≤ t.len := by
  unfold LenOK at h
  cases hk : typeRegs t.type with
  | none => rw [hk] at h; exact h
  | some k =>
    rw [hk] at h
    dsimp only at h
    have : 1 ≤ k := by
      cases ht : t.type <;> rw [ht] at hk <;> simp [typeRegs] at hk <;> omega
    omega

/-! ### Updating the points -/

/-- The value read for a point. -/
def rvalue (maddr : Int) (data : Bytes) (p : PointObj) : Option Val :=
  match p.pt.type.readValue (pointBytes maddr data p) with
  | .ok v => v
  | .error _ => none

/-- A scale factor point after the read. -/
def updSf (maddr : Int) (data : Bytes) (p : PointObj) : PointObj := { p with base := rvalue maddr data p }

theorem readSfs_ok (maddr : Int) (data : Bytes) (ps : List PointObj)
    (h : ∀ p ∈ ps, ∃ v, p.pt.type.fromData (pointBytes maddr data p) = .ok v) :
    readSfs maddr data ps = (ps.map (updSf maddr data), .ok ()) := by
  induction ps with
  | nil => rfl
  | cons p ps ih =>
    obtain ⟨v, hv⟩ := h p (by simp)
    rw [readSfs, hv]
    dsimp only
    rw [ih fun q hq => h q (by simp [hq])]
    unfold updSf rvalue PT.readValue
    rw [List.map_cons, hv]

/-- A point without value (other than an eui48) has no scale factor value; the scale factor value of an unscaled point is
not replaced by another. -/
def Blanked (p p' : PointObj) : Prop :=
  (p.pt.type ≠ .eui48 → p'.base = none → p'.vsf = none) ∧ (p.sf = none → p'.vsf = p.vsf ∨ p'.vsf = none)

theorem fromData_none {t : PT} (ht : t ≠ .eui48) {d : Bytes} (h : t.fromData d = .ok none) : ¬ t.isImpl none = true := by
  have key : ∀ {α : Type} (x : Py α) (f : α → Val), x.map (fun i => some (f i)) ≠ .ok none := by
    intro α x f hx
    cases x <;> cases hx
  cases t <;> first
    | exact absurd rfl ht
    | exact absurd h (key _ _)
    | (intro hc; cases hc)

/-- What the read of one point does. -/
theorem readPoint_ok (maddr : Int) (data : Bytes) (bs : List BlockObj) (p : PointObj) (v : Option Val)
    (hv : p.pt.type.fromData (pointBytes maddr data p) = .ok v) :
    ∃ p', readPoint maddr data bs p = .ok p' ∧ p' = { p with base := p'.base, vsf := p'.vsf } ∧
      p.pt.type.readValue (pointBytes maddr data p) = .ok p'.base ∧
      (p'.base ≠ none → ∀ ref, p.sf = some ref → p'.vsf = sfValue bs ref) ∧ Blanked p p' := by
  unfold readPoint PT.readValue
  rw [hv]
  dsimp only
  by_cases hi : p.pt.type.isImpl v = true
  · have hn : p.pt.type ≠ .eui48 → v ≠ none := by
      rintro ht rfl
      exact fromData_none ht hv hi
    rw [if_pos hi, if_pos hi]
    cases hs : p.sf with
    | none => exact ⟨_, rfl, rfl, rfl, fun _ ref h => (by cases h), fun ht hb => absurd hb (hn ht), fun _ => .inl rfl⟩
    | some ref => exact ⟨_, rfl, rfl, rfl, fun _ ref' h => (by cases h; rfl), fun ht hb => absurd hb (hn ht), fun h => (by rw [hs] at h; cases h)⟩
  · rw [if_neg hi, if_neg hi]
    exact ⟨_, rfl, rfl, rfl, fun h => absurd rfl h, fun _ _ => rfl, fun _ => .inr rfl⟩

theorem readPts_ok (maddr : Int) (data : Bytes) (bs : List BlockObj) (ps : List PointObj)
    (h : ∀ p ∈ ps, ∃ v, p.pt.type.fromData (pointBytes maddr data p) = .ok v) :
    ∃ ps', readPts maddr data bs ps = (ps', .ok ()) ∧ ps'.length = ps.length ∧
      ∀ (j : Nat) (p p' : PointObj), ps[j]? = some p → ps'[j]? = some p' → p' = { p with base := p'.base, vsf := p'.vsf } ∧
        p.pt.type.readValue (pointBytes maddr data p) = .ok p'.base ∧
        (p'.base ≠ none → ∀ ref, p.sf = some ref → p'.vsf = sfValue bs ref) ∧ Blanked p p' := by
  induction ps with
  | nil => exact ⟨[], rfl, rfl, by simp⟩
  | cons p ps ih =>
    obtain ⟨v, hv⟩ := h p (by simp)
    obtain ⟨p', h1, h2⟩ := readPoint_ok maddr data bs p v hv
    obtain ⟨ps', i1, i2, i3⟩ := ih fun q hq => h q (by simp [hq])
    refine ⟨p' :: ps', ?_, by simp [i2], ?_⟩
    · rw [readPts, h1]; dsimp only; rw [i1]
    · intro j q q' hq hq'
      cases j with
      | zero =>
        simp at hq hq'
        subst hq; subst hq'
        exact h2
      | succ j => exact i3 j q q' (by simpa using hq) (by simpa using hq')

theorem sfValue_congr (bs bs' : List BlockObj) (ref : SfRef)
    (h : ∀ blk id, ref = .point blk id → bs[blk]?.map (·.sfs) = bs'[blk]?.map (·.sfs)) : sfValue bs ref = sfValue bs' ref := by
  cases ref with
  | const v => rfl
  | point blk id =>
    have := h blk id rfl
    unfold sfValue
    dsimp only
    cases h1 : bs[blk]? with
    | none =>
      cases h2 : bs'[blk]? with
      | none => rfl
      | some b' => rw [h1, h2] at this; simp at this
    | some b =>
      cases h2 : bs'[blk]? with
      | none => rw [h1, h2] at this; simp at this
      | some b' =>
        rw [h1, h2] at this
        simp only [Option.map_some, Option.some.injEq] at this
        dsimp only
        rw [this]

theorem readBlocksLoop_ok (maddr : Int) (data : Bytes) (rest : List BlockObj) : ∀ (done : List BlockObj),
    (∀ b ∈ rest, ∀ p, p ∈ b.pts ∨ p ∈ b.sfs → ∃ v, p.pt.type.fromData (pointBytes maddr data p) = .ok v) →
    ∃ out, readBlocksLoop maddr data done rest = (done ++ out, .ok ()) ∧ out.length = rest.length ∧
      ∀ (i : Nat) (b b' : BlockObj), rest[i]? = some b → out[i]? = some b' →
        b' = { b with pts := b'.pts, sfs := b'.sfs } ∧ b'.sfs = b.sfs.map (updSf maddr data) ∧ b'.pts.length = b.pts.length ∧
        ∀ (j : Nat) (p p' : PointObj), b.pts[j]? = some p → b'.pts[j]? = some p' → p' = { p with base := p'.base, vsf := p'.vsf } ∧
          p.pt.type.readValue (pointBytes maddr data p) = .ok p'.base ∧
          (p'.base ≠ none → ∀ ref, p.sf = some ref → (∀ blk id, ref = .point blk id → blk ≤ done.length + i) →
            p'.vsf = sfValue (done ++ out) ref) ∧ Blanked p p' := by
  induction rest with
  | nil => intro done _; exact ⟨[], by simp [readBlocksLoop], rfl, by simp⟩
  | cons b rest ih =>
    intro done h
    have hs := readSfs_ok maddr data b.sfs fun p hp => h b (by simp) p (.inr hp)
    obtain ⟨ps', h1, h2, h3⟩ := readPts_ok maddr data (done ++ { b with sfs := b.sfs.map (updSf maddr data) } :: rest) b.pts
      fun p hp => h b (by simp) p (.inl hp)
    obtain ⟨out, i1, i2, i3⟩ := ih (done ++ [{ b with sfs := b.sfs.map (updSf maddr data), pts := ps' }])
      fun b' hb' => h b' (by simp [hb'])
    refine ⟨{ b with sfs := b.sfs.map (updSf maddr data), pts := ps' } :: out, ?_, by simp [i2], ?_⟩
    · rw [readBlocksLoop, hs]
      dsimp only
      rw [h1]
      dsimp only
      rw [i1]
      simp
    · intro i c c' hc hc'
      cases i with
      | zero =>
        simp only [List.getElem?_cons_zero, Option.some.injEq] at hc hc'
        subst hc; subst hc'
        refine ⟨rfl, rfl, h2, ?_⟩
        intro j p p' hp hp'
        obtain ⟨a1, a2, a3, a4⟩ := h3 j p p' hp hp'
        refine ⟨a1, a2, ?_, a4⟩
        intro hb ref hr hle
        rw [a3 hb ref hr]
        apply sfValue_congr
        intro blk id hre
        have := hle blk id hre
        by_cases hlt : blk < done.length
        · rw [List.getElem?_append_left hlt, List.getElem?_append_left hlt]
        · have hbe : blk = done.length := by omega
          subst hbe
          rw [List.getElem?_append_right (Nat.le_refl _), List.getElem?_append_right (Nat.le_refl _)]
          simp
      | succ i =>
        have := i3 i c c' (by simpa using hc) (by simpa using hc')
        refine ⟨this.1, this.2.1, this.2.2.1, ?_⟩
        intro j p p' hp hp'
        obtain ⟨a1, a2, a3, a4⟩ := this.2.2.2 j p p' hp hp'
        refine ⟨a1, a2, ?_, a4⟩
        intro hb ref hr hle
        have := a3 hb ref hr (by
          intro blk id hre
          have := hle blk id hre
          simp; omega)
        rw [this]
        simp

/-- Data of the right size from which all points of a model are updated. -/
theorem readApply_ok (m : MdlObj) (hm : ModelOK m) (data : Bytes) (mem : RegMem) (hd : (data.length : Int) = 2 * m.len)
    (hmem : ∀ x, m.addr ≤ x → x < m.addr + m.len →
      mem x = some (data.getD (2 * (x - m.addr)).toNat 0, data.getD (2 * (x - m.addr) + 1).toNat 0)) :
    ∃ m', readApply m (some data) = (m', .ok ()) ∧ ModelRead mem m m' := by
  have hbytes : ∀ b ∈ m.blocks, ∀ p, p ∈ b.pts ∨ p ∈ b.sfs → ∃ rs, memRegs mem p.addr p.pt.len.toNat = some rs ∧
      regBytes rs = pointBytes m.addr data p := by
    intro b hb p hp
    have h1 := hm.inside b hb p hp
    have h2 := lenOK_pos (hm.len b hb p hp)
    rw [pointBytes_eq m.addr m.len data p hd h1.1 h1.2 (by omega)]
    exact memRegs_flat mem data m.addr (m.addr + m.len) (by omega) hmem p.pt.len.toNat p.addr h1.1 (by omega)
  have hdec : ∀ b ∈ m.blocks, ∀ p, p ∈ b.pts ∨ p ∈ b.sfs → ∃ v, p.pt.type.fromData (pointBytes m.addr data p) = .ok v := by
    intro b hb p hp
    have h1 := hm.inside b hb p hp
    have h2 := hm.len b hb p hp
    have h3 := lenOK_pos h2
    apply fromData_total p.pt h2
    rw [pointBytes_eq m.addr m.len data p hd h1.1 h1.2 (by omega), List.length_take, List.length_drop]
    omega
  obtain ⟨out, e1, e2, e3⟩ := readBlocksLoop_ok m.addr data m.blocks [] hdec
  rw [List.nil_append] at e1
  have hsfs : ∀ (i : Nat) (b b' : BlockObj), m.blocks[i]? = some b → out[i]? = some b' → ∀ (j : Nat) (p p' : PointObj), b.sfs[j]? = some p → b'.sfs[j]? = some p' → PointRead mem p p' := by
    intro i b b' hb hb' j p p' hp hp'
    obtain ⟨_, a2, _⟩ := e3 i b b' hb hb'
    rw [a2, List.getElem?_map, hp] at hp'
    simp only [Option.map_some, Option.some.injEq] at hp'
    have hbm := List.mem_of_getElem? hb
    have hpm := List.mem_of_getElem? hp
    obtain ⟨rs, r1, r2⟩ := hbytes b hbm p (.inr hpm)
    obtain ⟨v, hv⟩ := hdec b hbm p (.inr hpm)
    refine ⟨rs, r1, ?_, ?_⟩
    · rw [r2, ← hp']
      unfold updSf rvalue PT.readValue
      rw [hv]
    · rw [← hp']; rfl
  have hread : ModelRead mem m { m with blocks := out } := by
    refine ⟨rfl, e2, ?_, ?_, hsfs, fun i b b' hb hb' j p p' hp hp' => ((e3 i b b' hb hb').2.2.2 j p p' hp hp').2.2.2⟩
    · intro i b b' hb hb'
      obtain ⟨a1, a2, a3, _⟩ := e3 i b b' hb hb'
      exact ⟨a1, a3, by rw [a2]; simp⟩
    · intro i b b' hb hb' j p p' hp hp'
      obtain ⟨a1, a2, a3, a4⟩ := e3 i b b' hb hb'
      obtain ⟨c1, c2, c3, -⟩ := a4 j p p' hp hp'
      have hbm := List.mem_of_getElem? hb
      have hpm := List.mem_of_getElem? hp
      obtain ⟨rs, r1, r2⟩ := hbytes b hbm p (.inl hpm)
      refine ⟨⟨rs, r1, by rw [r2]; exact c2, c1⟩, ?_⟩
      intro hbase ref href
      have hrefs := hm.refs i b hb p hpm
      have hv := c3 hbase ref href (by
        intro blk id hre
        subst hre
        have := (hrefs blk id href).1
        simp; omega)
      rw [List.nil_append] at hv
      cases ref with
      | const c => exact hv
      | point blk id =>
        obtain ⟨_, b0, hb0, q, hq, hqid⟩ := hrefs blk id href
        have hlt : blk < out.length := by rw [e2]; exact (List.getElem?_eq_some_iff.1 hb0).1
        have hob : out[blk]? = some out[blk] := List.getElem?_eq_getElem hlt
        obtain ⟨_, d2, _⟩ := e3 blk b0 _ hb0 hob
        unfold sfValue at hv
        dsimp only at hv
        rw [hob] at hv
        dsimp only at hv
        cases hfind : out[blk].sfs.find? (fun q => decide (q.pt.id = id)) with
        | none =>
          rw [List.find?_eq_none] at hfind
          have := hfind (updSf m.addr data q) (by rw [d2]; exact List.mem_map_of_mem hq)
          simp [updSf, hqid] at this
        | some q' =>
          rw [hfind] at hv
          have hq1 := List.mem_of_find?_eq_some hfind
          have hq2 := List.find?_some hfind
          exact ⟨out[blk], q', hob, hq1, by simpa using hq2, hv⟩
  unfold readApply
  dsimp only
  by_cases hnil : data = []
  · rw [if_pos hnil]
    refine ⟨m, rfl, ?_⟩
    have hL : m.len = 0 := by rw [hnil] at hd; simp at hd; omega
    have hno : ∀ b ∈ m.blocks, ∀ p, ¬ (p ∈ b.pts ∨ p ∈ b.sfs) := by
      intro b hb p hp
      have h1 := hm.inside b hb p hp
      have h2 := lenOK_pos (hm.len b hb p hp)
      omega
    refine ⟨rfl, rfl, ?_, ?_, ?_, ?_⟩
    · intro i b b' hb hb'
      rw [hb] at hb'; cases hb'
      exact ⟨rfl, rfl, rfl⟩
    · intro i b b' hb hb' j p p' hp
      exact absurd (.inl (List.mem_of_getElem? hp)) (hno b (List.mem_of_getElem? hb) p)
    · intro i b b' hb hb' j p p' hp
      exact absurd (.inr (List.mem_of_getElem? hp)) (hno b (List.mem_of_getElem? hb) p)
    · intro i b b' hb hb' j p p' hp
      exact absurd (.inl (List.mem_of_getElem? hp)) (hno b (List.mem_of_getElem? hb) p)
  · rw [if_neg hnil, if_neg (by omega), e1]
    exact ⟨_, rfl, hread⟩

end Verif
