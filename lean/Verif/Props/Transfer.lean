import Verif.Spec.Transfer
import Verif.Props.CopyBack

/-!
# C97: copying settings from one device to another
-/

namespace Verif
open Spec

theorem ptAt_transfer (lib : FloatLib) (sel : Nat → Nat → Bool) (ma mb : MdlObj) (i j : Nat) :
    ptAt (transferModel lib sel ma mb) i j = (ptAt mb i j).map (transferAt lib sel ma i j) := by
  unfold ptAt transferModel
  simp only [List.getElem?_mapIdx]
  cases mb.blocks[i]? with
  | none => rfl
  | some b =>
    simp only [Option.map_some, Option.bind_some, List.getElem?_mapIdx]

theorem transfer_unvalued (lib : FloatLib) (p q : PointObj) : unvalued (transfer lib p q) = unvalued q := by
  unfold transfer
  cases getValue lib p with
  | error e => rfl
  | ok v =>
    dsimp only
    rcases C34_refused lib q v with ⟨e, h⟩ | ⟨b, h⟩ <;> rw [h] <;> rfl

theorem layout_transfer (lib : FloatLib) (sel : Nat → Nat → Bool) (ma mb : MdlObj) : layout (transferModel lib sel ma mb) = layout mb := by
  unfold layout transferModel
  simp only
  congr 1
  apply List.ext_getElem?
  intro i
  rw [List.getElem?_map, List.getElem?_map, List.getElem?_mapIdx]
  cases mb.blocks[i]? with
  | none => rfl
  | some b =>
    simp only [Option.map_some, Option.some.injEq]
    congr 1
    apply List.ext_getElem?
    intro j
    rw [List.getElem?_map, List.getElem?_map, List.getElem?_mapIdx]
    cases b.pts[j]? with
    | none => rfl
    | some q =>
      simp only [Option.map_some, Option.some.injEq]
      unfold transferAt
      split
      · split
        · exact transfer_unvalued lib _ q
        · rfl
      · rfl

/-- What a model is made of, apart from values, is in its layout. -/
theorem modelOK_layout (m : MdlObj) : ModelOK (layout m) ↔ ModelOK m := by
  constructor
  · intro h
    refine ⟨h.mtype, ?_, ?_, ?_⟩
    · intro b hb p hp
      exact h.inside _ (List.mem_map_of_mem hb) (unvalued p) (hp.imp List.mem_map_of_mem List.mem_map_of_mem)
    · intro b hb p hp
      exact h.len _ (List.mem_map_of_mem hb) (unvalued p) (hp.imp List.mem_map_of_mem List.mem_map_of_mem)
    · intro i b hb p hp blk id hs
      obtain ⟨h1, b', h2, q, h3, h4⟩ := h.refs i { b with pts := b.pts.map unvalued, sfs := b.sfs.map unvalued } (by simp [layout, hb]) (unvalued p)
        (List.mem_map_of_mem hp) blk id hs
      simp only [layout, List.getElem?_map, Option.map_eq_some_iff] at h2
      obtain ⟨b0, h5, rfl⟩ := h2
      obtain ⟨q0, h6, rfl⟩ := List.mem_map.1 h3
      exact ⟨h1, b0, h5, q0, h6, h4⟩
  · intro h
    refine ⟨h.mtype, ?_, ?_, ?_⟩
    · intro b hb p hp
      obtain ⟨b0, hb0, rfl⟩ := List.mem_map.1 hb
      rcases hp with hp | hp
      all_goals
        obtain ⟨p0, hp0, rfl⟩ := List.mem_map.1 hp
      · exact h.inside b0 hb0 p0 (.inl hp0)
      · exact h.inside b0 hb0 p0 (.inr hp0)
    · intro b hb p hp
      obtain ⟨b0, hb0, rfl⟩ := List.mem_map.1 hb
      rcases hp with hp | hp
      all_goals
        obtain ⟨p0, hp0, rfl⟩ := List.mem_map.1 hp
      · exact h.len b0 hb0 p0 (.inl hp0)
      · exact h.len b0 hb0 p0 (.inr hp0)
    · intro i b hb p hp blk id hs
      simp only [layout, List.getElem?_map, Option.map_eq_some_iff] at hb
      obtain ⟨b0, h5, rfl⟩ := hb
      obtain ⟨p0, hp0, rfl⟩ := List.mem_map.1 hp
      obtain ⟨h1, b', h2, q, h3, h4⟩ := h.refs i b0 h5 p0 hp0 blk id hs
      exact ⟨h1, { b' with pts := b'.pts.map unvalued, sfs := b'.sfs.map unvalued }, by simp [layout, h2], unvalued q, List.mem_map_of_mem h3, h4⟩

/-- Assigning to a point the value of another with the same definition and scale factor gives it that value base. -/
theorem transfer_same (lib : FloatLib) (hl : PowOK lib) (p q : PointObj) (hp : CopyOK p) (hpt : q.pt = p.pt) (hv : q.vsf = p.vsf) (d : Bytes)
    (hr : p.pt.type.readValue d = .ok p.base) : transfer lib p q = { q with base := p.base, dirty := true } := by
  obtain ⟨v, h1, h2⟩ := copied_eq lib hl p hp d hr
  unfold transfer
  rw [h1]
  dsimp only
  unfold setValue at h2 ⊢
  rw [hv, hpt]
  cases hk : scaleOf p.vsf with
  | some k =>
    rw [hk] at h2
    dsimp only at h2 ⊢
    cases hb : scaledBase lib k v with
    | error e => rw [hb] at h2; simp at h2
    | ok n =>
      rw [hb] at h2
      have : some (Val.int n) = p.base := congrArg (fun x : PointObj × Py Unit => x.1.base) h2
      rw [← this]
  | none =>
    rw [hk] at h2
    dsimp only at h2 ⊢
    cases hb : p.pt.type.toValue lib v with
    | error e => rw [hb] at h2; simp at h2
    | ok n =>
      rw [hb] at h2
      have : n = p.base := congrArg (fun x : PointObj × Py Unit => x.1.base) h2
      rw [← this]

/-- What `ModelRead` says about the point at a place. -/
theorem Spec.ModelRead.at {mem : RegMem} {m m' : MdlObj} (h : ModelRead mem m m') {i j : Nat} {p' : PointObj} (hp : ptAt m' i j = some p') :
    ∃ p, ptAt m i j = some p ∧ PointRead mem p p' := by
  unfold ptAt at hp
  cases hi : m'.blocks[i]? with
  | none => rw [hi] at hp; cases hp
  | some b1 =>
    rw [hi] at hp
    have hj : b1.pts[j]? = some p' := hp
    have hilt : i < m.blocks.length := by rw [← h.count]; exact (List.getElem?_eq_some_iff.1 hi).1
    have hib : m.blocks[i]? = some m.blocks[i] := List.getElem?_eq_getElem hilt
    have hjlt : j < m.blocks[i].pts.length := by
      rw [← (h.block i _ b1 hib hi).2.1]; exact (List.getElem?_eq_some_iff.1 hj).1
    refine ⟨m.blocks[i].pts[j], ?_, (h.point i _ b1 hib hi j _ p' (List.getElem?_eq_getElem hjlt) hj).1⟩
    unfold ptAt
    rw [hib]
    exact List.getElem?_eq_getElem hjlt

/-- The modified points after the assignments are those selected. -/
theorem transfer_marked {lib : FloatLib} {sel : Nat → Nat → Bool} {ma mb : MdlObj} (hclean : ∀ i j q, ptAt mb i j = some q → q.dirty = false)
    {i j : Nat} {p2 : PointObj} (h : ptAt (transferModel lib sel ma mb) i j = some p2) (hd : p2.dirty = true) :
    ∃ p q, sel i j = true ∧ ptAt ma i j = some p ∧ ptAt mb i j = some q ∧ p2 = transfer lib p q := by
  rw [ptAt_transfer] at h
  obtain ⟨q, h1, h2⟩ := Option.map_eq_some_iff.1 h
  have hq := hclean i j q h1
  unfold transferAt at h2
  by_cases hs : sel i j = true
  · rw [if_pos hs] at h2
    cases hp : ptAt ma i j with
    | none =>
      rw [hp] at h2
      dsimp only at h2
      rw [h2, hd] at hq
      cases hq
    | some p =>
      rw [hp] at h2
      exact ⟨p, q, hs, rfl, h1, h2.symm⟩
  · rw [if_neg hs] at h2
    rw [h2, hd] at hq
    cases hq

theorem transfer_at {lib : FloatLib} {sel : Nat → Nat → Bool} {ma mb : MdlObj} {i j : Nat} {p q : PointObj} (hs : sel i j = true)
    (hp : ptAt ma i j = some p) (hq : ptAt mb i j = some q) : ptAt (transferModel lib sel ma mb) i j = some (transfer lib p q) := by
  rw [ptAt_transfer, hq, Option.map_some]
  unfold transferAt
  rw [if_pos hs, hp]

theorem bare_clean {m m1 : MdlObj} (hb : bareM m1 = bareM m) (hclean : ∀ b ∈ m.blocks, ∀ p ∈ b.pts, p.dirty = false) :
    ∀ i j q, ptAt m1 i j = some q → q.dirty = false := by
  intro i j q hq
  have h1 := ptAt_bare m1 i j
  rw [hb, ptAt_bare, hq] at h1
  obtain ⟨q0, h2, h3⟩ := Option.map_eq_some_iff.1 h1
  obtain ⟨b, hb, hp⟩ := ptAt_mem h2
  have : q0.dirty = q.dirty := by have := congrArg (fun x : PointObj => x.dirty) h3; exact this
  rw [← this]
  exact hclean b hb q0 hp

/-- The registers of the blocks of a model depend on its layout. -/
theorem layout_lens {m m1 : MdlObj} (hl : layout m1 = layout m) {b1 : BlockObj} (hb : b1 ∈ m1.blocks) :
    ∃ b ∈ m.blocks, b1.pts.map (fun p => p.pt.len.toNat) = b.pts.map (fun p => p.pt.len.toNat) := by
  have h1 : (layout m1).blocks = (layout m).blocks := by rw [hl]
  have h2 : { b1 with pts := b1.pts.map unvalued, sfs := b1.sfs.map unvalued } ∈ (layout m).blocks := by
    rw [← h1]; exact List.mem_map_of_mem (f := fun b : BlockObj => { b with pts := b.pts.map unvalued, sfs := b.sfs.map unvalued }) hb
  obtain ⟨b, h3, h4⟩ := List.mem_map.1 h2
  refine ⟨b, h3, ?_⟩
  have h5 : b.pts.map unvalued = b1.pts.map unvalued := by have := congrArg (fun x : BlockObj => x.pts) h4; exact this
  have e : ∀ ps : List PointObj, ps.map (fun p => p.pt.len.toNat) = (ps.map unvalued).map (fun p => p.pt.len.toNat) := by
    intro ps; rw [List.map_map]; rfl
  rw [e b1.pts, e b.pts, h5]

/-- C97, registers: read a model of device A and the same model of device B, assign to any set of points of the second the values of
the first, and write it: the write returns, the registers of these points in B have the contents they have in A, all other registers of B
are unchanged, and no point is marked as modified any more. For points with values as in `CopyOK` and with the same scale factors in A and B. -/
theorem C97_registers_partial {σ τ} {devA : MbDev σ} {RA : σ → RegMem → Prop} {wa : Nat → Prop} (hA : IsMem devA RA wa)
    {devB : MbDev τ} {RB : τ → RegMem → Prop} {wr : Nat → Prop} (hB : IsMem devB RB wr)
    (lib : FloatLib) (hl : PowOK lib)
    (sa : σ) (memA : RegMem) (hsa : RA sa memA) (ma : MdlObj) (hma : ModelOK ma)
    (hta : Tiles ma.addr (ma.addr + ma.len) (readPlan ma)) (hposa : ∀ c ∈ readPlan ma, 0 ≤ c.2)
    (hexa : ∀ x, ma.addr ≤ x → x < ma.addr + ma.len → memA x ≠ none)
    (sb : τ) (memB : RegMem) (hsb : RB sb memB) (mb : MdlObj) (hmb : ModelOK mb) (hsep : Separate mb)
    (htb : Tiles mb.addr (mb.addr + mb.len) (readPlan mb)) (hposb : ∀ c ∈ readPlan mb, 0 ≤ c.2)
    (hexb : ∀ x, mb.addr ≤ x → x < mb.addr + mb.len → memB x ≠ none)
    (hclean : ∀ b ∈ mb.blocks, ∀ p ∈ b.pts, p.dirty = false)
    (hwr : ∀ b ∈ mb.blocks, ∀ n, 0 < n → n ≤ (b.pts.map fun p => p.pt.len.toNat).sum → wr n)
    (hdefs : SameDefs ma mb) (sel : Nat → Nat → Bool) :
    ∃ sa1 ma1 sb1 mb1, readPoints devA sa ma = (sa1, ma1, .ok ()) ∧ readPoints devB sb mb = (sb1, mb1, .ok ()) ∧
      ((∀ i j p q, sel i j = true → ptAt ma1 i j = some p → ptAt mb1 i j = some q → CopyOK p ∧ p.vsf = q.vsf) →
        ∃ sb2 mb2 memB2, writePoints devB sb1 (transferModel lib sel ma1 mb1) = (sb2, mb2, .ok ()) ∧ RB sb2 memB2 ∧
          (∀ i j p q, sel i j = true → ptAt ma i j = some p → ptAt mb i j = some q →
            ∃ rs, memRegs memA p.addr p.pt.len.toNat = some rs ∧ memRegs memB2 q.addr q.pt.len.toNat = some rs) ∧
          (∀ x, (∀ i j p q, sel i j = true → ptAt ma i j = some p → ptAt mb i j = some q → ¬ (q.addr ≤ x ∧ x < q.addr + q.pt.len)) →
            memB2 x = memB x) ∧
          ∀ b ∈ mb2.blocks, ∀ p ∈ b.pts, p.dirty = false) := by
  obtain ⟨sa1, ma1, a1, a2, a3⟩ := C32_memory hA memA sa hsa ma hma hta hposa hexa
  obtain ⟨sb1, mb1, b1, b2, b3⟩ := C32_memory hB memB sb hsb mb hmb htb hposb hexb
  refine ⟨sa1, ma1, sb1, mb1, a1, b1, fun hc => ?_⟩
  have hba : bareM ma1 = bareM ma := by have := readPoints_bare devA sa ma; rw [a1] at this; exact this
  have hbb : bareM mb1 = bareM mb := by have := readPoints_bare devB sb mb; rw [b1] at this; exact this
  have hclean1 := bare_clean hbb hclean
  have hlay : layout (transferModel lib sel ma1 mb1) = layout mb := by
    rw [layout_transfer, ← layout_bare, hbb, layout_bare]
  have hok : ModelOK (transferModel lib sel ma1 mb1) := by rw [← modelOK_layout, hlay, modelOK_layout]; exact hmb
  have hsep1 : Separate (transferModel lib sel ma1 mb1) := by rw [← separate_layout, hlay, separate_layout]; exact hsep
  -- the assigned points
  have hset : ∀ i j p q, sel i j = true → ptAt ma1 i j = some p → ptAt mb1 i j = some q → ∃ rs, memRegs memA p.addr p.pt.len.toNat = some rs ∧
      q.pt = p.pt ∧ transfer lib p q = { q with base := p.base, dirty := true } ∧ Encoded (transfer lib p q) rs := by
    intro i j p q hs hp hq
    obtain ⟨p0, h1, rs, r1, r2, r3⟩ := a3.at hp
    obtain ⟨q0, h2, _, _, _, r4⟩ := b3.at hq
    have e1 : p0.addr = p.addr := by rw [r3]
    have e2 : p0.pt = p.pt := by rw [r3]
    have e3 : q0.pt = q.pt := by rw [r4]
    have e4 : q.pt = p.pt := by rw [← e3, ← e2]; exact (hdefs i j p0 q0 h1 h2).symm
    rw [e1, e2] at r1
    rw [e2] at r2
    obtain ⟨c, hv⟩ := hc i j p q hs hp hq
    have e5 := transfer_same lib hl p q c e4 hv.symm _ r2
    refine ⟨rs, r1, e4, e5, ?_⟩
    obtain ⟨b0, hb0, hp0⟩ := ptAt_mem h1
    have hlen : LenOK p.pt := by rw [← e2]; exact hma.len b0 hb0 p0 (.inl hp0)
    obtain ⟨c1, c2, c3, _⟩ := c
    obtain ⟨v, hv⟩ := Option.ne_none_iff_exists'.1 c1
    have hposl := lenOK_pos hlen
    have hrl := memRegs_length r1
    rw [e5]
    show q.pt.type.toData p.base (q.pt.len * 2).toNat = _ ∧ (rs.length : Int) = q.pt.len
    rw [e4]
    refine ⟨?_, by omega⟩
    rw [hv, show (p.pt.len * 2).toNat = 2 * p.pt.len.toNat by omega]
    exact readback p.pt.type (regBytes rs) p.pt.len.toNat v (by rw [regBytes_length, hrl]) (by
      intro k hk
      unfold LenOK at hlen
      rw [hk] at hlen
      dsimp only at hlen
      omega) c2 (fun h => by have := c3 h; omega) (by rw [r2, hv])
  obtain ⟨sb2, memB2, w1, w2, w3, w4⟩ := C35_write_partial hB sb1 memB b2 _ hsep1 (by
      intro b' hb' n hn hle
      obtain ⟨b, hb, e⟩ := layout_lens hlay hb'
      exact hwr b hb n hn (Nat.le_trans hle (Nat.le_trans (dirtyLen_le _) (by rw [e])))) (by
      intro b' hb' p2 hp2 hd
      obtain ⟨i, j, hij⟩ := mem_ptAt hb' hp2
      obtain ⟨p, q, h1, h2, h3, h4⟩ := transfer_marked hclean1 hij hd
      obtain ⟨rs, r1, r2, r3, r4⟩ := hset i j p q h1 h2 h3
      have hin := hok.inside b' hb' p2 (.inl hp2)
      have hpos := lenOK_pos (hok.len b' hb' p2 (.inl hp2))
      have hin' : mb.addr ≤ p2.addr ∧ p2.addr + p2.pt.len ≤ mb.addr + mb.len := by
        have e1 : (layout (transferModel lib sel ma1 mb1)).addr = (layout mb).addr := by rw [hlay]
        have e2 : (layout (transferModel lib sel ma1 mb1)).len = (layout mb).len := by rw [hlay]
        have e1' : (transferModel lib sel ma1 mb1).addr = mb.addr := e1
        have e2' : (transferModel lib sel ma1 mb1).len = mb.len := e2
        rw [e1', e2'] at hin
        exact hin
      exact ⟨by omega, ⟨rs, by rw [h4]; exact r4⟩, fun x x1 x2 => hexb x (by omega) (by omega)⟩)
  -- places in the models before and after the reads
  have hplaceA : ∀ i j p, ptAt ma i j = some p → ∃ p1, ptAt ma1 i j = some p1 ∧ p1.addr = p.addr ∧ p1.pt = p.pt := by
    intro i j p hp
    have h1 := ptAt_bare ma1 i j
    rw [hba, ptAt_bare, hp] at h1
    obtain ⟨p1, h2, h3⟩ := Option.map_eq_some_iff.1 h1.symm
    refine ⟨p1, h2, ?_, ?_⟩
    · have := congrArg (fun x : PointObj => x.addr) h3; exact this
    · have := congrArg (fun x : PointObj => x.pt) h3; exact this
  have hplaceB : ∀ i j p, ptAt mb i j = some p → ∃ p1, ptAt mb1 i j = some p1 ∧ p1.addr = p.addr ∧ p1.pt = p.pt := by
    intro i j p hp
    have h1 := ptAt_bare mb1 i j
    rw [hbb, ptAt_bare, hp] at h1
    obtain ⟨p1, h2, h3⟩ := Option.map_eq_some_iff.1 h1.symm
    refine ⟨p1, h2, ?_, ?_⟩
    · have := congrArg (fun x : PointObj => x.addr) h3; exact this
    · have := congrArg (fun x : PointObj => x.pt) h3; exact this
  refine ⟨sb2, _, memB2, w1, w2, ?_, ?_, ?_⟩
  · intro i j p q hs hp hq
    obtain ⟨p1, g1, g2, g3⟩ := hplaceA i j p hp
    obtain ⟨q1, k1, k2, k3⟩ := hplaceB i j q hq
    obtain ⟨rs, r1, r2, r3, r4⟩ := hset i j p1 q1 hs g1 k1
    obtain ⟨b', hb', hm'⟩ := ptAt_mem (transfer_at (lib := lib) hs g1 k1)
    obtain ⟨rs', q1', q2'⟩ := w3 b' hb' _ hm' (by rw [r3])
    have : rs' = rs := regBytes_inj (by
      have := q1'.1
      rw [r4.1] at this
      exact (Except.ok.inj this).symm)
    rw [this, r3] at q2'
    refine ⟨rs, by rw [← g2, ← g3]; exact r1, by rw [← k2, ← k3]; exact q2'⟩
  · intro x hx
    apply w4
    intro b' hb' p2 hp2 hd
    obtain ⟨i, j, hij⟩ := mem_ptAt hb' hp2
    obtain ⟨p, q, h1, h2, h3, h4⟩ := transfer_marked hclean1 hij hd
    obtain ⟨p0, g1, _⟩ := a3.at h2
    obtain ⟨q0, k1, _, _, _, k2⟩ := b3.at h3
    have := hx i j p0 q0 h1 g1 k1
    obtain ⟨rs, r1, r2, r3, r4⟩ := hset i j p q h1 h2 h3
    rw [h4, r3, k2]
    exact this
  · intro b hb p hp
    obtain ⟨b0, _, rfl⟩ := List.mem_map.mp hb
    obtain ⟨p0, _, rfl⟩ := List.mem_map.mp hp
    rfl

theorem amount_int (lib : FloatLib) {p : PointObj} {n : Int} (hs : scaleOf p.vsf = none) (hb : p.base = some (.int n)) (hn : |n| ≤ 2 ^ 53) :
    Amount lib p n := by
  refine ⟨.int n, ?_, .fin n, ?_, rfl⟩
  · unfold getValue
    rw [hs, hb]
    rfl
  · show intToFlt n = _
    unfold intToFlt
    rw [fl_small n hn]

theorem amount_flt (lib : FloatLib) {p : PointObj} {q : ℚ} (h : getValue lib p = .ok (.flt (.fin q))) : Amount lib p q :=
  ⟨_, h, .fin q, rfl, rfl⟩

theorem amount_unique {lib : FloatLib} {p : PointObj} {x y : ℚ} (hx : Amount lib p x) (hy : Amount lib p y) : x = y := by
  obtain ⟨v, h1, f, h2, h3⟩ := hx
  obtain ⟨w, k1, g, k2, k3⟩ := hy
  rw [h1] at k1
  cases k1
  rw [h2] at k2
  cases k2
  rw [h3] at k3
  exact Option.some.inj k3

/-- Assigning the value of one point to another: what is stored, and the value it stands for. -/
theorem transfer_amount (lib : FloatLib) (hl : PowOK lib) (p q : PointObj) (x : ℚ) (h : TransferOK lib p q x) :
    ∃ n : Int, transfer lib p q = { q with base := some (.int n), dirty := true } ∧ |(n : ℚ) - x / resolution q| ≤ 1 ∧
      ∀ q2 : PointObj, q2.base = some (.int n) → q2.vsf = q.vsf → ∃ y, Amount lib q2 y ∧ |y - x| ≤ resolution q := by
  obtain ⟨a, ha, ha47⟩ := h.int
  obtain ⟨v, hv, hx⟩ := h.amount
  have hsmall := h.small
  -- the two kinds of `q`
  have hq : (scaleOf q.vsf = none ∧ (q.vsf = none ∨ Scaled q 0) ∧ resolution q = 1) ∨
      ∃ k : Int, Scaled q k ∧ k ≠ 0 ∧ -250 ≤ k ∧ k ≤ 250 ∧ resolution q = 10 ^ k := by
    rcases h.scales.2 with e | ⟨k, e, e1, e2⟩
    · left; unfold resolution; rw [e]; exact ⟨rfl, .inl rfl, rfl⟩
    · by_cases k0 : k = 0
      · subst k0
        left
        unfold resolution
        rw [e]
        exact ⟨rfl, .inr e, by simp⟩
      · right
        exact ⟨k, e, k0, e1, e2, by unfold resolution; rw [e]⟩
  rcases hq with ⟨q1, q2, q3⟩ | ⟨k, q1, q2, q3, q4, q5⟩
  · -- the value is stored as it is
    rw [q3, div_one] at hsmall
    -- the value of `p`
    have hp : v = .int a ∨ ∃ f, v = .flt (.fin f) := by
      rcases h.scales.1 with e | ⟨k, e, e1, e2⟩
      · left
        have : getValue lib p = .ok (.int a) := by unfold getValue; rw [e, ha]; rfl
        rw [this] at hv
        exact (Except.ok.inj hv).symm
      · by_cases k0 : k = 0
        · subst k0
          left
          have : getValue lib p = .ok (.int a) := by unfold getValue; rw [e, ha]; rfl
          rw [this] at hv
          exact (Except.ok.inj hv).symm
        · right
          obtain ⟨f, g1, _⟩ := C34_get_partial lib hl p k a e k0 e1 e2 ha (le_trans ha47 (by norm_num))
          rw [g1] at hv
          exact ⟨f, (Except.ok.inj hv).symm⟩
    have hend : ∀ n : Int, |(n : ℚ) - x| ≤ 1 → ∀ q2 : PointObj, q2.base = some (.int n) → q2.vsf = q.vsf →
        ∃ y, Amount lib q2 y ∧ |y - x| ≤ resolution q := by
      intro n hn q2 hb hv2
      have hn2 : |(n : ℚ)| ≤ 2 ^ 53 := by
        have : |(n : ℚ)| ≤ |(n : ℚ) - x| + |x| := by
          have := abs_add_le ((n : ℚ) - x) x
          rwa [sub_add_cancel] at this
        linarith
      refine ⟨n, amount_int lib (by rw [hv2]; exact q1) hb (by exact_mod_cast hn2), by rw [q3]; exact hn⟩
    rcases hp with rfl | ⟨f, rfl⟩
    · -- both without scale factor
      have hxa : x = a := by
        obtain ⟨f, f1, f2⟩ := hx
        have f1' : intToFlt a = .ok f := f1
        unfold intToFlt at f1'
        rw [fl_small a (le_trans ha47 (by norm_num))] at f1'
        have := Except.ok.inj f1'
        subst this
        exact (Option.some.inj f2).symm
      have hset := (C34_unscaled_partial lib q q2 h.type a).1
      refine ⟨a, ?_, ?_, hend a ?_⟩
      · unfold transfer; rw [hv]; dsimp only; rw [hset]
      · rw [q3, hxa]; simp
      · rw [hxa]; simp
    · have hxf : x = f := by
        obtain ⟨g, f1, f2⟩ := hx
        have := Except.ok.inj f1
        subst this
        exact (Option.some.inj f2).symm
      obtain ⟨n, n1, _, n2, _⟩ := C34_truncates lib q q2 h.type (.fin f) f rfl
      have hn : |(n : ℚ) - x| ≤ 1 := by rw [hxf, abs_sub_comm]; exact n2.le
      refine ⟨n, ?_, ?_, hend n hn⟩
      · unfold transfer; rw [hv]; dsimp only; rw [n1]
      · rw [q3, div_one]; exact hn
  · -- the value is divided by the resolution
    rw [q5] at hsmall
    obtain ⟨n, n1, n2, _⟩ := C34_set_partial lib hl q k q1 q2 q3 q4 v x hx (hsmall.trans (by norm_num))
    obtain ⟨p', y, s1, s2, s3⟩ := C34_set_get_partial lib hl q k q1 q2 q3 q4 v x hx hsmall
    rw [n1] at s1
    have hp' : p' = { q with base := some (.int n), dirty := true } := (congrArg Prod.fst s1).symm
    have hP : (0 : ℚ) < 10 ^ k := by positivity
    refine ⟨n, ?_, ?_, ?_⟩
    · unfold transfer; rw [hv]; dsimp only; rw [n1]
    · rw [q5]
      refine n2.trans ?_
      have c50 : (2 : ℚ) ^ (-50 : ℤ) = 1 / 2 ^ 50 := by norm_num
      rw [c50]
      linarith
    · intro q2' hb hv2
      refine ⟨y, amount_flt lib ?_, ?_⟩
      · rw [hp'] at s2
        unfold getValue at s2 ⊢
        rw [hb, hv2]
        exact s2
      · rw [q5]
        refine s3.trans ?_
        have c16 : (2 : ℚ) ^ (-16 : ℤ) = 1 / 2 ^ 16 := by norm_num
        rw [c16]
        generalize (10 : ℚ) ^ k = P at hP
        linarith

/-- The point at a place, by block and position. -/
theorem ptAt_split {m : MdlObj} {i j : Nat} {p : PointObj} (h : ptAt m i j = some p) : ∃ b, m.blocks[i]? = some b ∧ b.pts[j]? = some p := by
  unfold ptAt at h
  cases hi : m.blocks[i]? with
  | none => rw [hi] at h; cases h
  | some b => rw [hi] at h; exact ⟨b, rfl, h⟩

theorem ptAt_join {m : MdlObj} {i j : Nat} {b : BlockObj} {p : PointObj} (h1 : m.blocks[i]? = some b) (h2 : b.pts[j]? = some p) : ptAt m i j = some p := by
  unfold ptAt
  rw [h1]
  exact h2

/-- Different names of the scale factor points of a block. -/
theorem scale_unique {mem : RegMem} {bs bs2 : List BlockObj} (hu : ∀ b ∈ bs, (b.sfs.map fun p => p.pt.id).Nodup)
    (hcount : bs2.length = bs.length)
    (hread : ∀ (i : Nat) (b b2 : BlockObj), bs[i]? = some b → bs2[i]? = some b2 → b2.sfs.length = b.sfs.length ∧
      ∀ (j : Nat) (p p2 : PointObj), b.sfs[j]? = some p → b2.sfs[j]? = some p2 → PointRead mem p p2 ∧ PointRead mem p p)
    {ref : SfRef} {v v2 : Option Val} (h : IsScale bs ref v) (h2 : IsScale bs2 ref v2) : v2 = v := by
  cases ref with
  | const c => unfold IsScale at h h2; dsimp only at h h2; rw [h, h2]
  | point blk id =>
    unfold IsScale at h h2
    dsimp only at h h2
    obtain ⟨b, q, g1, g2, g3, g4⟩ := h
    obtain ⟨b2, q2, k1, k2, k3, k4⟩ := h2
    obtain ⟨hlen, hr⟩ := hread blk b b2 g1 k1
    obtain ⟨x, hx⟩ := List.getElem?_of_mem g2
    obtain ⟨y, hy⟩ := List.getElem?_of_mem k2
    have hylt : y < b.sfs.length := by rw [← hlen]; exact (List.getElem?_eq_some_iff.1 hy).1
    obtain ⟨⟨rs, r1, r2, r3⟩, rs', t1, t2, _⟩ := hr y _ q2 (List.getElem?_eq_getElem hylt) hy
    have e1 : q2.pt = b.sfs[y].pt := by rw [r3]
    -- the same position
    have hxl := (List.getElem?_eq_some_iff.1 hx)
    have hxy : x = y := by
      have hnd := hu b (List.mem_of_getElem? g1)
      have hxlt : x < b.sfs.length := hxl.1
      have e : (b.sfs.map fun p => p.pt.id)[x]'(by simpa using hxlt) = (b.sfs.map fun p => p.pt.id)[y]'(by simpa using hylt) := by
        simp only [List.getElem_map]
        rw [← e1, k3, hxl.2, g3]
      exact (List.Nodup.getElem_inj_iff hnd).1 e
    subst hxy
    have e2 : b.sfs[x] = q := hxl.2
    rw [e2] at r1 r2 t1 t2
    rw [t1] at r1
    have := Option.some.inj r1
    subst this
    rw [t2] at r2
    rw [k4, g4]
    exact (Except.ok.inj r2).symm

/-- C97, values: read a model of device A and the same model of device B, assign to any set of points of the second the values of the first,
write it and read it again: all of this returns, the values of these points then differ from those in A by at most the resolution (power of ten)
of the point in B, and all other points have the values they had. The scale factors of the two devices may be different. For implemented points
and values as in `TransferOK`. -/
theorem C97_values_partial {σ τ} {devA : MbDev σ} {RA : σ → RegMem → Prop} {wa : Nat → Prop} (hA : IsMem devA RA wa)
    {devB : MbDev τ} {RB : τ → RegMem → Prop} {wr : Nat → Prop} (hB : IsMem devB RB wr)
    (lib : FloatLib) (hl : PowOK lib)
    (sa : σ) (memA : RegMem) (hsa : RA sa memA) (ma : MdlObj) (hma : ModelOK ma)
    (hta : Tiles ma.addr (ma.addr + ma.len) (readPlan ma)) (hposa : ∀ c ∈ readPlan ma, 0 ≤ c.2)
    (hexa : ∀ x, ma.addr ≤ x → x < ma.addr + ma.len → memA x ≠ none)
    (sb : τ) (memB : RegMem) (hsb : RB sb memB) (mb : MdlObj) (hmb : ModelOK mb) (hsep : Separate mb)
    (htb : Tiles mb.addr (mb.addr + mb.len) (readPlan mb)) (hposb : ∀ c ∈ readPlan mb, 0 ≤ c.2)
    (hexb : ∀ x, mb.addr ≤ x → x < mb.addr + mb.len → memB x ≠ none)
    (hclean : ∀ b ∈ mb.blocks, ∀ p ∈ b.pts, p.dirty = false)
    (hnames : ∀ b ∈ mb.blocks, (b.sfs.map fun p => p.pt.id).Nodup)
    (hunscaled : ∀ b ∈ mb.blocks, ∀ p ∈ b.pts, p.sf = none → p.vsf = none)
    (hwr : ∀ b ∈ mb.blocks, ∀ n, 0 < n → n ≤ (b.pts.map fun p => p.pt.len.toNat).sum → wr n) (sel : Nat → Nat → Bool) :
    ∃ sa1 ma1 sb1 mb1, readPoints devA sa ma = (sa1, ma1, .ok ()) ∧ readPoints devB sb mb = (sb1, mb1, .ok ()) ∧
      ((∀ i j p q, sel i j = true → ptAt ma1 i j = some p → ptAt mb1 i j = some q → ∃ x, TransferOK lib p q x) →
        ∃ sb2 mb2 sb3 mb3, writePoints devB sb1 (transferModel lib sel ma1 mb1) = (sb2, mb2, .ok ()) ∧
          readPoints devB sb2 mb2 = (sb3, mb3, .ok ()) ∧
          (∀ i j p q, sel i j = true → ptAt ma1 i j = some p → ptAt mb1 i j = some q →
            ∃ q3 x y, ptAt mb3 i j = some q3 ∧ Amount lib p x ∧ Amount lib q3 y ∧ |y - x| ≤ resolution q3) ∧
          ∀ i j q, (sel i j = true → ptAt ma1 i j = none) → ptAt mb1 i j = some q →
            ∃ q3, ptAt mb3 i j = some q3 ∧ q3.base = q.base ∧ (q.base ≠ none → q3 = q)) := by
  obtain ⟨sa1, ma1, a1, a2, a3⟩ := C32_memory hA memA sa hsa ma hma hta hposa hexa
  obtain ⟨sb1, mb1, b1, b2, b3⟩ := C32_memory hB memB sb hsb mb hmb htb hposb hexb
  refine ⟨sa1, ma1, sb1, mb1, a1, b1, fun hc => ?_⟩
  have hbb : bareM mb1 = bareM mb := by have := readPoints_bare devB sb mb; rw [b1] at this; exact this
  have hclean1 := bare_clean hbb hclean
  have hlay : layout (transferModel lib sel ma1 mb1) = layout mb := by
    rw [layout_transfer, ← layout_bare, hbb, layout_bare]
  have hok : ModelOK (transferModel lib sel ma1 mb1) := by rw [← modelOK_layout, hlay, modelOK_layout]; exact hmb
  have hsep1 : Separate (transferModel lib sel ma1 mb1) := by rw [← separate_layout, hlay, separate_layout]; exact hsep
  have hmodel : (transferModel lib sel ma1 mb1).addr = mb.addr ∧ (transferModel lib sel ma1 mb1).len = mb.len ∧
      readPlan (transferModel lib sel ma1 mb1) = readPlan mb := by
    have e1 : (layout (transferModel lib sel ma1 mb1)).addr = (layout mb).addr := by rw [hlay]
    have e2 : (layout (transferModel lib sel ma1 mb1)).len = (layout mb).len := by rw [hlay]
    have e3 : readPlan (layout (transferModel lib sel ma1 mb1)) = readPlan (layout mb) := by rw [hlay]
    exact ⟨e1, e2, e3⟩
  obtain ⟨m1, m2, m3⟩ := hmodel
  -- the model read, point by point
  have hB1 : ∀ i j q, ptAt mb1 i j = some q → PointRead memB q q ∧ (q.base ≠ none → ∀ ref, q.sf = some ref → IsScale mb1.blocks ref q.vsf) ∧
      (q.sf = none → q.vsf = none) := by
    intro i j q hq
    obtain ⟨b1, h1, h2⟩ := ptAt_split hq
    have hilt : i < mb.blocks.length := by rw [← b3.count]; exact (List.getElem?_eq_some_iff.1 h1).1
    have hib : mb.blocks[i]? = some mb.blocks[i] := List.getElem?_eq_getElem hilt
    have hjlt : j < mb.blocks[i].pts.length := by
      rw [← (b3.block i _ b1 hib h1).2.1]; exact (List.getElem?_eq_some_iff.1 h2).1
    have hjb := List.getElem?_eq_getElem hjlt
    obtain ⟨⟨rs, r1, r2, r3⟩, r4⟩ := b3.point i _ b1 hib h1 j _ q hjb h2
    have r5 := (b3.blank i _ b1 hib h1 j _ q hjb h2).2
    have e1 : q.addr = mb.blocks[i].pts[j].addr := by rw [r3]
    have e2 : q.pt = mb.blocks[i].pts[j].pt := by rw [r3]
    have e3 : q.sf = mb.blocks[i].pts[j].sf := by rw [r3]
    refine ⟨⟨rs, by rw [e1, e2]; exact r1, by rw [e2]; exact r2, rfl⟩, ?_, ?_⟩
    · intro hne ref hr
      exact r4 hne ref (by rw [← e3]; exact hr)
    · intro hn
      have h0 := hunscaled _ (List.mem_of_getElem? hib) _ (List.mem_of_getElem? hjb) (by rw [← e3]; exact hn)
      rcases r5 (by rw [← e3]; exact hn) with h | h
      · rw [h, h0]
      · exact h
  -- the assigned points
  have hset : ∀ i j p q, sel i j = true → ptAt ma1 i j = some p → ptAt mb1 i j = some q →
      ∃ (n : Int) (x : ℚ), TransferOK lib p q x ∧ transfer lib p q = { q with base := some (.int n), dirty := true } ∧
        Writable { q with base := some (.int n), dirty := true } ∧
        ∀ q2 : PointObj, q2.base = some (.int n) → q2.vsf = q.vsf → ∃ y, Amount lib q2 y ∧ |y - x| ≤ resolution q := by
    intro i j p q hs hp hq
    obtain ⟨x, hx⟩ := hc i j p q hs hp hq
    obtain ⟨n, n1, n2, n3⟩ := transfer_amount lib hl p q x hx
    exact ⟨n, x, hx, n1, hx.fits n n2, n3⟩
  obtain ⟨sb2, sb3, mb2, mb3, memB3, w1, w2, w3, w4, w5, w6⟩ := C37_write_read_partial hB sb1 memB b2 (transferModel lib sel ma1 mb1) hok hsep1
    (by rw [m1, m2, m3]; exact htb) (by rw [m3]; exact hposb) (by rw [m1, m2]; exact hexb) (by
      intro b' hb' n hn hle
      obtain ⟨b, hb, e⟩ := layout_lens hlay hb'
      exact hwr b hb n hn (Nat.le_trans hle (Nat.le_trans (dirtyLen_le _) (by rw [e])))) (by
      intro b' hb' p2 hp2 hd
      obtain ⟨i, j, hij⟩ := mem_ptAt hb' hp2
      obtain ⟨p, q, h1, h2, h3, h4⟩ := transfer_marked hclean1 hij hd
      obtain ⟨n, x, _, n1, n2, _⟩ := hset i j p q h1 h2 h3
      rw [h4, n1]
      exact n2)
  -- the scale factors
  have hnames1 : ∀ b ∈ mb1.blocks, (b.sfs.map fun p => p.pt.id).Nodup := by
    intro b hb
    have h1 : mb1.blocks.map bareB = mb.blocks.map bareB := (congrArg MdlObj.blocks hbb :)
    have h2 : bareB b ∈ mb.blocks.map bareB := by rw [← h1]; exact List.mem_map_of_mem hb
    obtain ⟨b0, h3, h4⟩ := List.mem_map.1 h2
    have h5 : b0.sfs.map bareP = b.sfs.map bareP := by have := congrArg (fun x : BlockObj => x.sfs) h4; exact this
    have e : ∀ ps : List PointObj, ps.map (fun p => p.pt.id) = (ps.map bareP).map (fun p => p.pt.id) := by
      intro ps; rw [List.map_map]; rfl
    rw [e, ← h5, ← e]
    exact hnames b0 h3
  have hblocks : ∀ (i : Nat) (b : BlockObj), mb1.blocks[i]? = some b → (transferModel lib sel ma1 mb1).blocks[i]? =
      some { b with pts := b.pts.mapIdx (transferAt lib sel ma1 i) } := by
    intro i b hb
    unfold transferModel
    simp only [List.getElem?_mapIdx, hb, Option.map_some]
  have hcount : mb3.blocks.length = mb1.blocks.length := by
    rw [w5]; unfold transferModel; simp
  have hscale : ∀ ref v v2, IsScale mb1.blocks ref v → IsScale mb3.blocks ref v2 → v2 = v := by
    intro ref v v2
    refine scale_unique (mem := memB) hnames1 hcount ?_
    intro i b c hb hcb
    obtain ⟨_, _, k3, _, k5⟩ := w6 i _ c (hblocks i b hb) hcb
    refine ⟨k3, ?_⟩
    intro j p p2 hp hp2
    refine ⟨k5 j p p2 hp hp2, ?_⟩
    have hilt : i < mb.blocks.length := by rw [← b3.count]; exact (List.getElem?_eq_some_iff.1 hb).1
    have hib : mb.blocks[i]? = some mb.blocks[i] := List.getElem?_eq_getElem hilt
    have hjlt : j < mb.blocks[i].sfs.length := by
      rw [← (b3.block i _ b hib hb).2.2]; exact (List.getElem?_eq_some_iff.1 hp).1
    obtain ⟨rs, r1, r2, r3⟩ := b3.scale i _ b hib hb j _ p (List.getElem?_eq_getElem hjlt) hp
    have e1 : p.addr = mb.blocks[i].sfs[j].addr := by rw [r3]
    have e2 : p.pt = mb.blocks[i].sfs[j].pt := by rw [r3]
    exact ⟨rs, by rw [e1, e2]; exact r1, by rw [e2]; exact r2, rfl⟩
  -- the points of the model read at the end
  have hfinal : ∀ i j q, ptAt mb1 i j = some q → ∃ q3, ptAt mb3 i j = some q3 ∧
      ((transferAt lib sel ma1 i j q).dirty = true → q3 = { (transferAt lib sel ma1 i j q) with dirty := false, vsf := q3.vsf }) ∧
      ((transferAt lib sel ma1 i j q).dirty = false → PointRead memB (transferAt lib sel ma1 i j q) q3) ∧
      (q3.base ≠ none → ∀ ref, (transferAt lib sel ma1 i j q).sf = some ref → IsScale mb3.blocks ref q3.vsf) ∧
      ((transferAt lib sel ma1 i j q).sf = none → q3.vsf = (transferAt lib sel ma1 i j q).vsf ∨ q3.vsf = none) := by
    intro i j q hq
    obtain ⟨b, h1, h2⟩ := ptAt_split hq
    have hilt : i < mb3.blocks.length := by rw [hcount]; exact (List.getElem?_eq_some_iff.1 h1).1
    have hi3 := List.getElem?_eq_getElem hilt
    obtain ⟨_, k2, _, k4, _⟩ := w6 i _ _ (hblocks i b h1) hi3
    have hjlt : j < mb3.blocks[i].pts.length := by
      rw [k2]
      simp only [List.length_mapIdx]
      exact (List.getElem?_eq_some_iff.1 h2).1
    have hj3 := List.getElem?_eq_getElem hjlt
    exact ⟨_, ptAt_join hi3 hj3, k4 j _ _ (by simp only [List.getElem?_mapIdx, h2, Option.map_some]) hj3⟩
  refine ⟨sb2, mb2, sb3, mb3, w1, w2, ?_, ?_⟩
  · intro i j p q hs hp hq
    obtain ⟨n, x, hx, n1, n2, n3⟩ := hset i j p q hs hp hq
    obtain ⟨q3, g1, g2, _, g4, g5⟩ := hfinal i j q hq
    have e : transferAt lib sel ma1 i j q = { q with base := some (.int n), dirty := true } := by
      unfold transferAt; rw [if_pos hs, hp]; exact n1
    rw [e] at g2 g4 g5
    have h2 := g2 rfl
    have hbase : q3.base = some (.int n) := by rw [h2]
    obtain ⟨_, u2, u3⟩ := hB1 i j q hq
    have hv : q3.vsf = q.vsf := by
      cases hsf : q.sf with
      | none =>
        have := u3 hsf
        rcases g5 hsf with h | h
        · exact h
        · rw [h, this]
      | some ref => exact hscale ref _ _ (u2 hx.implemented ref hsf) (g4 (by rw [hbase]; simp) ref hsf)
    obtain ⟨y, y1, y2⟩ := n3 q3 hbase hv
    refine ⟨q3, x, y, g1, hx.amount, y1, ?_⟩
    have : resolution q3 = resolution q := by unfold resolution; rw [hv]
    rw [this]
    exact y2
  · intro i j q hns hq
    obtain ⟨q3, g1, _, g3, g4, g5⟩ := hfinal i j q hq
    have e : transferAt lib sel ma1 i j q = q := by
      unfold transferAt
      by_cases hs : sel i j = true
      · rw [if_pos hs, hns hs]
      · rw [if_neg hs]
    rw [e] at g3 g4 g5
    obtain ⟨⟨rs, r1, r2, _⟩, u2, u3⟩ := hB1 i j q hq
    obtain ⟨rs', t1, t2, t3⟩ := g3 (hclean1 i j q hq)
    rw [r1] at t1
    have := Option.some.inj t1
    subst this
    rw [r2] at t2
    have hbase : q3.base = q.base := (Except.ok.inj t2).symm
    refine ⟨q3, g1, hbase, fun hne => ?_⟩
    have hv : q3.vsf = q.vsf := by
      cases hsf : q.sf with
      | none =>
        have := u3 hsf
        rcases g5 hsf with h | h
        · exact h
        · rw [h, this]
      | some ref => exact hscale ref _ _ (u2 hne ref hsf) (g4 (by rw [hbase]; exact hne) ref hsf)
    rw [hbase, hv] at t3
    exact t3

/-! ## Examples -/

/-- A device with the same model as `exMap` but other values and the scale factor `k` (as register contents). -/
def otherMap (k : Bytes) (a : Bytes) : MbMap :=
  { newMap with base := .int 40002, regs := [⟨.int 0, .int 7, some (a ++ [0, 0] ++ k ++ [0, 8, 0, 9, 0, 10, 0, 11]), (t!"rw")⟩] }

theorem otherMap_ok (k1 k2 a1 a2 : Byte) :
    MapOK (otherMap [k1, k2] [a1, a2]) 40002 [⟨0, [(a1, a2), (0, 0), (k1, k2), (0, 8), (0, 9), (0, 10), (0, 11)], t!"rw"⟩] :=
  ⟨rfl, rfl, by simp [Gapped]⟩

theorem otherMap_exists (k1 k2 a1 a2 : Byte) : ∀ x, exModel.addr ≤ x → x < exModel.addr + exModel.len →
    mapMem 40002 [⟨0, [(a1, a2), (0, 0), (k1, k2), (0, 8), (0, 9), (0, 10), (0, 11)], t!"rw"⟩] x ≠ none := by
  have h1 : exModel.addr = 40002 ∧ exModel.len = 7 := by decide +kernel
  rw [h1.1, h1.2]
  intro x h1 h2
  have : x = 40002 ∨ x = 40003 ∨ x = 40004 ∨ x = 40005 ∨ x = 40006 ∨ x = 40007 ∨ x = 40008 := by omega
  rcases this with rfl | rfl | rfl | rfl | rfl | rfl | rfl <;> simp [mapMem, blkMem, Blk.stop]

theorem exModel_same : SameDefs exModel exModel := by
  intro i j p q h1 h2
  rw [h1] at h2
  rw [Option.some.inj h2]

/-- The places of the points of `exModel`. -/
theorem exModel_places (mm : MbMap) (h : ((readPoints mapDev mm exModel).2.1.blocks.map fun b => b.pts.length) = [1, 2, 2]) {i j : Nat} {p : PointObj}
    (hp : ptAt (readPoints mapDev mm exModel).2.1 i j = some p) : i < 3 ∧ j < 2 := by
  obtain ⟨b, h1, h2⟩ := ptAt_split hp
  have hi := (List.getElem?_eq_some_iff.1 h1).1
  have hl := congrArg List.length h
  simp at hl
  refine ⟨by omega, ?_⟩
  have hj := (List.getElem?_eq_some_iff.1 h2).1
  have hb : b.pts.length ∈ [1, 2, 2] := by
    rw [← h]
    exact List.mem_map_of_mem (f := fun b : BlockObj => b.pts.length) (List.mem_of_getElem? h1)
  simp at hb
  omega

/-- All points of `exMap` that are implemented. -/
def exSel (i j : Nat) : Bool := !(i == 2 && j == 0)

/-- Non-vacuity of C97: four points are copied. -/
example : ∃ sb2 mb2 memB2,
    writePoints mapDev (readPoints mapDev (otherMap [255, 255] [0, 7]) exModel).1
      (transferModel exactLib exSel (readPoints mapDev exMap exModel).2.1 (readPoints mapDev (otherMap [255, 255] [0, 7]) exModel).2.1) = (sb2, mb2, .ok ()) ∧
    (∃ bs, MapOK sb2 40002 bs ∧ memB2 = mapMem 40002 bs) ∧ memB2 40002 = some (0, 100) ∧ memB2 40007 = some (0, 10) := by
  obtain ⟨sa1, ma1, sb1, mb1, h1, h2, h3⟩ := C97_registers_partial (mapDev_isMem 40002) (mapDev_isMem 40002) exactLib exactLib_ok exMap _ ⟨_, exMap_ok, rfl⟩
    exModel exModel_ok exModel_tiles (by rw [exModel_plan]; simp) exMap_exists
    (otherMap [255, 255] [0, 7]) _ ⟨_, otherMap_ok 255 255 0 7, rfl⟩ exModel exModel_ok exModel_separate
    exModel_tiles (by rw [exModel_plan]; simp) (otherMap_exists 255 255 0 7) (by decide +kernel) (fun _ _ _ _ _ => trivial) exModel_same exSel
  have key : ∀ i < 3, ∀ j < 2, exSel i j = true →
      (ptAt (readPoints mapDev exMap exModel).2.1 i j).map (fun p => p.vsf) =
        (ptAt (readPoints mapDev (otherMap [255, 255] [0, 7]) exModel).2.1 i j).map (fun p => p.vsf) ∧
      (ptAt (readPoints mapDev exMap exModel).2.1 i j).all (fun p => p.base.isSome) = true := by decide +kernel
  have hplaces := fun i j p => exModel_places exMap (by decide +kernel) (i := i) (j := j) (p := p)
  have hcopy := exModel_copyOK
  rw [h1, h2] at key
  rw [h1] at hplaces hcopy
  rw [h1, h2]
  obtain ⟨sb2, mb2, memB2, w1, w2, w3, w4, _⟩ := h3 (by
    intro i j p q hs hp hq
    obtain ⟨hi, hj⟩ := hplaces i j p hp
    obtain ⟨k1, k2⟩ := key i hi j hj hs
    rw [hp, hq] at k1
    rw [hp] at k2
    obtain ⟨b, hb, hpb⟩ := ptAt_mem hp
    exact ⟨hcopy b hb p hpb k2, Option.some.inj k1⟩)
  refine ⟨sb2, mb2, memB2, w1, w2, ?_, ?_⟩
  · obtain ⟨rs, r1, r2⟩ := w3 0 0 (exPoint exModel 0 0) (exPoint exModel 0 0) rfl exPoint_eq exPoint_eq
    have e : (exPoint exModel 0 0).addr = 40002 ∧ (exPoint exModel 0 0).pt.len.toNat = 1 := by decide +kernel
    rw [e.1, e.2] at r1 r2
    have g1 := (memRegs_get r1).2 0 (by decide)
    have g2 := (memRegs_get r2).2 0 (by decide)
    have e2 : mapMem 40002 [⟨0, [(0, 100), (0, 0), (255, 255), (0, 1), (0, 2), (255, 255), (0, 4)], t!"rw"⟩] 40002 = some (0, 100) := by decide +kernel
    have g1' : mapMem 40002 [⟨0, [(0, 100), (0, 0), (255, 255), (0, 1), (0, 2), (255, 255), (0, 4)], t!"rw"⟩] 40002 = rs[0]? := g1
    have g2' : memB2 40002 = rs[0]? := g2
    rw [g2', ← g1', e2]
  · rw [w4 40007]
    · decide +kernel
    · intro i j p q hs hp hq
      have hq3 : ∀ i < 3, ∀ j < 2, exSel i j = true → (ptAt exModel i j).all (fun q => !decide (q.addr ≤ 40007 ∧ 40007 < q.addr + q.pt.len)) = true := by decide +kernel
      have hij : i < 3 ∧ j < 2 := by
        obtain ⟨b, h1, h2⟩ := ptAt_split hq
        have hl : exModel.blocks.length = 3 ∧ ∀ b ∈ exModel.blocks, b.pts.length ≤ 2 := by decide +kernel
        have hi := (List.getElem?_eq_some_iff.1 h1).1
        have hj := (List.getElem?_eq_some_iff.1 h2).1
        have := hl.2 b (List.mem_of_getElem? h1)
        omega
      have := hq3 i hij.1 j hij.2 hs
      rw [hq] at this
      simp at this
      omega

/-- The first point only. -/
def firstSel (i j : Nat) : Bool := i == 0 && j == 0

/-- Non-vacuity of C97 with different scale factors: 100 with the scale factor -1 is copied to a point with the scale factor -2. -/
theorem transfer_example : ∀ i j p q, firstSel i j = true → ptAt (readPoints mapDev exMap exModel).2.1 i j = some p →
    ptAt (readPoints mapDev (otherMap [255, 254] [0, 7]) exModel).2.1 i j = some q → ∃ x, TransferOK exactLib p q x := by
  intro i j p q hs hp hq
  have hij : i = 0 ∧ j = 0 := by simpa [firstSel] using hs
  obtain ⟨rfl, rfl⟩ := hij
  have h1 : (ptAt (readPoints mapDev exMap exModel).2.1 0 0).map (fun p => (p.base, p.vsf)) = some (some (.int 100), some (.int (-1))) := by decide +kernel
  have h2 : (ptAt (readPoints mapDev (otherMap [255, 254] [0, 7]) exModel).2.1 0 0).map (fun p => (p.pt.type, p.pt.len, p.base, p.vsf)) =
      some (.int16, 1, some (.int 7), some (.int (-2))) := by decide +kernel
  rw [hp] at h1
  rw [hq] at h2
  simp only [Option.map_some, Option.some.injEq, Prod.mk.injEq] at h1 h2
  obtain ⟨hb, hv⟩ := h1
  obtain ⟨t1, t2, t3, t4⟩ := h2
  obtain ⟨x, g1, g2⟩ := C34_get_partial exactLib exactLib_ok p (-1) 100 hv (by decide) (by decide) (by decide) hb (by decide)
  have g3 : |x - 10| ≤ 1 / 1000 := by
    refine le_trans ?_ (le_trans g2 (by norm_num))
    norm_num
  have hres : resolution q = 1 / 100 := by unfold resolution; rw [t4]; norm_num
  have hx : x / resolution q = 100 * x := by rw [hres]; ring
  obtain ⟨x1, x2⟩ := abs_le.1 g3
  refine ⟨x, amount_flt exactLib g1, by rw [t1]; rfl, ⟨100, hb, by decide⟩, ⟨.inr ⟨-1, hv, by decide, by decide⟩, .inr ⟨-2, t4, by decide, by decide⟩⟩,
    by rw [t3]; simp, ?_, ?_⟩
  · rw [hx, abs_le]
    constructor <;> linarith
  · intro n hn
    rw [hx] at hn
    obtain ⟨n1, n2⟩ := abs_le.1 hn
    have lo : (998 : ℚ) ≤ n := by linarith
    have hi : (n : ℚ) ≤ 1002 := by linarith
    have lo' : 998 ≤ n := by exact_mod_cast lo
    have hi' : n ≤ 1002 := by exact_mod_cast hi
    have hn : n = 998 ∨ n = 999 ∨ n = 1000 ∨ n = 1001 ∨ n = 1002 := by omega
    show q.pt.type ≠ .eui48 ∧ (q.pt.type = .string → 8 ≤ q.pt.len) ∧ ∃ (d : Bytes) (v : Val), (d.length : Int) = 2 * q.pt.len ∧ some (Val.int n) = some v ∧
      q.pt.type.readValue d = .ok (some (.int n))
    rw [t1, t2]
    refine ⟨by decide, by decide, ?_⟩
    rcases hn with rfl | rfl | rfl | rfl | rfl
    · exact ⟨[3, 230], _, rfl, rfl, by decide +kernel⟩
    · exact ⟨[3, 231], _, rfl, rfl, by decide +kernel⟩
    · exact ⟨[3, 232], _, rfl, rfl, by decide +kernel⟩
    · exact ⟨[3, 233], _, rfl, rfl, by decide +kernel⟩
    · exact ⟨[3, 234], _, rfl, rfl, by decide +kernel⟩

example : ∃ sb2 mb2 sb3 mb3,
    writePoints mapDev (readPoints mapDev (otherMap [255, 254] [0, 7]) exModel).1
      (transferModel exactLib firstSel (readPoints mapDev exMap exModel).2.1 (readPoints mapDev (otherMap [255, 254] [0, 7]) exModel).2.1) = (sb2, mb2, .ok ()) ∧
    readPoints mapDev sb2 mb2 = (sb3, mb3, .ok ()) ∧
    ∀ p q, ptAt (readPoints mapDev exMap exModel).2.1 0 0 = some p → ptAt (readPoints mapDev (otherMap [255, 254] [0, 7]) exModel).2.1 0 0 = some q →
      ∃ q3 x y, ptAt mb3 0 0 = some q3 ∧ Amount exactLib p x ∧ Amount exactLib q3 y ∧ |y - x| ≤ resolution q3 := by
  obtain ⟨sa1, ma1, sb1, mb1, h1, h2, h3⟩ := C97_values_partial (mapDev_isMem 40002) (mapDev_isMem 40002) exactLib exactLib_ok exMap _ ⟨_, exMap_ok, rfl⟩
    exModel exModel_ok exModel_tiles (by rw [exModel_plan]; simp) exMap_exists
    (otherMap [255, 254] [0, 7]) _ ⟨_, otherMap_ok 255 254 0 7, rfl⟩ exModel exModel_ok exModel_separate
    exModel_tiles (by rw [exModel_plan]; simp) (otherMap_exists 255 254 0 7) (by decide +kernel) (by decide +kernel) (by decide +kernel)
    (fun _ _ _ _ _ => trivial) firstSel
  have h4 := transfer_example
  rw [h1, h2] at h4 ⊢
  obtain ⟨sb2, mb2, sb3, mb3, w1, w2, w3, _⟩ := h3 h4
  exact ⟨sb2, mb2, sb3, mb3, w1, w2, fun p q => w3 0 0 p q rfl⟩

/-- C97 for all integer points that have a value in A: if the calls return, the value in B differs from that in A by at most the resolution of the point in B. -/
def C97_full : Prop :=
  ∀ (lib : FloatLib) (baseA baseB : Int) (bsA bsB : List Blk) (ka kb : MbMap) (ma mb : MdlObj) (sel : Nat → Nat → Bool), PowOK lib →
    MapOK ka baseA bsA → MapOK kb baseB bsB → ModelOK ma → ModelOK mb → Separate mb →
    Tiles ma.addr (ma.addr + ma.len) (readPlan ma) → Tiles mb.addr (mb.addr + mb.len) (readPlan mb) →
    (∀ b ∈ mb.blocks, ∀ p ∈ b.pts, p.dirty = false) → SameDefs ma mb →
    ∀ ka1 ma1 kb1 mb1 kb2 mb2 kb3 mb3, readPoints mapDev ka ma = (ka1, ma1, .ok ()) → readPoints mapDev kb mb = (kb1, mb1, .ok ()) →
      writePoints mapDev kb1 (transferModel lib sel ma1 mb1) = (kb2, mb2, .ok ()) → readPoints mapDev kb2 mb2 = (kb3, mb3, .ok ()) →
      ∀ i j p q x y, sel i j = true → ptAt ma1 i j = some p → ptAt mb3 i j = some q → p.pt.type.isInt = true → Amount lib p x → Amount lib q y →
        |y - x| ≤ resolution q

/-- C97 is violated: a point that is not implemented (yet) in B has no scale factor in the model read from B, so that 1000 (100 with the scale
factor 1) is stored as 1000 although the scale factor in B is 1: the value of the point is then 10000. -/
theorem C97_violated : ¬ C97_full := by
  intro h
  have hr1 : (readPoints mapDev (otherMap [0, 1] [0, 100]) exModel).2.2 = .ok () := by decide +kernel
  have hr2 : (readPoints mapDev (otherMap [0, 1] [128, 0]) exModel).2.2 = .ok () := by decide +kernel
  have hw : (writePoints mapDev (readPoints mapDev (otherMap [0, 1] [128, 0]) exModel).1 (transferModel exactLib firstSel
    (readPoints mapDev (otherMap [0, 1] [0, 100]) exModel).2.1 (readPoints mapDev (otherMap [0, 1] [128, 0]) exModel).2.1)).2.2 = .ok () := by decide +kernel
  have hr3 : (readPoints mapDev
      (writePoints mapDev (readPoints mapDev (otherMap [0, 1] [128, 0]) exModel).1 (transferModel exactLib firstSel
        (readPoints mapDev (otherMap [0, 1] [0, 100]) exModel).2.1 (readPoints mapDev (otherMap [0, 1] [128, 0]) exModel).2.1)).1
      (writePoints mapDev (readPoints mapDev (otherMap [0, 1] [128, 0]) exModel).1 (transferModel exactLib firstSel
        (readPoints mapDev (otherMap [0, 1] [0, 100]) exModel).2.1 (readPoints mapDev (otherMap [0, 1] [128, 0]) exModel).2.1)).2.1).2.2 = .ok () := by
    decide +kernel
  have hp : (ptAt (readPoints mapDev (otherMap [0, 1] [0, 100]) exModel).2.1 0 0).map (fun p => (p.pt.type, p.base, p.vsf)) =
      some (.int16, some (.int 100), some (.int 1)) := by decide +kernel
  have hq : (ptAt (readPoints mapDev
      (writePoints mapDev (readPoints mapDev (otherMap [0, 1] [128, 0]) exModel).1 (transferModel exactLib firstSel
        (readPoints mapDev (otherMap [0, 1] [0, 100]) exModel).2.1 (readPoints mapDev (otherMap [0, 1] [128, 0]) exModel).2.1)).1
      (writePoints mapDev (readPoints mapDev (otherMap [0, 1] [128, 0]) exModel).1 (transferModel exactLib firstSel
        (readPoints mapDev (otherMap [0, 1] [0, 100]) exModel).2.1 (readPoints mapDev (otherMap [0, 1] [128, 0]) exModel).2.1)).2.1).2.1 0 0).map
      (fun p => (p.base, p.vsf)) = some (some (.int 1000), some (.int 1)) := by decide +kernel
  have hall := h exactLib 40002 40002 _ _ _ _ exModel exModel firstSel exactLib_ok (otherMap_ok 0 1 0 100) (otherMap_ok 0 1 128 0) exModel_ok exModel_ok
    exModel_separate exModel_tiles exModel_tiles (by decide +kernel) exModel_same
  generalize readPoints mapDev (otherMap [0, 1] [0, 100]) exModel = A at *
  generalize readPoints mapDev (otherMap [0, 1] [128, 0]) exModel = B at *
  obtain ⟨ka1, ma1, ra⟩ := A
  obtain ⟨kb1, mb1, rb⟩ := B
  dsimp only at *
  generalize hW : writePoints mapDev kb1 (transferModel exactLib firstSel ma1 mb1) = W at *
  obtain ⟨kb2, mb2, rw'⟩ := W
  dsimp only at *
  generalize hV : readPoints mapDev kb2 mb2 = V at *
  obtain ⟨kb3, mb3, rv⟩ := V
  dsimp only at *
  obtain ⟨p, hp1, hp2⟩ := Option.map_eq_some_iff.1 hp
  obtain ⟨q, hq1, hq2⟩ := Option.map_eq_some_iff.1 hq
  simp only [Prod.mk.injEq] at hp2 hq2
  obtain ⟨p1, p2, p3⟩ := hp2
  obtain ⟨q1, q2⟩ := hq2
  obtain ⟨x, g1, g2⟩ := C34_get_partial exactLib exactLib_ok p 1 100 p3 (by decide) (by decide) (by decide) p2 (by decide)
  obtain ⟨y, k1, k2⟩ := C34_get_partial exactLib exactLib_ok q 1 1000 q2 (by decide) (by decide) (by decide) q1 (by decide)
  have hres : resolution q = 10 := by unfold resolution; rw [q2]; norm_num
  have hle := hall ka1 ma1 kb1 mb1 kb2 mb2 kb3 mb3 (by rw [hr1]) (by rw [hr2]) (by rw [hW, hw]) (by rw [hV, hr3]) 0 0 p q x y rfl hp1 hq1 (by rw [p1]; rfl)
    (amount_flt exactLib g1) (amount_flt exactLib k1)
  rw [hres] at hle
  have g3 : |x - 1000| ≤ 1 := by refine le_trans ?_ (le_trans g2 (by norm_num)); norm_num
  have k3 : |y - 10000| ≤ 1 := by refine le_trans ?_ (le_trans k2 (by norm_num)); norm_num
  rw [abs_le] at hle g3 k3
  linarith [hle.2, g3.2, k3.1]

end Verif
