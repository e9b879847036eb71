import Verif.Props.ClientWrite

/-!
# C37: writing a model, then reading it
-/

namespace Verif
open Spec

theorem pairwise_ne {α} {R : α → α → Prop} (hsym : ∀ a b, R a b → R b a) {l : List α} (h : l.Pairwise R) {a b : α}
    (ha : a ∈ l) (hb : b ∈ l) (hne : a ≠ b) : R a b := by
  induction l with
  | nil => simp at ha
  | cons c l ih =>
    rw [List.pairwise_cons] at h
    rcases List.mem_cons.1 ha with rfl | ha
    · rcases List.mem_cons.1 hb with h' | hb
      · exact absurd h'.symm hne
      · exact h.1 b hb
    · rcases List.mem_cons.1 hb with rfl | hb
      · exact hsym _ _ (h.1 a ‹_›)
      · exact ih h.2 ha hb

/-- Encoding a value that was read gives the registers it was read from. -/
theorem readback (t : PT) (d : Bytes) (n : Nat) (v : Val) (hl : d.length = 2 * n) (hr : ∀ k, typeRegs t = some k → n = k)
    (he : t ≠ .eui48) (hs : t = .string → 8 ≤ n) (h : t.readValue d = .ok (some v)) :
    t.toData (some v) (2 * n) = .ok d := by
  have hint : ∀ f, codecFmt t = some f → d.length = f.bytes → t.toData (some v) (2 * n) = .ok d := by
    intro f hf hd
    obtain ⟨w, h1, _, h3⟩ := C01_decode_encode t f hf d hd (2 * n)
    unfold PT.readValue at h
    rw [h1] at h
    by_cases hi : t.isImpl (some (.int w)) = true
    · simp [hi] at h
      rw [← h]; exact h3
    · simp [hi] at h
  cases t
  case eui48 => exact absurd rfl he
  case string =>
    have hn := hs rfl
    cases d with
    | nil => simp at hl; omega
    | cons b r =>
      have hb : ¬ Unimpl .string (b :: r) := by
        intro hu
        have := (C03_sentinels_partial .string (by decide) (b :: r) (by intro k hk; cases hk)).1 hu
        rw [this] at h; cases h
      obtain ⟨txt, m, h1, h2⟩ := split_nul (b :: r)
      have ht : txt ≠ [] := by
        rintro rfl
        cases m with
        | zero => simp at h1
        | succ m =>
          simp [List.replicate_succ] at h1
          exact hb (.inr ⟨r, by rw [h1.1]; rfl⟩)
      simp only [PT.readValue, PT.fromData, h1, dataToStr_append ht h2] at h
      by_cases hi : PT.string.isImpl (some (.str (latin1Dec txt))) = true
      · rw [if_pos hi] at h
        cases h
        simp only [PT.toData, strToData, Option.getD_some, latin1Enc_dec]
        rw [if_neg (by omega), h1]
        have : txt.length + m = 2 * n := by rw [← hl, h1]; simp
        rw [packStr, List.take_of_length_le (by omega), show 2 * n - txt.length = m by omega]
        rfl
      · rw [if_neg hi] at h; cases h
  case float32 =>
    have h2 := hr 2 rfl
    subst h2
    rw [float_toData]
    exact float_readback hl h
  case ipv6addr =>
    have h2 := hr 8 rfl
    subst h2
    have hnz : ¬ ∀ b ∈ d, b = 0 := by
      intro hz
      have := (C03_sentinels_partial .ipv6addr (by decide) d (by rintro k ⟨⟩; exact hl)).1 hz
      rw [this] at h; cases h
    obtain ⟨s, h3, h4⟩ := C06_ipv6_roundtrip d hl hnz
    rw [h3] at h
    cases h
    exact h4
  all_goals first
    | (have h2 := hr 1 rfl; subst h2; exact hint _ rfl hl)
    | (have h2 := hr 2 rfl; subst h2; exact hint _ rfl hl)
    | (have h2 := hr 4 rfl; subst h2; exact hint _ rfl hl)

/-- The values a point can have after a read are encoded so that they are read back. -/
theorem writable_encoded (p : PointObj) (hl : LenOK p.pt) (hw : Writable p) :
    ∃ rs, Encoded p rs ∧ p.pt.type.readValue (regBytes rs) = .ok p.base := by
  obtain ⟨h1, h2, d, v, h3, h4, h5⟩ := hw
  have hpos := lenOK_pos hl
  have h6 := readback p.pt.type d p.pt.len.toNat v (by omega) (by
      intro k hk
      unfold LenOK at hl
      rw [hk] at hl
      dsimp only at hl
      omega) h1 (fun h => by have := h2 h; omega) (by rw [h5, h4])
  obtain ⟨rs, rfl⟩ := exists_regs d (by omega)
  rw [regBytes_length] at h3
  refine ⟨rs, ⟨?_, by omega⟩, h5⟩
  rw [h4, show (p.pt.len * 2).toNat = 2 * p.pt.len.toNat by omega]
  exact h6

theorem cleanModel_eq (m : MdlObj) : cleanModel m = mapPts clean m := rfl

/-- C37, for all values that are encoded to the size of their point: after writing the model and reading it back, the
modified points have the values their encodings stand for, all other points (scale factors included) those of their registers before the write; the scale factors
of the points are those read. Assumptions: a device that behaves like a register memory (mapped devices, RTU and TCP devices with
conforming slaves: `mapDev_isMem`, `rtuDev_isMem`, `tcpDev_isMem`); a model as loaded (`ModelOK`, `Separate`, `Tiles`). -/
theorem C37_encoded_partial {σ} {dev : MbDev σ} {R : σ → RegMem → Prop} {wr : Nat → Prop} (hdev : IsMem dev R wr)
    (s : σ) (mem : RegMem) (hs : R s mem) (m : MdlObj) (hm : ModelOK m) (hsep : Separate m)
    (ht : Tiles m.addr (m.addr + m.len) (readPlan m)) (hpos : ∀ c ∈ readPlan m, 0 ≤ c.2)
    (hex : ∀ x, m.addr ≤ x → x < m.addr + m.len → mem x ≠ none)
    (hwr : ∀ b ∈ m.blocks, ∀ n, 0 < n → n ≤ dirtyLen b.pts → wr n)
    (hset : ∀ b ∈ m.blocks, ∀ p ∈ b.pts, p.dirty → ∃ rs, Encoded p rs) :
    ∃ s1 s2 m1 m2 mem2, writePoints dev s m = (s1, m1, .ok ()) ∧ readPoints dev s1 m1 = (s2, m2, .ok ()) ∧ R s2 mem2 ∧
      m2 = { m with blocks := m2.blocks } ∧ m2.blocks.length = m.blocks.length ∧
      ∀ (i : Nat) (b b2 : BlockObj), m.blocks[i]? = some b → m2.blocks[i]? = some b2 →
        b2 = { b with pts := b2.pts, sfs := b2.sfs } ∧ b2.pts.length = b.pts.length ∧ b2.sfs.length = b.sfs.length ∧
        (∀ (j : Nat) (p p2 : PointObj), b.pts[j]? = some p → b2.pts[j]? = some p2 →
          (p.dirty = true → p2 = { p with dirty := false, base := p2.base, vsf := p2.vsf } ∧
            ∃ rs, Encoded p rs ∧ p.pt.type.readValue (regBytes rs) = .ok p2.base) ∧
          (p.dirty = false → PointRead mem p p2) ∧
          (p2.base ≠ none → ∀ ref, p.sf = some ref → IsScale m2.blocks ref p2.vsf) ∧ (p.sf = none → p2.vsf = p.vsf ∨ p2.vsf = none)) ∧
        (∀ (j : Nat) (p p2 : PointObj), b.sfs[j]? = some p → b2.sfs[j]? = some p2 → PointRead mem p p2) := by
  have henc : ∀ b ∈ m.blocks, ∀ p ∈ b.pts, p.dirty → 0 < p.pt.len ∧ (∃ rs, Encoded p rs) ∧
      ∀ x, p.addr ≤ x → x < p.addr + p.pt.len → mem x ≠ none := by
    intro b hb p hp hd
    have hl := hm.len b hb p (.inl hp)
    obtain ⟨rs, h1⟩ := hset b hb p hp hd
    have h2 := lenOK_pos hl
    have h3 := hm.inside b hb p (.inl hp)
    exact ⟨by omega, ⟨rs, h1⟩, fun x h4 h5 => hex x (by omega) (by omega)⟩
  obtain ⟨s1, mem1, w1, w2, w3, w4⟩ := C35_write_partial hdev s mem hs m hsep hwr henc
  have hex1 : ∀ x, m.addr ≤ x → x < m.addr + m.len → mem1 x ≠ none := by
    intro x h1 h2
    by_cases hc : ∃ b ∈ m.blocks, ∃ p ∈ b.pts, p.dirty = true ∧ p.addr ≤ x ∧ x < p.addr + p.pt.len
    · obtain ⟨b, hb, p, hp, hd, h3, h4⟩ := hc
      obtain ⟨rs, _, h5⟩ := w3 b hb p hp hd
      exact memRegs_iff.1 (by rw [h5]; simp) x h3 (by omega)
    · rw [w4 x]
      · exact hex x h1 h2
      · intro b hb p hp hd hx
        exact hc ⟨b, hb, p, hp, hd, hx⟩
  obtain ⟨s2, m2, r1, r2, r3⟩ := C32_memory hdev mem1 s1 w2 (cleanModel m) (mapPts_ok clean (fun _ => ⟨rfl, rfl, rfl⟩) hm) ht hpos hex1
  refine ⟨s1, s2, cleanModel m, m2, mem1, w1, r1, r2, r3.same, ?_, ?_⟩
  · rw [r3.count]; simp [cleanModel]
  · intro i b b2 hb hb2
    have hbc : (cleanModel m).blocks[i]? = some { b with pts := b.pts.map clean } := by
      simp [cleanModel, hb]
    obtain ⟨e1, e2, e3⟩ := r3.block i _ b2 hbc hb2
    have hbm := List.mem_of_getElem? hb
    -- registers of points that are not modified
    have hsame : ∀ p, (p ∈ b.pts ∧ p.dirty = false ∨ p ∈ b.sfs) → memRegs mem1 p.addr p.pt.len.toNat = memRegs mem p.addr p.pt.len.toNat := by
      intro p hp
      apply memRegs_congr
      intro x h1 h2
      apply w4
      intro b' hb' q hq hqd hx
      -- p and q are different points of the model
      obtain ⟨i', hi'⟩ := List.getElem?_of_mem hb'
      have hmem : ∀ (bs : List BlockObj) (i i' : Nat), bs[i]? = some b → bs[i']? = some b' →
          (bs.flatMap fun b => b.pts ++ b.sfs).Pairwise (fun p q => p.addr + p.pt.len ≤ q.addr ∨ q.addr + q.pt.len ≤ p.addr) →
          p.addr + p.pt.len ≤ q.addr ∨ q.addr + q.pt.len ≤ p.addr := by
        have hpm : p ∈ b.pts ++ b.sfs := by rcases hp with h | h <;> simp [h]
        have hqm : q ∈ b'.pts ++ b'.sfs := by simp [hq]
        intro bs
        induction bs with
        | nil => intro i i' h; simp at h
        | cons c bs ih =>
          intro i i' h1 h2 h3
          rw [List.flatMap_cons, List.pairwise_append] at h3
          cases i with
          | zero =>
            simp at h1
            subst h1
            cases i' with
            | zero =>
              simp at h2
              subst h2
              have h3 := h3.1
              rw [List.pairwise_append] at h3
              rcases hp with ⟨hp, hpd⟩ | hp
              · have hne : p ≠ q := by rintro rfl; rw [hpd] at hqd; cases hqd
                exact pairwise_ne (R := fun (p q : PointObj) => p.addr + p.pt.len ≤ q.addr ∨ q.addr + q.pt.len ≤ p.addr) (fun _ _ h => h.symm) h3.1 hp hq hne
              · exact (h3.2.2 q hq p hp).symm
            | succ i' =>
              rw [List.getElem?_cons_succ] at h2
              exact h3.2.2 p hpm q (List.mem_flatMap.2 ⟨b', List.mem_of_getElem? h2, hqm⟩)
          | succ i =>
            rw [List.getElem?_cons_succ] at h1
            cases i' with
            | zero =>
              simp at h2
              subst h2
              exact (h3.2.2 q hqm p (List.mem_flatMap.2 ⟨b, List.mem_of_getElem? h1, hpm⟩)).symm
            | succ i' =>
              rw [List.getElem?_cons_succ] at h2
              exact ih i i' h1 h2 h3.2.1
      have := hmem m.blocks i i' hb hi' hsep
      omega
    refine ⟨e1, by simpa using e2, e3, ?_, ?_⟩
    · intro j p p2 hp hp2
      have hpm := List.mem_of_getElem? hp
      obtain ⟨⟨rs, f1, f2, f3⟩, f4⟩ := r3.point i _ b2 hbc hb2 j (clean p) p2 (by simp [hp]) hp2
      refine ⟨?_, ?_, f4, (r3.blank i _ b2 hbc hb2 j (clean p) p2 (by simp [hp]) hp2).2⟩
      · intro hd
        obtain ⟨rs', k1, k2⟩ := w3 b hbm p hpm hd
        have f1' : memRegs mem1 p.addr p.pt.len.toNat = some rs := f1
        rw [k2] at f1'
        have f5 : rs' = rs := Option.some.inj f1'
        rw [← f5] at f2
        exact ⟨f3, rs', k1, f2⟩
      · intro hd
        have hc : clean p = p := by unfold clean; rw [← hd]
        rw [hc] at f1 f3
        exact ⟨rs, by rw [← hsame p (.inl ⟨hpm, hd⟩)]; exact f1, f2, f3⟩
    · intro j p p2 hp hp2
      obtain ⟨rs, f1, f2, f3⟩ := r3.scale i _ b2 hbc hb2 j p p2 hp hp2
      exact ⟨rs, by rw [← hsame p (.inr (List.mem_of_getElem? hp))]; exact f1, f2, f3⟩

/-- C37: after assigning values to any points, writing the model and reading it back, the points have the values that
were assigned, all other points (scale factors included) those of their registers before the write; the scale factors
of the points are those read. Assumptions: a device that behaves like a register memory (mapped devices, RTU and TCP devices with
conforming slaves: `mapDev_isMem`, `rtuDev_isMem`, `tcpDev_isMem`); a model as loaded (`ModelOK`, `Separate`, `Tiles`); assigned
values that the points can have (`Writable`). -/
theorem C37_write_read_partial {σ} {dev : MbDev σ} {R : σ → RegMem → Prop} {wr : Nat → Prop} (hdev : IsMem dev R wr)
    (s : σ) (mem : RegMem) (hs : R s mem) (m : MdlObj) (hm : ModelOK m) (hsep : Separate m)
    (ht : Tiles m.addr (m.addr + m.len) (readPlan m)) (hpos : ∀ c ∈ readPlan m, 0 ≤ c.2)
    (hex : ∀ x, m.addr ≤ x → x < m.addr + m.len → mem x ≠ none)
    (hwr : ∀ b ∈ m.blocks, ∀ n, 0 < n → n ≤ dirtyLen b.pts → wr n)
    (hset : ∀ b ∈ m.blocks, ∀ p ∈ b.pts, p.dirty → Writable p) :
    ∃ s1 s2 m1 m2 mem2, writePoints dev s m = (s1, m1, .ok ()) ∧ readPoints dev s1 m1 = (s2, m2, .ok ()) ∧ R s2 mem2 ∧
      m2 = { m with blocks := m2.blocks } ∧ m2.blocks.length = m.blocks.length ∧
      ∀ (i : Nat) (b b2 : BlockObj), m.blocks[i]? = some b → m2.blocks[i]? = some b2 →
        b2 = { b with pts := b2.pts, sfs := b2.sfs } ∧ b2.pts.length = b.pts.length ∧ b2.sfs.length = b.sfs.length ∧
        (∀ (j : Nat) (p p2 : PointObj), b.pts[j]? = some p → b2.pts[j]? = some p2 →
          (p.dirty = true → p2 = { p with dirty := false, vsf := p2.vsf }) ∧
          (p.dirty = false → PointRead mem p p2) ∧
          (p2.base ≠ none → ∀ ref, p.sf = some ref → IsScale m2.blocks ref p2.vsf) ∧ (p.sf = none → p2.vsf = p.vsf ∨ p2.vsf = none)) ∧
        (∀ (j : Nat) (p p2 : PointObj), b.sfs[j]? = some p → b2.sfs[j]? = some p2 → PointRead mem p p2) := by
  obtain ⟨s1, s2, m1, m2, mem2, h1, h2, h3, h4, h5, h6⟩ := C37_encoded_partial hdev s mem hs m hm hsep ht hpos hex hwr (by
    intro b hb p hp hd
    obtain ⟨rs, h1, _⟩ := writable_encoded p (hm.len b hb p (.inl hp)) (hset b hb p hp hd)
    exact ⟨rs, h1⟩)
  refine ⟨s1, s2, m1, m2, mem2, h1, h2, h3, h4, h5, ?_⟩
  intro i b b2 hb hb2
  obtain ⟨k1, k2, k3, k4, k5⟩ := h6 i b b2 hb hb2
  have hbm := List.mem_of_getElem? hb
  refine ⟨k1, k2, k3, ?_, k5⟩
  intro j p p2 hp hp2
  have hpm := List.mem_of_getElem? hp
  obtain ⟨l1, l2, l3⟩ := k4 j p p2 hp hp2
  refine ⟨?_, l2, l3⟩
  intro hd
  obtain ⟨e, rs, g1, g2⟩ := l1 hd
  obtain ⟨rs', f1, f2⟩ := writable_encoded p (hm.len b hbm p (.inl hpm)) (hset b hbm p hpm hd)
  have hrs : rs = rs' := regBytes_inj (by have := g1.1; rw [f1.1] at this; exact (Except.ok.inj this).symm)
  rw [hrs, f2] at g2
  have hbase : p2.base = p.base := (Except.ok.inj g2).symm
  rw [hbase] at e
  exact e

/-- The points of a loaded model do not share registers if those of its definition do not. -/
theorem loaded_separate (fuel : Nat) (mt : ModelType) (id addr len : Int) (m : MdlObj)
    (h : loadWith fuel (.ok mt) (mdlNew id addr len) = (m, .ok ()))
    (hof : ∀ F, mt.fixed.len.toInt = .ok F → BlockOrdered mt.fixed (fixedLen id m.len F) ∧ 0 ≤ fixedLen id m.len F)
    (hor : ∀ rb R, mt.rep = some rb → rb.len.toInt = .ok R → BlockOrdered rb R ∧ 0 ≤ R) : Separate m := by
  obtain ⟨F, R, n, hl⟩ := loadWith_ok fuel mt id addr len m h
  have hlen := hl.hlen
  obtain ⟨ho, hF0⟩ := hof F hl.flen
  rw [hlen] at ho hF0
  obtain ⟨h1, _⟩ := hl.spans ho (fun rb hr => hor rb R hr (hl.rlen rb hr)) hF0
  -- the points of a block are those of its type
  have hblk : ∀ b ∈ m.blocks, ((b.pts ++ b.sfs).map fun p => (p.addr, p.pt.len)).Perm (spansOf b.addr b.bt.points) := by
    intro b hb
    have hbe : ∃ a bl i, b = mkBlock mt.fixed b.bt a bl i := by
      obtain ⟨i, hi⟩ := List.getElem?_of_mem hb
      rw [hl.blocks] at hi
      cases i with
      | zero => simp at hi; exact ⟨_, _, 0, by rw [← hi]; rfl⟩
      | succ i =>
        rw [List.getElem?_cons_succ] at hi
        cases hr : mt.rep with
        | none => rw [hr] at hi; simp at hi
        | some rb =>
          rw [hr] at hi
          dsimp only at hi
          have hb' := repBlocks_get _ _ _ _ _ _ _ _ hi
          exact ⟨_, _, _, by rw [hb']; rfl⟩
    obtain ⟨a, bl, i, hbe⟩ := hbe
    have e : (b.pts ++ b.sfs).map (fun p => (p.addr, p.pt.len)) =
        (dataPoints b.bt ++ sfPoints b.bt).map fun t => (b.addr + t.offset, t.len) := by
      rw [hbe]
      simp only [mkBlock, List.map_append, List.map_map]
      congr 1
    rw [e]
    unfold spansOf
    apply List.Perm.map
    have hd : dataPoints b.bt = (b.bt.points.filter fun p => p.type ≠ .pad).filter fun p => !(decide (p.type = .sunssf)) := by
      unfold dataPoints
      rw [List.filter_filter]
      congr 1
      funext t
      by_cases c1 : t.type = .pad <;> by_cases c2 : t.type = .sunssf <;> simp [c1, c2]
    have hs : sfPoints b.bt = (b.bt.points.filter fun p => p.type ≠ .pad).filter fun p => decide (p.type = .sunssf) := by
      unfold sfPoints
      rw [List.filter_filter]
      congr 1
      funext t
      by_cases c2 : t.type = .sunssf <;> simp [c2]
    rw [hd, hs]
    exact List.perm_append_comm.trans (List.filter_append_perm _ _)
  have hall : ∀ bs : List BlockObj, (∀ b ∈ bs, ((b.pts ++ b.sfs).map fun p => (p.addr, p.pt.len)).Perm (spansOf b.addr b.bt.points)) →
      ((bs.flatMap fun b => b.pts ++ b.sfs).map fun p => (p.addr, p.pt.len)).Perm (blockSpans bs) := by
    intro bs
    induction bs with
    | nil => intro _; exact .refl _
    | cons b bs ih =>
      intro hb
      have e : blockSpans (b :: bs) = spansOf b.addr b.bt.points ++ blockSpans bs := rfl
      rw [e, List.flatMap_cons, List.map_append]
      exact (hb b (by simp)).append (ih fun c hc => hb c (by simp [hc]))
  have h2 : (blockSpans m.blocks).Pairwise (fun x y => x.1 + x.2 ≤ y.1 ∨ y.1 + y.2 ≤ x.1) := h1.imp fun h => .inl h
  have h3 := ((hall m.blocks hblk).pairwise_iff (R := fun (x y : Int × Int) => x.1 + x.2 ≤ y.1 ∨ y.1 + y.2 ≤ x.1) (fun h => h.symm)).2 h2
  exact List.pairwise_map.1 h3

/-- C37 for a model loaded from a definition whose points are in order (`BlockOrdered`, C31) and lie in their blocks (`BlockFits`), then
changed by assigning values to points (`f`: value and mark only). -/
theorem C37_loaded_partial {σ} {dev : MbDev σ} {R : σ → RegMem → Prop} {wr : Nat → Prop} (hdev : IsMem dev R wr) (mem : RegMem)
    (s : σ) (hs : R s mem) (fuel : Nat) (mt : ModelType) (id addr len : Int) (m : MdlObj)
    (h : loadWith fuel (.ok mt) (mdlNew id addr len) = (m, .ok ()))
    (hof : ∀ F, mt.fixed.len.toInt = .ok F → BlockFits mt.fixed (fixedLen id m.len F) ∧ BlockOrdered mt.fixed (fixedLen id m.len F) ∧ 0 ≤ fixedLen id m.len F)
    (hor : ∀ rb R, mt.rep = some rb → rb.len.toInt = .ok R → BlockFits rb R ∧ BlockOrdered rb R ∧ 0 ≤ R)
    (hex : ∀ x, addr ≤ x → x < addr + m.len → mem x ≠ none)
    (f : PointObj → PointObj) (hf : ∀ p, (f p) = { p with base := (f p).base, dirty := (f p).dirty })
    (hwr : ∀ b ∈ m.blocks, ∀ n, 0 < n → n ≤ dirtyLen (b.pts.map f) → wr n)
    (hset : ∀ b ∈ m.blocks, ∀ p ∈ b.pts, (f p).dirty → Writable (f p)) :
    ∃ s1 s2 m1 m2 mem2, writePoints dev s (mapPts f m) = (s1, m1, .ok ()) ∧ readPoints dev s1 m1 = (s2, m2, .ok ()) ∧ R s2 mem2 ∧
      ∀ (i j : Nat) (b b2 : BlockObj) (p p2 : PointObj), m.blocks[i]? = some b → m2.blocks[i]? = some b2 →
        b.pts[j]? = some p → b2.pts[j]? = some p2 →
        ((f p).dirty = true → p2.base = (f p).base ∧ p2.dirty = false) ∧ ((f p).dirty = false → PointRead mem (f p) p2) := by
  have haddr : m.addr = addr := by obtain ⟨_, _, _, hl⟩ := loadWith_ok fuel mt id addr len m h; exact hl.haddr
  have hf' : ∀ p, (f p).addr = p.addr ∧ (f p).pt = p.pt ∧ (f p).sf = p.sf := by
    intro p; rw [hf p]; exact ⟨rfl, rfl, rfl⟩
  have hok := loaded_modelOK fuel mt id addr len m h (fun F hF => ⟨(hof F hF).1, (hof F hF).2.2⟩) (fun rb R h1 h2 => ⟨(hor rb R h1 h2).1, (hor rb R h1 h2).2.2⟩)
  have hsep := loaded_separate fuel mt id addr len m h (fun F hF => (hof F hF).2) (fun rb R h1 h2 => (hor rb R h1 h2).2)
  obtain ⟨s1, s2, m1, m2, mem2, w1, w2, w3, w4, w5, w6⟩ := C37_write_read_partial hdev s mem hs (mapPts f m) (mapPts_ok f hf' hok) (mapPts_separate f hf' hsep)
    (by show Tiles m.addr _ (readPlan m); rw [haddr]; have := C31_cover fuel mt id addr len m h; exact haddr ▸ this)
    (C31_whole fuel mt id addr len m h (fun F hF => (hof F hF).2) (fun rb R h1 h2 => (hor rb R h1 h2).2)).1
    (by show ∀ x, m.addr ≤ x → x < m.addr + m.len → _; rw [haddr]; exact hex)
    (by
      intro b hb
      obtain ⟨b0, hb0, rfl⟩ := List.mem_map.1 hb
      exact hwr b0 hb0)
    (by
      intro b hb p hp
      obtain ⟨b0, hb0, rfl⟩ := List.mem_map.1 hb
      obtain ⟨p0, hp0, rfl⟩ := List.mem_map.1 hp
      exact hset b0 hb0 p0 hp0)
  refine ⟨s1, s2, m1, m2, mem2, w1, w2, w3, ?_⟩
  intro i j b b2 p p2 hb hb2 hp hp2
  obtain ⟨_, _, _, g, _⟩ := w6 i { b with pts := b.pts.map f } b2 (by simp [mapPts, hb]) hb2
  obtain ⟨g1, g2, _⟩ := g j (f p) p2 (by simp [hp]) hp2
  refine ⟨fun hd => ?_, g2⟩
  have := g1 hd
  rw [this]
  exact ⟨rfl, rfl⟩

/-- Non-vacuity: `exModel` with the first point of each block set to 5, on the mapped device `exMap` and over RTU and TCP. -/
def setFirst (p : PointObj) : PointObj := if p.pt.id = (t!"A") ∨ p.pt.id = (t!"V") then { p with base := some (.int 5), dirty := true } else p

theorem setFirst_shape (p : PointObj) : setFirst p = { p with base := (setFirst p).base, dirty := (setFirst p).dirty } := by
  unfold setFirst
  by_cases h : p.pt.id = (t!"A") ∨ p.pt.id = (t!"V")
  · rw [if_pos h]
  · rw [if_neg h]

theorem setFirst_ok : ∀ p, (setFirst p).addr = p.addr ∧ (setFirst p).pt = p.pt ∧ (setFirst p).sf = p.sf := by
  intro p; rw [setFirst_shape p]; exact ⟨rfl, rfl, rfl⟩

theorem setFirst_marks : (mapPts setFirst exModel).blocks.map (fun b => b.pts.map (·.dirty)) = [[true], [true, false], [true, false]] := by
  decide +kernel

theorem setFirst_writable : ∀ b ∈ (mapPts setFirst exModel).blocks, ∀ p ∈ b.pts, p.dirty → Writable p := by
  have h : ∀ b ∈ (mapPts setFirst exModel).blocks, ∀ p ∈ b.pts, p.dirty → (p.pt.type = .int16 ∨ p.pt.type = .uint16) ∧ p.pt.len = 1 ∧ p.base = some (.int 5) := by
    decide +kernel
  intro b hb p hp hd
  obtain ⟨h1, h2, h3⟩ := h b hb p hp hd
  rw [Writable, h3, h2]
  rcases h1 with h1 | h1
  · rw [h1]; exact ⟨by decide, by simp, [0, 5], .int 5, rfl, rfl, by decide +kernel⟩
  · rw [h1]; exact ⟨by decide, by simp, [0, 5], .int 5, rfl, rfl, by decide +kernel⟩

example := C37_write_read_partial (rtuDev_isMem (drippingSlave_conforms 7)) ⟨exMem, []⟩ (regMem exMem) rfl (mapPts setFirst exModel)
    (mapPts_ok _ setFirst_ok exModel_ok) (mapPts_separate _ setFirst_ok exModel_separate) exModel_tiles
    (by show ∀ c ∈ readPlan exModel, _; rw [exModel_plan]; simp)
    (by show ∀ x, exModel.addr ≤ x → x < exModel.addr + exModel.len → _
        rw [exModel_span.1, exModel_span.2]; intro x h1 h2; unfold regMem; rw [if_pos (by omega)]; simp)
    (by
      have : ∀ b ∈ (mapPts setFirst exModel).blocks, dirtyLen b.pts ≤ 1 := by decide +kernel
      intro b hb n h1 h2
      have := this b hb
      omega)
    setFirst_writable

/-- Non-vacuity of C35: the same on the mapped device `exMap`. -/
example : ∃ s' mem', writePoints mapDev exMap (mapPts setFirst exModel) = (s', cleanModel (mapPts setFirst exModel), .ok ()) ∧
    (∃ bs, MapOK s' 40002 bs ∧ mem' = mapMem 40002 bs) ∧ memRegs mem' 40005 1 = some [(0, 5)] := by
  refine ⟨_, _, Prod.ext rfl (Prod.ext (by decide +kernel) (by decide +kernel)), ⟨[⟨0, [(0, 5), (0, 0), (255, 255), (0, 5), (0, 2), (0, 5), (0, 4)], t!"rw"⟩], ?_, rfl⟩, by decide +kernel⟩
  exact ⟨by decide +kernel, by decide +kernel, by simp [Gapped]⟩

/-- C37, full statement (for mapped devices): whatever values the points can have, see `Writable`, without the
restrictions on eui48 and short strings. -/
def C37_full : Prop :=
  ∀ (base : Int) (bs : List Blk) (mm : MbMap) (m : MdlObj), MapOK mm base bs → ModelOK m → Separate m →
    Tiles m.addr (m.addr + m.len) (readPlan m) → (∀ c ∈ readPlan m, 0 ≤ c.2) →
    (∀ x, m.addr ≤ x → x < m.addr + m.len → mapMem base bs x ≠ none) →
    (∀ b ∈ m.blocks, ∀ p ∈ b.pts, p.dirty → ∃ (d : Bytes) (v : Val), (d.length : Int) = 2 * p.pt.len ∧ p.base = some v ∧
      p.pt.type.readValue d = .ok p.base) →
    ∃ mm1 m1 mm2 m2, writePoints mapDev mm m = (mm1, m1, .ok ()) ∧ readPoints mapDev mm1 m1 = (mm2, m2, .ok ()) ∧
      ∀ (i j : Nat) (b b2 : BlockObj) (p p2 : PointObj), m.blocks[i]? = some b → m2.blocks[i]? = some b2 →
        b.pts[j]? = some p → b2.pts[j]? = some p2 → p.dirty = true → p2.base = p.base

/-- What is read back after writing `strModel`. -/
theorem strModel_reread : ((readPoints mapDev strMap' (writePoints mapDev strMap strModel).2.1).2.1.blocks.map fun b => b.pts.map (·.base)) =
    [[some (.str (t!"ab")), none, some (.int 0)]] := by decide +kernel

/-- C37 is violated: of two adjacent strings of 2 registers, both set to "ab", the second is read back as None. -/
theorem C37_violated : ¬ C37_full := by
  intro h
  have hp : strModel.blocks.map (fun b => b.pts.map fun p => (p.pt.type, p.pt.len, p.dirty, p.base)) =
      [[(.string, 2, true, some (.str (t!"ab"))), (.string, 2, true, some (.str (t!"ab"))), (.uint16, 1, false, none)]] := by decide +kernel
  have hpl : readPlan strModel = [(0, 5)] := by decide +kernel
  have h1 : strModel.addr = 0 ∧ strModel.len = 5 := by decide +kernel
  have hex : ∀ x, strModel.addr ≤ x → x < strModel.addr + strModel.len → mapMem 0 [⟨0, List.replicate 5 (7, 7), t!"rw"⟩] x ≠ none := by
    rw [h1.1, h1.2]
    intro x h1 h2
    have : x = 0 ∨ x = 1 ∨ x = 2 ∨ x = 3 ∨ x = 4 := by omega
    rcases this with rfl | rfl | rfl | rfl | rfl <;> decide +kernel
  have hsep : Separate strModel := by unfold Separate; decide +kernel
  have hv : ∀ b ∈ strModel.blocks, ∀ p ∈ b.pts, p.dirty → p.pt.type = .string ∧ p.pt.len = 2 ∧ p.base = some (.str (t!"ab")) := by
    decide +kernel
  obtain ⟨mm1, m1, mm2, m2, w1, w2, w3⟩ := h 0 _ strMap strModel strMap_ok strModel_ok hsep
    (by rw [hpl, h1.1, h1.2]; exact ⟨rfl, rfl⟩) (by rw [hpl]; simp) hex
    (by
      intro b hb p hpp hd
      obtain ⟨e1, e2, e3⟩ := hv b hb p hpp hd
      refine ⟨[0x61, 0x62, 0, 0], .str (t!"ab"), by rw [e2]; rfl, e3, ?_⟩
      rw [e1, e3]; decide +kernel)
  have hr := strModel_reread
  rw [strModel_written] at w1
  cases w1
  rw [w2] at hr
  dsimp only at hr
  generalize m2.blocks = B2 at hr w3
  generalize strModel.blocks = B at hp w3
  obtain ⟨b2, _, rfl, e1, _⟩ := List.map_eq_cons_iff.1 hr
  obtain ⟨b, _, rfl, e2, _⟩ := List.map_eq_cons_iff.1 hp
  obtain ⟨_, l1, hb2, _, e3⟩ := List.map_eq_cons_iff.1 e1
  obtain ⟨p21, _, rfl, e3, _⟩ := List.map_eq_cons_iff.1 e3
  obtain ⟨_, l2, hb, _, e4⟩ := List.map_eq_cons_iff.1 e2
  obtain ⟨p1, _, rfl, e4, _⟩ := List.map_eq_cons_iff.1 e4
  simp only [Prod.mk.injEq] at e4
  have := w3 0 1 b b2 p1 p21 rfl rfl (by rw [hb]; rfl) (by rw [hb2]; rfl) e4.2.2.1
  rw [e3, e4.2.2.2] at this
  cases this

end Verif
