import Verif.Spec.CopyBack
import Verif.Props.WriteRead
import Verif.Props.Session
import Verif.Props.Float

/-!
# C74: writing back what has been read changes nothing
-/

namespace Verif
open Spec

/-- The kinds of values that reads give. -/
theorem readValue_kind {t : PT} {d : Bytes} {v : Val} (h : t.readValue d = .ok (some v)) :
    (t.isInt = true → ∃ i, v = .int i) ∧ (t = .float32 → ∃ b, v = .flt b ∧ f32IsNaN b = false) ∧
    (t.isInt = false → t ≠ .float32 → ∃ s, v = .str s) := by
  unfold PT.readValue at h
  cases hf : t.fromData d with
  | error e => rw [hf] at h; cases h
  | ok w =>
    rw [hf] at h
    simp only [Except.ok.injEq] at h
    by_cases hi : t.isImpl w = true
    · rw [if_pos hi] at h
      subst h
      have key : ∀ (x : Py Int), (x.map fun i => some (Val.int i)) = .ok (some v) → ∃ i, v = .int i := by
        intro x hx
        cases x with
        | error e => cases hx
        | ok i => exact ⟨i, (Option.some.inj (Except.ok.inj hx)).symm⟩
      cases t
      case float32 =>
        refine ⟨fun h => absurd h (by decide), fun _ => ?_, fun _ h => absurd rfl h⟩
        simp only [PT.fromData] at hf
        cases hd : dataToFloat d with
        | error e => rw [hd] at hf; cases hf
        | ok o =>
          rw [hd] at hf
          cases o with
          | none => cases hf
          | some b =>
            have e : Val.flt b = v := Option.some.inj (Except.ok.inj hf)
            subst e
            refine ⟨b, rfl, ?_⟩
            simpa [PT.isImpl] using hi
      case string =>
        refine ⟨fun h => absurd h (by decide), fun h => (by cases h), fun _ _ => ?_⟩
        exact ⟨_, (Option.some.inj (Except.ok.inj hf)).symm⟩
      case ipv6addr =>
        refine ⟨fun h => absurd h (by decide), fun h => (by cases h), fun _ _ => ?_⟩
        simp only [PT.fromData, Except.ok.injEq] at hf
        cases hx : dataToIpv6 d with
        | none => rw [hx] at hf; cases hf
        | some s => rw [hx] at hf; exact ⟨s, (Option.some.inj hf).symm⟩
      case eui48 =>
        refine ⟨fun h => absurd h (by decide), fun h => (by cases h), fun _ _ => ?_⟩
        simp only [PT.fromData, Except.ok.injEq] at hf
        cases hx : dataToEui48 d with
        | none => rw [hx] at hf; cases hf
        | some s => rw [hx] at hf; exact ⟨s, (Option.some.inj hf).symm⟩
      all_goals exact ⟨fun _ => key _ hf, fun h => (by cases h), fun h => absurd h (by decide)⟩
    · rw [if_neg hi] at h; cases h

/-- Assigning its own value to a point changes only the mark. -/
theorem copied_eq (lib : FloatLib) (hl : PowOK lib) (p : PointObj) (hp : CopyOK p) (d : Bytes)
    (hr : p.pt.type.readValue d = .ok p.base) :
    ∃ v, getValue lib p = .ok v ∧ setValue lib p v = ({ p with dirty := true }, .ok ()) := by
  obtain ⟨h1, _, _, h5⟩ := hp
  obtain ⟨v, hv⟩ := Option.ne_none_iff_exists'.1 h1
  cases hk : scaleOf p.vsf with
  | some k =>
    have hvs : p.vsf = some (.int k) ∧ k ≠ 0 := by
      unfold scaleOf at hk
      split at hk
      · split at hk
        · cases hk
        · rename_i _ k' _ hne
          have e := Option.some.inj hk
          subst e
          exact ⟨by assumption, hne⟩
      · cases hk
    obtain ⟨k1, k2, b, hb, b1, b2⟩ := h5 k hvs.1 hvs.2
    exact C34_idempotent_partial lib hl p k b hvs.1 hvs.2 k1 k2 hb (abs_lt.2 ⟨b1, b2⟩)
  | none =>
    rw [hv] at hr
    obtain ⟨r1, r2, r3⟩ := readValue_kind hr
    refine ⟨baseVal p.base, by unfold getValue; rw [hk], ?_⟩
    unfold setValue
    rw [hk, hv]
    dsimp only
    by_cases hi : p.pt.type.isInt = true
    · obtain ⟨i, rfl⟩ := r1 hi
      simp only [PT.toValue, if_pos hi, baseVal, sunsToInt]
    · by_cases hf : p.pt.type = .float32
      · obtain ⟨b, rfl, hn⟩ := r2 hf
        simp only [PT.toValue, if_neg hi, if_pos hf, baseVal, sunsToFloat, UVal.toFlt, ofFlt_f32Val b hn]
      · obtain ⟨s, rfl⟩ := r3 (by simpa using hi) hf
        simp only [PT.toValue, if_neg hi, if_neg hf, baseVal, sunsToStr]

theorem dirtyLen_le (ps : List PointObj) : dirtyLen ps ≤ (ps.map fun p => p.pt.len.toNat).sum := by
  induction ps with
  | nil => exact Nat.le_refl _
  | cons p ps ih =>
    simp only [dirtyLen, List.map_cons, List.sum_cons] at ih ⊢
    refine Nat.add_le_add ?_ ih
    by_cases hd : p.dirty = true
    · rw [if_pos hd]
    · rw [if_neg hd]; exact Nat.zero_le _

/-- C74: read a model, assign to any set of its points their own values, and write it: the write returns, no register of the
device has changed, and the model is as after the read. For devices that behave like a memory; points as in `CopyOK`; `wr`: the
device accepts writes of as many registers as a block has. -/
theorem C74_copy_partial {σ} {dev : MbDev σ} {R : σ → RegMem → Prop} {wr : Nat → Prop} (hdev : IsMem dev R wr)
    (lib : FloatLib) (hl : PowOK lib) (s : σ) (mem : RegMem) (hs : R s mem) (m : MdlObj) (hm : ModelOK m) (hsep : Separate m)
    (ht : Tiles m.addr (m.addr + m.len) (readPlan m)) (hpos : ∀ c ∈ readPlan m, 0 ≤ c.2)
    (hex : ∀ x, m.addr ≤ x → x < m.addr + m.len → mem x ≠ none)
    (hclean : ∀ b ∈ m.blocks, ∀ p ∈ b.pts, p.dirty = false)
    (hwr : ∀ b ∈ m.blocks, ∀ n, 0 < n → n ≤ (b.pts.map fun p => p.pt.len.toNat).sum → wr n) (sel : PointObj → Bool) :
    ∃ s1 m1, readPoints dev s m = (s1, m1, .ok ()) ∧
      ((∀ b ∈ m1.blocks, ∀ p ∈ b.pts, sel p = true → CopyOK p) →
        ∃ s2, writePoints dev s1 (copiedModel lib sel m1) = (s2, m1, .ok ()) ∧ R s2 mem) := by
  obtain ⟨s1, m1, h1, h2, h3⟩ := C32_memory hdev mem s hs m hm ht hpos hex
  refine ⟨s1, m1, h1, fun hc => ?_⟩
  have hbare : bareM m1 = bareM m := by have := readPoints_bare dev s m; rw [h1] at this; exact this
  have hblocks : m1.blocks.map bareB = m.blocks.map bareB := (congrArg MdlObj.blocks hbare :)
  -- each block of the model read is one of the model before
  have hblk : ∀ b1 ∈ m1.blocks, ∃ b ∈ m.blocks, b1.pts.map bareP = b.pts.map bareP := by
    intro b1 hb1
    have : bareB b1 ∈ m.blocks.map bareB := by rw [← hblocks]; exact List.mem_map_of_mem hb1
    obtain ⟨b, hb, e⟩ := List.mem_map.1 this
    exact ⟨b, hb, (congrArg BlockObj.pts e.symm :)⟩
  have hpt : ∀ b1 ∈ m1.blocks, ∀ p1 ∈ b1.pts, ∃ b ∈ m.blocks, ∃ p ∈ b.pts, bareP p = bareP p1 := by
    intro b1 hb1 p1 hp1
    obtain ⟨b, hb, e⟩ := hblk b1 hb1
    have : bareP p1 ∈ b.pts.map bareP := by rw [← e]; exact List.mem_map_of_mem hp1
    obtain ⟨p, hp, e2⟩ := List.mem_map.1 this
    exact ⟨b, hb, p, hp, e2⟩
  have hin : ∀ b1 ∈ m1.blocks, ∀ p1 ∈ b1.pts, ∃ rs, memRegs mem p1.addr p1.pt.len.toNat = some rs ∧
      p1.pt.type.readValue (regBytes rs) = .ok p1.base := by
    intro b1 hb1 p1 hp1
    obtain ⟨i, hi⟩ := List.getElem?_of_mem hb1
    obtain ⟨j, hj⟩ := List.getElem?_of_mem hp1
    have hilt : i < m.blocks.length := by rw [← h3.count]; exact (List.getElem?_eq_some_iff.1 hi).1
    have hib : m.blocks[i]? = some m.blocks[i] := List.getElem?_eq_getElem hilt
    have hjlt : j < m.blocks[i].pts.length := by
      rw [← (h3.block i _ b1 hib hi).2.1]; exact (List.getElem?_eq_some_iff.1 hj).1
    obtain ⟨⟨rs, r1, r2, r3⟩, _⟩ := h3.point i _ b1 hib hi j _ p1 (List.getElem?_eq_getElem hjlt) hj
    have e1 : p1.addr = m.blocks[i].pts[j].addr := by rw [r3]
    have e2 : p1.pt = m.blocks[i].pts[j].pt := by rw [r3]
    exact ⟨rs, by rw [e1, e2]; exact r1, by rw [e2]; exact r2⟩
  have hdirty : ∀ b1 ∈ m1.blocks, ∀ p1 ∈ b1.pts, p1.dirty = false := by
    intro b1 hb1 p1 hp1
    obtain ⟨b, hb, p, hp, e⟩ := hpt b1 hb1 p1 hp1
    have : p.dirty = p1.dirty := (congrArg PointObj.dirty e :)
    rw [← this]; exact hclean b hb p hp
  -- copying only sets marks
  have hcopy : copiedModel lib sel m1 = mapPts (fun p => if sel p then { p with dirty := true } else p) m1 := by
    unfold copiedModel mapPts
    congr 1
    apply List.map_congr_left
    intro b hb
    congr 1
    apply List.map_congr_left
    intro p hp
    by_cases hse : sel p = true
    · rw [if_pos hse, if_pos hse]
      obtain ⟨rs, _, r2⟩ := hin b hb p hp
      obtain ⟨v, g1, g2⟩ := copied_eq lib hl p (hc b hb p hp hse) _ r2
      unfold copied
      rw [g1]
      dsimp only
      rw [g2]
    · rw [if_neg hse, if_neg hse]
  have hsep1 : Separate m1 := by
    rw [← separate_layout, ← layout_bare, hbare, layout_bare, separate_layout]; exact hsep
  have hshape : ∀ p : PointObj, (if sel p then { p with dirty := true } else p).addr = p.addr ∧
      (if sel p then { p with dirty := true } else p).pt = p.pt ∧ (if sel p then { p with dirty := true } else p).sf = p.sf := by
    intro p; split <;> exact ⟨rfl, rfl, rfl⟩
  have hpt2 : ∀ b2 ∈ (mapPts (fun p => if sel p then { p with dirty := true } else p) m1).blocks, ∀ p2 ∈ b2.pts, p2.dirty = true →
      ∃ b1 ∈ m1.blocks, ∃ p1 ∈ b1.pts, sel p1 = true ∧ p2 = { p1 with dirty := true } := by
    intro b2 hb2 p2 hp2 hd
    obtain ⟨b1, hb1, rfl⟩ := List.mem_map.1 hb2
    obtain ⟨p1, hp1, rfl⟩ := List.mem_map.1 hp2
    by_cases hse : sel p1 = true
    · rw [if_pos hse] at hd ⊢
      exact ⟨b1, hb1, p1, hp1, hse, rfl⟩
    · rw [if_neg hse] at hd
      rw [hdirty b1 hb1 p1 hp1] at hd
      cases hd
  -- each marked point is encoded as the registers it was read from
  have henc : ∀ b1 ∈ m1.blocks, ∀ p1 ∈ b1.pts, sel p1 = true → ∃ rs, memRegs mem p1.addr p1.pt.len.toNat = some rs ∧ LenOK p1.pt ∧
      p1.pt.type.toData p1.base (p1.pt.len * 2).toNat = .ok (regBytes rs) := by
    intro b1 hb1 p1 hp1 hse
    obtain ⟨rs, r1, r2⟩ := hin b1 hb1 p1 hp1
    obtain ⟨b, hb, p, hp, e⟩ := hpt b1 hb1 p1 hp1
    have e2 : p.pt = p1.pt := (congrArg PointObj.pt e :)
    have hlen : LenOK p1.pt := by rw [← e2]; exact hm.len b hb p (.inl hp)
    obtain ⟨c1, c2, c3, _⟩ := hc b1 hb1 p1 hp1 hse
    obtain ⟨v, hv⟩ := Option.ne_none_iff_exists'.1 c1
    have hposl := lenOK_pos hlen
    have hrl := memRegs_length r1
    refine ⟨rs, r1, hlen, ?_⟩
    rw [hv, show (p1.pt.len * 2).toNat = 2 * p1.pt.len.toNat by omega]
    exact readback p1.pt.type (regBytes rs) p1.pt.len.toNat v (by rw [regBytes_length, hrl]) (by
      intro k hk
      unfold LenOK at hlen
      rw [hk] at hlen
      dsimp only at hlen
      omega) c2 (fun h => by have := c3 h; omega) (by rw [r2, hv])
  obtain ⟨s2, mem2, w1, w2, w3, w4⟩ := C35_write_partial hdev s1 mem h2 _ (mapPts_separate _ hshape hsep1) (by
      intro b2 hb2 n hn hle
      obtain ⟨b1, hb1, rfl⟩ := List.mem_map.1 hb2
      obtain ⟨b, hb, e⟩ := hblk b1 hb1
      refine hwr b hb n hn (Nat.le_trans hle (Nat.le_trans (dirtyLen_le _) ?_))
      have e3 : ∀ ps : List PointObj, (ps.map fun p => if sel p then { p with dirty := true } else p).map (fun p => p.pt.len.toNat) =
          (ps.map bareP).map (fun p => p.pt.len.toNat) := by
        intro ps
        rw [List.map_map, List.map_map]
        apply List.map_congr_left
        intro p _
        simp only [Function.comp, (hshape p).2.1]
        rfl
      rw [e3, e, List.map_map]
      exact Nat.le_refl _) (by
      intro b2 hb2 p2 hp2 hd
      obtain ⟨b1, hb1, p1, hp1, hse, rfl⟩ := hpt2 b2 hb2 p2 hp2 hd
      obtain ⟨rs, r1, r2, r3⟩ := henc b1 hb1 p1 hp1 hse
      have hposl := lenOK_pos r2
      have hrl := memRegs_length r1
      refine ⟨by show 0 < p1.pt.len; omega, ⟨rs, r3, by show (rs.length : Int) = p1.pt.len; omega⟩, ?_⟩
      intro x x1 x2
      have x1' : p1.addr ≤ x := x1
      have x2' : x < p1.addr + p1.pt.len := x2
      exact memRegs_iff.1 (by rw [r1]; simp) x x1' (by omega))
  rw [hcopy]
  have hfin : cleanModel (mapPts (fun p => if sel p then { p with dirty := true } else p) m1) = m1 := by
    unfold cleanModel mapPts
    simp only [List.map_map]
    have : m1.blocks.map ((fun b => { b with pts := b.pts.map clean }) ∘ fun b => { b with pts := b.pts.map fun p => if sel p then { p with dirty := true } else p }) = m1.blocks := by
      conv_rhs => rw [← List.map_id m1.blocks]
      apply List.map_congr_left
      intro b hb
      simp only [Function.comp, id, List.map_map]
      have : b.pts.map (clean ∘ fun p => if sel p then { p with dirty := true } else p) = b.pts := by
        conv_rhs => rw [← List.map_id b.pts]
        apply List.map_congr_left
        intro p hp
        have hd := hdirty b hb p hp
        obtain ⟨a1, a2, a3, a4, a5, a6, a7⟩ := p
        simp only at hd
        subst hd
        simp only [Function.comp, clean, id]
        split <;> rfl
      rw [this]
    rw [this]
  rw [hfin] at w1
  refine ⟨s2, w1, ?_⟩
  have : mem2 = mem := by
    funext x
    by_cases hx : ∀ b ∈ (mapPts (fun p => if sel p then { p with dirty := true } else p) m1).blocks, ∀ p ∈ b.pts, p.dirty = true →
        ¬ (p.addr ≤ x ∧ x < p.addr + p.pt.len)
    · exact w4 x hx
    · push Not at hx
      obtain ⟨b2, hb2, p2, hp2, hd, x1, x2⟩ := hx
      obtain ⟨rs', q1, q2⟩ := w3 b2 hb2 p2 hp2 hd
      obtain ⟨b1, hb1, p1, hp1, hse, rfl⟩ := hpt2 b2 hb2 p2 hp2 hd
      obtain ⟨rs, r1, r2, r3⟩ := henc b1 hb1 p1 hp1 hse
      have : rs' = rs := regBytes_inj (by
        have a1 : p1.pt.type.toData p1.base (p1.pt.len * 2).toNat = .ok (regBytes rs') := q1.1
        rw [r3] at a1
        exact (Except.ok.inj a1).symm)
      subst this
      have q2' : memRegs mem2 p1.addr p1.pt.len.toNat = some rs' := q2
      have x1' : p1.addr ≤ x := x1
      have x2' : x < p1.addr + p1.pt.len := x2
      have g1 := (memRegs_get q2').2 (x - p1.addr).toNat (by omega)
      have g2 := (memRegs_get r1).2 (x - p1.addr).toNat (by omega)
      rw [show p1.addr + ((x - p1.addr).toNat : Int) = x by omega] at g1 g2
      rw [g1, g2]
  rw [← this]
  exact w2

/-- The model that `exModel` is after a read of `exMap`: the points with values. -/
theorem exModel_copyOK : ∀ b ∈ (readPoints mapDev exMap exModel).2.1.blocks, ∀ p ∈ b.pts, p.base.isSome = true → CopyOK p := by
  have h : ∀ b ∈ (readPoints mapDev exMap exModel).2.1.blocks, ∀ p ∈ b.pts, (p.base = none ∨ p.base = some (.int 100) ∨ p.base = some (.int (-1)) ∨
      p.base = some (.int 1) ∨ p.base = some (.int 2) ∨ p.base = some (.int 4)) ∧ (p.vsf = none ∨ p.vsf = some (.int (-1))) ∧
      p.pt.type ≠ .eui48 ∧ p.pt.type ≠ .string := by decide +kernel
  intro b hb p hp hs
  obtain ⟨h1, h2, h3, h4⟩ := h b hb p hp
  have hb : p.base ≠ none := by intro e; rw [e] at hs; cases hs
  refine ⟨hb, h3, fun e => absurd e h4, ?_⟩
  · intro k hk _
    rcases h2 with h2 | h2
    · rw [h2] at hk; cases hk
    · rw [h2] at hk
      have : -1 = k := by injection hk with e; injection e
      subst this
      refine ⟨by decide, by decide, ?_⟩
      rcases h1 with h1 | h1 | h1 | h1 | h1 | h1
      · rw [h1] at hs; cases hs
      all_goals exact ⟨_, h1, by decide, by decide⟩

/-- Non-vacuity of C74: all points that have values are copied; their scale factor is -1. -/
example : ∃ s2, writePoints mapDev (readPoints mapDev exMap exModel).1 (copiedModel exactLib (fun p => p.base.isSome) (readPoints mapDev exMap exModel).2.1) =
      (s2, (readPoints mapDev exMap exModel).2.1, .ok ()) ∧
    ∃ bs, MapOK s2 40002 bs ∧ mapMem 40002 [⟨0, [(0, 100), (0, 0), (255, 255), (0, 1), (0, 2), (255, 255), (0, 4)], t!"rw"⟩] = mapMem 40002 bs := by
  obtain ⟨s1, m1, h1, h2⟩ := C74_copy_partial (mapDev_isMem 40002) exactLib exactLib_ok exMap _ ⟨_, exMap_ok, rfl⟩ exModel exModel_ok exModel_separate
    exModel_tiles (by rw [exModel_plan]; simp) exMap_exists (by decide +kernel) (fun _ _ _ _ _ => trivial) (fun p => p.base.isSome)
  have h3 := exModel_copyOK
  rw [h1] at h3 ⊢
  exact h2 h3

/-- C74 for all values: with a register map as the device, writing back points that have values returns and changes no register. -/
def C74_full : Prop :=
  ∀ (lib : FloatLib) (base : Int) (bs : List Blk) (mm : MbMap) (m : MdlObj) (sel : PointObj → Bool), PowOK lib → MapOK mm base bs → ModelOK m →
    Separate m → Tiles m.addr (m.addr + m.len) (readPlan m) → (∀ c ∈ readPlan m, 0 ≤ c.2) →
    (∀ x, m.addr ≤ x → x < m.addr + m.len → mapMem base bs x ≠ none) → (∀ b ∈ m.blocks, ∀ p ∈ b.pts, p.dirty = false) →
    ∃ mm1 m1, readPoints mapDev mm m = (mm1, m1, .ok ()) ∧
      ((∀ b ∈ m1.blocks, ∀ p ∈ b.pts, sel p = true → p.base ≠ none) →
        ∃ mm2, writePoints mapDev mm1 (copiedModel lib sel m1) = (mm2, m1, .ok ()) ∧
          ∀ bs2, MapOK mm2 base bs2 → ∀ x, mapMem base bs2 x = mapMem base bs x)

/-- `strModel` before the strings are set. -/
def strModel0 : MdlObj := (mdlLoad (.ok strType) (mdlNew 903 0 5)).1

theorem strModel0_ok : ModelOK strModel0 := by
  have h0 : ∀ b ∈ strModel0.blocks, b.sfs = [] ∧ ∀ p ∈ b.pts, (0 ≤ p.addr ∧ p.addr + p.pt.len ≤ 5) ∧ LenOK p.pt ∧ p.sf = none := by decide +kernel
  have h1 : strModel0.addr = 0 ∧ strModel0.len = 5 := by decide +kernel
  refine ⟨by decide +kernel, ?_, ?_, ?_⟩
  · intro b hb p hp
    obtain ⟨e1, e2⟩ := h0 b hb
    rw [e1] at hp
    have := (e2 p (by simpa using hp)).1
    rw [h1.1, h1.2]
    omega
  · intro b hb p hp
    obtain ⟨e1, e2⟩ := h0 b hb
    rw [e1] at hp
    exact (e2 p (by simpa using hp)).2.1
  · intro i b hb p hp blk id hsf
    have := (h0 b (List.mem_of_getElem? hb)).2 p hp
    rw [this.2.2] at hsf
    cases hsf

/-- The map after copying both strings of `strModel0`. -/
def strMap2 : MbMap := { newMap with base := .int 0, regs := [⟨.int 0, .int 5, some [7, 7, 7, 7, 0, 7, 7, 7, 7, 0], (t!"rw")⟩] }

theorem strMap2_ok : MapOK strMap2 0 [⟨0, [(7, 7), (7, 7), (0, 7), (7, 7), (7, 0)], t!"rw"⟩] :=
  ⟨by decide +kernel, by decide +kernel, by simp [Gapped]⟩

/-- C74 is violated: writing back two strings of 2 registers changes the second and the register after them. -/
theorem C74_violated : ¬ C74_full := by
  intro h
  have hpl : readPlan strModel0 = [(0, 5)] := by decide +kernel
  have h1 : strModel0.addr = 0 ∧ strModel0.len = 5 := by decide +kernel
  have hex : ∀ x, strModel0.addr ≤ x → x < strModel0.addr + strModel0.len → mapMem 0 [⟨0, List.replicate 5 (7, 7), t!"rw"⟩] x ≠ none := by
    rw [h1.1, h1.2]
    intro x h1 h2
    have : x = 0 ∨ x = 1 ∨ x = 2 ∨ x = 3 ∨ x = 4 := by omega
    rcases this with rfl | rfl | rfl | rfl | rfl <;> decide +kernel
  obtain ⟨mm1, m1, r1, r2⟩ := h exactLib 0 _ strMap strModel0 (fun p => p.addr < 4) exactLib_ok strMap_ok strModel0_ok
    (by unfold Separate; decide +kernel) (by rw [hpl, h1.1, h1.2]; exact ⟨rfl, rfl⟩) (by rw [hpl]; simp) hex (by decide +kernel)
  have e1 : (readPoints mapDev strMap strModel0).1 = mm1 := by rw [r1]
  have e2 : (readPoints mapDev strMap strModel0).2.1 = m1 := by rw [r1]
  subst e1 e2
  obtain ⟨mm2, w1, w2⟩ := r2 (by decide +kernel)
  have hw : (writePoints mapDev (readPoints mapDev strMap strModel0).1
      (copiedModel exactLib (fun p => p.addr < 4) (readPoints mapDev strMap strModel0).2.1)).1 = strMap2 := by decide +kernel
  rw [w1] at hw
  dsimp only at hw
  subst hw
  have := w2 _ strMap2_ok 4
  revert this
  decide +kernel

end Verif
