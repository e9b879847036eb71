import Verif.Spec.Decimal
import Verif.Props.Transfer

/-!
# C105: a decimal setting arrives exactly
-/

namespace Verif
open Spec

theorem ptAt_settled (lib : FloatLib) (val : Nat → Nat → Option UVal) (m : MdlObj) (i j : Nat) :
    ptAt (settled lib val m) i j = (ptAt m i j).map (settle lib (val i j)) := by
  unfold ptAt settled
  simp only [List.getElem?_mapIdx]
  cases m.blocks[i]? with
  | none => rfl
  | some b => simp only [Option.map_some, Option.bind_some, List.getElem?_mapIdx]

theorem settle_unvalued (lib : FloatLib) (v : Option UVal) (p : PointObj) : unvalued (settle lib v p) = unvalued p := by
  unfold settle
  cases v with
  | none => rfl
  | some v => rcases C34_refused lib p v with ⟨e, h⟩ | ⟨b, h⟩ <;> simp only [h] <;> rfl

theorem layout_settled (lib : FloatLib) (val : Nat → Nat → Option UVal) (m : MdlObj) : layout (settled lib val m) = layout m := by
  unfold layout settled
  simp only
  congr 1
  apply List.ext_getElem?
  intro i
  rw [List.getElem?_map, List.getElem?_map, List.getElem?_mapIdx]
  cases m.blocks[i]? with
  | none => rfl
  | some b =>
    simp only [Option.map_some, Option.some.injEq]
    congr 1
    apply List.ext_getElem?
    intro j
    rw [List.getElem?_map, List.getElem?_map, List.getElem?_mapIdx]
    cases b.pts[j]? with
    | none => rfl
    | some q =>
      simp only [Option.map_some, Option.some.injEq]
      exact settle_unvalued lib _ q

/-- C105, assigning: the number is stored as its integer, and the value that the point then has is the number up to a relative error of 2^-50 (exactly the integer
if there is no scale factor). -/
theorem C105_assign_partial (lib : FloatLib) (hl : PowOK lib) (p : PointObj) (ht : p.pt.type.isInt = true) (v : UVal) (n : Int)
    (h : DecimalFor lib p v n) :
    setValue lib p v = ({ p with base := some (.int n), dirty := true }, .ok ()) ∧
    ∀ p' : PointObj, p'.base = some (.int n) → p'.vsf = p.vsf →
      ((p.vsf = none ∨ p.vsf = some (.int 0)) ∧ getValue lib p' = .ok (.int n)) ∨
      ∃ (k : Int) (y : ℚ), p.vsf = some (.int k) ∧ getValue lib p' = .ok (.flt (.fin y)) ∧ |y - n * 10 ^ k| ≤ |(n : ℚ)| * 10 ^ k * 2 ^ (-50 : ℤ) ∧
        ∀ m : Int, |y - m * 10 ^ k| < 10 ^ k / 2 ↔ m = n := by
  cases h with
  | plain h hv =>
    have hs : scaleOf p.vsf = none := by
      rcases h with h | h <;> rw [h] <;> rfl
    have hset : setValue lib p v = ({ p with base := some (.int n), dirty := true }, .ok ()) := by
      rcases hv with rfl | ⟨f, rfl, hf⟩
      · exact (C34_unscaled_partial lib p h ht n).1
      · obtain ⟨n', h1, h2, h3, h4⟩ := C34_truncates lib p h ht f n hf
        have : n' = n := by
          have e : |(n : ℚ) - n'| = ((|n - n'| : ℤ) : ℚ) := by push_cast; rfl
          rw [e] at h3
          have h5 : |n - n'| < 1 := by exact_mod_cast h3
          have := abs_lt.1 h5
          omega
        rw [h1, this]
    refine ⟨hset, fun p' hb hv' => .inl ⟨h, ?_⟩⟩
    unfold getValue
    rw [hv', hs, hb]
    rfl
  | scaled k h k0 h1 h2 hn x hv hx =>
    have hP : (0 : ℚ) < 10 ^ k := by positivity
    have hnq : |(n : ℚ)| ≤ 2 ^ 48 := by exact_mod_cast hn
    have c53 : (2 : ℚ) ^ (-53 : ℤ) = 1 / 2 ^ 53 := by norm_num
    have c50 : (2 : ℚ) ^ (-50 : ℤ) = 1 / 2 ^ 50 := by norm_num
    have hd : |x / 10 ^ k - n| ≤ |(n : ℚ)| * (1 / 2 ^ 53) := by
      have e : x / 10 ^ k - n = (x - n * 10 ^ k) / 10 ^ k := by field_simp
      rw [e, abs_div, abs_of_pos hP, div_le_iff₀ hP, ← c53]
      linarith
    have hx1 : |x / 10 ^ k| ≤ |(n : ℚ)| + |(n : ℚ)| * (1 / 2 ^ 53) := by
      have := abs_sub_abs_le_abs_sub (x / 10 ^ k) (n : ℚ)
      linarith
    obtain ⟨n', g1, _, g2⟩ := C34_set_partial lib hl p k h k0 h1 h2 v x hv (by linarith)
    have e : n' = n := g2 n (by
      rw [c50]
      generalize |x / 10 ^ k| = Y at *
      generalize |x / 10 ^ k - n| = Z at *
      have : Y * (1 / 2 ^ 50) ≤ (2 ^ 48 + 1) * (1 / 2 ^ 50) := mul_le_mul_of_nonneg_right (by linarith) (by norm_num)
      linarith)
    subst e
    refine ⟨g1, fun p' hb hv' => .inr ?_⟩
    obtain ⟨y, y1, y2⟩ := C34_get_partial lib hl p' k n' (by rw [Scaled, hv']; exact h) k0 h1 h2 hb (hn.trans (by norm_num))
    refine ⟨k, y, h, y1, y2, fun m => ?_⟩
    rw [c50] at y2
    have y3 : |y - n' * 10 ^ k| < 10 ^ k / 4 + 10 ^ k / 8 := by
      refine lt_of_le_of_lt y2 ?_
      have : |(n' : ℚ)| * 10 ^ k * (1 / 2 ^ 50) ≤ 2 ^ 48 * 10 ^ k * (1 / 2 ^ 50) :=
        mul_le_mul_of_nonneg_right (mul_le_mul_of_nonneg_right hnq hP.le) (by norm_num)
      linarith
    constructor
    · intro hm
      have h5 : |((m : ℚ) - n') * 10 ^ k| < 10 ^ k := by
        have e : ((m : ℚ) - n') * 10 ^ k = (y - n' * 10 ^ k) - (y - m * 10 ^ k) := by ring
        rw [e]
        have := abs_sub (y - n' * 10 ^ k) (y - m * 10 ^ k)
        linarith
      rw [abs_mul, abs_of_pos hP] at h5
      have h6 : |(m : ℚ) - n'| < 1 := by
        by_contra hc
        push Not at hc
        nlinarith
      have h7 : |m - n'| < 1 := by exact_mod_cast h6
      have := abs_lt.1 h7
      omega
    · rintro rfl
      linarith

/-- 12.34 (the double nearest to it) with the scale factor -2. -/
example : setValue exactLib (ePoint (-2)) (.flt (.fin (flq (1234 / 100)))) =
    ({ ePoint (-2) with base := some (.int 1234), dirty := true }, .ok ()) := by
  refine (C105_assign_partial exactLib exactLib_ok (ePoint (-2)) rfl _ 1234 (.scaled (-2) rfl (by decide) (by decide) (by decide) (by decide) _ ⟨_, rfl, rfl⟩ ?_)).1
  have := flq_rel (x := 1234 / 100) (by
    have : (2 : ℚ) ^ (-1022 : ℤ) ≤ 2 ^ (0 : ℤ) := zpow_le_zpow_right₀ (by norm_num) (by norm_num)
    refine this.trans (by norm_num [abs_of_pos]))
  have e : ((1234 : ℤ) : ℚ) * 10 ^ (-2 : ℤ) = 1234 / 100 := by norm_num
  have e2 : |((1234 : ℤ) : ℚ)| * 10 ^ (-2 : ℤ) = |(1234 / 100 : ℚ)| := by
    rw [abs_of_pos (by norm_num), abs_of_pos (by norm_num)]; norm_num
  rw [e, e2]
  exact this

/-- C105: read a model, assign to any set of its integer points decimal numbers with the digits that their scale factors allow, write it: the write returns,
the registers of each of these points hold exactly the integer (big-endian, two's complement), all other registers are as before, no point is marked as
modified any more, and the values of these points are the numbers assigned up to a relative error of 2^-50. -/
theorem C105_registers_partial {σ} {dev : MbDev σ} {R : σ → RegMem → Prop} {wr : Nat → Prop} (hdev : IsMem dev R wr)
    (lib : FloatLib) (hl : PowOK lib) (s : σ) (mem : RegMem) (hs : R s mem) (m : MdlObj) (hm : ModelOK m) (hsep : Separate m)
    (ht : Tiles m.addr (m.addr + m.len) (readPlan m)) (hpos : ∀ c ∈ readPlan m, 0 ≤ c.2)
    (hex : ∀ x, m.addr ≤ x → x < m.addr + m.len → mem x ≠ none) (hclean : ∀ b ∈ m.blocks, ∀ p ∈ b.pts, p.dirty = false)
    (hwr : ∀ b ∈ m.blocks, ∀ n, 0 < n → n ≤ (b.pts.map fun p => p.pt.len.toNat).sum → wr n)
    (val : Nat → Nat → Option UVal) (num : Nat → Nat → Int) :
    ∃ s1 m1, readPoints dev s m = (s1, m1, .ok ()) ∧
      ((∀ i j p v, ptAt m1 i j = some p → val i j = some v →
          DecimalFor lib p v (num i j) ∧ ∃ f, codecFmt p.pt.type = some f ∧ f.lo ≤ num i j ∧ num i j ≤ f.hi) →
        ∃ s2 m2 mem2, writePoints dev s1 (settled lib val m1) = (s2, m2, .ok ()) ∧ R s2 mem2 ∧
          (∀ i j p v, ptAt m i j = some p → val i j = some v →
            ∃ f rs, codecFmt p.pt.type = some f ∧ memRegs mem2 p.addr p.pt.len.toNat = some rs ∧ f.Encodes (num i j) (regBytes rs)) ∧
          (∀ x, (∀ i j p v, ptAt m i j = some p → val i j = some v → ¬ (p.addr ≤ x ∧ x < p.addr + p.pt.len)) → mem2 x = mem x) ∧
          (∀ b ∈ m2.blocks, ∀ p ∈ b.pts, p.dirty = false) ∧
          ∀ i j p v, ptAt m1 i j = some p → val i j = some v → ∃ p2, ptAt m2 i j = some p2 ∧
            (getValue lib p2 = .ok (.int (num i j)) ∨
              ∃ (k : Int) (y : ℚ), p.vsf = some (.int k) ∧ getValue lib p2 = .ok (.flt (.fin y)) ∧
                |y - num i j * 10 ^ k| ≤ |(num i j : ℚ)| * 10 ^ k * 2 ^ (-50 : ℤ))) := by
  obtain ⟨s1, m1, a1, a2, a3⟩ := C32_memory hdev mem s hs m hm ht hpos hex
  refine ⟨s1, m1, a1, fun hc => ?_⟩
  have hba : bareM m1 = bareM m := by have := readPoints_bare dev s m; rw [a1] at this; exact this
  have hclean1 := bare_clean hba hclean
  have hlay : layout (settled lib val m1) = layout m := by
    rw [layout_settled, ← layout_bare, hba, layout_bare]
  have hok : ModelOK (settled lib val m1) := by rw [← modelOK_layout, hlay, modelOK_layout]; exact hm
  have hsep1 : Separate (settled lib val m1) := by rw [← separate_layout, hlay, separate_layout]; exact hsep
  have hint : ∀ t f, codecFmt t = some f → t.isInt = true ∧ t ≠ .string := by
    intro t f h
    cases t <;> first | exact ⟨rfl, by decide⟩ | cases h
  -- an assigned point
  have hset : ∀ i j p v, ptAt m1 i j = some p → val i j = some v →
      ptAt (settled lib val m1) i j = some { p with base := some (.int (num i j)), dirty := true } ∧
      ∃ f rs, codecFmt p.pt.type = some f ∧ Encoded { p with base := some (.int (num i j)), dirty := true } rs ∧ f.Encodes (num i j) (regBytes rs) := by
    intro i j p v hp hv
    obtain ⟨hd, f, hf, lo, hi⟩ := hc i j p v hp hv
    obtain ⟨t1, t2⟩ := hint _ _ hf
    have e : ptAt (settled lib val m1) i j = some { p with base := some (.int (num i j)), dirty := true } := by
      rw [ptAt_settled, hp, Option.map_some, hv]
      show some (setValue lib p v).1 = _
      rw [(C105_assign_partial lib hl p t1 v _ hd).1]
    refine ⟨e, ?_⟩
    obtain ⟨b', hb', hm'⟩ := ptAt_mem e
    have hlen : LenOK p.pt := hok.len b' hb' { p with base := some (.int (num i j)), dirty := true } (.inl hm')
    obtain ⟨d, d1, d2, _⟩ := C01_encode_decode p.pt.type f hf (num i j) lo hi (p.pt.len * 2).toNat
    obtain ⟨rs, r1, r2⟩ := encoded_of_toData { p with base := some (.int (num i j)), dirty := true } hlen (fun h => absurd h t2) d d1
    exact ⟨f, rs, hf, r1, by rw [← r2]; exact d2⟩
  have hmarked : ∀ i j p2, ptAt (settled lib val m1) i j = some p2 → p2.dirty = true →
      ∃ p v, ptAt m1 i j = some p ∧ val i j = some v := by
    intro i j p2 h hd
    rw [ptAt_settled] at h
    obtain ⟨p, h1, h2⟩ := Option.map_eq_some_iff.1 h
    cases hv : val i j with
    | some v => exact ⟨p, v, h1, rfl⟩
    | none =>
      rw [hv] at h2
      have h3 : p = p2 := h2
      rw [← h3, hclean1 i j p h1] at hd
      cases hd
  obtain ⟨s2, mem2, w1, w2, w3, w4⟩ := C35_write_partial hdev s1 mem a2 _ hsep1 (by
      intro b' hb' n hn hle
      obtain ⟨b, hb, e⟩ := layout_lens hlay hb'
      exact hwr b hb n hn (Nat.le_trans hle (Nat.le_trans (dirtyLen_le _) (by rw [e])))) (by
      intro b' hb' p2 hp2 hd
      obtain ⟨i, j, hij⟩ := mem_ptAt hb' hp2
      obtain ⟨p, v, h1, h2⟩ := hmarked i j p2 hij hd
      obtain ⟨e, f, rs, _, r, _⟩ := hset i j p v h1 h2
      rw [hij] at e
      have hin := hok.inside b' hb' p2 (.inl hp2)
      have hps := lenOK_pos (hok.len b' hb' p2 (.inl hp2))
      have hin' : m.addr ≤ p2.addr ∧ p2.addr + p2.pt.len ≤ m.addr + m.len := by
        have e1 : (layout (settled lib val m1)).addr = (layout m).addr := by rw [hlay]
        have e2 : (layout (settled lib val m1)).len = (layout m).len := by rw [hlay]
        have e1' : (settled lib val m1).addr = m.addr := e1
        have e2' : (settled lib val m1).len = m.len := e2
        rw [e1', e2'] at hin
        exact hin
      exact ⟨by omega, ⟨rs, by rw [Option.some.inj e]; exact r⟩, fun x x1 x2 => hex x (by omega) (by omega)⟩)
  have hplace : ∀ i j p, ptAt m i j = some p → ∃ p1, ptAt m1 i j = some p1 ∧ p1.addr = p.addr ∧ p1.pt = p.pt := by
    intro i j p hp
    have h1 := ptAt_bare m1 i j
    rw [hba, ptAt_bare, hp] at h1
    obtain ⟨p1, h2, h3⟩ := Option.map_eq_some_iff.1 h1.symm
    refine ⟨p1, h2, ?_, ?_⟩
    · have := congrArg (fun x : PointObj => x.addr) h3; exact this
    · have := congrArg (fun x : PointObj => x.pt) h3; exact this
  refine ⟨s2, _, mem2, w1, w2, ?_, ?_, ?_, ?_⟩
  · intro i j p v hp hv
    obtain ⟨p1, k1, k2, k3⟩ := hplace i j p hp
    obtain ⟨e, f, rs, f1, f2, f3⟩ := hset i j p1 v k1 hv
    obtain ⟨b', hb', hm'⟩ := ptAt_mem e
    obtain ⟨rs', q1, q2⟩ := w3 b' hb' _ hm' rfl
    have : rs' = rs := regBytes_inj (Except.ok.inj (q1.1.symm.trans f2.1))
    rw [this] at q2
    exact ⟨f, rs, by rw [← k3]; exact f1, by rw [← k2, ← k3]; exact q2, f3⟩
  · intro x hx
    apply w4
    intro b' hb' p2 hp2 hd
    obtain ⟨i, j, hij⟩ := mem_ptAt hb' hp2
    obtain ⟨p, v, h1, h2⟩ := hmarked i j p2 hij hd
    obtain ⟨e, _⟩ := hset i j p v h1 h2
    rw [hij] at e
    obtain ⟨p0, g1, _, _, _, g4⟩ := a3.at h1
    have := hx i j p0 v g1 h2
    rw [Option.some.inj e, g4]
    exact this
  · intro b hb p hp
    obtain ⟨b0, _, rfl⟩ := List.mem_map.mp hb
    obtain ⟨p0, _, rfl⟩ := List.mem_map.mp hp
    rfl
  · intro i j p v hp hv
    obtain ⟨e, _⟩ := hset i j p v hp hv
    obtain ⟨hd, f, hf, _⟩ := hc i j p v hp hv
    refine ⟨clean { p with base := some (.int (num i j)), dirty := true }, ?_, ?_⟩
    · rw [ptAt_clean, e]; rfl
    · rcases (C105_assign_partial lib hl p (hint _ _ hf).1 v _ hd).2 (clean { p with base := some (.int (num i j)), dirty := true }) rfl rfl with h | ⟨k, y, h1, h2, h3, _⟩
      · exact .inl h.2
      · exact .inr ⟨k, y, h1, h2, h3⟩

/-- Non-vacuity: 12.3 assigned to the point of the fixed block (scale factor -1) and 4.5 to a point of the first repeating block of the model in the map `exMap`;
the registers are then 123 and 45. -/
def decVals : Nat → Nat → Option UVal
  | 0, 0 => some (.flt (.fin (flq (123 / 10))))
  | 1, 1 => some (.flt (.fin (flq (9 / 2))))
  | _, _ => none

def decNums : Nat → Nat → Int
  | 0, 0 => 123
  | _, _ => 45

theorem decimalFor_tenths {p : PointObj} (h : p.vsf = some (.int (-1))) (n : Int) (hn : |n| ≤ 2 ^ 48) (h0 : n ≠ 0) :
    DecimalFor exactLib p (.flt (.fin (flq (n / 10)))) n := by
  refine .scaled (-1) h (by decide) (by decide) (by decide) hn _ ⟨_, rfl, rfl⟩ ?_
  have hb1 : (1 : ℚ) ≤ |(n : ℚ)| := by exact_mod_cast Int.one_le_abs h0
  have e2 : |(n : ℚ) / 10| = |(n : ℚ)| * 10 ^ (-1 : ℤ) := by
    rw [abs_div, abs_of_pos (by norm_num : (0 : ℚ) < 10)]; norm_num; ring
  have := flq_rel (x := (n : ℚ) / 10) (by
    have h1 : (2 : ℚ) ^ (-1022 : ℤ) ≤ 2 ^ (-4 : ℤ) := zpow_le_zpow_right₀ (by norm_num) (by norm_num)
    refine h1.trans ?_
    rw [e2]
    norm_num
    linarith)
  rw [e2] at this
  have e : (n : ℚ) * 10 ^ (-1 : ℤ) = n / 10 := by norm_num; ring
  rw [e]
  exact this

example : ∃ k1 m1 k2 m2 mem2, readPoints mapDev exMap exModel = (k1, m1, .ok ()) ∧
    writePoints mapDev k1 (settled exactLib decVals m1) = (k2, m2, .ok ()) ∧
    (∃ bs, MapOK k2 40002 bs ∧ mem2 = mapMem 40002 bs) ∧ memRegs mem2 40002 1 = some [(0, 123)] ∧ memRegs mem2 40006 1 = some [(0, 45)] := by
  obtain ⟨k1, m1, h1, h2⟩ := C105_registers_partial (mapDev_isMem 40002) exactLib exactLib_ok exMap _ ⟨_, exMap_ok, rfl⟩ exModel exModel_ok exModel_separate
    exModel_tiles (by rw [exModel_plan]; simp) exMap_exists (by decide +kernel) (fun _ _ _ _ _ => trivial) decVals decNums
  have hv : ((ptAt (readPoints mapDev exMap exModel).2.1 0 0).map fun p => (p.vsf, p.pt.type)) = some (some (.int (-1)), .int16) ∧
      ((ptAt (readPoints mapDev exMap exModel).2.1 1 1).map fun p => (p.vsf, p.pt.type)) = some (some (.int (-1)), .uint16) := by decide +kernel
  have hp : ((ptAt exModel 0 0).map fun p => (p.addr, p.pt.len, p.pt.type)) = some (40002, 1, .int16) ∧
      ((ptAt exModel 1 1).map fun p => (p.addr, p.pt.len, p.pt.type)) = some (40006, 1, .uint16) := by decide +kernel
  rw [h1] at hv
  dsimp only at hv
  have hdec : ∀ i j p v, ptAt m1 i j = some p → decVals i j = some v →
      DecimalFor exactLib p v (decNums i j) ∧ ∃ f, codecFmt p.pt.type = some f ∧ f.lo ≤ decNums i j ∧ decNums i j ≤ f.hi := by
    intro i j p v h3 h4
    unfold decVals at h4
    split at h4
    · have e := Option.some.inj h4
      subst e
      rw [h3] at hv
      have hv1 := Option.some.inj hv.1
      simp only [Prod.mk.injEq] at hv1
      refine ⟨?_, ⟨2, true⟩, by rw [hv1.2]; rfl, by decide, by decide⟩
      have := decimalFor_tenths hv1.1 123 (by decide) (by decide)
      have e : (((123 : ℤ) : ℚ) / 10) = 123 / 10 := by norm_num
      rw [e] at this
      exact this
    · have e := Option.some.inj h4
      subst e
      rw [h3] at hv
      have hv1 := Option.some.inj hv.2
      simp only [Prod.mk.injEq] at hv1
      refine ⟨?_, ⟨2, false⟩, by rw [hv1.2]; rfl, by decide, by decide⟩
      have := decimalFor_tenths hv1.1 45 (by decide) (by decide)
      have e : (((45 : ℤ) : ℚ) / 10) = 9 / 2 := by norm_num
      rw [e] at this
      exact this
    · cases h4
  obtain ⟨k2, m2, mem2, w1, w2, w3, _⟩ := h2 hdec
  refine ⟨k1, m1, k2, m2, mem2, h1, w1, w2, ?_, ?_⟩
  · obtain ⟨p, p1, p2⟩ := Option.map_eq_some_iff.1 hp.1
    simp only [Prod.mk.injEq] at p2
    obtain ⟨f, rs, f1, f2, f3⟩ := w3 0 0 p _ p1 rfl
    rw [p2.2.2] at f1
    have e := Option.some.inj f1
    subst e
    rw [p2.1, p2.2.1] at f2
    have e : regBytes rs = [0, 123] := (C01_spec_determines ⟨2, true⟩ (.inl rfl) 123 0 _ _ f3).2 ⟨rfl, by decide, by decide, by decide⟩
    have : rs = [(0, 123)] := regBytes_inj e
    rw [this] at f2
    exact f2
  · obtain ⟨p, p1, p2⟩ := Option.map_eq_some_iff.1 hp.2
    simp only [Prod.mk.injEq] at p2
    obtain ⟨f, rs, f1, f2, f3⟩ := w3 1 1 p _ p1 rfl
    rw [p2.2.2] at f1
    have e := Option.some.inj f1
    subst e
    rw [p2.1, p2.2.1] at f2
    have e : regBytes rs = [0, 45] := (C01_spec_determines ⟨2, false⟩ (.inl rfl) 45 0 _ _ f3).2 ⟨rfl, by decide, by decide, by decide⟩
    have : rs = [(0, 45)] := regBytes_inj e
    rw [this] at f2
    exact f2

/-- C105: with a positive scale factor (and an exact power of ten, as every library has it up to 10^22) whole numbers below 2^53 are read back as they were
assigned. -/
theorem C105_whole (lib : FloatLib) (hl : PowOK lib) (p : PointObj) (ht : p.pt.type.isInt = true) (k : Nat) (h : p.vsf = some (.int k)) (k0 : k ≠ 0) (h2 : k ≤ 250)
    (hp : lib.pow10 k = .ok (.fin (10 ^ k))) (v : UVal) (n : Int) (hv : IsNumber lib v ((n * 10 ^ k : Int) : ℚ)) (hn : |n * 10 ^ k| ≤ 2 ^ 53) (hn' : |n| ≤ 2 ^ 48) :
    ∃ p', setValue lib p v = (p', .ok ()) ∧ p'.base = some (.int n) ∧ getValue lib p' = .ok (.flt (.fin ((n * 10 ^ k : Int) : ℚ))) := by
  have hd : DecimalFor lib p v n := by
    refine .scaled k h (by omega) (by omega) (by omega) hn' _ hv ?_
    have e : (((n * 10 ^ k : Int) : ℚ) - n * 10 ^ (k : ℤ)) = 0 := by push_cast; rw [zpow_natCast]; ring
    rw [e, abs_zero]
    positivity
  refine ⟨_, (C105_assign_partial lib hl p ht v n hd).1, rfl, ?_⟩
  have e1 := fl_small n (hn'.trans (by norm_num))
  have e2 := flq_int (n * 10 ^ k) hn
  have e3 : ((n * 10 ^ k : Int) : ℚ) = (n : ℚ) * 10 ^ k := by push_cast; ring
  refine get_scaled (k := k) (b := n) (a := n) (pw := 10 ^ k) h (by omega) hp rfl e1 ?_
  rw [← e3, flS_fin, e2]
  · rw [e2]
    have h1 : |((n * 10 ^ k : Int) : ℚ)| ≤ 2 ^ 53 := by exact_mod_cast hn
    refine lt_of_le_of_lt h1 ?_
    have : (2 : ℚ) ^ (54 : ℤ) ≤ 2 ^ (1024 : ℤ) := zpow_le_zpow_right₀ (by norm_num) (by norm_num)
    refine lt_of_lt_of_le ?_ this
    norm_num
  · intro hz
    rw [e2, e3] at hz
    have hn0 : (n : ℚ) = 0 := by
      rcases mul_eq_zero.1 hz with h | h
      · exact h
      · exact absurd h (by positivity)
    have hp0 : ¬ ((10 : ℚ) ^ k < 0) := not_lt.2 (by positivity)
    rw [hn0]
    simp [hp0]

/-- Non-vacuity: 1500 with the scale factor 2. -/
example : ∃ p', setValue exactLib (ePoint 2) (.int 1500) = (p', .ok ()) ∧ p'.base = some (.int 15) ∧ getValue exactLib p' = .ok (.flt (.fin 1500)) := by
  have e100 : exactLib.pow10 (2 : ℕ) = .ok (.fin (10 ^ 2)) := by
    have := fl_small 100 (by norm_num)
    show Except.ok (fl (10 ^ (2 : ℤ))) = _
    have e : ((10 : ℚ) ^ (2 : ℤ)) = ((100 : ℤ) : ℚ) := by norm_num
    rw [e, this]
    norm_num
  obtain ⟨p', h1, h2, h3⟩ := C105_whole exactLib exactLib_ok (ePoint 2) rfl 2 rfl (by decide) (by decide) e100 (.int 1500) 15
    ⟨_, by
      have := fl_small 1500 (by norm_num)
      simp only [UVal.toFlt, intToFlt, this]
      rfl, by norm_num [Flt.num]⟩ (by norm_num) (by norm_num)
  refine ⟨p', h1, h2, ?_⟩
  rw [h3]
  norm_num

/-- C105, full statement for the value: after the assignment of a decimal number the value of the point is the number assigned. -/
def C105_full : Prop :=
  ∀ (lib : FloatLib) (p : PointObj) (n k : Int) (x : ℚ), PowOK lib → p.pt.type.isInt = true → p.vsf = some (.int k) →
    DecimalFor lib p (.flt (.fin x)) n → ∃ p', setValue lib p (.flt (.fin x)) = (p', .ok ()) ∧ getValue lib p' = .ok (.flt (.fin x))

/-- C105 is violated even if all arithmetic is correctly rounded: after `p.value = 0.3` with the scale factor -1, `p.value` is 0.30000000000000004. -/
theorem C105_violated : ¬ C105_full := by
  intro h
  have h3 := decimalFor_tenths (p := ePoint (-1)) rfl 3 (by decide) (by decide)
  obtain ⟨p', h1, h2⟩ := h exactLib (ePoint (-1)) 3 (-1) _ exactLib_ok rfl rfl h3
  rw [(C105_assign_partial exactLib exactLib_ok (ePoint (-1)) rfl _ 3 h3).1] at h1
  have e := congrArg Prod.fst h1
  dsimp only at e
  subst e
  have hne : getValue exactLib { ePoint (-1) with base := some (.int 3), dirty := true } ≠ .ok (.flt (.fin (flq (((3 : ℤ) : ℚ) / 10)))) := by decide +kernel
  exact hne h2

end Verif
