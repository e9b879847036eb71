import Verif.Props.Order
import Verif.Props.Float

/-!
# C34 for float points with a scale factor
-/

namespace Verif
open Spec

/-- The product of a single and a power of ten. -/
theorem float_scaled_err {x p P : ℚ} (hx0 : x ≠ 0) (hxlo : 2 ^ (-149 : ℤ) ≤ |x|) (hxhi : |x| ≤ 2 ^ (128 : ℤ))
    (hlo : 2 ^ (-840 : ℤ) ≤ P) (hhi : P ≤ 2 ^ (840 : ℤ)) (hp : |p - P| ≤ P * 2 ^ (-52 : ℤ)) :
    |flq (x * p)| < 2 ^ (1024 : ℤ) ∧ flq (x * p) ≠ 0 ∧ |flq (x * p) - x * P| ≤ |x| * P * 2 ^ (-50 : ℤ) := by
  have hP : 0 < P := lt_of_lt_of_le (by positivity) hlo
  have hX : 0 < |x| := abs_pos.2 hx0
  have c53 : (2 : ℚ) ^ (-53 : ℤ) = 1 / 2 ^ 53 := by norm_num
  have c52 : (2 : ℚ) ^ (-52 : ℤ) = 1 / 2 ^ 52 := by norm_num
  have c50 : (2 : ℚ) ^ (-50 : ℤ) = 1 / 2 ^ 50 := by norm_num
  have hm : |x * p - x * P| ≤ |x| * P * (1 / 2 ^ 52) := by
    have e : x * p - x * P = x * (p - P) := by ring
    rw [e, abs_mul, mul_assoc, ← c52]
    exact mul_le_mul_of_nonneg_left hp hX.le
  have hXP : |x * P| = |x| * P := by rw [abs_mul, abs_of_pos hP]
  have hXP0 : 0 < |x| * P := mul_pos hX hP
  have lo1 : (2 : ℚ) ^ (-989 : ℤ) ≤ |x| * P := by
    have e : (2 : ℚ) ^ (-989 : ℤ) = 2 ^ (-149 : ℤ) * 2 ^ (-840 : ℤ) := by rw [← zpow_add₀ (by norm_num)]; norm_num
    rw [e]
    exact mul_le_mul hxlo hlo (by positivity) hX.le
  have hi1 : |x| * P ≤ (2 : ℚ) ^ (968 : ℤ) := by
    have e : (2 : ℚ) ^ (968 : ℤ) = 2 ^ (128 : ℤ) * 2 ^ (840 : ℤ) := by rw [← zpow_add₀ (by norm_num)]; norm_num
    rw [e]
    exact mul_le_mul hxhi hhi hP.le (by positivity)
  have e1022 : (2 : ℚ) ^ (-1022 : ℤ) = 2 ^ (-989 : ℤ) * (1 / 2 ^ 33) := by
    have : (1 : ℚ) / 2 ^ 33 = 2 ^ (-33 : ℤ) := by norm_num
    rw [this, ← zpow_add₀ (by norm_num)]; norm_num
  have e1024 : (2 : ℚ) ^ (1024 : ℤ) = 2 ^ (968 : ℤ) * 2 ^ 56 := by
    rw [← zpow_natCast, ← zpow_add₀ (by norm_num)]; norm_num
  generalize hL : (2 : ℚ) ^ (-989 : ℤ) = L at *
  generalize hB : (2 : ℚ) ^ (968 : ℤ) = B at *
  have hL0 : 0 < L := by rw [← hL]; positivity
  have hB0 : 0 < B := by rw [← hB]; positivity
  clear hL hB hxlo hxhi hlo hhi hp
  have lo : |x| * P / 2 ≤ |x * p| := by
    have := abs_sub_abs_le_abs_sub (x * P) (x * p)
    rw [abs_sub_comm, hXP] at this
    linarith
  have hi : |x * p| ≤ |x| * P * 2 := by
    have := abs_sub_abs_le_abs_sub (x * p) (x * P)
    rw [hXP] at this
    linarith
  have rr := flq_rel (x := x * p) (by rw [e1022]; clear e1024 e1022; linarith)
  rw [c53] at rr
  have fin : |flq (x * p) - x * P| ≤ |x| * P * (1 / 2 ^ 50) := by
    have := abs_sub_le (flq (x * p)) (x * p) (x * P)
    linarith
  refine ⟨?_, ?_, by rw [c50]; exact fin⟩
  · have := abs_sub_abs_le_abs_sub (flq (x * p)) (x * p)
    rw [e1024]; clear e1024 e1022
    linarith
  · intro hz
    rw [hz, zero_sub, abs_neg, hXP] at fin
    linarith

/-- C34 for float points with a scale factor: the value of a register that is a finite single `x` is `x * 10^sf`, up to a relative error of
2^-50, with the sign of `x`, also if it is a zero; an infinity stays what it is, and so does a NaN. -/
theorem C34_float_value (lib : FloatLib) (hl : PowOK lib) (p : PointObj) (k : Int) (b : BitVec 32) (hk : Scaled p k) (k0 : k ≠ 0)
    (h1 : -250 ≤ k) (h2 : k ≤ 250) (hb : p.base = some (.flt b)) :
    ∃ g, getValue lib p = .ok (.flt g) ∧
      (∀ x, (f32Val b).num = some x → ∃ q, g.num = some q ∧ g.neg = (f32Val b).neg ∧ |q - x * 10 ^ k| ≤ |x| * 10 ^ k * 2 ^ (-50 : ℤ)) ∧
      ((f32Val b).num = none → g = f32Val b) := by
  obtain ⟨pw, hp, he⟩ := hl k h1 h2
  have hP : (0 : ℚ) < 10 ^ k := by positivity
  have hpos := (div_err (x := (0 : ℚ)) hP he).2
  have hs : scaleOf p.vsf = some k := by rw [hk]; exact if_neg k0
  refine ⟨(f32Val b).mul (.fin pw), ?_, ?_, ?_⟩
  · unfold getValue
    rw [hs]
    dsimp only
    rw [hp]
    dsimp only
    rw [hb]
    rfl
  · intro x hx
    have hmul : (f32Val b).mul (.fin pw) = flS (f32Val b).neg (x * pw) := by
      have hn : (Flt.fin pw).neg = false := by unfold Flt.neg; exact decide_eq_false (not_lt.2 hpos.le)
      cases hv : f32Val b with
      | fin q =>
        rw [hv] at hx; cases hx
        show flS ((Flt.fin x).neg != (Flt.fin pw).neg) (x * pw) = _
        rw [hn, Bool.bne_false]
      | nzero =>
        rw [hv] at hx; cases hx
        show flS (Flt.nzero.neg != (Flt.fin pw).neg) (0 * pw) = _
        rw [hn, Bool.bne_false]
      | inf n => rw [hv] at hx; cases hx
      | nan => rw [hv] at hx; cases hx
    rw [hmul]
    by_cases h0 : x = 0
    · subst h0
      refine ⟨0, ?_, ?_, by simp⟩
      · rw [zero_mul, flS_num (by rw [flq_zero]; simp), flq_zero]
      · rw [zero_mul]
        unfold flS
        rw [flq_zero, if_neg (by simp)]
        cases hv : f32Val b with
        | fin q =>
          rw [hv] at hx; cases hx
          simp [Flt.neg]
        | nzero => simp [Flt.neg]
        | inf n => rw [hv] at hx; cases hx
        | nan => rw [hv] at hx; cases hx
    · obtain ⟨q, hv⟩ : ∃ q, f32Val b = .fin q := by
        cases hv : f32Val b with
        | fin q => exact ⟨q, rfl⟩
        | nzero => rw [hv] at hx; cases hx; exact absurd rfl h0
        | inf n => rw [hv] at hx; cases hx
        | nan => rw [hv] at hx; cases hx
      rw [hv] at hx; cases hx
      obtain ⟨m, e, hf, he104, -, -⟩ := f32Val_single b x hv
      have hm0 : m ≠ 0 := by
        intro hm
        apply h0
        have := hf.abs
        rw [hm] at this
        simpa using this
      have hm1 : (1 : ℚ) ≤ m := by exact_mod_cast Nat.one_le_iff_ne_zero.2 hm0
      have hm2 : (m : ℚ) ≤ 2 ^ 24 := by exact_mod_cast hf.lt.le
      have hlo : (2 : ℚ) ^ (-149 : ℤ) ≤ |x| := by
        rw [hf.abs]
        have : (2 : ℚ) ^ (-149 : ℤ) ≤ 2 ^ e := zpow_le_zpow_right₀ (by norm_num) hf.lo
        have hp' : (0 : ℚ) < 2 ^ e := by positivity
        nlinarith
      have hhi : |x| ≤ (2 : ℚ) ^ (128 : ℤ) := by
        rw [hf.abs]
        have h4 : (2 : ℚ) ^ e ≤ 2 ^ (104 : ℤ) := zpow_le_zpow_right₀ (by norm_num) he104
        calc (m : ℚ) * 2 ^ e ≤ 2 ^ 24 * 2 ^ (104 : ℤ) := mul_le_mul hm2 h4 (by positivity) (by norm_num)
          _ = 2 ^ (128 : ℤ) := by norm_num
      obtain ⟨r1, r2, r3⟩ := float_scaled_err h0 hlo hhi (pow10_lower h1) (pow10_upper h2) he
      have hfin : flS (f32Val b).neg (x * pw) = .fin (flq (x * pw)) := flS_fin r1 fun hz => absurd hz r2
      rw [hfin]
      refine ⟨_, rfl, ?_, r3⟩
      rw [hv]
      unfold Flt.neg
      rcases lt_or_gt_of_ne h0 with hneg | hpo
      · have a := flq_nonpos (x := x * pw) (mul_nonpos_of_nonpos_of_nonneg hneg.le hpos.le)
        have a' : flq (x * pw) < 0 := lt_of_le_of_ne a r2
        simp [hneg, a']
      · have a := flq_nonneg (x := x * pw) (mul_nonneg hpo.le hpos.le)
        simp [not_lt.2 hpo.le, not_lt.2 a]
  · intro hn
    cases hv : f32Val b with
    | fin q => rw [hv] at hn; cases hn
    | nzero => rw [hv] at hn; cases hn
    | nan => rfl
    | inf n =>
      have hne : ¬ (Flt.fin pw).num = some 0 := fun h => hpos.ne' (Option.some.inj h)
      show (if (Flt.fin pw).num = some 0 then Flt.nan else .inf (n != (Flt.fin pw).neg)) = _
      rw [if_neg hne]
      have hn : (Flt.fin pw).neg = false := by unfold Flt.neg; exact decide_eq_false (not_lt.2 hpos.le)
      rw [hn, Bool.bne_false]

/-- Non-vacuity: the register 0x80000000 (-0.0) with the scale factor -2 has the value -0.0. -/
example : getValue exactLib { pt := { id := t!"F", offset := 0, type := .float32, len := 2 }, addr := 40002, vsf := some (.int (-2)), base := some (.flt 0x80000000#32) } =
    .ok (.flt .nzero) := by
  obtain ⟨g, h1, h2, -⟩ := C34_float_value exactLib exactLib_ok
    { pt := { id := t!"F", offset := 0, type := .float32, len := 2 }, addr := 40002, vsf := some (.int (-2)), base := some (.flt 0x80000000#32) }
    (-2) 0x80000000#32 rfl (by decide) (by decide) (by decide) rfl
  rw [f32Val_nzero] at h2
  obtain ⟨q, e1, e2, e3⟩ := h2 0 rfl
  have hq : q = 0 := by simpa using e3
  subst hq
  rw [h1, Flt.eq_of_num e1 (g := .nzero) rfl e2]

end Verif
