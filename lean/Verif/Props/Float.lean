import Verif.Spec.Float
import Verif.Lemmas.Single
import Verif.Props.WriteRead
import Verif.Props.Session
import Verif.Props.Value

/-!
# C61: floating point values are stored as the nearest single
-/

namespace Verif
open Spec

theorem F32.isSingle {q m e} (h : F32 q m e) (hi : e ≤ 104) : IsSingle q := by
  have hl := h.lt
  by_cases hq : q < 0
  · refine ⟨-(m : ℤ), e, ?_, h.lo, hi, ?_⟩
    · rw [abs_neg, Int.abs_eq_natAbs]; simp; omega
    · have := h.abs; rw [abs_of_neg hq] at this; push_cast; linarith
  · refine ⟨(m : ℤ), e, ?_, h.lo, hi, ?_⟩
    · rw [Int.abs_eq_natAbs]; simp; omega
    · have := h.abs; rw [abs_of_nonneg (not_lt.1 hq)] at this; push_cast; linarith

/-- The condition of overflow. -/
theorem flq32_overflow (x : ℚ) : 2 ^ (128 : ℤ) ≤ |flq32 x| ↔ tooLarge ≤ |x| := by
  have htl : tooLarge = (2 ^ 24 - 1 / 2) * 2 ^ (104 : ℤ) := by unfold tooLarge; norm_num
  by_cases h0 : x = 0
  · subst h0
    have : flq32 0 = 0 := by unfold flq32; simp [rint]
    rw [this, htl]; norm_num
  have hx : 0 < |x| := abs_pos.2 h0
  have hp : (0 : ℚ) < 2 ^ ulpExp32 x := by positivity
  have hlow := Int.zpow_log_le_self (b := 2) (by norm_num) hx
  have hupp := Int.lt_zpow_succ_log_self (b := 2) (by norm_num) |x|
  push_cast at hlow hupp
  have habs : |flq32 x| = |(rint (x / 2 ^ ulpExp32 x) : ℚ)| * 2 ^ ulpExp32 x := by
    unfold flq32; rw [abs_mul, abs_of_pos hp]
  rcases lt_trichotomy (Int.log 2 |x|) 127 with hl | hl | hl
  · -- far below
    have h1 : |x| < 2 ^ (127 : ℤ) := lt_of_lt_of_le hupp (zpow_le_zpow_right₀ (by norm_num) (by omega))
    have h2 : |x| < tooLarge := by rw [htl]; refine h1.trans_le (by norm_num)
    have he : ulpExp32 x ≤ 103 := by unfold ulpExp32; omega
    have h3 : (2 : ℚ) ^ ulpExp32 x ≤ 2 ^ (103 : ℤ) := zpow_le_zpow_right₀ (by norm_num) he
    have h4 : |flq32 x - x| ≤ 2 ^ ulpExp32 x / 2 := by
      have h := rint_err (x / 2 ^ ulpExp32 x)
      have e : flq32 x - x = (rint (x / 2 ^ ulpExp32 x) - x / 2 ^ ulpExp32 x) * 2 ^ ulpExp32 x := by
        unfold flq32; field_simp
      rw [e, abs_mul, abs_of_pos hp]
      nlinarith
    have h5 : |flq32 x| < 2 ^ (128 : ℤ) := by
      have := abs_sub_abs_le_abs_sub (flq32 x) x
      have h6 : (2 : ℚ) ^ (127 : ℤ) + 2 ^ (103 : ℤ) / 2 < 2 ^ (128 : ℤ) := by norm_num
      linarith
    exact ⟨fun h => absurd h (not_le.2 h5), fun h => absurd h (not_le.2 h2)⟩
  · have he : ulpExp32 x = 104 := by unfold ulpExp32; omega
    rw [habs, he, htl]
    have hp2 : (0 : ℚ) < 2 ^ (104 : ℤ) := by positivity
    have e128 : (2 : ℚ) ^ (128 : ℤ) = 2 ^ 24 * 2 ^ (104 : ℤ) := by norm_num
    rw [e128, mul_le_mul_iff_left₀ hp2, ← le_div_iff₀ hp2]
    have ez : |x| / 2 ^ (104 : ℤ) = |x / 2 ^ (104 : ℤ)| := by rw [abs_div, abs_of_pos hp2]
    rw [ez]
    rw [hl] at hupp
    have hz : |x / 2 ^ (104 : ℤ)| < 2 ^ 24 := by
      rw [← ez, div_lt_iff₀ hp2]
      calc |x| < 2 ^ ((127 : ℤ) + 1) := hupp
        _ = 2 ^ 24 * 2 ^ (104 : ℤ) := by norm_num
    generalize x / 2 ^ (104 : ℤ) = z at hz
    constructor
    · intro h
      have h1 := rint_err z
      have := abs_sub_abs_le_abs_sub (rint z : ℚ) z
      linarith
    · intro h
      -- only 2^24 is within half a unit
      have key : ∀ w : ℚ, 0 ≤ w → w < 2 ^ 24 → 2 ^ 24 - 1 / 2 ≤ w → rint w = 2 ^ 24 ∧ rint (-w) = -(2 ^ 24) := by
        intro w _ w1 w2
        rcases eq_or_lt_of_le w2 with w3 | w3
        · have ew : w = ((2 ^ 24 - 1 : ℤ) : ℚ) + 1 / 2 := by rw [← w3]; norm_num
          have ew2 : -w = ((-(2 ^ 24) : ℤ) : ℚ) + 1 / 2 := by rw [← w3]; norm_num
          constructor
          · rw [ew, rint_half]; norm_num
          · rw [ew2, rint_half]; norm_num
        · constructor
          · apply rint_eq; rw [abs_lt]; push_cast; constructor <;> linarith
          · apply rint_eq; rw [abs_lt]; push_cast; constructor <;> linarith
      rcases le_or_gt 0 z with hz0 | hz0
      · rw [abs_of_nonneg hz0] at h hz
        rw [(key z hz0 hz h).1]; norm_num
      · rw [abs_of_neg hz0] at h hz
        have := (key (-z) (by linarith) hz h).2
        rw [neg_neg] at this
        rw [this]; norm_num
  · have h1 : (2 : ℚ) ^ (128 : ℤ) ≤ |x| := le_trans (zpow_le_zpow_right₀ (by norm_num) (by omega)) hlow
    have h2 : tooLarge ≤ |x| := by rw [htl]; exact le_trans (by norm_num) h1
    refine ⟨fun _ => h2, fun _ => ?_⟩
    obtain ⟨m, e, hf⟩ := flq32_single x
    have he : ulpExp32 x = Int.log 2 |x| - 23 := by unfold ulpExp32; omega
    have h3 : (2 : ℚ) ^ 23 ≤ |x / 2 ^ ulpExp32 x| := by
      rw [abs_div, abs_of_pos hp, le_div_iff₀ hp]
      calc (2 : ℚ) ^ 23 * 2 ^ ulpExp32 x = 2 ^ (23 + ulpExp32 x) := by rw [zpow_add₀ (by norm_num)]; norm_num
        _ = 2 ^ Int.log 2 |x| := by congr 1; omega
        _ ≤ |x| := hlow
    have h4 : (2 : ℚ) ^ 23 ≤ |(rint (x / 2 ^ ulpExp32 x) : ℚ)| := by
      have h5 := rint_err (x / 2 ^ ulpExp32 x)
      have h6 := abs_sub_abs_le_abs_sub (x / 2 ^ ulpExp32 x) (rint (x / 2 ^ ulpExp32 x) : ℚ)
      rw [abs_sub_comm] at h6
      have h7 : (2 : ℚ) ^ 23 - 1 < |(rint (x / 2 ^ ulpExp32 x) : ℚ)| := by linarith
      rw [← Int.cast_abs] at h7 ⊢
      have h8 : 2 ^ 23 - 1 < |rint (x / 2 ^ ulpExp32 x)| := by exact_mod_cast h7
      have h9 : 2 ^ 23 ≤ |rint (x / 2 ^ ulpExp32 x)| := by omega
      exact_mod_cast h9
    rw [habs]
    calc (2 : ℚ) ^ (128 : ℤ) = 2 ^ 23 * 2 ^ (105 : ℤ) := by norm_num
      _ ≤ |(rint (x / 2 ^ ulpExp32 x) : ℚ)| * 2 ^ ulpExp32 x :=
        mul_le_mul h4 (zpow_le_zpow_right₀ (by norm_num) (by omega)) (by positivity) (abs_nonneg _)

/-- The value of a float point is the number it was given. -/
theorem baseVal_ofFlt (f : Flt) : baseVal (some (Val.ofFlt f)) = .flt f := by
  unfold Val.ofFlt
  cases hp : packF32 f with
  | error e => rfl
  | ok b =>
    dsimp only
    by_cases h : f32Val b = f
    · rw [if_pos h]; simp [baseVal, h]
    · rw [if_neg h]; rfl

theorem map_ok {α β} (g : α → β) (a : α) : Except.map (ε := Exc) g (.ok a) = .ok (g a) := rfl

theorem floatToData_dbl (f : Flt) : floatToData (some (.dbl f)) = (packF32 f).map fun b => beEnc 4 b.toNat := by delta floatToData; rfl

theorem floatToData_flt (b : BitVec 32) : floatToData (some (.flt b)) = .ok (beEnc 4 b.toNat) := by delta floatToData; rfl

theorem floatToData_none : floatToData none = .error .structError := by delta floatToData; rfl

/-- Encoding a float is packing it as a single. -/
theorem floatToData_ofFlt (f : Flt) : floatToData (some (Val.ofFlt f)) = (packF32 f).map fun b => beEnc 4 b.toNat := by
  unfold Val.ofFlt
  cases hp : packF32 f with
  | error e => simp only [floatToData_dbl, hp]
  | ok b =>
    dsimp only
    by_cases h : f32Val b = f
    · rw [if_pos h, floatToData_flt, map_ok]
    · rw [if_neg h, floatToData_dbl, hp]

/-- Reading the four bytes of a single. -/
theorem float_readEnc (b : BitVec 32) : PT.float32.readValue (beEnc 4 b.toNat) =
    .ok (if f32IsNaN b then none else some (.flt b)) := by
  have e : BitVec.ofNat 32 (beDec (beEnc 4 b.toNat)) = b := by
    have hb := b.isLt
    rw [beDec_beEnc 4 _ (by omega)]
    apply BitVec.eq_of_toNat_eq
    rw [BitVec.toNat_ofNat]
    omega
  unfold PT.readValue
  simp only [PT.fromData, dataToFloat, beEnc_length, if_true, e]
  cases hn : f32IsNaN b with
  | true => simp [Except.map, PT.isImpl]
  | false => simp [Except.map, PT.isImpl, hn]

theorem f32IsNaN_val {b : BitVec 32} (h : f32Val b ≠ .nan) : f32IsNaN b = false := by
  cases hn : f32IsNaN b with
  | false => rfl
  | true =>
    exfalso
    apply h
    unfold f32IsNaN at hn
    simp only [Bool.and_eq_true, beq_iff_eq, bne_iff_ne] at hn
    unfold f32Val
    simp only
    rw [if_pos hn.1, if_neg hn.2]

/-- C61: assigning a number (an int, a float or a text that is a number) to a float point gives it exactly that value,
and marks it. -/
theorem C61_assign (lib : FloatLib) (p : PointObj) (hp : FloatPoint p) (v : UVal) (f : Flt) (hv : v.toFlt lib = .ok f) :
    ∃ p', setValue lib p v = (p', .ok ()) ∧ p' = { p with base := some (Val.ofFlt f), dirty := true } ∧
      getValue lib p' = .ok (.flt f) := by
  have hs : scaleOf p.vsf = none := by rcases hp.2 with h | h <;> rw [h] <;> rfl
  refine ⟨_, ?_, rfl, ?_⟩
  · unfold setValue
    rw [hs]
    simp only [PT.toValue, hp.1, PT.isInt, Bool.false_eq_true, if_false, if_true, sunsToFloat, hv]
  · unfold getValue
    simp only [hs, baseVal_ofFlt]

theorem packF32_ok {f : Flt} {x : ℚ} (hf : f.num = some x) (hx : |x| < tooLarge) :
    ∃ b, packF32 f = .ok b ∧ (f32Val b).num = some (flq32 x) ∧ (f32Val b).neg = f.neg := by
  have hlt : ¬ 2 ^ (128 : ℤ) ≤ |flq32 x| := fun h => not_le.2 hx ((flq32_overflow x).1 h)
  cases f with
  | fin q =>
    cases hf
    have hpk : packF32 (.fin x) = .ok (if flq32 x = 0 ∧ x < 0 then 0x80000000#32 else f32Bits (flq32 x)) := by
      unfold packF32; simp only; rw [if_neg hlt]
    exact ⟨_, hpk, packF32_val hpk⟩
  | nzero =>
    cases hf
    refine ⟨0x80000000#32, rfl, ?_, ?_⟩
    · rw [f32Val_nzero]
      have : flq32 0 = 0 := by unfold flq32; simp [rint]
      rw [this]; rfl
    · rw [f32Val_nzero]
  | inf n => cases hf
  | nan => cases hf

/-- Finite floats are given by their number and sign bit. -/
theorem Flt.eq_of_num {f g : Flt} {x : ℚ} (hf : f.num = some x) (hg : g.num = some x) (h : f.neg = g.neg) : f = g := by
  cases f <;> cases g <;> simp_all [Flt.num, Flt.neg]

/-- C61: a finite number that is not too large is encoded as the nearest single, with the same sign (also of zero): that is
what is read back. -/
theorem C61_nearest (f : Flt) (x : ℚ) (hfx : f.num = some x) (hx : |x| < tooLarge) (n : Nat) :
    ∃ d b g y, PT.float32.toData (some (Val.ofFlt f)) n = .ok d ∧ d.length = 4 ∧
      PT.float32.readValue d = .ok (some (.flt b)) ∧ baseVal (some (.flt b)) = .flt g ∧ g.num = some y ∧ g.neg = f.neg ∧
      NearestSingle x y := by
  have hlt : ¬ 2 ^ (128 : ℤ) ≤ |flq32 x| := fun h => not_le.2 hx ((flq32_overflow x).1 h)
  obtain ⟨b, hpk, hval, hneg⟩ := packF32_ok hfx hx
  obtain ⟨m, e, hf⟩ := flq32_single x
  refine ⟨beEnc 4 b.toNat, b, f32Val b, flq32 x, ?_, by simp, ?_, rfl, hval, hneg, ?_, ?_⟩
  · rw [float_toData, floatToData_ofFlt, hpk]; rfl
  · rw [float_readEnc, f32IsNaN_val (by intro h; rw [h] at hval; cases hval)]; rfl
  · exact hf.isSingle (hf.hi (not_le.1 hlt))
  · rintro z ⟨k, e', h1, h2, -, rfl⟩
    exact flq32_nearest x k e' h1 h2

/-- C61: in particular singles are stored exactly. -/
theorem C61_exact (f : Flt) (x : ℚ) (hfx : f.num = some x) (hx : IsSingle x) (n : Nat) :
    ∃ d b, PT.float32.toData (some (Val.ofFlt f)) n = .ok d ∧ PT.float32.readValue d = .ok (some (.flt b)) ∧
      baseVal (some (.flt b)) = .flt f := by
  have hlt : |x| < tooLarge := by
    obtain ⟨k, e, h1, h2, h3, rfl⟩ := hx
    have hk : (|k| : ℚ) ≤ 2 ^ 24 - 1 := by
      have : |k| ≤ 2 ^ 24 - 1 := by omega
      rw [← Int.cast_abs]
      exact_mod_cast this
    rw [abs_mul, abs_of_pos (a := (2 : ℚ) ^ e) (by positivity)]
    have h4 : (2 : ℚ) ^ e ≤ 2 ^ (104 : ℤ) := zpow_le_zpow_right₀ (by norm_num) h3
    calc (|k| : ℚ) * 2 ^ e ≤ (2 ^ 24 - 1) * 2 ^ (104 : ℤ) := mul_le_mul hk h4 (by positivity) (by norm_num)
      _ < tooLarge := by unfold tooLarge; norm_num
  obtain ⟨d, b, g, y, h1, _, h2, h3, g1, g2, _, h4⟩ := C61_nearest f x hfx hlt n
  have h5 := h4 x hx
  rw [sub_self, abs_zero] at h5
  have h6 : y = x := by
    have := abs_nonpos_iff.1 h5
    linarith
  subst h6
  exact ⟨d, b, h1, h2, by rw [h3, Flt.eq_of_num g1 hfx g2]⟩

/-- C61: ties go to the number with the even significand. -/
theorem C61_tie (m : ℤ) (e : ℤ) (hm : 2 ^ 23 ≤ m ∨ e = -149 ∧ 0 ≤ m) (hm2 : m + 1 < 2 ^ 24) (he : -149 ≤ e) (he2 : e ≤ 104) (n : Nat) :
    ∃ d b, PT.float32.toData (some (Val.ofFlt (.fin ((m + 1 / 2) * 2 ^ e)))) n = .ok d ∧
      PT.float32.readValue d = .ok (some (.flt b)) ∧
      baseVal (some (.flt b)) = .flt (.fin ((if m % 2 = 0 then m else m + 1 : ℤ) * 2 ^ e)) := by
  have hm0 : 0 ≤ m := by omega
  have hmq : (0 : ℚ) ≤ m := by exact_mod_cast hm0
  have hpos : (0 : ℚ) < (m + 1 / 2) * 2 ^ e := by positivity
  have hp : (0 : ℚ) < 2 ^ e := by positivity
  have hup : ((m : ℚ) + 1 / 2) * 2 ^ e < 2 ^ (e + 24) := by
    rw [zpow_add₀ (by norm_num), mul_comm]
    apply mul_lt_mul_of_pos_left _ hp
    have : ((m + 1 : ℤ) : ℚ) < ((2 ^ 24 : ℤ) : ℚ) := by exact_mod_cast hm2
    push_cast at this
    have e24 : (2 : ℚ) ^ (24 : ℤ) = 16777216 := by norm_num
    rw [e24]; linarith
  have hul : ulpExp32 ((m + 1 / 2) * 2 ^ e) = e := by
    unfold ulpExp32
    rw [abs_of_pos hpos]
    have h1 := (Int.lt_zpow_iff_log_lt (b := 2) (by norm_num) hpos).1 (by exact_mod_cast hup)
    rcases hm with hm | ⟨rfl, -⟩
    · have h2 : (2 : ℚ) ^ (e + 23) ≤ ((m : ℚ) + 1 / 2) * 2 ^ e := by
        rw [zpow_add₀ (by norm_num), mul_comm]
        apply mul_le_mul_of_nonneg_right _ hp.le
        have : ((2 ^ 23 : ℤ) : ℚ) ≤ (m : ℚ) := by exact_mod_cast hm
        push_cast at this
        have e23 : (2 : ℚ) ^ (23 : ℤ) = 8388608 := by norm_num
        rw [e23]; linarith
      have h3 := (Int.zpow_le_iff_le_log (b := 2) (by norm_num) hpos).1 (by exact_mod_cast h2)
      omega
    · omega
  have hfl : flq32 ((m + 1 / 2) * 2 ^ e) = (if m % 2 = 0 then m else m + 1 : ℤ) * 2 ^ e := by
    unfold flq32
    rw [hul, mul_div_assoc, div_self hp.ne', mul_one, rint_half]
  have hlt : |((m : ℚ) + 1 / 2) * 2 ^ e| < tooLarge := by
    rw [abs_of_pos hpos]
    have h4 : (2 : ℚ) ^ e ≤ 2 ^ (104 : ℤ) := zpow_le_zpow_right₀ (by norm_num) he2
    have h5 : (m : ℚ) + 1 / 2 ≤ 2 ^ 24 - 3 / 2 := by
      have : m ≤ 2 ^ 24 - 2 := by omega
      have : (m : ℚ) ≤ ((2 ^ 24 - 2 : ℤ) : ℚ) := by exact_mod_cast this
      push_cast at this
      linarith
    calc ((m : ℚ) + 1 / 2) * 2 ^ e ≤ (2 ^ 24 - 3 / 2) * 2 ^ (104 : ℤ) := mul_le_mul h5 h4 hp.le (by norm_num)
      _ < tooLarge := by unfold tooLarge; norm_num
  have hov : ¬ 2 ^ (128 : ℤ) ≤ |flq32 (((m : ℚ) + 1 / 2) * 2 ^ e)| := fun h => not_le.2 hlt ((flq32_overflow _).1 h)
  obtain ⟨b, hpk, hval, hneg⟩ := packF32_ok (f := .fin (((m : ℚ) + 1 / 2) * 2 ^ e)) rfl hlt
  refine ⟨beEnc 4 b.toNat, b, ?_, ?_, ?_⟩
  · rw [float_toData, floatToData_ofFlt, hpk]; rfl
  · rw [float_readEnc, f32IsNaN_val (by intro h; rw [h] at hval; cases hval)]; rfl
  · show UVal.flt (f32Val _) = _
    rw [hfl] at hval
    refine congrArg UVal.flt (Flt.eq_of_num hval rfl ?_)
    rw [hneg]
    have h0 : (0 : ℚ) ≤ (if m % 2 = 0 then m else m + 1 : ℤ) * 2 ^ e := by
      have : (0 : ℤ) ≤ (if m % 2 = 0 then m else m + 1 : ℤ) := by split <;> omega
      have : (0 : ℚ) ≤ ((if m % 2 = 0 then m else m + 1 : ℤ) : ℚ) := by exact_mod_cast this
      positivity
    simp only [Flt.neg, decide_eq_decide]
    constructor <;> intro <;> linarith

/-- C61: a number that is too large is refused when the point is written (not when it is assigned): OverflowError, and
nothing is sent. -/
theorem C61_overflow {σ} (dev : MbDev σ) (s : σ) (p : PointObj) (hp : p.pt.type = .float32) (x : ℚ) (hx : tooLarge ≤ |x|)
    (hb : p.base = some (Val.ofFlt (.fin x))) : writePoint dev s p = (s, p, .error .overflowError) := by
  have : packF32 (.fin x) = .error .overflowError := by
    unfold packF32; simp only; rw [if_pos ((flq32_overflow x).2 hx)]
  unfold writePoint
  rw [hp, hb, float_toData, floatToData_ofFlt, this]
  rfl

/-- C61: infinities are stored as such, and a NaN so that it is read as not implemented. -/
theorem C61_special (n : Nat) (neg : Bool) :
    (∃ d b, PT.float32.toData (some (Val.ofFlt (.inf neg))) n = .ok d ∧ PT.float32.readValue d = .ok (some (.flt b)) ∧
      baseVal (some (.flt b)) = .flt (.inf neg)) ∧
    ∃ d, PT.float32.toData (some (Val.ofFlt .nan)) n = .ok d ∧ d = [0x7f, 0xc0, 0, 0] ∧ PT.float32.readValue d = .ok none := by
  constructor
  · refine ⟨beEnc 4 (if neg then 0xff800000#32 else 0x7f800000#32).toNat, (if neg then 0xff800000#32 else 0x7f800000#32), ?_, ?_, ?_⟩
    · rw [float_toData, floatToData_ofFlt]; rfl
    · rw [float_readEnc]
      have : f32IsNaN (if neg then 0xff800000#32 else 0x7f800000#32) = false := by cases neg <;> decide +kernel
      rw [this]; rfl
    · cases neg <;> simp [baseVal, f32Val]
  · refine ⟨beEnc 4 (0x7fc00000#32).toNat, ?_, by decide +kernel, ?_⟩
    · rw [float_toData, floatToData_ofFlt]; rfl
    · rw [float_readEnc]
      have : f32IsNaN 0x7fc00000#32 = true := by decide +kernel
      rw [this]; rfl

/-- C61: text that is not a number is not refused: the point loses its value (and writing it raises `struct.error`). -/
theorem C61_bad_text (lib : FloatLib) (p : PointObj) (hp : FloatPoint p) (s : Text) (hs : lib.parse s = none) :
    setValue lib p (.str s) = ({ p with base := none, dirty := true }, .ok ()) ∧
    ∀ {σ} (dev : MbDev σ) (st : σ), writePoint dev st { p with base := none, dirty := true } =
      (st, { p with base := none, dirty := true }, .error .structError) := by
  have hsc : scaleOf p.vsf = none := by rcases hp.2 with h | h <;> rw [h] <;> rfl
  constructor
  · unfold setValue
    rw [hsc]
    simp only [PT.toValue, hp.1, PT.isInt, Bool.false_eq_true, if_false, if_true, sunsToFloat, UVal.toFlt, hs]
  · intro σ dev st
    unfold writePoint
    simp only [hp.1, float_toData, floatToData_none]

/-- C61, full statement of the part on refusals: what is not a number is refused when it is assigned. -/
def C61_full : Prop :=
  ∀ (lib : FloatLib) (p : PointObj) (s : Text), FloatPoint p → lib.parse s = none → ∃ e, (setValue lib p (.str s)).2 = .error e

/-- C61 is violated: assigning `'abc'` to a float point succeeds, and the point has no value. -/
theorem C61_violated : ¬ C61_full := by
  intro h
  obtain ⟨e, he⟩ := h noLib { pt := { id := t!"F", offset := 0, type := .float32, len := 2 }, addr := 40002 } (t!"abc") ⟨rfl, .inl rfl⟩ rfl
  rw [(C61_bad_text noLib _ ⟨rfl, .inl rfl⟩ (t!"abc") rfl).1] at he
  cases he

/-- C61, end to end: a float point to which a number was assigned reads back, after `write_points` and `read_points`, as the
nearest single. Assumptions on the device and the model as in C37. -/
theorem C61_write_read_partial {σ} {dev : MbDev σ} {R : σ → RegMem → Prop} {wr : Nat → Prop} (hdev : IsMem dev R wr)
    (s : σ) (mem : RegMem) (hs : R s mem) (m : MdlObj) (hm : ModelOK m) (hsep : Separate m)
    (ht : Tiles m.addr (m.addr + m.len) (readPlan m)) (hpos : ∀ c ∈ readPlan m, 0 ≤ c.2)
    (hex : ∀ x, m.addr ≤ x → x < m.addr + m.len → mem x ≠ none)
    (hwr : ∀ b ∈ m.blocks, ∀ n, 0 < n → n ≤ dirtyLen b.pts → wr n)
    (i j : Nat) (b : BlockObj) (p : PointObj) (hb : m.blocks[i]? = some b) (hp : b.pts[j]? = some p) (hd : p.dirty = true)
    (hft : p.pt.type = .float32) (f : Flt) (x : ℚ) (hfx : f.num = some x) (hx : |x| < tooLarge) (hbase : p.base = some (Val.ofFlt f))
    (hothers : ∀ (i' j' : Nat) (b' : BlockObj) (p' : PointObj), m.blocks[i']? = some b' → b'.pts[j']? = some p' → p'.dirty = true →
      (i' = i ∧ j' = j) ∨ Writable p') :
    ∃ s1 s2 m1 m2 b2 p2 g y, writePoints dev s m = (s1, m1, .ok ()) ∧ readPoints dev s1 m1 = (s2, m2, .ok ()) ∧
      m2.blocks[i]? = some b2 ∧ b2.pts[j]? = some p2 ∧ p2.dirty = false ∧
      baseVal p2.base = .flt g ∧ g.num = some y ∧ g.neg = f.neg ∧ NearestSingle x y := by
  have hlen : p.pt.len = 2 := by
    have := hm.len b (List.mem_of_getElem? hb) p (.inl (List.mem_of_getElem? hp))
    unfold LenOK at this
    rw [hft] at this
    exact this
  obtain ⟨d, bv, g, y, n1, n2, n3, n4, n5⟩ := C61_nearest f x hfx hx (p.pt.len * 2).toNat
  have henc : ∀ d', p.pt.type.toData p.base (p.pt.len * 2).toNat = .ok d' ↔ d = d' := by
    intro d'
    rw [hft, hbase, n1, Except.ok.injEq]
  obtain ⟨s1, s2, m1, m2, mem2, h1, h2, h3, h4, h5, h6⟩ := C37_encoded_partial hdev s mem hs m hm hsep ht hpos hex hwr (by
    intro b' hb' p' hp' hd'
    obtain ⟨i', hi'⟩ := List.getElem?_of_mem hb'
    obtain ⟨j', hj'⟩ := List.getElem?_of_mem hp'
    rcases hothers i' j' b' p' hi' hj' hd' with ⟨rfl, rfl⟩ | hw
    · rw [hb] at hi'; cases hi'
      rw [hp] at hj'; cases hj'
      obtain ⟨rs, rfl⟩ := exists_regs d (by omega)
      rw [regBytes_length] at n2
      exact ⟨rs, (henc _).2 rfl, by omega⟩
    · obtain ⟨rs, h1, _⟩ := writable_encoded p' (hm.len b' hb' p' (.inl hp')) hw
      exact ⟨rs, h1⟩)
  have hi2 : i < m2.blocks.length := by
    rw [h5]; exact (List.getElem?_eq_some_iff.1 hb).1
  have hb2 : m2.blocks[i]? = some m2.blocks[i] := List.getElem?_eq_getElem hi2
  obtain ⟨k1, k2, k3, k4, _⟩ := h6 i b _ hb hb2
  have hj2 : j < (m2.blocks[i]).pts.length := by
    rw [k2]; exact (List.getElem?_eq_some_iff.1 hp).1
  have hp2 : (m2.blocks[i]).pts[j]? = some (m2.blocks[i]).pts[j] := List.getElem?_eq_getElem hj2
  obtain ⟨l1, _, _⟩ := k4 j p _ hp hp2
  obtain ⟨e, rs, g1, g2⟩ := l1 hd
  refine ⟨s1, s2, m1, m2, _, _, g, y, h1, h2, hb2, hp2, by rw [e], ?_, n5⟩
  have := (henc _).1 g1.1
  rw [hft, ← this, n3] at g2
  rw [← Except.ok.inj g2]
  exact n4

/-! ## Examples -/

/-- A definition with one float point. -/
def floatType : ModelType where
  id := 901
  len := 2
  name := t!"floats"
  fixed := ⟨false, .str (t!"2"), t!"fixed", [{ id := t!"F", offset := 0, type := .float32, len := 2, rw := true }]⟩
  rep := none

def floatModel : MdlObj := (mdlLoad (.ok floatType) (mdlNew 901 40002 2)).1

theorem floatModel_ok : ModelOK floatModel := by
  refine loaded_modelOK _ floatType 901 40002 2 floatModel (Prod.ext rfl (by decide +kernel)) ?_ ?_
  · intro F hF
    have h3 : floatType.fixed.len.toInt = .ok 2 := by decide
    rw [h3] at hF
    cases hF
    decide +kernel
  · intro rb R hr hR; cases hr

/-- The point, with the address it has in `floatModel`. -/
def floatPt : PointObj where
  pt := { id := t!"F", offset := 0, type := .float32, len := 2, rw := true }
  addr := 40002

theorem floatModel_blocks : floatModel.blocks.map (·.pts) = [[floatPt]] := by decide +kernel

theorem tenth_lt : |(1 / 10 : ℚ)| < tooLarge := by unfold tooLarge; norm_num

/-- 0.1 assigned to the point. -/
def setTenth (p : PointObj) : PointObj := { p with base := some (Val.ofFlt (.fin (1 / 10))), dirty := true }

theorem setTenth_shape (p : PointObj) : (setTenth p).addr = p.addr ∧ (setTenth p).pt = p.pt ∧ (setTenth p).sf = p.sf := ⟨rfl, rfl, rfl⟩

/-- Non-vacuity of `C61_assign`: 0.1, an int and a text. -/
example := C61_assign noLib floatPt ⟨rfl, .inl rfl⟩ (.flt (.fin (1 / 10))) _ rfl
example := C61_assign noLib floatPt ⟨rfl, .inl rfl⟩ (.int 3) (.fin 3) (by
  show intToFlt 3 = _
  unfold intToFlt
  rw [fl_small 3 (by norm_num)]
  norm_num)
example := C61_assign exactLib floatPt ⟨rfl, .inl rfl⟩ (.flt .nan) _ rfl

/-- Non-vacuity of `C61_nearest`: 0.1 is not a single, it is rounded. -/
example := C61_nearest (.fin (1 / 10)) _ rfl tenth_lt 4
example : ¬ IsSingle (1 / 10) := by
  rintro ⟨n, e, h1, h2, h3, h4⟩
  -- 10 n 2^e = 1 is impossible: 5 does not divide a power of 2
  rcases le_or_gt 0 e with he | he
  · obtain ⟨k, rfl⟩ := Int.eq_ofNat_of_zero_le he
    rw [zpow_natCast] at h4
    have : (1 : ℚ) = ((10 * (n * 2 ^ k) : ℤ) : ℚ) := by push_cast; linarith
    have : (1 : ℤ) = 10 * (n * 2 ^ k) := by exact_mod_cast this
    omega
  · obtain ⟨k, hk⟩ := Int.eq_ofNat_of_zero_le (show 0 ≤ -e by omega)
    have hke : e = -(k : ℤ) := by have : Int.ofNat k = (k : ℤ) := rfl
                                  omega
    subst hke
    have hpk : (0 : ℚ) < 2 ^ k := by positivity
    rw [zpow_neg, zpow_natCast] at h4
    have : (2 : ℚ) ^ k = ((10 * n : ℤ) : ℚ) := by
      push_cast
      field_simp at h4
      linarith
    have h5 : (2 : ℤ) ^ k = 10 * n := by exact_mod_cast this
    have h6 : ∀ k : ℕ, ((2 : ℤ) ^ k) % 5 ≠ 0 := by
      intro k
      induction k with
      | zero => decide
      | succ k ih => rw [pow_succ]; omega
    exact h6 k (by omega)

/-- Non-vacuity of `C61_exact`, `C61_tie` (2^24 + 1 goes to 2^24, 2^24 + 3 to 2^24 + 4) and `C61_overflow`. -/
example := C61_exact .nzero 0 rfl ⟨0, 0, by decide, by decide, by decide, by norm_num⟩ 4
example := C61_exact (.fin (5 / 4)) _ rfl ⟨5, -2, by decide, by decide, by decide, by norm_num⟩ 4
example := C61_tie (2 ^ 23) 1 (.inl (by norm_num)) (by norm_num) (by norm_num) (by norm_num) 4
example := C61_tie 0 (-149) (.inr ⟨rfl, by norm_num⟩) (by norm_num) (by norm_num) (by norm_num) 4
example := C61_overflow mapDev exMap { floatPt with base := some (Val.ofFlt (.fin (10 ^ 39))), dirty := true } rfl (10 ^ 39)
  (by unfold tooLarge; norm_num) rfl

example := C61_bad_text noLib floatPt ⟨rfl, .inl rfl⟩ (t!"abc") rfl

/-- Non-vacuity of `C61_write_read_partial`: 0.1 written to the float point over RTU and read back. -/
example := C61_write_read_partial (rtuDev_isMem (drippingSlave_conforms 7)) ⟨exMem, []⟩ (regMem exMem) rfl (mapPts setTenth floatModel)
    (mapPts_ok _ setTenth_shape floatModel_ok) (mapPts_separate _ setTenth_shape (by unfold Separate; decide +kernel))
    (by
      show Tiles floatModel.addr (floatModel.addr + floatModel.len) (readPlan floatModel)
      have h1 : readPlan floatModel = [(40002, 2)] := by decide +kernel
      have h2 : floatModel.addr = 40002 ∧ floatModel.len = 2 := by decide +kernel
      rw [h1, h2.1, h2.2]
      exact ⟨rfl, rfl⟩)
    (by
      show ∀ c ∈ readPlan floatModel, _
      have h1 : readPlan floatModel = [(40002, 2)] := by decide +kernel
      rw [h1]; simp)
    (by
      have h2 : floatModel.addr = 40002 ∧ floatModel.len = 2 := by decide +kernel
      show ∀ x, floatModel.addr ≤ x → x < floatModel.addr + floatModel.len → _
      rw [h2.1, h2.2]; intro x h1 h2; unfold regMem; rw [if_pos (by omega)]; simp)
    (by
      have h : ∀ b ∈ floatModel.blocks, b.pts = [floatPt] := by
        intro b hb
        have := List.mem_map_of_mem (f := fun b : BlockObj => b.pts) hb
        rw [floatModel_blocks] at this
        simpa using this
      intro b hb n h1 h2
      obtain ⟨b0, hb0, rfl⟩ := List.mem_map.1 hb
      rw [h b0 hb0] at h2
      have : dirtyLen ([floatPt].map setTenth) = 2 := rfl
      rw [this] at h2
      omega)
    0 0 { (floatModel.blocks.headD { bt := floatType.fixed, addr := 0, len := 0, index := 0, pts := [], sfs := [] }) with pts := [setTenth floatPt] } (setTenth floatPt)
    (by
      have h : (mapPts id floatModel).blocks.head? = some (floatModel.blocks.headD { bt := floatType.fixed, addr := 0, len := 0, index := 0, pts := [], sfs := [] }) := by
        decide +kernel
      cases hb : floatModel.blocks with
      | nil => exfalso; have := floatModel_blocks; rw [hb] at this; cases this
      | cons b bs =>
        have h1 := floatModel_blocks
        rw [hb] at h1
        simp only [List.map_cons, List.cons.injEq] at h1
        simp only [mapPts, hb, List.map_cons, List.headD_cons, List.getElem?_cons_zero, h1.1, List.map_nil])
    rfl rfl rfl (.fin (1 / 10)) _ rfl tenth_lt rfl
    (by
      intro i' j' b' p' h1 h2 _
      left
      simp only [mapPts, List.getElem?_map] at h1
      cases hb : floatModel.blocks[i']? with
      | none => rw [hb] at h1; cases h1
      | some b0 =>
        rw [hb] at h1
        cases h1
        have h3 : (floatModel.blocks.map (·.pts))[i']? = some b0.pts := by rw [List.getElem?_map, hb]; rfl
        rw [floatModel_blocks] at h3
        cases i' with
        | succ i' => simp at h3
        | zero =>
          simp at h3
          dsimp only at h2
          rw [← h3] at h2
          cases j' with
          | succ j' => simp at h2
          | zero => exact ⟨rfl, rfl⟩)

end Verif
