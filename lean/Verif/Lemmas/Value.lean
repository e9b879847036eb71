import Mathlib.Tactic.GCongr
import Verif.Lemmas.Float
import Verif.Spec.Value

/-!
# Errors of the scaling of values
-/

namespace Verif
open Spec

theorem pow10_lower {k : ℤ} (h : -250 ≤ k) : (2 : ℚ) ^ (-840 : ℤ) ≤ 10 ^ k := by
  have h1 : (10 : ℚ) ^ (-250 : ℤ) ≤ 10 ^ k := zpow_le_zpow_right₀ (by norm_num) h
  refine le_trans ?_ h1
  have h2 : ((10 : ℚ) ^ (25 : ℕ)) ^ (10 : ℕ) ≤ (2 ^ (84 : ℕ)) ^ (10 : ℕ) :=
    pow_le_pow_left₀ (by positivity) (by norm_num) _
  rw [← pow_mul, ← pow_mul] at h2
  have e1 : (2 : ℚ) ^ (-840 : ℤ) = (2 ^ (840 : ℕ))⁻¹ := by rw [zpow_neg]; rfl
  have e2 : (10 : ℚ) ^ (-250 : ℤ) = (10 ^ (250 : ℕ))⁻¹ := by rw [zpow_neg]; rfl
  rw [e1, e2]
  exact inv_anti₀ (by positivity) h2

theorem pow10_upper {k : ℤ} (h : k ≤ 250) : (10 : ℚ) ^ k ≤ 2 ^ (840 : ℤ) := by
  have h1 : (10 : ℚ) ^ k ≤ 10 ^ (250 : ℤ) := zpow_le_zpow_right₀ (by norm_num) h
  refine le_trans h1 ?_
  have h2 : ((10 : ℚ) ^ (25 : ℕ)) ^ (10 : ℕ) ≤ (2 ^ (84 : ℕ)) ^ (10 : ℕ) :=
    pow_le_pow_left₀ (by positivity) (by norm_num) _
  rw [← pow_mul, ← pow_mul] at h2
  exact h2

theorem flq_zero : flq 0 = 0 := by
  have := flq_int 0 (by norm_num)
  simpa using this

/-- The error of a correctly rounded product of two slightly wrong factors. -/
theorem mul_err {a b p P : ℚ} (hP : 0 < P) (ha : |a - b| ≤ |b| * 2 ^ (-53 : ℤ)) (hp : |p - P| ≤ P * 2 ^ (-52 : ℤ)) :
    |a * p - b * P| ≤ |b| * P * (2 ^ (-52 : ℤ) + 2 ^ (-53 : ℤ) + 2 ^ (-105 : ℤ)) := by
  have e : a * p - b * P = (a - b) * P + b * (p - P) + (a - b) * (p - P) := by ring
  have h1 : |(a - b) * P| ≤ |b| * 2 ^ (-53 : ℤ) * P := by
    rw [abs_mul, abs_of_pos hP]; gcongr
  have h2 : |b * (p - P)| ≤ |b| * (P * 2 ^ (-52 : ℤ)) := by rw [abs_mul]; gcongr
  have h3 : |(a - b) * (p - P)| ≤ |b| * 2 ^ (-53 : ℤ) * (P * 2 ^ (-52 : ℤ)) := by rw [abs_mul]; gcongr
  have e2 : (2 : ℚ) ^ (-105 : ℤ) = 2 ^ (-53 : ℤ) * 2 ^ (-52 : ℤ) := by rw [← zpow_add₀ (by norm_num)]; rfl
  rw [e, e2]
  calc |(a - b) * P + b * (p - P) + (a - b) * (p - P)| ≤ |(a - b) * P| + |b * (p - P)| + |(a - b) * (p - P)| := abs_add_three _ _ _
    _ ≤ _ := by linarith
  
theorem div_err {x p P : ℚ} (hP : 0 < P) (hp : |p - P| ≤ P * 2 ^ (-52 : ℤ)) :
    |x / p - x / P| ≤ |x / P| * 2 ^ (-51 : ℤ) ∧ 0 < p := by
  have h1 := (abs_le.1 hp).1
  have c52 : (2 : ℚ) ^ (-52 : ℤ) = 1 / 2 ^ 52 := by norm_num
  have c51 : (2 : ℚ) ^ (-51 : ℤ) = 1 / 2 ^ 51 := by norm_num
  have hpos : P / 2 ≤ p := by rw [c52] at h1; linarith
  have hp0 : 0 < p := by linarith
  refine ⟨?_, hp0⟩
  have e : x / p - x / P = x / P * ((P - p) / p) := by field_simp
  rw [e, abs_mul]
  refine mul_le_mul_of_nonneg_left ?_ (abs_nonneg _)
  rw [abs_div, abs_of_pos hp0, div_le_iff₀ hp0, abs_sub_comm]
  rw [c52] at hp
  rw [c51]
  linarith

/-- Getting: the error of the product. -/
theorem get_err {b : ℤ} {p P : ℚ} (hb : |b| ≤ 2 ^ 64) (hlo : 2 ^ (-840 : ℤ) ≤ P) (hhi : P ≤ 2 ^ (840 : ℤ))
    (hp : |p - P| ≤ P * 2 ^ (-52 : ℤ)) :
    ∃ a : ℚ, fl b = .fin a ∧ flS (decide (a < 0) != decide (p < 0)) (a * p) = .fin (flq (a * p)) ∧ |flq (a * p) - b * P| ≤ |(b : ℚ)| * P * 2 ^ (-50 : ℤ) := by
  have hP : 0 < P := lt_of_lt_of_le (by positivity) hlo
  have hbq : |(b : ℚ)| ≤ 2 ^ 64 := by exact_mod_cast hb
  have hp0 : 0 < p := by
    have h1 := (abs_le.1 hp).1
    have h2 : P * 2 ^ (-52 : ℤ) ≤ P * (1 / 2) := mul_le_mul_of_nonneg_left (by norm_num) hP.le
    generalize P * 2 ^ (-52 : ℤ) = Y at h1 h2
    clear hlo hhi hp
    linarith
  by_cases h0 : b = 0
  · subst h0
    have z : fl ((0 : ℤ) : ℚ) = .fin 0 := by
      rw [fl_fin] <;> simp [flq_zero]
    refine ⟨0, z, ?_, ?_⟩
    · rw [flS_fin] <;> simp [flq_zero, hp0.le]
    · simp [flq_zero]
  have hb1 : (1 : ℚ) ≤ |(b : ℚ)| := by exact_mod_cast Int.one_le_abs h0
  have ra : |flq b - b| ≤ |(b : ℚ)| * 2 ^ (-53 : ℤ) := flq_rel (le_trans (by
    have : (2 : ℚ) ^ (-1022 : ℤ) ≤ 2 ^ (0 : ℤ) := zpow_le_zpow_right₀ (by norm_num) (by norm_num)
    simpa using this) hb1)
  have c53 : (2 : ℚ) ^ (-53 : ℤ) = 1 / 2 ^ 53 := by norm_num
  have c52 : (2 : ℚ) ^ (-52 : ℤ) = 1 / 2 ^ 52 := by norm_num
  have c50 : (2 : ℚ) ^ (-50 : ℤ) = 1 / 2 ^ 50 := by norm_num
  have c105 : (2 : ℚ) ^ (-105 : ℤ) = 1 / 2 ^ 105 := by norm_num
  have e1024 : (2 : ℚ) ^ (1024 : ℤ) = 2 ^ 184 * 2 ^ (840 : ℤ) := by
    rw [← zpow_natCast, ← zpow_add₀ (by norm_num)]; norm_num
  have one840 : (1 : ℚ) ≤ 2 ^ (840 : ℤ) := one_le_zpow₀ (by norm_num) (by norm_num)
  have e1022 : (2 : ℚ) ^ (-1022 : ℤ) = 2 ^ (-182 : ℤ) * 2 ^ (-840 : ℤ) := by
    rw [← zpow_add₀ (by norm_num)]; norm_num
  have c182 : (2 : ℚ) ^ (-182 : ℤ) = 1 / 2 ^ 182 := by norm_num
  generalize hB : (2 : ℚ) ^ (840 : ℤ) = B at *
  generalize hL : (2 : ℚ) ^ (-840 : ℤ) = L at *
  have hL0 : 0 < L := by rw [← hL]; positivity
  clear hB hL
  have ha : |flq (b : ℚ)| ≤ 2 ^ 65 := by
    have := abs_sub_abs_le_abs_sub (flq (b : ℚ)) b
    rw [c53] at ra
    linarith
  have m1 := mul_err hP ra hp
  have m0 : |flq (b : ℚ) * p - b * P| ≤ |(b : ℚ)| * P * (1 / 2 ^ 51) := by
    refine m1.trans ?_
    rw [c53, c52, c105]
    refine mul_le_mul_of_nonneg_left (by norm_num) (by positivity)
  have m2 : P ≤ |(b : ℚ)| * P := by nlinarith
  have m3 : |(b : ℚ) * P| = |(b : ℚ)| * P := by rw [abs_mul, abs_of_pos hP]
  have m4 : |(b : ℚ)| * P ≤ 2 ^ 64 * B := mul_le_mul hbq hhi hP.le (by norm_num)
  have lo : |(b : ℚ)| * P / 2 ≤ |flq (b : ℚ) * p| := by
    have := abs_sub_abs_le_abs_sub ((b : ℚ) * P) (flq (b : ℚ) * p)
    rw [abs_sub_comm] at this
    linarith
  have hi : |flq (b : ℚ) * p| ≤ |(b : ℚ)| * P * (1 + 1 / 2 ^ 51) := by
    have := abs_sub_abs_le_abs_sub (flq (b : ℚ) * p) ((b : ℚ) * P)
    linarith
  have rr := flq_rel (x := flq (b : ℚ) * p) (by
    rw [e1022, c182]
    clear e1024 e1022
    linarith)
  rw [c53] at rr
  have tot : |flq (flq (b : ℚ) * p)| ≤ 2 ^ 66 * B := by
    have := abs_sub_abs_le_abs_sub (flq (flq (b : ℚ) * p)) (flq (b : ℚ) * p)
    clear e1024 e1022
    have hB0 : 0 < B := by linarith
    linarith
  have fin : |flq (flq (b : ℚ) * p) - b * P| ≤ |(b : ℚ)| * P * (1 / 2 ^ 50) := by
    have := abs_sub_le (flq (flq (b : ℚ) * p)) (flq (b : ℚ) * p) (b * P)
    linarith
  refine ⟨flq b, fl_fin ?_ ?_, flS_fin ?_ ?_, ?_⟩
  · rw [e1024]; clear e1024 e1022; linarith
  · intro hz
    rw [hz, zero_sub, abs_neg, c53] at ra
    linarith
  · rw [e1024]; clear e1024 e1022; linarith
  · intro hz
    rw [hz, zero_sub, abs_neg, m3] at fin
    linarith
  · rw [c50]; exact fin

/-- Setting: the error of the quotient, rounded to an integer. -/
theorem set_err {x p P : ℚ} (hP : 0 < P) (hx : |x / P| ≤ 2 ^ 64) (hp : |p - P| ≤ P * 2 ^ (-52 : ℤ)) :
    |flq (x / p)| < 2 ^ (1024 : ℤ) ∧
    (|flq (x / p) - x / P| ≤ |x / P| * 2 ^ (-50 : ℤ) ∨ (|flq (x / p)| < 1 / 4 ∧ |x / P| < 1 / 4)) := by
  obtain ⟨h1, hp0⟩ := div_err (x := x) hP hp
  have c53 : (2 : ℚ) ^ (-53 : ℤ) = 1 / 2 ^ 53 := by norm_num
  have c51 : (2 : ℚ) ^ (-51 : ℤ) = 1 / 2 ^ 51 := by norm_num
  have c50 : (2 : ℚ) ^ (-50 : ℤ) = 1 / 2 ^ 50 := by norm_num
  rw [c51] at h1
  have h2 : |x / p| ≤ |x / P| * (1 + 1 / 2 ^ 51) := by
    have := abs_sub_abs_le_abs_sub (x / p) (x / P)
    linarith
  have h3 : |x / P| ≤ 2 * |x / p| := by
    have := abs_sub_abs_le_abs_sub (x / P) (x / p)
    rw [abs_sub_comm] at this
    linarith [abs_nonneg (x / P)]
  have hn := abs_nonneg (x / P)
  have hn2 := abs_nonneg (x / p)
  have small : (2 : ℚ) ^ (-1075 : ℤ) ≤ 1 / 16 := by
    have : (2 : ℚ) ^ (-1075 : ℤ) ≤ 2 ^ (-4 : ℤ) := zpow_le_zpow_right₀ (by norm_num) (by norm_num)
    exact this.trans (by norm_num)
  have ab := flq_abs (x / p)
  rw [c53] at ab
  have tri := abs_sub_abs_le_abs_sub (flq (x / p)) (x / p)
  constructor
  · have : (2 : ℚ) ^ (100 : ℤ) ≤ 2 ^ (1024 : ℤ) := zpow_le_zpow_right₀ (by norm_num) (by norm_num)
    refine lt_of_lt_of_le ?_ this
    have e : (2 : ℚ) ^ (100 : ℤ) = 2 ^ 100 := by norm_num
    rw [e]
    linarith
  · by_cases hc : 2 ^ (-1022 : ℤ) ≤ |x / p|
    · left
      have rr := flq_rel hc
      rw [c53] at rr
      have := abs_sub_le (flq (x / p)) (x / p) (x / P)
      rw [c50]
      linarith
    · right
      have hc' : |x / p| < 1 / 16 := by
        push Not at hc
        refine lt_of_lt_of_le hc ?_
        have : (2 : ℚ) ^ (-1022 : ℤ) ≤ 2 ^ (-4 : ℤ) := zpow_le_zpow_right₀ (by norm_num) (by norm_num)
        exact this.trans (by norm_num)
      constructor <;> linarith

theorem set_round {x p P : ℚ} (hP : 0 < P) (hx : |x / P| ≤ 2 ^ 64) (hp : |p - P| ≤ P * 2 ^ (-52 : ℤ)) :
    |(rint (flq (x / p)) : ℚ) - x / P| ≤ 1 / 2 + |x / P| * 2 ^ (-50 : ℤ) ∧
    ∀ m : ℤ, |x / P - m| + |x / P| * 2 ^ (-50 : ℤ) < 1 / 2 → rint (flq (x / p)) = m := by
  obtain ⟨_, h | ⟨h1, h2⟩⟩ := set_err hP hx hp
  · constructor
    · have := rint_err (flq (x / p))
      have := abs_sub_le (rint (flq (x / p)) : ℚ) (flq (x / p)) (x / P)
      linarith
    · intro m hm
      apply rint_eq
      have := abs_sub_le (flq (x / p)) (x / P) m
      linarith
  · have hn := abs_nonneg (x / P)
    have pos : (0 : ℚ) ≤ |x / P| * 2 ^ (-50 : ℤ) := by positivity
    have r0 : rint (flq (x / p)) = 0 := rint_eq (by simp; linarith)
    rw [r0]
    constructor
    · simp only [Int.cast_zero, zero_sub, abs_neg]; linarith
    · intro m hm
      have h3 : |(m : ℚ)| < 1 := by
        have := abs_sub_abs_le_abs_sub (m : ℚ) (x / P)
        rw [abs_sub_comm] at this
        linarith
      have : |m| < 1 := by exact_mod_cast h3
      exact (Int.abs_lt_one_iff.1 this).symm

/-- Scaling and unscaling by the same (possibly inexact) power: two roundings, each with a relative error of 2^-53. -/
theorem rint_scaled {b : ℤ} {p : ℚ} (hb : |b| < 2 ^ 51) (hp0 : 0 < p) (hp : 2 ^ (-1022 : ℤ) ≤ p) :
    rint (flq (flq (b * p) / p)) = b := by
  by_cases h0 : b = 0
  · subst h0; simp [flq_zero, rint]
  have hb1 : (1 : ℚ) ≤ |(b : ℚ)| := by exact_mod_cast Int.one_le_abs h0
  have hb2 : |(b : ℚ)| ≤ 2 ^ 51 - 1 := by
    have : |b| ≤ 2 ^ 51 - 1 := by omega
    exact_mod_cast this
  have c53 : (2 : ℚ) ^ (-53 : ℤ) = 1 / 2 ^ 53 := by norm_num
  have hm : |(b : ℚ) * p| = |(b : ℚ)| * p := by rw [abs_mul, abs_of_pos hp0]
  have e1 : |flq (b * p) - b * p| ≤ |(b : ℚ) * p| * 2 ^ (-53 : ℤ) := by
    refine flq_rel (hp.trans ?_)
    rw [hm]
    nlinarith
  have e2 : |flq (b * p) / p - b| ≤ |(b : ℚ)| * (1 / 2 ^ 53) := by
    have e : flq (b * p) / p - b = (flq (b * p) - b * p) / p := by field_simp
    rw [e, abs_div, abs_of_pos hp0, div_le_iff₀ hp0, ← c53]
    rw [hm] at e1
    linarith
  generalize flq (b * p) / p = y at *
  have y1 : |y| ≤ |(b : ℚ)| + |(b : ℚ)| * (1 / 2 ^ 53) := by
    have := abs_sub_abs_le_abs_sub y (b : ℚ)
    linarith
  have y2 : (1 / 2 : ℚ) ≤ |y| := by
    have := abs_sub_abs_le_abs_sub (b : ℚ) y
    rw [abs_sub_comm] at this
    clear hp e1
    linarith
  have e3 : |flq y - y| ≤ |y| * 2 ^ (-53 : ℤ) := by
    refine flq_rel (le_trans ?_ y2)
    have : (2 : ℚ) ^ (-1022 : ℤ) ≤ 2 ^ (-1 : ℤ) := zpow_le_zpow_right₀ (by norm_num) (by norm_num)
    refine this.trans (by norm_num)
  rw [c53] at e3
  apply rint_eq
  have := abs_sub_le (flq y) y b
  clear hp e1
  linarith

/-- The power of ten, as the library computes it, is a normal number. -/
theorem pow_low {p P : ℚ} (hlo : 2 ^ (-840 : ℤ) ≤ P) (hp : |p - P| ≤ P * 2 ^ (-52 : ℤ)) : (2 : ℚ) ^ (-1022 : ℤ) ≤ p := by
  have h1 := (abs_le.1 hp).1
  have c52 : (2 : ℚ) ^ (-52 : ℤ) = 1 / 2 ^ 52 := by norm_num
  have h2 : (2 : ℚ) ^ (-1022 : ℤ) ≤ 2 ^ (-841 : ℤ) := zpow_le_zpow_right₀ (by norm_num) (by norm_num)
  have h3 : (2 : ℚ) ^ (-841 : ℤ) = 2 ^ (-840 : ℤ) / 2 := by
    have : (2 : ℚ) ^ (-840 : ℤ) = 2 ^ (-841 : ℤ) * 2 ^ (1 : ℤ) := by rw [← zpow_add₀ (by norm_num)]; rfl
    rw [this]; simp
  rw [h3] at h2
  refine h2.trans ?_
  rw [c52] at h1
  have h0 : (0 : ℚ) < 2 ^ (-840 : ℤ) := by positivity
  clear h2 h3 hp
  generalize (2 : ℚ) ^ (-840 : ℤ) = L at *
  linarith

end Verif
