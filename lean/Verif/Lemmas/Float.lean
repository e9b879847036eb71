import Verif.Model.Value
import Mathlib.Algebra.Order.Field.Power
import Mathlib.Tactic.Linarith
import Mathlib.Tactic.NormNum
import Mathlib.Tactic.Positivity
import Mathlib.Tactic.FieldSimp
import Mathlib.Tactic.Ring

/-!
# Lemmas on floating point rounding
-/

namespace Verif

theorem rint_err (x : ℚ) : |(rint x : ℚ) - x| ≤ 1 / 2 := by
  have h1 := Int.floor_le x
  have h2 := Int.lt_floor_add_one x
  unfold rint
  rw [abs_le]
  split_ifs <;> push_cast <;> constructor <;> linarith

/-- `rint` gives the nearest integer. -/
theorem rint_eq {x : ℚ} {n : ℤ} (h : |x - n| < 1 / 2) : rint x = n := by
  have h1 := rint_err x
  rw [abs_le] at h1
  rw [abs_lt] at h
  have h2 : (rint x : ℚ) < n + 1 := by linarith [h1.2, h.2]
  have h3 : (n : ℚ) < rint x + 1 := by linarith [h1.1, h.1]
  have h4 : rint x < n + 1 := by exact_mod_cast h2
  have h5 : n < rint x + 1 := by exact_mod_cast h3
  omega

theorem rint_int (n : ℤ) : rint n = n := rint_eq (by simp)

theorem flq_err (x : ℚ) : |flq x - x| ≤ 2 ^ ulpExp x / 2 := by
  have hp : (0 : ℚ) < 2 ^ ulpExp x := by positivity
  have h := rint_err (x / 2 ^ ulpExp x)
  have e : flq x - x = (rint (x / 2 ^ ulpExp x) - x / 2 ^ ulpExp x) * 2 ^ ulpExp x := by
    unfold flq; field_simp
  rw [e, abs_mul, abs_of_pos hp]
  nlinarith

/-- Relative error of rounding (normal numbers). -/
theorem flq_rel {x : ℚ} (h : 2 ^ (-1022 : ℤ) ≤ |x|) : |flq x - x| ≤ |x| * 2 ^ (-53 : ℤ) := by
  have hx : 0 < |x| := lt_of_lt_of_le (by positivity) h
  have h1 := Int.zpow_log_le_self (b := 2) (by norm_num) hx
  have h2 : (-1022 : ℤ) ≤ Int.log 2 |x| := by
    have := Int.log_mono_right (b := 2) (by positivity) h
    have e : Int.log 2 ((2 : ℚ) ^ (-1022 : ℤ)) = -1022 := by
      have := Int.log_zpow (R := ℚ) (b := 2) (by norm_num) (-1022)
      exact_mod_cast this
    omega
  have e : ulpExp x = Int.log 2 |x| - 52 := by unfold ulpExp; omega
  refine (flq_err x).trans ?_
  rw [e, zpow_sub₀ (by norm_num)]
  have h1' : (2 : ℚ) ^ Int.log 2 |x| ≤ |x| := by exact_mod_cast h1
  have : (2 : ℚ) ^ (-53 : ℤ) = 1 / 2 ^ (52 : ℤ) / 2 := by norm_num
  rw [this]
  have hp : (0 : ℚ) < 1 / 2 ^ (52 : ℤ) := by positivity
  calc (2 : ℚ) ^ Int.log 2 |x| / 2 ^ (52 : ℤ) / 2 = 2 ^ Int.log 2 |x| * (1 / 2 ^ (52 : ℤ) / 2) := by ring
    _ ≤ |x| * (1 / 2 ^ (52 : ℤ) / 2) := by
      apply mul_le_mul_of_nonneg_right h1' (by positivity)

/-- Error of rounding (all numbers). -/
theorem flq_abs (x : ℚ) : |flq x - x| ≤ |x| * 2 ^ (-53 : ℤ) + 2 ^ (-1075 : ℤ) := by
  by_cases h : 2 ^ (-1022 : ℤ) ≤ |x|
  · have := flq_rel h
    have : (0 : ℚ) < 2 ^ (-1075 : ℤ) := by positivity
    linarith
  · push Not at h
    by_cases h0 : x = 0
    · subst h0
      have : flq 0 = 0 := by unfold flq; simp [rint]
      rw [this]; simp
    · have hx : 0 < |x| := abs_pos.2 h0
      have h2 : Int.log 2 |x| < -1022 := by
        apply (Int.lt_zpow_iff_log_lt (b := 2) (by norm_num) hx).1
        exact_mod_cast h
      have e : ulpExp x = -1074 := by unfold ulpExp; omega
      have h3 := flq_err x
      rw [e] at h3
      have e2 : (2 : ℚ) ^ (-1074 : ℤ) / 2 = 2 ^ (-1075 : ℤ) := by
        rw [show (-1075 : ℤ) = -1074 - 1 by norm_num, zpow_sub₀ (by norm_num)]; norm_num
      rw [e2] at h3
      have : 0 ≤ |x| * (2 : ℚ) ^ (-53 : ℤ) := by positivity
      linarith

/-- Integers of up to 53 bits are exact. -/
theorem flq_int (n : ℤ) (h : |n| ≤ 2 ^ 53) : flq n = n := by
  by_cases h0 : n = 0
  · subst h0; unfold flq; simp [rint]
  have hpos : (0 : ℚ) < |(n : ℚ)| := by positivity
  by_cases h53 : |n| = 2 ^ 53
  · have : (n : ℚ) = 2 ^ 53 ∨ (n : ℚ) = -2 ^ 53 := by
      rcases abs_eq (by norm_num : (0 : ℤ) ≤ 2 ^ 53) |>.1 h53 with h | h
      · left; exact_mod_cast h
      · right; exact_mod_cast h
    have hl : Int.log 2 |(n : ℚ)| = 53 := by
      have e : |(n : ℚ)| = ((2 : ℕ) : ℚ) ^ (53 : ℤ) := by rw [← Int.cast_abs, h53]; norm_num
      rw [e]
      exact Int.log_zpow (by norm_num) 53
    have e : ulpExp n = 1 := by unfold ulpExp; omega
    have e2 : (n : ℚ) / 2 ^ (1 : ℤ) = ((n / 2 : ℤ) : ℚ) := by
      have : n = 2 * (n / 2) := by
        rcases abs_eq (by norm_num : (0 : ℤ) ≤ 2 ^ 53) |>.1 h53 with h | h <;> omega
      rw [zpow_one, div_eq_iff (by norm_num)]
      have h3 : (n : ℚ) = ((2 * (n / 2) : ℤ) : ℚ) := by rw [← this]
      rw [h3]; push_cast; ring
    unfold flq
    rw [e, e2, rint_int]
    rw [← e2]
    field_simp
  · have hlt : |n| < 2 ^ 53 := lt_of_le_of_ne h h53
    have hl : Int.log 2 |(n : ℚ)| < 53 := by
      apply (Int.lt_zpow_iff_log_lt (b := 2) (by norm_num) hpos).1
      rw [← Int.cast_abs]
      have : ((|n| : ℤ) : ℚ) < ((2 ^ 53 : ℤ) : ℚ) := by exact_mod_cast hlt
      push_cast at this ⊢
      calc _ < _ := this
        _ = _ := by norm_num
    have hneg : ulpExp n ≤ 0 := by unfold ulpExp; omega
    obtain ⟨k, hk⟩ : ∃ k : ℕ, ulpExp n = -(k : ℤ) := ⟨(-ulpExp n).toNat, by omega⟩
    have e2 : (n : ℚ) / 2 ^ ulpExp n = ((n * 2 ^ k : ℤ) : ℚ) := by
      rw [hk, zpow_neg, zpow_natCast]; push_cast; field_simp
    unfold flq
    rw [e2, rint_int, ← e2]
    field_simp

theorem flS_fin {n : Bool} {x : ℚ} (h : |flq x| < 2 ^ (1024 : ℤ)) (hz : flq x = 0 → n = false) : flS n x = .fin (flq x) := by
  unfold flS
  rw [if_neg (not_le.2 h), if_neg]
  rintro ⟨h1, h2⟩
  rw [hz h1] at h2
  cases h2

theorem fl_fin {x : ℚ} (h : |flq x| < 2 ^ (1024 : ℤ)) (hz : flq x = 0 → 0 ≤ x) : fl x = .fin (flq x) :=
  flS_fin h fun e => decide_eq_false (not_lt.2 (hz e))

theorem flS_num {n : Bool} {x : ℚ} (h : |flq x| < 2 ^ (1024 : ℤ)) : (flS n x).num = some (flq x) := by
  unfold flS
  rw [if_neg (not_le.2 h)]
  split
  · rename_i h1; rw [h1.1]; rfl
  · rfl

/-- Rounding the number that a float is. -/
theorem Flt.round_num {f : Flt} {q : ℚ} (h : f.num = some q) : f.round = .ok (rint q) := by
  cases f with
  | fin p => cases h; rfl
  | nzero => cases h; exact congrArg Except.ok (rint_int 0).symm
  | inf n => cases h
  | nan => cases h

/-- Halves of integers of up to 50 bits are exact. -/
theorem flq_half (n : ℤ) (h : |n| ≤ 2 ^ 50) : flq ((n : ℚ) + 1 / 2) = (n : ℚ) + 1 / 2 := by
  have hne : (n : ℚ) + 1 / 2 ≠ 0 := by
    intro hc
    have h1 : ((2 * n + 1 : ℤ) : ℚ) = 0 := by push_cast; linarith
    have h2 : (2 * n + 1 : ℤ) = 0 := by exact_mod_cast h1
    omega
  have hpos : (0 : ℚ) < |(n : ℚ) + 1 / 2| := abs_pos.2 hne
  have hn : |(n : ℚ)| ≤ 2 ^ 50 := by exact_mod_cast h
  have hlt : |(n : ℚ) + 1 / 2| < (2 : ℚ) ^ (51 : ℤ) := by
    calc |(n : ℚ) + 1 / 2| ≤ |(n : ℚ)| + |(1 / 2 : ℚ)| := abs_add_le _ _
      _ ≤ 2 ^ 50 + 1 / 2 := by
        have : |(1 / 2 : ℚ)| = 1 / 2 := abs_of_pos (by norm_num)
        linarith
      _ < 2 ^ (51 : ℤ) := by norm_num
  have hl : Int.log 2 |(n : ℚ) + 1 / 2| < 51 := by
    apply (Int.lt_zpow_iff_log_lt (b := 2) (by norm_num) hpos).1
    exact_mod_cast hlt
  have hneg : ulpExp ((n : ℚ) + 1 / 2) ≤ -1 := by unfold ulpExp; omega
  obtain ⟨k, hk⟩ : ∃ k : ℕ, ulpExp ((n : ℚ) + 1 / 2) = -((k : ℤ) + 1) := ⟨(-1 - ulpExp ((n : ℚ) + 1 / 2)).toNat, by omega⟩
  have e2 : ((n : ℚ) + 1 / 2) / 2 ^ ulpExp ((n : ℚ) + 1 / 2) = (((2 * n + 1) * 2 ^ k : ℤ) : ℚ) := by
    rw [hk, zpow_neg, zpow_add₀ (by norm_num), zpow_natCast, zpow_one]; push_cast; field_simp
  unfold flq
  rw [e2, rint_int, ← e2]
  field_simp

theorem rint_half (n : ℤ) : rint ((n : ℚ) + 1 / 2) = if n % 2 = 0 then n else n + 1 := by
  have hfl : ⌊(n : ℚ) + 1 / 2⌋ = n := by rw [Int.floor_eq_iff]; constructor <;> linarith
  unfold rint
  rw [hfl, if_neg (by intro hc; linarith), if_neg (by intro hc; linarith)]

end Verif
