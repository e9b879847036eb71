import Verif.Lemmas.Float

/-!
# Lemmas on single precision numbers
-/

namespace Verif

theorem log_scaled {m : ℕ} {e : ℤ} (h1 : 2 ^ 23 ≤ m) (h2 : m < 2 ^ 24) : Int.log 2 ((m : ℚ) * 2 ^ e) = e + 23 := by
  have hm : (0 : ℚ) < (m : ℚ) := by
    have : 0 < m := by omega
    exact_mod_cast this
  have hp : (0 : ℚ) < (m : ℚ) * 2 ^ e := by positivity
  have a : (2 : ℚ) ^ (e + 23) ≤ (m : ℚ) * 2 ^ e := by
    rw [zpow_add₀ (by norm_num), mul_comm]
    apply mul_le_mul_of_nonneg_right _ (by positivity)
    have : ((2 ^ 23 : ℕ) : ℚ) ≤ m := by exact_mod_cast h1
    calc (2 : ℚ) ^ (23 : ℤ) = ((2 ^ 23 : ℕ) : ℚ) := by norm_num
      _ ≤ m := this
  have b : (m : ℚ) * 2 ^ e < (2 : ℚ) ^ (e + 24) := by
    rw [zpow_add₀ (by norm_num), mul_comm]
    apply mul_lt_mul_of_pos_left _ (by positivity)
    have : (m : ℚ) < ((2 ^ 24 : ℕ) : ℚ) := by exact_mod_cast h2
    calc (m : ℚ) < ((2 ^ 24 : ℕ) : ℚ) := this
      _ = (2 : ℚ) ^ (24 : ℤ) := by norm_num
  have a' := (Int.zpow_le_iff_le_log (b := 2) (by norm_num) hp).1 (by exact_mod_cast a)
  have b' := (Int.lt_zpow_iff_log_lt (b := 2) (by norm_num) hp).1 (by exact_mod_cast b)
  omega

theorem log_small {m : ℕ} (h0 : 0 < m) (h2 : m < 2 ^ 23) : Int.log 2 ((m : ℚ) * 2 ^ (-149 : ℤ)) < -126 := by
  have hm : (0 : ℚ) < (m : ℚ) := by exact_mod_cast h0
  have hp : (0 : ℚ) < (m : ℚ) * 2 ^ (-149 : ℤ) := by positivity
  apply (Int.lt_zpow_iff_log_lt (b := 2) (by norm_num) hp).1
  have : (m : ℚ) < ((2 ^ 23 : ℕ) : ℚ) := by exact_mod_cast h2
  calc (m : ℚ) * 2 ^ (-149 : ℤ) < ((2 ^ 23 : ℕ) : ℚ) * 2 ^ (-149 : ℤ) :=
        mul_lt_mul_of_pos_right this (by positivity)
    _ = (((2 : ℕ) : ℚ)) ^ (-126 : ℤ) := by norm_num

/-- Sign, integer significand and exponent of a single in normal form. -/
structure F32 (q : ℚ) (m : ℕ) (e : ℤ) : Prop where
  abs : |q| = m * 2 ^ e
  lt : m < 2 ^ 24
  lo : -149 ≤ e
  norm : e = -149 ∨ 2 ^ 23 ≤ m

theorem F32.ulp {q m e} (h : F32 q m e) (h0 : m ≠ 0) : ulpExp32 q = e := by
  unfold ulpExp32
  rw [h.abs]
  by_cases hm : 2 ^ 23 ≤ m
  · rw [log_scaled hm h.lt]; have := h.lo; omega
  · have he : e = -149 := by rcases h.norm with h | h <;> omega
    subst he
    have := log_small (m := m) (by omega) (by omega)
    omega

theorem F32.sig {q m e} (h : F32 q m e) : ⌊|q| / 2 ^ ulpExp32 q⌋.toNat = m := by
  by_cases h0 : m = 0
  · have := h.abs; rw [h0] at this; rw [this, h0]; simp
  · rw [h.ulp h0, h.abs, mul_div_assoc, div_self (by positivity)]; simp

theorem F32.bits {q m e} (h : F32 q m e) (hi : e ≤ 104) : (f32Bits q).toNat = (if q < 0 then 2 ^ 31 else 0) +
    (if m < 2 ^ 23 then m else (e + 150).toNat * 2 ^ 23 + (m - 2 ^ 23)) := by
  have hl := h.lt
  have hlo := h.lo
  unfold f32Bits
  simp only [h.sig]
  by_cases h0 : m = 0
  · subst h0
    simp only [show (0 : ℕ) < 2 ^ 23 by norm_num, if_true]
    split <;> rfl
  · rw [h.ulp h0, BitVec.toNat_ofNat]
    have : (e + 150).toNat ≤ 254 := by omega
    split <;> split <;> omega

/-- Decoding the bits of a single gives the single. -/
theorem F32.val {q m e} (h : F32 q m e) (hi : e ≤ 104) : f32Val (f32Bits q) = .fin q := by
  have hb := h.bits hi
  have hl := h.lt
  have hlo := h.lo
  unfold f32Val
  simp only [hb]
  have hs : (if ((if q < 0 then 2 ^ 31 else 0) +
      (if m < 2 ^ 23 then m else (e + 150).toNat * 2 ^ 23 + (m - 2 ^ 23)) : ℕ) < 2 ^ 31 then (1 : ℚ) else -1) =
      if q < 0 then -1 else 1 := by
    have : (e + 150).toNat ≤ 254 := by omega
    by_cases hq : q < 0
    · rw [if_pos hq, if_pos hq, if_neg]; omega
    · rw [if_neg hq, if_neg hq, if_pos]; split <;> omega
  rw [hs]
  have hq : q = (if q < 0 then -1 else 1) * (m * 2 ^ e) := by
    rw [← h.abs]
    by_cases hq : q < 0
    · rw [if_pos hq, abs_of_neg hq]; ring
    · rw [if_neg hq, abs_of_nonneg (not_lt.1 hq)]; ring
  by_cases hm : m < 2 ^ 23
  · have he : e = -149 := by rcases h.norm with h | h <;> omega
    simp only [if_pos hm]
    have a : ((if q < 0 then 2 ^ 31 else 0) + m) / 2 ^ 23 % 256 = 0 := by split <;> omega
    have b : ((if q < 0 then 2 ^ 31 else 0) + m) % 2 ^ 23 = m := by split <;> omega
    rw [a, b]
    have hz : ¬ (m = 0 ∧ 2 ^ 31 ≤ (if q < 0 then 2 ^ 31 else 0) + m) := by
      rintro ⟨h0, h1⟩
      subst h0
      have h2 : q = 0 := by have := h.abs; simpa using this
      subst h2
      simp at h1
    simp only [show (0 : ℕ) ≠ 255 by norm_num, if_false, if_true, if_neg hz]
    congr 1
    conv_rhs => rw [hq, he]
    ring
  · simp only [if_neg hm]
    have hk : (e + 150).toNat ≤ 254 := by omega
    have hk1 : 1 ≤ (e + 150).toNat := by omega
    have a : ((if q < 0 then 2 ^ 31 else 0) + ((e + 150).toNat * 2 ^ 23 + (m - 2 ^ 23))) / 2 ^ 23 % 256 = (e + 150).toNat := by
      split <;> omega
    have b : ((if q < 0 then 2 ^ 31 else 0) + ((e + 150).toNat * 2 ^ 23 + (m - 2 ^ 23))) % 2 ^ 23 = m - 2 ^ 23 := by
      split <;> omega
    rw [a, b, if_neg (by omega), if_neg (by omega), Flt.fin.injEq]
    have hc : (2 : ℚ) ^ 23 + ((m - 2 ^ 23 : ℕ) : ℚ) = m := by
      rw [Nat.cast_sub (by omega)]; push_cast; ring
    have he : ((e + 150).toNat : ℤ) - 150 = e := by omega
    rw [hc, he]
    conv_rhs => rw [hq]
    ring

/-- Rounding to single precision gives a single. -/
theorem flq32_single (x : ℚ) : ∃ m e, F32 (flq32 x) m e := by
  by_cases h0 : x = 0
  · subst h0
    refine ⟨0, -149, ?_, by norm_num, le_refl _, Or.inl rfl⟩
    unfold flq32; simp [rint]
  have hx : 0 < |x| := abs_pos.2 h0
  have hp : (0 : ℚ) < 2 ^ ulpExp32 x := by positivity
  have hr := rint_err (x / 2 ^ ulpExp32 x)
  have hlo : -149 ≤ ulpExp32 x := by unfold ulpExp32; omega
  have ha : |flq32 x| = ((rint (x / 2 ^ ulpExp32 x)).natAbs : ℚ) * 2 ^ ulpExp32 x := by
    unfold flq32
    rw [abs_mul, abs_of_pos hp, Nat.cast_natAbs, Int.cast_abs]
  have hup : |x / 2 ^ ulpExp32 x| < 2 ^ 24 := by
    rw [abs_div, abs_of_pos hp, div_lt_iff₀ hp]
    have h1 := Int.lt_zpow_succ_log_self (b := 2) (by norm_num) |x|
    have h2 : Int.log 2 |x| + 1 ≤ 24 + ulpExp32 x := by unfold ulpExp32; omega
    calc |x| < ((2 : ℕ) : ℚ) ^ (Int.log 2 |x| + 1) := h1
      _ ≤ (2 : ℚ) ^ (24 + ulpExp32 x) := by
        push_cast; exact zpow_le_zpow_right₀ (by norm_num) h2
      _ = 2 ^ 24 * 2 ^ ulpExp32 x := by rw [zpow_add₀ (by norm_num)]; norm_num
  have hn : (rint (x / 2 ^ ulpExp32 x)).natAbs ≤ 2 ^ 24 := by
    have : |(rint (x / 2 ^ ulpExp32 x) : ℚ)| ≤ |x / 2 ^ ulpExp32 x| + 1 / 2 := by
      have := abs_sub_abs_le_abs_sub (rint (x / 2 ^ ulpExp32 x) : ℚ) (x / 2 ^ ulpExp32 x)
      linarith
    have h3 : |(rint (x / 2 ^ ulpExp32 x) : ℚ)| < 2 ^ 24 + 1 := by linarith
    rw [← Int.cast_abs] at h3
    have h4 : |rint (x / 2 ^ ulpExp32 x)| < 2 ^ 24 + 1 := by exact_mod_cast h3
    rw [Int.abs_eq_natAbs] at h4
    omega
  have hnorm : ulpExp32 x = -149 ∨ 2 ^ 23 ≤ (rint (x / 2 ^ ulpExp32 x)).natAbs := by
    by_cases he : ulpExp32 x = -149
    · exact Or.inl he
    · right
      have e : ulpExp32 x = Int.log 2 |x| - 23 := by unfold ulpExp32 at he ⊢; omega
      have h1 := Int.zpow_log_le_self (b := 2) (by norm_num) hx
      have h5 : (2 : ℚ) ^ 23 ≤ |x / 2 ^ ulpExp32 x| := by
        rw [abs_div, abs_of_pos hp, le_div_iff₀ hp]
        calc (2 : ℚ) ^ 23 * 2 ^ ulpExp32 x = 2 ^ (23 + ulpExp32 x) := by rw [zpow_add₀ (by norm_num)]; norm_num
          _ = ((2 : ℕ) : ℚ) ^ Int.log 2 |x| := by
            push_cast
            congr 1
            omega
          _ ≤ |x| := h1
      have : |x / 2 ^ ulpExp32 x| - 1 / 2 ≤ |(rint (x / 2 ^ ulpExp32 x) : ℚ)| := by
        have := abs_sub_abs_le_abs_sub (x / 2 ^ ulpExp32 x) (rint (x / 2 ^ ulpExp32 x) : ℚ)
        rw [abs_sub_comm] at this
        linarith
      have h3 : (2 : ℚ) ^ 23 - 1 < |(rint (x / 2 ^ ulpExp32 x) : ℚ)| := by linarith
      rw [← Int.cast_abs] at h3
      have h4 : 2 ^ 23 - 1 < |rint (x / 2 ^ ulpExp32 x)| := by exact_mod_cast h3
      rw [Int.abs_eq_natAbs] at h4
      omega
  by_cases h24 : (rint (x / 2 ^ ulpExp32 x)).natAbs = 2 ^ 24
  · refine ⟨2 ^ 23, ulpExp32 x + 1, ?_, by norm_num, by omega, Or.inr (le_refl _)⟩
    rw [ha, h24, zpow_add₀ (by norm_num)]
    push_cast; ring
  · exact ⟨_, _, ha, by omega, hlo, hnorm⟩

theorem F32.hi {q m e} (h : F32 q m e) (hq : |q| < 2 ^ (128 : ℤ)) : e ≤ 104 := by
  by_contra hc
  have hm : 2 ^ 23 ≤ m := by rcases h.norm with h | h <;> omega
  have h1 : ((2 ^ 23 : ℕ) : ℚ) ≤ m := by exact_mod_cast hm
  have h2 : (2 : ℚ) ^ (105 : ℤ) ≤ 2 ^ e := zpow_le_zpow_right₀ (by norm_num) (by omega)
  have h3 : (2 : ℚ) ^ (128 : ℤ) ≤ |q| := by
    rw [h.abs]
    calc (2 : ℚ) ^ (128 : ℤ) = ((2 ^ 23 : ℕ) : ℚ) * 2 ^ (105 : ℤ) := by norm_num
      _ ≤ m * 2 ^ e := mul_le_mul h1 h2 (by positivity) (by positivity)
  linarith

theorem f32Val_nzero : f32Val 0x80000000#32 = .nzero := by
  unfold f32Val
  simp only
  rw [show (0x80000000#32).toNat = 2 ^ 31 from rfl]
  norm_num

theorem rint_sign (z : ℚ) (h : rint z ≠ 0) : (rint z : ℚ) < 0 ↔ z < 0 := by
  have h0 : (rint z : ℚ) ≠ 0 := by exact_mod_cast h
  have h1 : |(rint z : ℚ) - z| ≤ |0 - z| := by
    by_cases h : |z| < 1 / 2
    · exact absurd (rint_eq (n := 0) (by simpa using h)) (by assumption)
    · have := rint_err z
      rw [zero_sub, abs_neg]
      linarith
  rw [zero_sub, abs_neg] at h1
  constructor
  · intro hn
    by_contra hz
    rw [not_lt] at hz
    rw [abs_of_nonneg hz, abs_of_neg (by linarith)] at h1
    linarith
  · intro hz
    by_contra hn
    rw [not_lt] at hn
    have hn' : 0 < (rint z : ℚ) := lt_of_le_of_ne hn h0.symm
    rw [abs_of_neg hz, abs_of_pos (by linarith)] at h1
    linarith

theorem flq32_sign {x : ℚ} (h : flq32 x ≠ 0) : flq32 x < 0 ↔ x < 0 := by
  have hp : (0 : ℚ) < 2 ^ ulpExp32 x := by positivity
  have h0 : rint (x / 2 ^ ulpExp32 x) ≠ 0 := by
    intro h0
    apply h
    unfold flq32
    rw [h0]; simp
  have := rint_sign _ h0
  have e : (x / 2 ^ ulpExp32 x < 0) ↔ x < 0 := by
    rw [div_lt_iff₀ hp, zero_mul]
  rw [← e, ← this]
  unfold flq32
  constructor
  · intro hn
    by_contra hc
    rw [not_lt] at hc
    have := mul_nonneg hc hp.le
    linarith
  · intro hn
    exact mul_neg_of_neg_of_pos hn hp

/-- What `struct.pack('>f', x)` produces is decoded as the rounded number, with the sign of `x`. -/
theorem packF32_val {x : ℚ} {b : BitVec 32} (h : packF32 (.fin x) = .ok b) :
    (f32Val b).num = some (flq32 x) ∧ (f32Val b).neg = decide (x < 0) := by
  unfold packF32 at h
  simp only at h
  split at h
  · simp at h
  · rename_i hlt
    have := Except.ok.inj h; subst this
    by_cases hz : flq32 x = 0 ∧ x < 0
    · rw [if_pos hz, f32Val_nzero, hz.1]
      exact ⟨rfl, by simp [Flt.neg, hz.2]⟩
    · rw [if_neg hz]
      obtain ⟨m, e, hf⟩ := flq32_single x
      rw [hf.val (hf.hi (not_le.1 hlt))]
      refine ⟨rfl, ?_⟩
      show decide (flq32 x < 0) = _
      by_cases h0 : flq32 x = 0
      · have : ¬ x < 0 := fun h => hz ⟨h0, h⟩
        simp [h0, this]
      · rw [decide_eq_decide]; exact flq32_sign h0

theorem flq32_of {q m e} (h : F32 q m e) : flq32 q = q := by
  unfold flq32
  by_cases h0 : m = 0
  · have : q = 0 := by have := h.abs; rw [h0] at this; simpa using this
    subst this; simp [rint]
  · rw [h.ulp h0]
    have e1 : q / 2 ^ e = (((if q < 0 then -1 else 1) * m : ℤ) : ℚ) := by
      rw [div_eq_iff (by positivity)]
      have := h.abs
      by_cases hq : q < 0
      · rw [abs_of_neg hq] at this; rw [if_pos hq]; push_cast; linarith
      · rw [abs_of_nonneg (not_lt.1 hq)] at this; rw [if_neg hq]; push_cast; linarith
    rw [e1, rint_int, ← e1]
    field_simp

theorem F32.lt_top {q m e} (h : F32 q m e) (hi : e ≤ 104) : |q| < 2 ^ (128 : ℤ) := by
  rw [h.abs]
  have h1 : (m : ℚ) < ((2 ^ 24 : ℕ) : ℚ) := by exact_mod_cast h.lt
  have h2 : (2 : ℚ) ^ e ≤ 2 ^ (104 : ℤ) := zpow_le_zpow_right₀ (by norm_num) hi
  calc (m : ℚ) * 2 ^ e < ((2 ^ 24 : ℕ) : ℚ) * 2 ^ e := mul_lt_mul_of_pos_right h1 (by positivity)
    _ ≤ ((2 ^ 24 : ℕ) : ℚ) * 2 ^ (104 : ℤ) := mul_le_mul_of_nonneg_left h2 (by positivity)
    _ = 2 ^ (128 : ℤ) := by norm_num

/-- The parts of a single: sign, exponent, fraction. -/
theorem f32_parts (b : BitVec 32) : b.toNat = (if b.toNat < 2 ^ 31 then 0 else 2 ^ 31) +
    (b.toNat / 2 ^ 23 % 256) * 2 ^ 23 + b.toNat % 2 ^ 23 := by
  have := b.isLt
  split <;> omega

/-- A finite single in normal form. -/
theorem f32Val_single (b : BitVec 32) (q : ℚ) (h : f32Val b = .fin q) : ∃ m e, F32 q m e ∧ e ≤ 104 ∧
    b.toNat = (if b.toNat < 2 ^ 31 then 0 else 2 ^ 31) + (if m < 2 ^ 23 then m else (e + 150).toNat * 2 ^ 23 + (m - 2 ^ 23)) ∧
    (m ≠ 0 → (q < 0 ↔ 2 ^ 31 ≤ b.toNat)) := by
  have hp := f32_parts b
  have hlt := b.isLt
  unfold f32Val at h
  simp only at h
  generalize he : b.toNat / 2 ^ 23 % 256 = E at h hp
  generalize hf : b.toNat % 2 ^ 23 = f at h hp
  have hf' : f < 2 ^ 23 := by omega
  have hE : E < 256 := by omega
  by_cases h255 : E = 255
  · rw [if_pos h255] at h; split at h <;> simp at h
  rw [if_neg h255] at h
  by_cases h0 : E = 0
  · rw [if_pos h0] at h
    by_cases hzz : f = 0 ∧ 2 ^ 31 ≤ b.toNat
    · rw [if_pos hzz] at h; cases h
    rw [if_neg hzz, Flt.fin.injEq] at h
    refine ⟨f, -149, ⟨?_, by omega, le_refl _, Or.inl rfl⟩, by norm_num, ?_, ?_⟩
    · rw [← h, abs_mul, abs_mul]
      split <;> simp
    · rw [if_pos hf']; subst h0; omega
    · intro hm
      have hpos : (0 : ℚ) < (f : ℚ) * 2 ^ (-149 : ℤ) := by
        have : (0 : ℚ) < f := by exact_mod_cast Nat.pos_of_ne_zero hm
        positivity
      rw [← h]
      by_cases hs : b.toNat < 2 ^ 31
      · rw [if_pos hs]; constructor
        · intro; linarith
        · intro; omega
      · rw [if_neg hs]; constructor
        · intro; omega
        · intro; linarith
  · rw [if_neg h0, Flt.fin.injEq] at h
    refine ⟨2 ^ 23 + f, (E : ℤ) - 150, ⟨?_, by omega, by omega, Or.inr (by omega)⟩, by omega, ?_, ?_⟩
    · have hpos : (0 : ℚ) ≤ 2 ^ 23 + (f : ℚ) := by positivity
      rw [← h, abs_mul, abs_mul, abs_of_nonneg hpos, abs_of_pos (a := (2 : ℚ) ^ ((E : ℤ) - 150)) (by positivity)]
      rw [Nat.cast_add, Nat.cast_pow]
      have hab : ∀ c : Prop, [Decidable c] → |(if c then (1 : ℚ) else -1)| = 1 := fun c _ => by split <;> simp
      rw [hab, one_mul]
      rfl
    · rw [if_neg (show ¬ (2 ^ 23 + f < 2 ^ 23) by omega)]
      have : ((E : ℤ) - 150 + 150).toNat = E := by omega
      rw [this, Nat.add_sub_cancel_left]
      omega
    · intro hm
      have hpos : (0 : ℚ) < (2 ^ 23 + (f : ℚ)) * 2 ^ ((E : ℤ) - 150) := by positivity
      rw [← h]
      by_cases hs : b.toNat < 2 ^ 31
      · rw [if_pos hs]; constructor
        · intro; linarith
        · intro; omega
      · rw [if_neg hs]; constructor
        · intro; omega
        · intro; linarith

/-- Packing the value of a single gives the single back. -/
theorem packF32_f32Val (b : BitVec 32) (hn : f32IsNaN b = false) : packF32 (f32Val b) = .ok b := by
  cases hv : f32Val b with
  | nan =>
    unfold f32Val at hv
    simp only at hv
    unfold f32IsNaN at hn
    split at hv
    · split at hv
      · simp at hv
      · rename_i h1 h2
        simp [h1] at hn
        exact absurd hn (by omega)
    · split at hv
      · split at hv <;> simp at hv
      · simp at hv
  | nzero =>
    have hp := f32_parts b
    have hlt := b.isLt
    unfold f32Val at hv
    simp only at hv
    split at hv
    · split at hv <;> simp at hv
    · split at hv
      · split at hv
        · rename_i h1 h2 h3
          unfold packF32
          simp only [Except.ok.injEq]
          apply BitVec.eq_of_toNat_eq
          rw [h2, h3.1, if_neg (by omega)] at hp
          rw [hp]
          rfl
        · simp at hv
      · simp at hv
  | inf neg =>
    have hp := f32_parts b
    have hlt := b.isLt
    unfold f32Val at hv
    simp only at hv
    split at hv
    · split at hv
      · rename_i h1 h2
        rw [Flt.inf.injEq] at hv
        subst hv
        rw [h1, h2] at hp
        unfold packF32
        simp only [Except.ok.injEq]
        apply BitVec.eq_of_toNat_eq
        by_cases hs : 2 ^ 31 ≤ b.toNat
        · rw [if_pos (by simpa using hs), hp, if_neg (by omega)]; rfl
        · rw [if_neg (by simpa using hs), hp, if_pos (by omega)]; rfl
      · simp at hv
    · split at hv
      · split at hv <;> simp at hv
      · simp at hv
  | fin q =>
    obtain ⟨m, e, hf, hi, hb, hs⟩ := f32Val_single b q hv
    unfold packF32
    simp only
    rw [flq32_of hf, if_neg (not_le.2 (hf.lt_top hi)), Except.ok.injEq, if_neg (fun h => by rw [h.1] at h; exact lt_irrefl _ h.2)]
    apply BitVec.eq_of_toNat_eq
    rw [hf.bits hi]
    by_cases h0 : m = 0
    · subst h0
      have hq : q = 0 := by have := hf.abs; simpa using this
      subst hq
      simp only [lt_irrefl, if_false]
      rw [if_pos (show (0 : ℕ) < 2 ^ 23 by norm_num)] at hb ⊢
      by_cases hs : b.toNat < 2 ^ 31
      · simp only [if_pos hs] at hb; omega
      · simp only [if_neg hs] at hb
        have : b = 0x80000000#32 := BitVec.eq_of_toNat_eq (by simpa using hb)
        rw [this, f32Val_nzero] at hv
        cases hv
    · have := hs h0
      rw [hb]
      congr 1
      by_cases hq : q < 0
      · rw [if_pos hq, if_neg]; have := this.1 hq; omega
      · rw [if_neg hq, if_pos]
        by_contra hc
        exact hq (this.2 (by omega))

theorem rint_nearest (z : ℚ) (n : ℤ) : |(rint z : ℚ) - z| ≤ |(n : ℚ) - z| := by
  by_cases h : |(n : ℚ) - z| < 1 / 2
  · rw [abs_sub_comm] at h
    rw [rint_eq h]
  · exact (rint_err z).trans (not_lt.1 h)

/-- The rounded number is nearest among all numbers of 24 bits with exponents from -149 on. -/
theorem flq32_nearest (x : ℚ) (n e : ℤ) (hn : |n| < 2 ^ 24) (he : -149 ≤ e) : |flq32 x - x| ≤ |(n : ℚ) * 2 ^ e - x| := by
  by_cases h0 : x = 0
  · subst h0
    have : flq32 0 = 0 := by unfold flq32; simp [rint]
    rw [this, sub_zero, abs_zero]; exact abs_nonneg _
  have hx : 0 < |x| := abs_pos.2 h0
  have hp : (0 : ℚ) < 2 ^ ulpExp32 x := by positivity
  have key : ∀ N : ℤ, |flq32 x - x| ≤ |(N : ℚ) * 2 ^ ulpExp32 x - x| := by
    intro N
    have h := rint_nearest (x / 2 ^ ulpExp32 x) N
    have e1 : flq32 x - x = (rint (x / 2 ^ ulpExp32 x) - x / 2 ^ ulpExp32 x) * 2 ^ ulpExp32 x := by
      unfold flq32; field_simp
    have e2 : (N : ℚ) * 2 ^ ulpExp32 x - x = (N - x / 2 ^ ulpExp32 x) * 2 ^ ulpExp32 x := by field_simp
    rw [e1, e2, abs_mul, abs_mul]
    exact mul_le_mul_of_nonneg_right h (abs_nonneg _)
  by_cases hc : ulpExp32 x ≤ e
  · obtain ⟨k, hk⟩ : ∃ k : ℕ, e = ulpExp32 x + k := ⟨(e - ulpExp32 x).toNat, by omega⟩
    have := key (n * 2 ^ k)
    rw [hk, zpow_add₀ (by norm_num), zpow_natCast]
    push_cast at this
    calc _ ≤ _ := this
      _ = _ := by ring_nf
  · have hu : ulpExp32 x = Int.log 2 |x| - 23 := by unfold ulpExp32 at hc ⊢; omega
    have h1 : (2 : ℚ) ^ (ulpExp32 x + 23) ≤ |x| := by
      have := Int.zpow_log_le_self (b := 2) (by norm_num) hx
      rw [hu, Int.sub_add_cancel]
      exact_mod_cast this
    have h2 : |(n : ℚ) * 2 ^ e| ≤ 2 ^ (ulpExp32 x + 23) := by
      rw [abs_mul, abs_of_pos (a := (2 : ℚ) ^ e) (by positivity)]
      have a : |(n : ℚ)| ≤ 2 ^ (24 : ℤ) := by
        rw [← Int.cast_abs]
        have : ((|n| : ℤ) : ℚ) < ((2 ^ 24 : ℤ) : ℚ) := by exact_mod_cast hn
        push_cast at this ⊢
        exact le_of_lt this
      have b : (2 : ℚ) ^ e ≤ 2 ^ (ulpExp32 x - 1) := zpow_le_zpow_right₀ (by norm_num) (by omega)
      calc |(n : ℚ)| * 2 ^ e ≤ 2 ^ (24 : ℤ) * 2 ^ (ulpExp32 x - 1) := mul_le_mul a b (by positivity) (by positivity)
        _ = 2 ^ (ulpExp32 x + 23) := by rw [← zpow_add₀ (by norm_num)]; congr 1; omega
    have e23 : (2 : ℚ) ^ (ulpExp32 x + 23) = 2 ^ 23 * 2 ^ ulpExp32 x := by
      rw [zpow_add₀ (by norm_num), mul_comm]; norm_num
    rw [e23] at h1 h2
    have h3 := abs_le.1 h2
    rcases lt_or_gt_of_ne h0 with hneg | hpos
    · have hk := key (-(2 ^ 23))
      push_cast at hk
      rw [abs_of_neg hneg] at h1
      refine hk.trans ?_
      rw [abs_of_nonneg (by linarith), abs_of_nonneg (by linarith)]
      linarith
    · have hk := key (2 ^ 23)
      push_cast at hk
      rw [abs_of_pos hpos] at h1
      refine hk.trans ?_
      rw [abs_of_nonpos (by linarith), abs_of_nonpos (by linarith)]
      linarith

/-- A single as a point value. -/
theorem ofFlt_f32Val (b : BitVec 32) (hn : f32IsNaN b = false) : Val.ofFlt (f32Val b) = .flt b := by
  unfold Val.ofFlt
  rw [packF32_f32Val b hn]
  dsimp only
  rw [if_pos rfl]

end Verif
