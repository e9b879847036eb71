import Verif.Props.Float
import Verif.Props.Order
import Verif.Lemmas.Double
import Verif.Model.Conv
import Verif.Spec.Conv

/-!
# C94: the conversion functions for 64 bit numbers
-/

namespace Verif
open Spec

/-- C94: `u64_to_data` accepts exactly the integers from 0 to 2^64 - 1, gives their big-endian bytes, and `data_to_u64` gives them
back. -/
theorem C94_u64 (v : Int) :
    (0 ≤ v ∧ v < 2 ^ 64 → ∃ d, u64ToData (.int v) = .ok d ∧ d.length = 8 ∧ (bigEndian d : Int) = v ∧ dataToU64 d = .ok v) ∧
    (¬ (0 ≤ v ∧ v < 2 ^ 64) → u64ToData (.int v) = .error .structError) := by
  have hb : (IntFmt.mk 8 false).bytes = 2 ∨ (IntFmt.mk 8 false).bytes = 4 ∨ (IntFmt.mk 8 false).bytes = 8 := .inr (.inr rfl)
  have hlo : (IntFmt.mk 8 false).lo = 0 := rfl
  have hhi : (IntFmt.mk 8 false).hi = 2 ^ 64 - 1 := rfl
  have hp : u64ToData (.int v) = packF ⟨8, false⟩ v := rfl
  have hu : ∀ d, dataToU64 d = unpackF ⟨8, false⟩ d := fun _ => rfl
  refine ⟨fun h => ?_, fun h => ?_⟩
  · obtain ⟨d, hd⟩ := (packF_ok_iff hb v).2 ⟨by omega, by omega⟩
    have he := packF_encodes hb hd
    refine ⟨d, by rw [hp, hd], he.1, ?_, by rw [hu, packF_unpackF hb hd]⟩
    have := he.2.2.2
    rw [this]
    show v % 2 ^ 64 = v
    omega
  · rw [hp]
    cases h' : packF ⟨8, false⟩ v with
    | error e => rw [packF_err h']
    | ok d => have := (packF_ok_iff hb v).1 ⟨d, h'⟩; omega

/-- C94: `data_to_u64` accepts exactly the byte strings of eight bytes, and `u64_to_data` gives them back. -/
theorem C94_u64_data (d : Bytes) :
    (d.length = 8 → ∃ v, dataToU64 d = .ok v ∧ v = bigEndian d ∧ u64ToData (.int v) = .ok d) ∧
    (d.length ≠ 8 → dataToU64 d = .error .structError) := by
  have hb : (IntFmt.mk 8 false).bytes = 2 ∨ (IntFmt.mk 8 false).bytes = 4 ∨ (IntFmt.mk 8 false).bytes = 8 := .inr (.inr rfl)
  have hp : ∀ v, u64ToData (.int v) = packF ⟨8, false⟩ v := fun _ => rfl
  have hu : dataToU64 d = unpackF ⟨8, false⟩ d := rfl
  refine ⟨fun h => ?_, fun h => ?_⟩
  · obtain ⟨v, hv⟩ := (unpackF_length (f := ⟨8, false⟩) (d := d)).1 h
    have hq := unpackF_packF hb hv
    have he := packF_encodes hb hq
    refine ⟨v, by rw [hu, hv], ?_, by rw [hp, hq]⟩
    have h1 := he.2.2.2
    have h2 : (0 : Int) ≤ v := he.2.1
    have h3 : v ≤ 2 ^ 64 - 1 := he.2.2.1
    rw [h1]
    show v = v % 2 ^ 64
    omega
  · rw [hu, (unpackF_length (f := ⟨8, false⟩) (d := d)).2 h]

/-- The parts of a double are what its bits denote. -/
theorem f64_denotes (b : BitVec 64) : Denotes64 (beEnc 8 b.toNat) (f64Val b) := by
  have hlt := b.isLt
  have hp := f64_parts b
  refine ⟨by simp, if b.toNat < 2 ^ 63 then 0 else 1, b.toNat / 2 ^ 52 % 2048, b.toNat % 2 ^ 52, by split <;> omega, by omega, by omega, ?_, ?_⟩
  · rw [bigEndian_eq, beDec_beEnc 8 _ (by omega)]
    conv_lhs => rw [hp]
    split <;> omega
  · unfold f64Val
    simp only
    generalize b.toNat / 2 ^ 52 % 2048 = E at *
    generalize b.toNat % 2 ^ 52 = m at *
    generalize b.toNat = N at *
    by_cases h1 : E = 2047
    · rw [if_pos h1, if_pos h1]
      by_cases h2 : m = 0
      · rw [if_pos h2, if_pos h2]
        by_cases h3 : N < 2 ^ 63
        · rw [if_pos h3]; simp; omega
        · rw [if_neg h3]; simp; omega
      · rw [if_neg h2, if_neg h2]
    · rw [if_neg h1, if_neg h1]
      by_cases h2 : E = 0
      · rw [if_pos h2, if_pos h2]
        have e : ∀ s : ℚ, s * m * 2 ^ (-1074 : ℤ) = s * ((m : ℚ) / 2 ^ 52 * 2 ^ (-1022 : ℤ)) := by
          intro s
          rw [show (-1074 : ℤ) = -52 + -1022 by norm_num, zpow_add₀ (by norm_num)]
          rw [show (2 : ℚ) ^ (-52 : ℤ) = 1 / 2 ^ 52 by norm_num]
          ring
        by_cases h3 : N < 2 ^ 63
        · rw [if_neg (by omega), if_pos h3, if_pos h3]
          have hnn : (0 : ℚ) ≤ (m : ℚ) / 2 ^ 52 * 2 ^ (-1022 : ℤ) := by positivity
          constructor
          · show decide _ = true ↔ _
            rw [e 1, one_mul]
            simp only [decide_eq_true_eq]
            constructor
            · intro h; linarith
            · intro h; omega
          · show some _ = some _
            rw [e 1]; simp
        · rw [if_neg h3, if_neg h3]
          by_cases h4 : m = 0
          · rw [if_pos ⟨h4, by omega⟩]
            subst h4
            exact ⟨by simp [Flt.neg], by simp [Flt.num]⟩
          · rw [if_neg (by omega)]
            have hpos : (0 : ℚ) < (m : ℚ) / 2 ^ 52 * 2 ^ (-1022 : ℤ) := by
              have : (0 : ℚ) < m := by exact_mod_cast Nat.pos_of_ne_zero h4
              positivity
            constructor
            · show decide _ = true ↔ _
              rw [e (-1)]
              simp only [decide_eq_true_eq, iff_true]
              linarith
            · show some _ = some _
              rw [e (-1)]; simp
      · rw [if_neg h2, if_neg h2]
        have e : ∀ s : ℚ, s * (2 ^ 52 + m) * 2 ^ ((E : ℤ) - 1075) = s * ((1 + (m : ℚ) / 2 ^ 52) * 2 ^ ((E : ℤ) - 1023)) := by
          intro s
          rw [show (E : ℤ) - 1075 = -52 + ((E : ℤ) - 1023) by ring, zpow_add₀ (by norm_num)]
          rw [show (2 : ℚ) ^ (-52 : ℤ) = 1 / 2 ^ 52 by norm_num]
          ring
        have hpos : (0 : ℚ) < (1 + (m : ℚ) / 2 ^ 52) * 2 ^ ((E : ℤ) - 1023) := by positivity
        by_cases h3 : N < 2 ^ 63
        · rw [if_pos h3, if_pos h3]
          constructor
          · show decide _ = true ↔ _
            rw [e 1, one_mul]
            simp only [decide_eq_true_eq]
            constructor
            · intro h; linarith
            · intro h; omega
          · show some _ = some _
            rw [e 1]; simp
        · rw [if_neg h3, if_neg h3]
          constructor
          · show decide _ = true ↔ _
            rw [e (-1)]
            simp only [decide_eq_true_eq, iff_true]
            linarith
          · show some _ = some _
            rw [e (-1)]; simp

/-- Eight bytes denote one float. -/
theorem denotes64_unique {d : Bytes} {f g : Flt} (hf : Denotes64 d f) (hg : Denotes64 d g) : f = g := by
  obtain ⟨-, s, e, m, h1, h2, h3, h4, h5⟩ := hf
  obtain ⟨-, s', e', m', g1, g2, g3, g4, g5⟩ := hg
  rw [h4] at g4
  have hs : s = s' := by omega
  have he : e = e' := by omega
  have hm : m = m' := by omega
  subst hs he hm
  by_cases c : e = 2047
  · rw [if_pos c] at h5 g5; rw [h5, g5]
  · rw [if_neg c] at h5 g5
    exact Flt.eq_of_num h5.2 g5.2 (by rw [Bool.eq_iff_iff, h5.1, g5.1])

theorem f64IsNaN_val (b : BitVec 64) : f64IsNaN b = true ↔ f64Val b = .nan := by
  unfold f64IsNaN f64Val
  simp only [Bool.and_eq_true, beq_iff_eq, bne_iff_ne, ne_eq]
  constructor
  · rintro ⟨h1, h2⟩
    rw [if_pos h1, if_neg h2]
  · intro h
    split at h
    · split at h
      · cases h
      · rename_i h1 h2; exact ⟨h1, h2⟩
    · split at h
      · split at h <;> cases h
      · cases h

theorem flq_of_double {n e : ℤ} (hn : |n| < 2 ^ 53) (he : -1074 ≤ e) : flq ((n : ℚ) * 2 ^ e) = n * 2 ^ e := by
  have h := flq64_nearest ((n : ℚ) * 2 ^ e) n e hn he
  rw [sub_self, abs_zero] at h
  have := abs_nonpos_iff.1 h
  linarith

theorem double_lt {n e : ℤ} (hn : |n| < 2 ^ 53) (he : e ≤ 971) : |(n : ℚ) * 2 ^ e| < 2 ^ (1024 : ℤ) := by
  rw [abs_mul, abs_of_pos (a := (2 : ℚ) ^ e) (by positivity), ← Int.cast_abs]
  have h1 : ((|n| : ℤ) : ℚ) < 2 ^ (53 : ℤ) := by
    have : ((|n| : ℤ) : ℚ) < ((2 ^ 53 : ℤ) : ℚ) := by exact_mod_cast hn
    push_cast at this ⊢
    exact this
  have h2 : (2 : ℚ) ^ e ≤ 2 ^ (971 : ℤ) := zpow_le_zpow_right₀ (by norm_num) he
  calc ((|n| : ℤ) : ℚ) * 2 ^ e < 2 ^ (53 : ℤ) * 2 ^ e := mul_lt_mul_of_pos_right h1 (by positivity)
    _ ≤ 2 ^ (53 : ℤ) * 2 ^ (971 : ℤ) := mul_le_mul_of_nonneg_left h2 (by positivity)
    _ = 2 ^ (1024 : ℤ) := by rw [← zpow_add₀ (by norm_num)]; rfl

theorem f64Val_inf (neg : Bool) : f64Val (if neg then 0xfff0000000000000#64 else 0x7ff0000000000000#64) = .inf neg := by
  cases neg
  · unfold f64Val
    simp only [Bool.false_eq_true, if_false]
    rw [show (0x7ff0000000000000#64).toNat = 2047 * 2 ^ 52 from rfl]
    norm_num
  · unfold f64Val
    simp only [if_true]
    rw [show (0xfff0000000000000#64).toNat = 2 ^ 63 + 2047 * 2 ^ 52 from rfl]
    norm_num

theorem f64Val_nan : f64Val 0x7ff8000000000000#64 = .nan := by
  unfold f64Val
  simp only
  rw [show (0x7ff8000000000000#64).toNat = 2047 * 2 ^ 52 + 2 ^ 51 from rfl]
  norm_num

/-- Packing a double never fails and is exact. -/
theorem packF64_ok {f : Flt} (hf : IsDouble f) : ∃ b, packF64 f = .ok b ∧ f64Val b = f := by
  cases f with
  | fin q =>
    obtain ⟨n, e, h1, h2, h3, rfl⟩ := hf
    have hq := flq_of_double h1 h2
    have hlt := double_lt h1 h3
    have hpk : packF64 (.fin ((n : ℚ) * 2 ^ e)) = .ok (if flq ((n : ℚ) * 2 ^ e) = 0 ∧ (n : ℚ) * 2 ^ e < 0 then 0x8000000000000000#64 else f64Bits (flq ((n : ℚ) * 2 ^ e))) := by
      unfold packF64; simp only; rw [if_neg]; rw [hq]; exact not_le.2 hlt
    obtain ⟨b, hb⟩ : ∃ b, packF64 (.fin ((n : ℚ) * 2 ^ e)) = .ok b := ⟨_, hpk⟩
    have hv := packF64_val hb
    rw [hq] at hv
    refine ⟨b, hb, Flt.eq_of_num hv.1 rfl ?_⟩
    rw [hv.2]; rfl
  | nzero => exact ⟨_, rfl, f64Val_nzero⟩
  | inf n => exact ⟨_, rfl, f64Val_inf n⟩
  | nan => exact ⟨_, rfl, f64Val_nan⟩

theorem floatToDouble_flt (f : Flt) {b : BitVec 64} (h : packF64 f = .ok b) : floatToDouble (.flt f) = .ok (beEnc 8 b.toNat) := by
  have : floatToDouble (.flt f) = (packF64 f).map fun b => beEnc 8 b.toNat := by delta floatToDouble; rfl
  rw [this, h]
  delta Except.map
  rfl

/-- C94: `float_to_data` gives the IEEE 754 representation of every float, and `data_to_double` gives the float back (None for
a NaN): exactly, also subnormal numbers, zeros of both signs and infinities. -/
theorem C94_double (f : Flt) (hf : IsDouble f) :
    ∃ d, floatToDouble (.flt f) = .ok d ∧ Denotes64 d f ∧ dataToDouble d = .ok (if f = .nan then none else some f) := by
  obtain ⟨b, hb, hv⟩ := packF64_ok hf
  have hden := f64_denotes b
  rw [hv] at hden
  refine ⟨beEnc 8 b.toNat, floatToDouble_flt f hb, hden, ?_⟩
  unfold dataToDouble
  rw [if_pos (by simp), beDec_beEnc 8 _ b.isLt, BitVec.ofNat_toNat, BitVec.setWidth_eq, hv]
  by_cases hn : f = .nan
  · rw [if_pos hn, if_pos ((f64IsNaN_val b).2 (hv.trans hn))]
  · rw [if_neg hn, if_neg (fun h => hn (hv ▸ (f64IsNaN_val b).1 h))]

/-- C94: eight bytes always denote one float; `data_to_double` gives it (None for a NaN), and `float_to_data` gives the
same bytes back if it is not a NaN. Byte strings of other sizes are refused. -/
theorem C94_double_data (d : Bytes) :
    (d.length = 8 → ∃ f, Denotes64 d f ∧ (∀ g, Denotes64 d g → g = f) ∧
      dataToDouble d = .ok (if f = .nan then none else some f) ∧ (f ≠ .nan → floatToDouble (.flt f) = .ok d)) ∧
    (d.length ≠ 8 → dataToDouble d = .error .structError) := by
  refine ⟨fun h => ?_, fun h => by unfold dataToDouble; rw [if_neg h]⟩
  have hlt : beDec d < 2 ^ 64 := by have := beDec_lt d; rw [h] at this; exact this
  generalize hb : BitVec.ofNat 64 (beDec d) = b
  have hbn : b.toNat = beDec d := by rw [← hb, BitVec.toNat_ofNat]; omega
  have hd : beEnc 8 b.toNat = d := by rw [hbn, ← h, beEnc_beDec]
  have hden := f64_denotes b
  rw [hd] at hden
  refine ⟨f64Val b, hden, fun g hg => denotes64_unique hg hden, ?_, ?_⟩
  · unfold dataToDouble
    rw [if_pos h, hb]
    by_cases hn : f64Val b = .nan
    · rw [if_pos hn, if_pos ((f64IsNaN_val b).2 hn)]
    · rw [if_neg hn, if_neg (fun h => hn ((f64IsNaN_val b).1 h))]
  · intro hn
    have : f64IsNaN b = false := by
      cases h : f64IsNaN b with
      | false => rfl
      | true => exact absurd ((f64IsNaN_val b).1 h) hn
    rw [floatToDouble_flt _ (packF64_f64Val b this), hd]

/-- C94: `float_to_data` of an int gives the bytes of the nearest double, and refuses ints that are larger than all doubles. -/
theorem C94_int (i : Int) :
    (∃ d y, floatToDouble (.int i) = .ok d ∧ Denotes64 d (.fin y) ∧ IsDouble (.fin y) ∧ ∀ z, IsDouble (.fin z) → |y - i| ≤ |z - i|) ∨
    (floatToDouble (.int i) = .error .structError ∧ ∀ z, IsDouble (.fin z) → |z| < |(i : ℚ)|) := by
  have hn : ∀ z, IsDouble (.fin z) → |flq i - i| ≤ |z - i| := by
    rintro z ⟨n, e, h1, h2, _, rfl⟩
    exact flq64_nearest _ n e h1 h2
  have heq : floatToDouble (.int i) = match intToFlt i with
    | .ok f => (packF64 f).map fun b => beEnc 8 b.toNat
    | .error _ => .error .structError := by delta floatToDouble; rfl
  by_cases h : 2 ^ (1024 : ℤ) ≤ |flq i|
  · right
    refine ⟨?_, ?_⟩
    · have : intToFlt i = .error .overflowError := by
        unfold intToFlt fl flS
        rw [if_pos h]
      rw [heq, this]
    · rintro z ⟨n, e, h1, h2, h3, rfl⟩
      by_contra hc
      rw [not_lt] at hc
      have hz := double_lt h1 h3
      have hf := flq_of_double h1 h2
      have hf' : flq (-((n : ℚ) * 2 ^ e)) = -(n * 2 ^ e) := by
        have := flq_of_double (n := -n) (e := e) (by rwa [abs_neg]) h2
        push_cast at this
        rw [← neg_mul]; exact this
      have habs : flq |(n : ℚ) * 2 ^ e| = |(n : ℚ) * 2 ^ e| ∧ flq (-|(n : ℚ) * 2 ^ e|) = -|(n : ℚ) * 2 ^ e| := by
        rcases abs_choice ((n : ℚ) * 2 ^ e) with h | h <;> rw [h]
        · exact ⟨hf, hf'⟩
        · exact ⟨hf', by rw [neg_neg]; exact hf⟩
      have hle := abs_le.1 hc
      have a := flq_mono hle.1
      have b := flq_mono hle.2
      rw [habs.2] at a
      rw [habs.1] at b
      have := abs_le.2 ⟨a, b⟩
      linarith
  · left
    have hz : flq (i : ℚ) = 0 → ¬ ((i : ℚ) < 0) := by
      intro h0 hi
      have hi' : i ≤ -1 := by
        have : i < 0 := by exact_mod_cast hi
        omega
      have h1 := hn (-1) ⟨-1, 0, by norm_num, by norm_num, by norm_num, by norm_num⟩
      have h2 : (i : ℚ) ≤ -1 := by exact_mod_cast hi'
      rw [h0, zero_sub, abs_neg, abs_of_neg hi, abs_of_nonneg (by linarith)] at h1
      linarith
    have hfl : intToFlt i = .ok (.fin (flq i)) := by
      unfold intToFlt fl flS
      rw [if_neg h, if_neg (by rintro ⟨h0, h1⟩; exact hz h0 (by simpa using h1))]
    obtain ⟨m, e, hf⟩ := flq64_double i
    have hd : IsDouble (.fin (flq i)) := by
      have hi := hf.hi (not_le.1 h)
      have hl := hf.lt
      by_cases hq : flq (i : ℚ) < 0
      · refine ⟨-(m : ℤ), e, ?_, hf.lo, hi, ?_⟩
        · rw [abs_neg, Int.abs_eq_natAbs]; simp; omega
        · have := hf.abs; rw [abs_of_neg hq] at this; push_cast; linarith
      · refine ⟨(m : ℤ), e, ?_, hf.lo, hi, ?_⟩
        · rw [Int.abs_eq_natAbs]; simp; omega
        · have := hf.abs; rw [abs_of_nonneg (not_lt.1 hq)] at this; push_cast; linarith
    obtain ⟨d, h1, h2, _⟩ := C94_double _ hd
    refine ⟨d, flq i, ?_, h2, hd, hn⟩
    rw [heq, hfl, ← h1]
    delta floatToDouble
    rfl

/-- C94: what is not a number is refused by every encoder. -/
theorem C94_refused (s : Text) :
    floatToDouble (.str s) = .error .structError ∧ floatToDouble .none = .error .structError ∧
    floatToSingle (.str s) = .error .structError ∧ floatToSingle .none = .error .structError ∧
    u64ToData (.str s) = .error .structError ∧ u64ToData .none = .error .structError ∧
    ∀ f, u64ToData (.flt f) = .error .structError :=
  ⟨rfl, rfl, rfl, rfl, rfl, rfl, fun _ => rfl⟩

/-- C94: `float32_to_data` gives the nearest single, with the same sign, as `data_to_float` reads it. -/
theorem C94_single (f : Flt) (x : ℚ) (hfx : f.num = some x) (hx : |x| < tooLarge) :
    ∃ d b y, floatToSingle (.flt f) = .ok d ∧ d.length = 4 ∧ dataToFloat d = .ok (some b) ∧
      (f32Val b).num = some y ∧ (f32Val b).neg = f.neg ∧ NearestSingle x y := by
  obtain ⟨d, b, g, y, h1, h2, h3, h4, h5, h6, h7⟩ := C61_nearest f x hfx hx 0
  rw [float_toData, floatToData_ofFlt] at h1
  have hg : g = f32Val b := by
    have : UVal.flt (f32Val b) = .flt g := h4
    cases this; rfl
  subst hg
  refine ⟨d, b, y, h1, h2, ?_, h5, h6, h7⟩
  unfold PT.readValue PT.fromData at h3
  simp only at h3
  cases hd : dataToFloat d with
  | error e => rw [hd] at h3; cases h3
  | ok o =>
    rw [hd] at h3
    cases o with
    | none => simp [Except.map, PT.isImpl] at h3
    | some c =>
      simp only [Except.map, Option.map] at h3
      split at h3
      · cases h3; rfl
      · cases h3

/-- C94: an int of up to 53 bits is encoded as the float of the same value, by both encoders. -/
theorem C94_small_int (i : Int) (hi : |i| ≤ 2 ^ 53) :
    floatToSingle (.int i) = floatToSingle (.flt (.fin i)) ∧ floatToDouble (.int i) = floatToDouble (.flt (.fin i)) := by
  have hq : flq (i : ℚ) = i := flq_int i hi
  have hlt : |(i : ℚ)| < 2 ^ (1024 : ℤ) := by
    have h1 : ((|i| : ℤ) : ℚ) ≤ ((2 ^ 53 : ℤ) : ℚ) := by exact_mod_cast hi
    rw [← Int.cast_abs]
    calc ((|i| : ℤ) : ℚ) ≤ ((2 ^ 53 : ℤ) : ℚ) := h1
      _ = 2 ^ (53 : ℤ) := by norm_num
      _ < 2 ^ (1024 : ℤ) := zpow_lt_zpow_right₀ (by norm_num) (by norm_num)
  have hfl : intToFlt i = .ok (.fin i) := by
    unfold intToFlt fl flS
    rw [hq, if_neg (not_le.2 hlt), if_neg]
    rintro ⟨h0, h1⟩
    simp at h1
    have : (i : ℚ) < 0 := by exact_mod_cast h1
    linarith
  constructor
  · delta floatToSingle; dsimp only; rw [hfl]
  · delta floatToDouble; dsimp only; rw [hfl]

/-- Non-trivial cases: the least subnormal number and the largest double. -/
example : IsDouble (.fin (2 ^ (-1074 : ℤ))) ∧ IsDouble (.fin ((2 ^ 53 - 1 : ℤ) * 2 ^ (971 : ℤ))) ∧ IsDouble .nzero :=
  ⟨⟨1, -1074, by norm_num, le_refl _, by norm_num, by simp⟩, ⟨2 ^ 53 - 1, 971, by norm_num, by norm_num, le_refl _, rfl⟩, trivial⟩

example : floatToDouble (.flt (.fin (1 / 10 - 1 / 10 + 3 / 2))) = .ok [0x3f, 0xf8, 0, 0, 0, 0, 0, 0] := by decide +kernel
example : dataToDouble [0x80, 0, 0, 0, 0, 0, 0, 0] = .ok (some .nzero) := by decide +kernel
example : u64ToData (.int (2 ^ 64 - 1)) = .ok (List.replicate 8 0xff) := by decide +kernel

end Verif
