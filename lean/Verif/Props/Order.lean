import Verif.Props.Value

/-!
# C79: scaled values keep their order
-/

namespace Verif
open Spec

theorem rint_mono {x y : ℚ} (h : x ≤ y) : rint x ≤ rint y := by
  by_contra hc
  have hlt : rint y < rint x := lt_of_not_ge hc
  have hq : (rint y : ℚ) + 1 ≤ rint x := by exact_mod_cast hlt
  have h1 := abs_le.1 (rint_err x)
  have h2 := abs_le.1 (rint_err y)
  have e : x = y := by linarith [h1.1, h1.2, h2.1, h2.2]
  rw [e] at hlt
  exact lt_irrefl _ hlt

theorem flq_nonneg {x : ℚ} (h : 0 ≤ x) : 0 ≤ flq x := by
  have hp : (0 : ℚ) < 2 ^ ulpExp x := by positivity
  have h1 : rint ((0 : ℤ) : ℚ) ≤ rint (x / 2 ^ ulpExp x) := rint_mono (by push_cast; positivity)
  rw [rint_int] at h1
  have h2 : (0 : ℚ) ≤ rint (x / 2 ^ ulpExp x) := by exact_mod_cast h1
  exact mul_nonneg h2 hp.le

theorem flq_nonpos {x : ℚ} (h : x ≤ 0) : flq x ≤ 0 := by
  have hp : (0 : ℚ) < 2 ^ ulpExp x := by positivity
  have h1 : rint (x / 2 ^ ulpExp x) ≤ rint ((0 : ℤ) : ℚ) := rint_mono (by
    push_cast; exact div_nonpos_of_nonpos_of_nonneg h hp.le)
  rw [rint_int] at h1
  have h2 : (rint (x / 2 ^ ulpExp x) : ℚ) ≤ 0 := by exact_mod_cast h1
  exact mul_nonpos_of_nonpos_of_nonneg h2 hp.le

/-- Numbers of different binades: a power of two lies between what they are rounded to. -/
theorem flq_binade {x y : ℚ} (hx : x ≠ 0) (hy : y ≠ 0) (h : ulpExp x < ulpExp y) :
    ∃ z : ℤ, |flq x| ≤ 2 ^ z ∧ 2 ^ z ≤ |flq y| := by
  have hx0 : 0 < |x| := abs_pos.2 hx
  have hy0 : 0 < |y| := abs_pos.2 hy
  have he : ulpExp y = Int.log 2 |y| - 52 := by
    unfold ulpExp at h ⊢; omega
  have hlog : Int.log 2 |x| + 1 ≤ Int.log 2 |y| := by
    unfold ulpExp at h; omega
  refine ⟨Int.log 2 |y|, ?_, ?_⟩
  · have hp : (0 : ℚ) < 2 ^ ulpExp x := by positivity
    have h1 : |x| < 2 ^ Int.log 2 |y| := by
      have := Int.lt_zpow_succ_log_self (b := 2) (by norm_num) |x|
      have h2 : ((2 : ℕ) : ℚ) ^ (Int.log 2 |x| + 1) ≤ ((2 : ℕ) : ℚ) ^ Int.log 2 |y| := zpow_le_zpow_right₀ (by norm_num) hlog
      push_cast at this h2
      linarith
    obtain ⟨k, hk⟩ : ∃ k : ℕ, Int.log 2 |y| - ulpExp x = k := ⟨(Int.log 2 |y| - ulpExp x).toNat, by omega⟩
    have e : (2 : ℚ) ^ Int.log 2 |y| = ((2 ^ k : ℤ) : ℚ) * 2 ^ ulpExp x := by
      have : Int.log 2 |y| = (k : ℤ) + ulpExp x := by omega
      rw [this, zpow_add₀ (by norm_num)]
      push_cast
      rw [zpow_natCast]
    have h3 := abs_lt.1 h1
    have hup : x / 2 ^ ulpExp x ≤ ((2 ^ k : ℤ) : ℚ) := by rw [div_le_iff₀ hp, ← e]; exact h3.2.le
    have hdn : ((-(2 ^ k) : ℤ) : ℚ) ≤ x / 2 ^ ulpExp x := by
      rw [le_div_iff₀ hp]; rw [Int.cast_neg, neg_mul, ← e]; exact h3.1.le
    have r1 := rint_mono hup
    have r2 := rint_mono hdn
    rw [rint_int] at r1 r2
    have r3 : |rint (x / 2 ^ ulpExp x)| ≤ 2 ^ k := abs_le.2 ⟨r2, r1⟩
    have r4 : |(rint (x / 2 ^ ulpExp x) : ℚ)| ≤ ((2 ^ k : ℤ) : ℚ) := by exact_mod_cast r3
    rw [e]
    unfold flq
    rw [abs_mul, abs_of_pos hp]
    exact mul_le_mul_of_nonneg_right r4 hp.le
  · have hp : (0 : ℚ) < 2 ^ ulpExp y := by positivity
    have h1 := Int.zpow_log_le_self (b := 2) (by norm_num) hy0
    push_cast at h1
    have e : (2 : ℚ) ^ Int.log 2 |y| = ((2 ^ 52 : ℤ) : ℚ) * 2 ^ ulpExp y := by
      have : Int.log 2 |y| = ((52 : ℕ) : ℤ) + ulpExp y := by omega
      rw [this, zpow_add₀ (by norm_num), zpow_natCast]
      norm_num
    unfold flq
    rw [abs_mul, abs_of_pos hp]
    rw [e] at h1 ⊢
    refine mul_le_mul_of_nonneg_right ?_ hp.le
    rcases le_total 0 y with hs | hs
    · rw [abs_of_nonneg hs] at h1
      have : ((2 ^ 52 : ℤ) : ℚ) ≤ y / 2 ^ ulpExp y := by rw [le_div_iff₀ hp]; exact h1
      have r := rint_mono this
      rw [rint_int] at r
      have r' : ((2 ^ 52 : ℤ) : ℚ) ≤ rint (y / 2 ^ ulpExp y) := by exact_mod_cast r
      exact r'.trans (le_abs_self _)
    · rw [abs_of_nonpos hs] at h1
      have : y / 2 ^ ulpExp y ≤ ((-(2 ^ 52) : ℤ) : ℚ) := by rw [div_le_iff₀ hp, Int.cast_neg, neg_mul]; linarith
      have r := rint_mono this
      rw [rint_int] at r
      have r' : (rint (y / 2 ^ ulpExp y) : ℚ) ≤ -((2 ^ 52 : ℤ) : ℚ) := by exact_mod_cast r
      rw [← abs_neg]
      exact (le_neg.1 r').trans (le_abs_self _)

theorem ulpExp_mono {x y : ℚ} (hx : x ≠ 0) (h : |x| ≤ |y|) : ulpExp x ≤ ulpExp y := by
  have := Int.log_mono_right (b := 2) (abs_pos.2 hx) h
  unfold ulpExp
  omega

/-- Rounding to doubles keeps the order. -/
theorem flq_mono {x y : ℚ} (h : x ≤ y) : flq x ≤ flq y := by
  have same : ulpExp x = ulpExp y → flq x ≤ flq y := by
    intro e
    have hp : (0 : ℚ) < 2 ^ ulpExp y := by positivity
    unfold flq
    rw [e]
    refine mul_le_mul_of_nonneg_right ?_ hp.le
    exact_mod_cast rint_mono ((div_le_div_iff_of_pos_right hp).2 h)
  rcases le_or_gt x 0 with hx | hx
  · rcases le_or_gt 0 y with hy | hy
    · exact (flq_nonpos hx).trans (flq_nonneg hy)
    · have habs : |y| ≤ |x| := by rw [abs_of_neg hy, abs_of_nonpos hx]; linarith
      rcases (ulpExp_mono hy.ne habs).lt_or_eq with hl | he
      · obtain ⟨z, h1, h2⟩ := flq_binade hy.ne (by linarith : x < 0).ne hl
        rw [abs_of_nonpos (flq_nonpos hy.le)] at h1
        rw [abs_of_nonpos (flq_nonpos hx)] at h2
        linarith
      · exact same he.symm
  · have hy : 0 < y := lt_of_lt_of_le hx h
    have habs : |x| ≤ |y| := by rw [abs_of_pos hy, abs_of_pos hx]; exact h
    rcases (ulpExp_mono hx.ne' habs).lt_or_eq with hl | he
    · obtain ⟨z, h1, h2⟩ := flq_binade hx.ne' hy.ne' hl
      rw [abs_of_nonneg (flq_nonneg hx.le)] at h1
      rw [abs_of_nonneg (flq_nonneg hy.le)] at h2
      linarith
    · exact same he

/-- C79, assigning: the larger of two numbers assigned to a scaled point (as int, float or text) never stores the smaller integer. -/
theorem C79_set (lib : FloatLib) (hl : PowOK lib) (p : PointObj) (k : Int)
    (hk : Scaled p k) (k0 : k ≠ 0) (h1 : -250 ≤ k) (h2 : k ≤ 250) (v w : UVal) (x y : ℚ) (hx : IsNumber lib v x) (hy : IsNumber lib w y)
    (hrx : |x / 10 ^ k| ≤ 2 ^ 64) (hry : |y / 10 ^ k| ≤ 2 ^ 64) (hxy : x ≤ y) :
    ∃ n m : Int, setValue lib p v = ({ p with base := some (.int n), dirty := true }, .ok ()) ∧
      setValue lib p w = ({ p with base := some (.int m), dirty := true }, .ok ()) ∧ n ≤ m := by
  obtain ⟨pw, hp, he⟩ := hl k h1 h2
  have hP : (0 : ℚ) < 10 ^ k := by positivity
  have hpos := (div_err (x := x) hP he).2
  obtain ⟨hfx, _⟩ := set_err hP hrx he
  obtain ⟨hfy, _⟩ := set_err hP hry he
  refine ⟨_, _, set_scaled hk k0 hp hpos hx hfx, set_scaled hk k0 hp hpos hy hfy, ?_⟩
  exact rint_mono (flq_mono ((div_le_div_iff_of_pos_right hpos).2 hxy))

/-- The number that is assigned: ints are exact. -/
def Spec.exactNum : UVal → Option ℚ
  | .int i => some i
  | .flt f => f.num
  | _ => none

/-- C79, assigning to an unscaled integer point (the numbers are truncated, see C34): also in order. -/
theorem C79_set_unscaled (lib : FloatLib) (p : PointObj) (h : p.vsf = none ∨ Scaled p 0) (ht : p.pt.type.isInt = true)
    (v w : UVal) (x y : ℚ) (hx : exactNum v = some x) (hy : exactNum w = some y) (hxy : x ≤ y) :
    ∃ n m : Int, setValue lib p v = ({ p with base := some (.int n), dirty := true }, .ok ()) ∧
      setValue lib p w = ({ p with base := some (.int m), dirty := true }, .ok ()) ∧ n ≤ m := by
  have hs : scaleOf p.vsf = none := by
    rcases h with h | h <;> rw [h] <;> rfl
  have key : ∀ (v : UVal) (x : ℚ), exactNum v = some x →
      setValue lib p v = ({ p with base := some (.int (if 0 ≤ x then ⌊x⌋ else ⌈x⌉)), dirty := true }, .ok ()) := by
    intro v x hx
    unfold setValue
    rw [hs]
    dsimp only
    cases v with
    | none => cases hx
    | str s => cases hx
    | int i =>
      cases hx
      simp only [PT.toValue, if_pos ht, sunsToInt]
      simp
    | flt f =>
      have hi : f.toInt = .ok (if 0 ≤ x then ⌊x⌋ else ⌈x⌉) := by
        cases f with
        | fin p => cases hx; rfl
        | nzero => cases hx; simp [Flt.toInt]
        | inf n => cases hx
        | nan => cases hx
      simp only [PT.toValue, if_pos ht, sunsToInt, hi]
  refine ⟨_, _, key v x hx, key w y hy, ?_⟩
  split
  · rename_i h0
    rw [if_pos (h0.trans hxy)]
    exact Int.floor_le_floor hxy
  · rename_i h0
    split
    · rename_i h1
      have a : ⌈x⌉ ≤ 0 := Int.ceil_le.2 (by push_cast; linarith)
      have b : 0 ≤ ⌊y⌋ := Int.le_floor.2 (by push_cast; exact h1)
      omega
    · exact Int.ceil_le_ceil hxy

/-- C79, reading: the larger register never gives the smaller value, and if the registers have at most 51 bits different registers
give different values. -/
theorem C79_get (lib : FloatLib) (hl : PowOK lib) (p : PointObj) (k b c : Int) (hk : Scaled p k) (k0 : k ≠ 0)
    (h1 : -250 ≤ k) (h2 : k ≤ 250) (hb : |b| ≤ 2 ^ 64) (hc : |c| ≤ 2 ^ 64) (hbc : b ≤ c) :
    ∃ q r : ℚ, getValue lib { p with base := some (.int b) } = .ok (.flt (.fin q)) ∧
      getValue lib { p with base := some (.int c) } = .ok (.flt (.fin r)) ∧ q ≤ r ∧
      (|b| < 2 ^ 51 → |c| < 2 ^ 51 → b < c → q < r) := by
  obtain ⟨pw, hp, he⟩ := hl k h1 h2
  obtain ⟨a, ha, hm, _⟩ := get_err hb (pow10_lower h1) (pow10_upper h2) he
  obtain ⟨a', ha', hm', _⟩ := get_err hc (pow10_lower h1) (pow10_upper h2) he
  have hP : (0 : ℚ) < 10 ^ k := by positivity
  have hpos := (div_err (x := (0 : ℚ)) hP he).2
  have hfl : ∀ (z : ℚ) (a : ℚ), fl z = .fin a → a = flq z := by
    intro z a h
    unfold fl flS at h
    split at h
    · cases h
    · split at h
      · cases h
      · cases h; rfl
  have g1 := get_scaled (p := { p with base := some (.int b) }) hk k0 hp rfl ha hm
  have g2 := get_scaled (p := { p with base := some (.int c) }) hk k0 hp rfl ha' hm'
  have hle : flq (a * pw) ≤ flq (a' * pw) := by
    apply flq_mono
    apply mul_le_mul_of_nonneg_right _ hpos.le
    rw [hfl _ _ ha, hfl _ _ ha']
    exact flq_mono (by exact_mod_cast hbc)
  refine ⟨_, _, g1, g2, hle, ?_⟩
  intro s1 s2 hlt
  rcases hle.lt_or_eq with h | h
  · exact h
  · exfalso
    obtain ⟨v, e1, e2⟩ := C34_idempotent_partial lib hl { p with base := some (.int b) } k b hk k0 h1 h2 rfl s1
    obtain ⟨v', e1', e2'⟩ := C34_idempotent_partial lib hl { p with base := some (.int c) } k c hk k0 h1 h2 rfl s2
    rw [g1] at e1
    rw [g2, ← h] at e1'
    have hv := Except.ok.inj e1
    have hv' := Except.ok.inj e1'
    subst hv
    subst hv'
    have hind : ∀ b : Int, ∀ r, setValue lib { p with base := some (.int b) } (.flt (.fin (flq (a * pw)))) = (r, .ok ()) →
        r.base = (setValue lib p (.flt (.fin (flq (a * pw))))).1.base := by
      intro b r hh
      unfold setValue at hh ⊢
      have hk' : p.vsf = some (.int k) := hk
      simp only [hk', scaleOf, if_neg k0] at hh ⊢
      cases hsb : scaledBase lib k (.flt (.fin (flq (a * pw)))) with
      | ok n => rw [hsb] at hh; simp only [Prod.mk.injEq] at hh; rw [← hh.1]
      | error e => rw [hsb] at hh; simp at hh
    have q1 := hind b _ e2
    have q2 := hind c _ e2'
    rw [← q2] at q1
    simp at q1
    omega

/-- Non-vacuity: 1.25 and 1.26 in hundredths. -/
example : ∃ n m : Int, setValue exactLib (ePoint (-2)) (.flt (.fin (5 / 4))) = ({ ePoint (-2) with base := some (.int n), dirty := true }, .ok ()) ∧
    setValue exactLib (ePoint (-2)) (.flt (.fin (63 / 50))) = ({ ePoint (-2) with base := some (.int m), dirty := true }, .ok ()) ∧ n ≤ m :=
  C79_set exactLib exactLib_ok (ePoint (-2)) (-2) rfl (by decide) (by decide) (by decide) _ _ (5 / 4) (63 / 50) ⟨_, rfl, rfl⟩ ⟨_, rfl, rfl⟩
    (by norm_num [abs_le]) (by norm_num [abs_le]) (by norm_num)

example : ∃ q r : ℚ, getValue exactLib { ePoint (-2) with base := some (.int 125) } = .ok (.flt (.fin q)) ∧
    getValue exactLib { ePoint (-2) with base := some (.int 126) } = .ok (.flt (.fin r)) ∧ q < r := by
  obtain ⟨q, r, h1, h2, _, h3⟩ := C79_get exactLib exactLib_ok (ePoint (-2)) (-2) 125 126 rfl (by decide) (by decide) (by decide)
    (by norm_num) (by norm_num) (by decide)
  exact ⟨q, r, h1, h2, h3 (by norm_num) (by norm_num) (by decide)⟩

/-- Non-vacuity: 7 and 7.9 assigned to an unscaled point both store 7. -/
example : ∃ n m : Int, setValue exactLib (ePoint 0) (.int 7) = ({ ePoint 0 with base := some (.int n), dirty := true }, .ok ()) ∧
    setValue exactLib (ePoint 0) (.flt (.fin (79 / 10))) = ({ ePoint 0 with base := some (.int m), dirty := true }, .ok ()) ∧ n ≤ m :=
  C79_set_unscaled exactLib (ePoint 0) (.inr rfl) rfl _ _ 7 (79 / 10) rfl rfl (by norm_num)

end Verif
