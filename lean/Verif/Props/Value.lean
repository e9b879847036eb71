import Verif.Lemmas.Value
import Verif.Lemmas.IntText
import Verif.Lemmas.Text

/-!
# C34: scaled values, C50: integers from text

`Spec.PowOK lib` states what is assumed of the C library: `pow(10, k)` is off by at most one unit in the last place.
-/

namespace Verif
open Spec

/-- A library whose `pow(10, k)` is correctly rounded, to show that the hypotheses can be met. -/
def exactLib : FloatLib where
  pow10 k := .ok (fl (10 ^ k))
  parse _ := none
  repr _ := []

theorem exactLib_ok : PowOK exactLib := by
  intro k h1 h2
  have lo := pow10_lower h1
  have hi := pow10_upper h2
  have hpos : (0 : ℚ) < 10 ^ k := by positivity
  have rr := flq_rel (x := (10 : ℚ) ^ k) (by
    rw [abs_of_pos hpos]
    exact le_trans (zpow_le_zpow_right₀ (by norm_num) (by norm_num)) lo)
  rw [abs_of_pos hpos] at rr
  have c53 : (2 : ℚ) ^ (-53 : ℤ) = 1 / 2 ^ 53 := by norm_num
  have c52 : (2 : ℚ) ^ (-52 : ℤ) = 1 / 2 ^ 52 := by norm_num
  refine ⟨flq (10 ^ k), ?_, ?_⟩
  · show Except.ok (fl (10 ^ k)) = _
    rw [fl_fin ?_ fun _ => hpos.le]
    have e : (2 : ℚ) ^ (1024 : ℤ) = 2 ^ 184 * 2 ^ (840 : ℤ) := by
      rw [← zpow_natCast, ← zpow_add₀ (by norm_num)]; norm_num
    rw [e]
    have h840 : (0 : ℚ) < 2 ^ (840 : ℤ) := by positivity
    generalize (2 : ℚ) ^ (840 : ℤ) = B at *
    have := abs_sub_abs_le_abs_sub (flq (10 ^ k)) (10 ^ k)
    rw [abs_of_pos hpos] at this
    rw [c53] at rr
    clear e lo
    linarith
  · rw [c53] at rr; rw [c52]; linarith

/-- The point has the scale factor `k`. -/
def Scaled (p : PointObj) (k : Int) : Prop := p.vsf = some (.int k)

/-- The property in full: for every scale factor (also 0), an assigned number is stored as the integer nearest to
the scaled number. Violated: see `C34_violated`. -/
def C34_full : Prop :=
  ∀ (lib : FloatLib), PowOK lib → ∀ (p : PointObj) (k : Int) (x : ℚ),
    p.pt.type.isInt = true → Scaled p k → -250 ≤ k → k ≤ 250 → |x / 10 ^ k| ≤ 2 ^ 32 →
    ∃ n : Int, setValue lib p (.flt (.fin x)) = ({ p with base := some (.int n), dirty := true }, .ok ()) ∧
      |(n : ℚ) - x / 10 ^ k| ≤ 1 / 2 + 2 ^ (-18 : ℤ)

/-- A point of type uint16 with a scale factor. -/
def ePoint (k : Int) : PointObj :=
  { pt := { id := t!"W", offset := 0, type := .uint16, len := 1 }, addr := 40002, vsf := some (.int k) }

theorem C34_violated : ¬ C34_full := by
  intro h
  obtain ⟨n, h1, h2⟩ := h exactLib exactLib_ok (ePoint 0) 0 (11 / 4) rfl rfl (by norm_num) (by norm_num)
    (by norm_num [abs_of_pos])
  have e : setValue exactLib (ePoint 0) (.flt (.fin (11 / 4))) =
      ({ ePoint 0 with base := some (.int 2), dirty := true }, .ok ()) := by
    have fl2 : (⌊(11 / 4 : ℚ)⌋ : ℤ) = 2 := by rw [Int.floor_eq_iff]; norm_num
    have z : (0 : ℚ) ≤ 11 / 4 := by norm_num
    simp only [setValue, ePoint, scaleOf, PT.toValue, PT.isInt, sunsToInt, Flt.toInt, if_pos z, fl2, if_true]
  rw [e] at h1
  have : n = 2 := by
    have := (congrArg (fun x => x.1.base) h1)
    simp at this
    exact this.symm
  subst this
  norm_num [abs_le] at h2

/-- What is stored without a scale factor: ints as they are. -/
theorem C34_unscaled_partial (lib : FloatLib) (p : PointObj)
    (h : p.vsf = none ∨ Scaled p 0) (ht : p.pt.type.isInt = true) (i : Int) :
    setValue lib p (.int i) = ({ p with base := some (.int i), dirty := true }, .ok ()) ∧
    (p.base = some (.int i) → getValue lib p = .ok (.int i)) := by
  have hs : scaleOf p.vsf = none := by
    rcases h with h | h <;> rw [h] <;> rfl
  unfold setValue getValue
  rw [hs]
  dsimp only
  refine ⟨?_, ?_⟩
  · simp only [PT.toValue, if_pos ht, sunsToInt]
  · intro hb; rw [hb]; rfl

example : setValue exactLib (ePoint 0) (.int 300) =
    ({ ePoint 0 with base := some (.int 300), dirty := true }, .ok ()) :=
  (C34_unscaled_partial _ (ePoint 0) (.inr rfl) rfl _).1

theorem fl_small (n : ℤ) (h : |n| ≤ 2 ^ 53) : fl n = .fin n := by
  have e := flq_int n h
  rw [fl_fin ?_ (by rw [e]; exact fun h => h.ge), e]
  rw [e]
  have h1 : |(n : ℚ)| ≤ 2 ^ 53 := by exact_mod_cast h
  refine lt_of_le_of_lt h1 ?_
  have : (2 : ℚ) ^ (54 : ℤ) ≤ 2 ^ (1024 : ℤ) := zpow_le_zpow_right₀ (by norm_num) (by norm_num)
  refine lt_of_lt_of_le ?_ this
  norm_num

theorem get_scaled {lib : FloatLib} {p : PointObj} {k b : Int} {a pw q : ℚ} (hk : Scaled p k) (k0 : k ≠ 0)
    (hp : lib.pow10 k = .ok (.fin pw)) (hb : p.base = some (.int b)) (ha : fl b = .fin a) (hm : flS (decide (a < 0) != decide (pw < 0)) (a * pw) = .fin q) :
    getValue lib p = .ok (.flt (.fin q)) := by
  have hs : scaleOf p.vsf = some k := by rw [hk]; exact if_neg k0
  unfold getValue
  rw [hs]
  dsimp only
  rw [hp]
  dsimp only
  rw [hb]
  unfold mulBase intToFlt
  dsimp only
  rw [ha]
  dsimp only
  show Except.ok (UVal.flt (flS (decide (a < 0) != decide (pw < 0)) (a * pw))) = _
  rw [hm]

/-- The value of a scaled point is base * 10^sf, up to a relative error of 2^-50. -/
theorem C34_get_partial (lib : FloatLib) (hl : PowOK lib) (p : PointObj) (k b : Int) (hk : Scaled p k) (k0 : k ≠ 0)
    (h1 : -250 ≤ k) (h2 : k ≤ 250) (hb : p.base = some (.int b)) (hb2 : |b| ≤ 2 ^ 64) :
    ∃ q : ℚ, getValue lib p = .ok (.flt (.fin q)) ∧ |q - b * 10 ^ k| ≤ |(b : ℚ)| * 10 ^ k * 2 ^ (-50 : ℤ) := by
  obtain ⟨pw, hp, he⟩ := hl k h1 h2
  obtain ⟨a, ha, hm, herr⟩ := get_err hb2 (pow10_lower h1) (pow10_upper h2) he
  refine ⟨flq (a * pw), ?_, herr⟩
  exact get_scaled hk k0 hp hb ha hm

example : ∃ q : ℚ, getValue exactLib { ePoint (-2) with base := some (.int 12345) } = .ok (.flt (.fin q)) ∧
    |q - ((12345 : ℤ) : ℚ) * 10 ^ (-2 : ℤ)| ≤ |((12345 : ℤ) : ℚ)| * 10 ^ (-2 : ℤ) * 2 ^ (-50 : ℤ) :=
  C34_get_partial exactLib exactLib_ok _ (-2) 12345 rfl (by decide) (by decide) (by decide) rfl (by norm_num)

theorem set_scaled {lib : FloatLib} {p : PointObj} {k : Int} {x pw : ℚ} {v : UVal}
    (hk : Scaled p k) (k0 : k ≠ 0) (hp : lib.pow10 k = .ok (.fin pw)) (hpos : 0 < pw)
    (hx : IsNumber lib v x) (hf : |flq (x / pw)| < 2 ^ (1024 : ℤ)) :
    setValue lib p v = ({ p with base := some (.int (rint (flq (x / pw)))), dirty := true }, .ok ()) := by
  obtain ⟨f, hx, hn⟩ := hx
  have hne : ¬ ((Flt.fin pw).num = some 0) := by
    intro h
    exact hpos.ne' (Option.some.inj h)
  have hd : ∃ g, f.div (.fin pw) = .ok g ∧ g.num = some (flq (x / pw)) := by
    unfold Flt.div
    rw [if_neg hne]
    cases f with
    | fin q => cases hn; exact ⟨_, rfl, flS_num hf⟩
    | nzero =>
      have e : x = 0 := (Option.some.inj hn).symm
      subst e
      exact ⟨_, rfl, flS_num hf⟩
    | inf n => cases hn
    | nan => cases hn
  obtain ⟨g, g1, g2⟩ := hd
  unfold setValue
  rw [hk]
  simp only [scaleOf, if_neg k0, scaledBase, hx, hp, g1, Flt.round_num g2]

/-- Assigning a number (int, float, or text read as a float) to a scaled point stores an integer that differs from the
scaled number by at most 1/2 (and a relative error of 2^-50), and marks the point; if one integer is nearest
by a margin of that error it is the one that is stored. -/
theorem C34_set_partial (lib : FloatLib) (hl : PowOK lib) (p : PointObj) (k : Int)
    (hk : Scaled p k) (k0 : k ≠ 0) (h1 : -250 ≤ k) (h2 : k ≤ 250) (v : UVal) (x : ℚ) (hx : IsNumber lib v x)
    (hr : |x / 10 ^ k| ≤ 2 ^ 64) :
    ∃ n : Int, setValue lib p v = ({ p with base := some (.int n), dirty := true }, .ok ()) ∧
      |(n : ℚ) - x / 10 ^ k| ≤ 1 / 2 + |x / 10 ^ k| * 2 ^ (-50 : ℤ) ∧
      ∀ m : Int, |x / 10 ^ k - m| + |x / 10 ^ k| * 2 ^ (-50 : ℤ) < 1 / 2 → n = m := by
  obtain ⟨pw, hp, he⟩ := hl k h1 h2
  have hP : (0 : ℚ) < 10 ^ k := by positivity
  have hpos := (div_err (x := x) hP he).2
  obtain ⟨hf, _⟩ := set_err hP hr he
  exact ⟨_, set_scaled hk k0 hp hpos hx hf, set_round hP hr he⟩

/-- The text `1.25` read as a float, the scale factor -2: 125 is stored. -/
example : setValue { exactLib with parse := fun _ => some (.fin (5 / 4)) } (ePoint (-2)) (.str (t!"1.25")) =
    ({ ePoint (-2) with base := some (.int 125), dirty := true }, .ok ()) := by
  obtain ⟨n, h, _, hm⟩ := C34_set_partial { exactLib with parse := fun _ => some (.fin (5 / 4)) } exactLib_ok
    (ePoint (-2)) (-2) rfl (by decide) (by decide) (by decide) (.str (t!"1.25")) (5 / 4) ⟨_, rfl, rfl⟩ (by norm_num [abs_le])
  rw [h, hm 125 (by norm_num [abs_of_pos])]

/-- What was assigned is read back up to half a unit of the scale (all integer types up to 32 bits). -/
theorem C34_set_get_partial (lib : FloatLib) (hl : PowOK lib) (p : PointObj) (k : Int)
    (hk : Scaled p k) (k0 : k ≠ 0) (h1 : -250 ≤ k) (h2 : k ≤ 250) (v : UVal) (x : ℚ) (hx : IsNumber lib v x)
    (hr : |x / 10 ^ k| ≤ 2 ^ 32) :
    ∃ p' q, setValue lib p v = (p', .ok ()) ∧ getValue lib p' = .ok (.flt (.fin q)) ∧
      |q - x| ≤ (1 / 2 + 2 ^ (-16 : ℤ)) * 10 ^ k := by
  have hP : (0 : ℚ) < 10 ^ k := by positivity
  obtain ⟨n, hs, hn, _⟩ := C34_set_partial lib hl p k hk k0 h1 h2 v x hx (hr.trans (by norm_num))
  have c50 : (2 : ℚ) ^ (-50 : ℤ) = 1 / 2 ^ 50 := by norm_num
  have c16 : (2 : ℚ) ^ (-16 : ℤ) = 1 / 2 ^ 16 := by norm_num
  rw [c50] at hn
  have hnb : |(n : ℚ)| ≤ 2 ^ 33 := by
    have := abs_sub_abs_le_abs_sub (n : ℚ) (x / 10 ^ k)
    linarith
  have hnb2 : |n| ≤ 2 ^ 33 := by exact_mod_cast hnb
  obtain ⟨q, hg, hq⟩ := C34_get_partial lib hl { p with base := some (.int n), dirty := true } k n hk k0 h1 h2 rfl
    (hnb2.trans (by norm_num))
  refine ⟨_, q, hs, hg, ?_⟩
  rw [c50] at hq
  rw [c16]
  have e : (n : ℚ) * 10 ^ k - x = (n - x / 10 ^ k) * 10 ^ k := by field_simp
  have h3 : |(n : ℚ) * 10 ^ k - x| ≤ (1 / 2 + 2 ^ 32 * (1 / 2 ^ 50)) * 10 ^ k := by
    rw [e, abs_mul, abs_of_pos hP]
    refine mul_le_mul_of_nonneg_right ?_ hP.le
    linarith
  have h4 : |(n : ℚ)| * 10 ^ k * (1 / 2 ^ 50) ≤ 2 ^ 33 * 10 ^ k * (1 / 2 ^ 50) := by
    refine mul_le_mul_of_nonneg_right (mul_le_mul_of_nonneg_right hnb hP.le) (by norm_num)
  have := abs_sub_le q (n * 10 ^ k) x
  linarith

example : ∃ p' q, setValue exactLib (ePoint (-1)) (.flt (.fin (99 / 8))) = (p', .ok ()) ∧
    getValue exactLib p' = .ok (.flt (.fin q)) ∧ |q - 99 / 8| ≤ (1 / 2 + 2 ^ (-16 : ℤ)) * 10 ^ (-1 : ℤ) :=
  C34_set_get_partial exactLib exactLib_ok (ePoint (-1)) (-1) rfl (by decide) (by decide) (by decide) _ _ ⟨_, rfl, rfl⟩ (by norm_num [abs_le])

/-- Assigning the value a scaled point has leaves the value base as it is (for magnitudes below 2^51, thus all integer
types up to 32 bits; `C34_idempotent_sharp`: not for 52 bits). -/
theorem C34_idempotent_partial (lib : FloatLib) (hl : PowOK lib) (p : PointObj) (k b : Int)
    (hk : Scaled p k) (k0 : k ≠ 0) (h1 : -250 ≤ k) (h2 : k ≤ 250) (hb : p.base = some (.int b)) (hb2 : |b| < 2 ^ 51) :
    ∃ v, getValue lib p = .ok v ∧ setValue lib p v = ({ p with dirty := true }, .ok ()) := by
  have hP : (0 : ℚ) < 10 ^ k := by positivity
  have h64 : |b| ≤ 2 ^ 64 := hb2.le.trans (by norm_num)
  obtain ⟨pw, hp, he⟩ := hl k h1 h2
  have hpos := (div_err (x := (0 : ℚ)) hP he).2
  have hlow : (2 : ℚ) ^ (-1022 : ℤ) ≤ pw := pow_low (pow10_lower h1) he
  obtain ⟨a, ha, hm, herr⟩ := get_err h64 (pow10_lower h1) (pow10_upper h2) he
  have hbq : |(b : ℚ)| ≤ 2 ^ 51 := by exact_mod_cast hb2.le
  have ea : a = b := by
    have := fl_small b (hb2.le.trans (by norm_num))
    rw [this] at ha
    exact (Flt.fin.inj ha).symm
  subst ea
  have hx : |flq (b * pw) / 10 ^ k| ≤ 2 ^ 64 := by
    have c50 : (2 : ℚ) ^ (-50 : ℤ) = 1 / 2 ^ 50 := by norm_num
    rw [abs_div, abs_of_pos hP, div_le_iff₀ hP]
    have h3 := abs_sub_abs_le_abs_sub (flq (b * pw)) (b * 10 ^ k)
    rw [abs_mul, abs_of_pos hP] at h3
    have h4 : |(b : ℚ)| * 10 ^ k ≤ 2 ^ 51 * 10 ^ k := mul_le_mul_of_nonneg_right hbq hP.le
    rw [c50] at herr
    generalize (10 : ℚ) ^ k = P at *
    clear hlow
    linarith
  obtain ⟨hf, _⟩ := set_err hP hx he
  refine ⟨_, get_scaled hk k0 hp hb ha hm, ?_⟩
  rw [set_scaled hk k0 hp hpos (x := flq (b * pw)) ⟨_, rfl, rfl⟩ hf, rint_scaled hb2 hpos hlow, ← hb]

example : ∃ v, getValue exactLib { ePoint (-3) with base := some (.int 4294967295) } = .ok v ∧
    setValue exactLib { ePoint (-3) with base := some (.int 4294967295) } v =
      ({ ePoint (-3) with base := some (.int 4294967295), dirty := true }, .ok ()) :=
  C34_idempotent_partial exactLib exactLib_ok _ (-3) 4294967295 rfl (by decide) (by decide) (by decide) rfl (by norm_num)

/-- The bound of `C34_idempotent_partial` cannot be raised to 52 bits: with correctly rounded arithmetic the register
2361184651723621 with the scale factor 6 becomes 2361184651723620. -/
theorem C34_idempotent_sharp : ∃ (p : PointObj) (b : Int) (v : UVal), Scaled p 6 ∧ p.base = some (.int b) ∧ |b| < 2 ^ 52 ∧
    getValue exactLib p = .ok v ∧ setValue exactLib p v = ({ p with base := some (.int (b - 1)), dirty := true }, .ok ()) := by
  refine ⟨{ ePoint 6 with base := some (.int 2361184651723621) }, 2361184651723621, .flt (.fin 2361184651723620745216), rfl, rfl, by norm_num, ?_, ?_⟩
  · decide +kernel
  · decide +kernel

/-- A refused assignment leaves the point as it was; an accepted one marks it and changes nothing but the value. -/
theorem C34_refused (lib : FloatLib) (p : PointObj) (v : UVal) :
    (∃ e, setValue lib p v = (p, .error e)) ∨ ∃ b, setValue lib p v = ({ p with base := b, dirty := true }, .ok ()) := by
  unfold setValue
  split
  · split
    · exact .inr ⟨_, rfl⟩
    · exact .inl ⟨_, rfl⟩
  · split
    · exact .inr ⟨_, rfl⟩
    · exact .inl ⟨_, rfl⟩

example : setValue exactLib (ePoint 1) .none = (ePoint 1, .error .typeError) := rfl

/-- An infinity or a NaN assigned to a scaled point is refused: OverflowError or ValueError, and the point is as it was. -/
theorem C34_special (lib : FloatLib) (hl : PowOK lib) (p : PointObj) (k : Int) (hk : Scaled p k) (k0 : k ≠ 0) (h1 : -250 ≤ k) (h2 : k ≤ 250)
    (v : UVal) :
    (∀ n, v.toFlt lib = .ok (.inf n) → setValue lib p v = (p, .error .overflowError)) ∧
    (v.toFlt lib = .ok .nan → setValue lib p v = (p, .error .valueError)) := by
  obtain ⟨pw, hp, he⟩ := hl k h1 h2
  have hP : (0 : ℚ) < 10 ^ k := by positivity
  have hpos := (div_err (x := (0 : ℚ)) hP he).2
  have hne : ¬ ((Flt.fin pw).num = some 0) := fun h => hpos.ne' (Option.some.inj h)
  constructor
  · intro n hv
    unfold setValue
    rw [hk]
    simp only [scaleOf, if_neg k0, scaledBase, hv, hp, Flt.div, if_neg hne, Flt.round]
  · intro hv
    unfold setValue
    rw [hk]
    simp only [scaleOf, if_neg k0, scaledBase, hv, hp, Flt.div, if_neg hne, Flt.round]

example : setValue exactLib (ePoint (-2)) (.flt (.inf true)) = (ePoint (-2), .error .overflowError) :=
  (C34_special exactLib exactLib_ok (ePoint (-2)) (-2) rfl (by decide) (by decide) (by decide) _).1 true rfl

/-- Ties: a number that is exactly half way between two scaled integers is stored as the even one (Python's `round`). -/
theorem C34_tie (lib : FloatLib) (p : PointObj) (k : Int) (hk : Scaled p k) (k0 : k ≠ 0)
    (hp : lib.pow10 k = .ok (.fin (10 ^ k))) (v : UVal) (x : ℚ) (hx : IsNumber lib v x) (m : Int)
    (hm : x / 10 ^ k = m + 1 / 2) (hb : |m| ≤ 2 ^ 50) :
    ∃ n : Int, setValue lib p v = ({ p with base := some (.int n), dirty := true }, .ok ()) ∧ n % 2 = 0 ∧ (n = m ∨ n = m + 1) := by
  have hq := flq_half m hb
  have hbq : |(m : ℚ)| ≤ 2 ^ 50 := by exact_mod_cast hb
  have hf : |flq (x / 10 ^ k)| < 2 ^ (1024 : ℤ) := by
    rw [hm, hq]
    calc |(m : ℚ) + 1 / 2| ≤ |(m : ℚ)| + |(1 / 2 : ℚ)| := abs_add_le _ _
      _ ≤ 2 ^ 50 + 1 / 2 := by
        have : |(1 / 2 : ℚ)| = 1 / 2 := abs_of_pos (by norm_num)
        linarith
      _ < 2 ^ (1024 : ℤ) := by
        have : (2 : ℚ) ^ (51 : ℤ) ≤ 2 ^ (1024 : ℤ) := zpow_le_zpow_right₀ (by norm_num) (by norm_num)
        refine lt_of_lt_of_le ?_ this
        norm_num
  refine ⟨_, set_scaled hk k0 hp (by positivity) hx hf, ?_⟩
  rw [hm, hq, rint_half]
  split
  · exact ⟨by assumption, Or.inl rfl⟩
  · exact ⟨by omega, Or.inr rfl⟩

example : setValue exactLib (ePoint 1) (.int 25) = ({ ePoint 1 with base := some (.int 2), dirty := true }, .ok ()) := by
  have e10 : exactLib.pow10 1 = .ok (.fin (10 ^ (1 : ℤ))) := by
    have := fl_small 10 (by norm_num)
    show Except.ok (fl (10 ^ (1 : ℤ))) = _
    rw [zpow_one]
    exact congrArg Except.ok (by exact_mod_cast this)
  have e25 : (UVal.int 25).toFlt exactLib = .ok (.fin 25) := by
    have := fl_small 25 (by norm_num)
    simp only [UVal.toFlt, intToFlt, this]
    rfl
  obtain ⟨n, h1, h2, h3⟩ := C34_tie exactLib (ePoint 1) 1 rfl (by decide) e10 (.int 25) 25 ⟨_, e25, rfl⟩ 2 (by norm_num)
    (by norm_num)
  have : n = 2 := by omega
  rw [h1, this]

/-- An unscaled integer point to which a finite float is assigned stores its integer part (towards 0; see `C34_violated`). -/
theorem C34_truncates (lib : FloatLib) (p : PointObj) (h : p.vsf = none ∨ Scaled p 0)
    (ht : p.pt.type.isInt = true) (f : Flt) (q : ℚ) (hf : f.num = some q) :
    ∃ n : Int, setValue lib p (.flt f) = ({ p with base := some (.int n), dirty := true }, .ok ()) ∧
      |(n : ℚ)| ≤ |q| ∧ |q - n| < 1 ∧ 0 ≤ n * q := by
  have hs : scaleOf p.vsf = none := by
    rcases h with h | h <;> rw [h] <;> rfl
  unfold setValue
  rw [hs]
  dsimp only
  have hi : f.toInt = .ok (if 0 ≤ q then ⌊q⌋ else ⌈q⌉) := by
    cases f with
    | fin p => cases hf; rfl
    | nzero => cases hf; simp [Flt.toInt]
    | inf n => cases hf
    | nan => cases hf
  simp only [PT.toValue, if_pos ht, sunsToInt, hi]
  refine ⟨_, rfl, ?_⟩
  by_cases hq : 0 ≤ q
  · rw [if_pos hq]
    have h0 : (0 : ℚ) ≤ ⌊q⌋ := by exact_mod_cast Int.floor_nonneg.2 hq
    have h1 := Int.floor_le q
    have h2 := Int.lt_floor_add_one q
    rw [abs_of_nonneg h0, abs_of_nonneg hq, abs_lt]
    exact ⟨h1, ⟨by linarith, by linarith⟩, mul_nonneg h0 hq⟩
  · rw [if_neg hq]
    have hq := not_le.1 hq
    have h1 := Int.le_ceil q
    have h2 := Int.ceil_lt_add_one q
    have h0 : (⌈q⌉ : ℚ) ≤ 0 := by exact_mod_cast Int.ceil_le.2 (by simpa using hq.le)
    rw [abs_of_nonpos h0, abs_of_neg hq, abs_lt]
    exact ⟨by linarith, ⟨by linarith, by linarith⟩, mul_nonneg_of_nonpos_of_nonpos h0 hq.le⟩

example : ∃ n : Int, setValue exactLib (ePoint 0) (.flt (.fin (-(11 / 4)))) =
    ({ ePoint 0 with base := some (.int n), dirty := true }, .ok ()) ∧ |(n : ℚ)| ≤ |(-(11 / 4) : ℚ)| ∧ |(-(11 / 4) : ℚ) - n| < 1 ∧
      0 ≤ n * (-(11 / 4) : ℚ) :=
  C34_truncates exactLib (ePoint 0) (Or.inr rfl) rfl _ _ rfl

/-- A text assigned to an unscaled string, ipv6addr or eui48 point is stored as it is and read back. -/
theorem C34_text (lib : FloatLib) (p : PointObj) (h : p.vsf = none ∨ Scaled p 0)
    (ht : p.pt.type = .string ∨ p.pt.type = .ipv6addr ∨ p.pt.type = .eui48) (s : Text) :
    setValue lib p (.str s) = ({ p with base := some (.str s), dirty := true }, .ok ()) ∧
      getValue lib (setValue lib p (.str s)).1 = .ok (.str s) := by
  have hs : scaleOf p.vsf = none := by
    rcases h with h | h <;> rw [h] <;> rfl
  have e : setValue lib p (.str s) = ({ p with base := some (.str s), dirty := true }, .ok ()) := by
    unfold setValue
    rw [hs]
    rcases ht with ht | ht | ht <;> rw [ht] <;> rfl
  rw [e]
  refine ⟨rfl, ?_⟩
  show getValue lib { p with base := some (.str s), dirty := true } = _
  unfold getValue
  rw [show scaleOf ({ p with base := some (Val.str s), dirty := true } : PointObj).vsf = none from hs]
  rfl

example : ({ ePoint 0 with pt := { (ePoint 0).pt with type := .string } } : PointObj).pt.type = .string := rfl

/-! ## C50 -/

/-- The point has no scale factor (or the scale factor 0) and an integer type. -/
structure PlainInt (p : PointObj) : Prop where
  sf : p.vsf = none ∨ Scaled p 0
  ty : p.pt.type.isInt = true

theorem plain_set {lib : FloatLib} {p : PointObj} (h : PlainInt p) (s : Text) :
    setValue lib p (.str s) =
      match pyInt 0 s with
      | some i => ({ p with base := some (.int i), dirty := true }, .ok ())
      | none => (p, .error .valueError) := by
  have hs : scaleOf p.vsf = none := by
    rcases h.sf with h | h <;> rw [h] <;> rfl
  unfold setValue
  rw [hs]
  simp only [PT.toValue, if_pos h.ty, sunsToInt]
  cases pyInt 0 s <;> rfl

/-- Text that denotes an integer is stored as that integer. -/
theorem C50_literal (lib : FloatLib) (p : PointObj) (h : PlainInt p) (s : Text) (i : Int)
    (hs : IntText s i) :
    setValue lib p (.str s) = ({ p with base := some (.int i), dirty := true }, .ok ()) := by
  rw [plain_set h, (pyInt_iff _ _).2 hs]

example : setValue exactLib (ePoint 0) (.str (t!" 0x1_f ")) =
    ({ ePoint 0 with base := some (.int 31), dirty := true }, .ok ()) := by
  refine C50_literal _ (ePoint 0) ⟨.inr rfl, rfl⟩ _ 31 ?_
  have d : Digits 16 (t!"1_f") 31 :=
    .sep (s := t!"1") (n := 1) (c := 'f') (d := 15) (.one ⟨by decide, .inl ⟨by decide, by decide⟩⟩)
      ⟨by decide, .inr ⟨by decide, .inl (by decide)⟩⟩
  exact .pos (w1 := t!" ") (w2 := t!" ") (n := 31) (by decide) (by decide) (.pre (u := []) (.inl ⟨rfl, .inl rfl⟩) (.inl rfl) d)

/-- Any other text is refused, and the point is left as it was. -/
theorem C50_refused (lib : FloatLib) (p : PointObj) (h : PlainInt p) (s : Text)
    (hs : ∀ i, ¬ IntText s i) : setValue lib p (.str s) = (p, .error .valueError) := by
  rw [plain_set h]
  cases hi : pyInt 0 s with
  | none => rfl
  | some i => exact absurd ((pyInt_iff _ _).1 hi) (hs i)

example : setValue exactLib (ePoint 0) (.str (t!"012")) = (ePoint 0, .error .valueError) := by
  refine C50_refused _ (ePoint 0) ⟨.inr rfl, rfl⟩ _ ?_
  intro i hi
  have := (pyInt_iff _ _).2 hi
  rw [show pyInt 0 (t!"012") = none by decide] at this
  cases this

/-- A text denotes at most one integer. -/
theorem C50_unique (s : Text) (i j : Int) (hi : IntText s i) (hj : IntText s j) : i = j := by
  have h1 := (pyInt_iff _ _).2 hi
  have h2 := (pyInt_iff _ _).2 hj
  rw [h1] at h2
  exact Option.some.inj h2

/-- The decimal text of an integer denotes the integer, so assigning it stores the integer. -/
theorem C50_decimal (lib : FloatLib) (p : PointObj) (h : PlainInt p) (i : Int) :
    IntText (intDec i) i ∧
    setValue lib p (.str (intDec i)) = ({ p with base := some (.int i), dirty := true }, .ok ()) := by
  have := (pyInt_iff _ _).1 (pyInt_intDec 0 (.inl rfl) i)
  exact ⟨this, C50_literal lib p h _ i this⟩

example : intDec (-120) = t!"-120" := by decide

/-- C50, of Python's `int` in the model: `int(text, 0)` accepts exactly the integer literals and `int(text)`
exactly the decimal integers (numbers of definitions, maps and file names), each with the number it denotes. -/
theorem C50_int (s : Text) (i : Int) :
    (pyInt 0 s = some i ↔ IntText s i) ∧ (pyInt 10 s = some i ↔ DecText s i) :=
  ⟨pyInt_iff s i, pyInt10_iff s i⟩

/-- Leading zeros are accepted by `int(text)` only. -/
example : pyInt 10 (t!"00103") = some 103 ∧ pyInt 0 (t!"00103") = none ∧ pyInt 10 (t!"0x10") = none := by decide

end Verif
