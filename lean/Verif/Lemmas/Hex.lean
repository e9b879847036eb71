import Verif.Model.Script
import Verif.Lemmas.Text

/-!
# Lemmas about hexadecimal texts
-/

namespace Verif

theorem hexDigitL_facts : ∀ d : Fin 16, digitOf 16 (hexDigitL d) = some d.val ∧ hexDigitL d ≠ '_' ∧ isPySpace (hexDigitL d) = false := by decide

theorem hexDigitL_lt {d : Nat} (h : d < 16) : digitOf 16 (hexDigitL d) = some d ∧ hexDigitL d ≠ '_' ∧ isPySpace (hexDigitL d) = false :=
  hexDigitL_facts ⟨d, h⟩

theorem natHexF_digits (fuel n : Nat) (h : n < fuel) : ∃ ds : List Nat,
    natHexF fuel n = ds.map hexDigitL ∧ (∀ d ∈ ds, d < 16) ∧ ds.foldl (fun a d => a * 16 + d) 0 = n ∧ ds ≠ [] := by
  induction fuel generalizing n with
  | zero => omega
  | succ fuel ih =>
    unfold natHexF
    by_cases hn : n < 16
    · rw [if_pos hn]
      exact ⟨[n], rfl, by simpa using hn, by simp, by simp⟩
    · rw [if_neg hn]
      obtain ⟨ds, h1, h2, h3, h4⟩ := ih (n / 16) (by omega)
      refine ⟨ds ++ [n % 16], ?_, ?_, ?_, ?_⟩
      · rw [h1, List.map_append]; rfl
      · intro d hd
        rcases List.mem_append.1 hd with hd | hd
        · exact h2 d hd
        · simp at hd; omega
      · rw [List.foldl_append, h3]; simp; omega
      · simp

theorem digitsAux_hex (ds : List Nat) (h : ∀ d ∈ ds, d < 16) (acc : Nat) :
    digitsAux 16 acc (ds.map hexDigitL) = some (ds.foldl (fun a d => a * 16 + d) acc) := by
  induction ds generalizing acc with
  | nil => simp [digitsAux]
  | cons d ds ih =>
    obtain ⟨h1, h3, _⟩ := hexDigitL_lt (h d (by simp))
    rw [List.map_cons, digitsAux.eq_def]
    dsimp only
    rw [if_neg h3, h1]
    simp only [List.foldl_cons]
    exact ih (fun x hx => h x (by simp [hx])) _

theorem foldl_zeros (k : Nat) : (List.replicate k 0).foldl (fun a d => a * 16 + d) 0 = 0 := by
  induction k with
  | zero => rfl
  | succ k ih => rw [List.replicate_succ, List.foldl_cons]; simpa using ih

/-- The text `'%0wx' % n` has the digits of `n`, with zeros in front. -/
theorem hexW_digits (w : Nat) (i : Int) (hi : 0 ≤ i) : ∃ ds : List Nat,
    hexW w i = ds.map hexDigitL ∧ (∀ d ∈ ds, d < 16) ∧ ds.foldl (fun a d => a * 16 + d) 0 = i.natAbs ∧ ds ≠ [] := by
  unfold hexW
  simp only []
  rw [if_neg (by omega)]
  obtain ⟨ds, h1, h2, h3, h4⟩ := natHexF_digits (i.natAbs + 1) i.natAbs (by omega)
  refine ⟨List.replicate (w - ds.length) 0 ++ ds, ?_, ?_, ?_, ?_⟩
  · rw [h1, List.map_append, List.length_map, List.map_replicate]; rfl
  · intro d hd
    rcases List.mem_append.1 hd with hd | hd
    · rw [(List.mem_replicate.1 hd).2]; omega
    · exact h2 d hd
  · rw [List.foldl_append, foldl_zeros, h3]
  · simp [h4]

/-- `int('0x%0wx' % n, 0)` is `n`. -/
theorem pyInt_hexW (w : Nat) (i : Int) (hi : 0 ≤ i) : pyInt 0 (t!"0x" ++ hexW w i) = some i := by
  obtain ⟨ds, h1, h2, h3, h4⟩ := hexW_digits w i hi
  rw [h1]
  unfold pyInt
  rw [pyStrip_self]
  · show (intBody 0 ('0' :: 'x' :: ds.map hexDigitL)).map _ = _
    rw [intBody.eq_def]
    simp only []
    rw [if_pos (by simp)]
    cases ds with
    | nil => exact absurd rfl h4
    | cons d ds =>
      obtain ⟨e1, e2, _⟩ := hexDigitL_lt (h2 d (by simp))
      have hs : skipUnderscore ((d :: ds).map hexDigitL) = (d :: ds).map hexDigitL := by
        rw [List.map_cons, skipUnderscore]
        intro r hr
        exact e2 (List.cons.inj hr).1
      rw [hs, List.map_cons, digitsVal, e1]
      simp only []
      rw [digitsAux_hex ds (fun x hx => h2 x (by simp [hx]))]
      rw [List.foldl_cons, Nat.zero_mul, Nat.zero_add] at h3
      rw [h3, Option.map_some]
      congr 1; omega
  · intro c hc
    rcases List.mem_append.1 hc with hc | hc
    · simp only [List.mem_cons, List.not_mem_nil, or_false] at hc
      rcases hc with rfl | rfl <;> decide
    · obtain ⟨d, hd, rfl⟩ := List.mem_map.1 hc
      exact (hexDigitL_lt (h2 d hd)).2.2

/-- At least `w` digits. -/
theorem hexW_length (w : Nat) (i : Int) (hi : 0 ≤ i) : w ≤ (hexW w i).length := by
  unfold hexW
  simp only []
  rw [if_neg (by omega), List.length_append, List.length_replicate]
  omega

end Verif
