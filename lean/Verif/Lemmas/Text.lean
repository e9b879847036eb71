import Verif.Py.Text

/-!
# Lemmas about integer texts
-/

namespace Verif

/-- The decimal digit character of `d`. -/
def dchr (d : Nat) : Char := Char.ofNat (48 + d)

theorem dchr_facts : ∀ d : Fin 10, digitOf 10 (dchr d) = some d.val ∧ digitOf 16 (dchr d) = some d.val ∧
    dchr d ≠ '_' ∧ dchr d ≠ '-' ∧
    dchr d ≠ '+' ∧ isPySpace (dchr d) = false ∧ dchr d ≠ 'x' ∧ dchr d ≠ 'X' ∧ dchr d ≠ 'o' ∧ dchr d ≠ 'O' ∧
    dchr d ≠ 'b' ∧ dchr d ≠ 'B' ∧ (d.val ≠ 0 → dchr d ≠ '0') := by decide

theorem dchr_lt {d : Nat} (h : d < 10) : digitOf 10 (dchr d) = some d ∧ digitOf 16 (dchr d) = some d ∧
    dchr d ≠ '_' ∧ dchr d ≠ '-' ∧
    dchr d ≠ '+' ∧ isPySpace (dchr d) = false ∧ dchr d ≠ 'x' ∧ dchr d ≠ 'X' ∧ dchr d ≠ 'o' ∧ dchr d ≠ 'O' ∧
    dchr d ≠ 'b' ∧ dchr d ≠ 'B' ∧ (d ≠ 0 → dchr d ≠ '0') := dchr_facts ⟨d, h⟩

theorem natDecF_digits (fuel n : Nat) (h : n < fuel) : ∃ ds : List Nat,
    natDecF fuel n = ds.map dchr ∧ (∀ d ∈ ds, d < 10) ∧ ds.foldl (fun a d => a * 10 + d) 0 = n ∧
    ds ≠ [] ∧ (0 < n → ds.head? ≠ some 0) ∧ (n = 0 → ds = [0]) := by
  induction fuel generalizing n with
  | zero => omega
  | succ fuel ih =>
    unfold natDecF
    by_cases hn : n < 10
    · rw [if_pos hn]
      exact ⟨[n], rfl, by simpa using hn, by simp, by simp, by simp; omega, by simp⟩
    · rw [if_neg hn]
      obtain ⟨ds, h1, h2, h3, h4, h5, h6⟩ := ih (n / 10) (by omega)
      refine ⟨ds ++ [n % 10], ?_, ?_, ?_, ?_, ?_, ?_⟩
      · rw [h1, List.map_append]; rfl
      · intro d hd
        rcases List.mem_append.1 hd with hd | hd
        · exact h2 d hd
        · simp at hd; omega
      · rw [List.foldl_append, h3]; simp; omega
      · simp
      · intro _
        cases ds with
        | nil => exact absurd rfl h4
        | cons d ds => simpa using h5 (by omega)
      · omega

theorem natDec_digits (n : Nat) : ∃ ds : List Nat,
    natDec n = ds.map dchr ∧ (∀ d ∈ ds, d < 10) ∧ ds.foldl (fun a d => a * 10 + d) 0 = n ∧
    ds ≠ [] ∧ (0 < n → ds.head? ≠ some 0) ∧ (n = 0 → ds = [0]) := natDecF_digits _ _ (by omega)

theorem digitsAux_digits (ds : List Nat) (h : ∀ d ∈ ds, d < 10) (acc : Nat) :
    digitsAux 10 acc (ds.map dchr) = some (ds.foldl (fun a d => a * 10 + d) acc) := by
  induction ds generalizing acc with
  | nil => simp [digitsAux]
  | cons d ds ih =>
    obtain ⟨h1, _, h3, _⟩ := dchr_lt (h d (by simp))
    rw [List.map_cons, digitsAux.eq_def]
    dsimp only
    rw [if_neg h3, h1]
    simp only [List.foldl_cons]
    exact ih (fun x hx => h x (by simp [hx])) _

theorem digitsVal_digits (ds : List Nat) (h : ∀ d ∈ ds, d < 10) (hne : ds ≠ []) :
    digitsVal 10 (ds.map dchr) = some (ds.foldl (fun a d => a * 10 + d) 0) := by
  cases ds with
  | nil => exact absurd rfl hne
  | cons d ds =>
    rw [List.map_cons, digitsVal, (dchr_lt (h d (by simp))).1]
    simp only [List.foldl_cons, Nat.zero_mul, Nat.zero_add]
    exact digitsAux_digits ds (fun x hx => h x (by simp [hx])) d

theorem dropWhile_self {p : Char → Bool} {s : Text} (h : ∀ c ∈ s.head?, p c = false) : s.dropWhile p = s := by
  cases s with
  | nil => rfl
  | cons c s => rw [List.dropWhile_cons, h c (by simp)]; simp

theorem pyStrip_self {s : Text} (h : ∀ c ∈ s, isPySpace c = false) : pyStrip s = s := by
  unfold pyStrip
  rw [dropWhile_self (fun c hc => h c (List.mem_of_mem_head? hc)), dropWhile_self, List.reverse_reverse]
  intro c hc
  exact h c (List.mem_reverse.1 (List.mem_of_mem_head? hc))

theorem intBody_natDec (base : Nat) (hb : base = 0 ∨ base = 10) (n : Nat) :
    intBody base (natDec n) = some n := by
  obtain ⟨ds, h1, h2, h3, h4, h5, h6⟩ := natDec_digits n
  have hv := digitsVal_digits ds h2 h4
  rw [h3] at hv
  rw [h1, intBody.eq_def]
  match ds, h4, h5, h6, h2, hv with
  | [d], _, _, _, h2, hv =>
    simp only [List.map_cons, List.map_nil] at hv ⊢
    rcases hb with rfl | rfl <;> simpa using hv
  | d :: e :: ds, _, h5, h6, h2, hv =>
    have hn : 0 < n := by
      rcases Nat.eq_zero_or_pos n with h | h
      · have := h6 h; simp at this
      · exact h
    have hd : d ≠ 0 := by have := h5 hn; simpa using this
    obtain ⟨_, _, _, _, _, _, _, _, _, _, _, _, h0⟩ := dchr_lt (h2 d (by simp))
    have h0 := h0 hd
    simp only [List.map_cons] at hv ⊢
    rcases hb with rfl | rfl
    · split
      · rename_i heq
        simp only [List.cons.injEq] at heq
        exact absurd heq.1 h0
      · simpa using hv
    · split
      · rename_i heq
        simp only [List.cons.injEq] at heq
        exact absurd heq.1 h0
      · simpa using hv

theorem natDec_chars (n : Nat) : ∀ c ∈ natDec n, isPySpace c = false ∧ c ≠ '-' ∧ c ≠ '+' ∧ c ≠ ' ' := by
  obtain ⟨ds, h1, h2, _⟩ := natDec_digits n
  intro c hc
  rw [h1] at hc
  obtain ⟨d, hd, rfl⟩ := List.mem_map.1 hc
  obtain ⟨_, _, _, a, b, c, _⟩ := dchr_lt (h2 d hd)
  refine ⟨c, a, b, ?_⟩
  intro h; rw [h] at c; simp [isPySpace] at c

theorem natDec_ne_nil (n : Nat) : natDec n ≠ [] := by
  obtain ⟨ds, h1, _, _, h4, _⟩ := natDec_digits n
  rw [h1]; simpa using h4

/-- `int(str(i))` and `int(str(i), 0)` are `i`. -/
theorem pyInt_intDec (base : Nat) (hb : base = 0 ∨ base = 10) (i : Int) : pyInt base (intDec i) = some i := by
  unfold pyInt intDec
  by_cases hi : i < 0
  · rw [if_pos hi, pyStrip_self]
    · simp only [intBody_natDec base hb, Option.map_some]; congr 1; omega
    · intro c hc
      rcases List.mem_cons.1 hc with rfl | hc
      · rfl
      · exact (natDec_chars _ c hc).1
  · rw [if_neg hi, pyStrip_self (fun c hc => (natDec_chars _ c hc).1)]
    have h := intBody_natDec base hb i.natAbs
    have hc := natDec_chars i.natAbs
    generalize natDec i.natAbs = s at h hc
    split
    · exact absurd rfl (hc '-' (by simp)).2.1
    · exact absurd rfl (hc '+' (by simp)).2.2.1
    · rw [h, Option.map_some]; congr 1; omega

/-- `int('%02x' % b, 16)` is `b`. -/
theorem pyInt_hex2L (b : Byte) : pyInt 16 (hex2L b) = some (b.toNat : Int) := by
  have : ∀ n : Fin 256, pyInt 16 (hex2L (BitVec.ofNat 8 n.val)) = some (n.val : Int) := by decide +kernel
  have h := this ⟨b.toNat, b.isLt⟩
  simpa using h

end Verif
