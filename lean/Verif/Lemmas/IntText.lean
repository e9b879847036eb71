import Verif.Spec.Value
import Verif.Lemmas.Text

/-!
# `int(s, 0)` accepts exactly the Python integer literals
-/

namespace Verif
open Spec

theorem digitOf_iff {base : Nat} (hb : base ≤ 16) (c : Char) (d : Nat) : digitOf base c = some d ↔ IsDigit base c d := by
  unfold digitOf digitVal IsDigit
  have e0 : '0'.toNat = 48 := rfl
  have ea : 'a'.toNat = 97 := rfl
  have eA : 'A'.toNat = 65 := rfl
  rw [e0, ea, eA]
  by_cases h1 : 48 ≤ c.toNat ∧ c.toNat ≤ 57
  · rw [if_pos h1]
    dsimp only
    by_cases h2 : c.toNat - 48 < base
    · rw [if_pos h2]; simp only [Option.some.injEq]; omega
    · rw [if_neg h2]; simp only [reduceCtorEq, false_iff]; omega
  · rw [if_neg h1]
    by_cases h2 : 97 ≤ c.toNat ∧ c.toNat ≤ 122
    · rw [if_pos h2]
      dsimp only
      by_cases h3 : c.toNat - 87 < base
      · rw [if_pos h3]; simp only [Option.some.injEq]; omega
      · rw [if_neg h3]; simp only [reduceCtorEq, false_iff]; omega
    · rw [if_neg h2]
      by_cases h3 : 65 ≤ c.toNat ∧ c.toNat ≤ 90
      · rw [if_pos h3]
        dsimp only
        by_cases h4 : c.toNat - 55 < base
        · rw [if_pos h4]; simp only [Option.some.injEq]; omega
        · rw [if_neg h4]; simp only [reduceCtorEq, false_iff]; omega
      · rw [if_neg h3]; simp only [reduceCtorEq, false_iff]; omega

theorem digitOf_ne {base : Nat} {c : Char} {d : Nat} (h : digitOf base c = some d) : c ≠ '_' ∧ isPySpace c = false ∧ c ≠ '+' ∧ c ≠ '-' := by
  have hr : (48 ≤ c.toNat ∧ c.toNat ≤ 57) ∨ (97 ≤ c.toNat ∧ c.toNat ≤ 122) ∨ (65 ≤ c.toNat ∧ c.toNat ≤ 90) := by
    unfold digitOf digitVal at h
    by_cases h1 : 48 ≤ c.toNat ∧ c.toNat ≤ 57
    · exact .inl h1
    · rw [if_neg h1] at h
      by_cases h2 : 97 ≤ c.toNat ∧ c.toNat ≤ 122
      · exact .inr (.inl h2)
      · rw [if_neg h2] at h
        by_cases h3 : 65 ≤ c.toNat ∧ c.toNat ≤ 90
        · exact .inr (.inr h3)
        · rw [if_neg h3] at h; simp at h
  refine ⟨?_, ?_, ?_, ?_⟩
  · rintro rfl; revert hr; decide
  · unfold isPySpace
    have e : ' '.toNat = 32 := rfl
    have : c ≠ ' ' := by rintro rfl; rw [e] at hr; omega
    simp [this]
    omega
  · rintro rfl; revert hr; decide
  · rintro rfl; revert hr; decide

theorem digitsAux_sound {base : Nat} (hb : base ≤ 16) (k : Nat) : ∀ (s s0 : Text) (n0 n : Nat), s.length ≤ k → Digits base s0 n0 →
    digitsAux base n0 s = some n → Digits base (s0 ++ s) n := by
  induction k with
  | zero =>
    intro s s0 n0 n hl h0 h
    have : s = [] := List.length_eq_zero_iff.1 (by omega)
    subst this
    simp [digitsAux] at h
    subst h
    simpa using h0
  | succ k ih =>
    intro s s0 n0 n hl h0 h
    match s with
    | [] => simp [digitsAux] at h; subst h; simpa using h0
    | c :: rest =>
      unfold digitsAux at h
      by_cases hc : c = '_'
      · rw [if_pos hc] at h
        match rest with
        | [] => simp at h
        | c' :: rest' =>
          dsimp only at h
          cases hd : digitOf base c' with
          | none => rw [hd] at h; simp at h
          | some d =>
            rw [hd] at h
            dsimp only at h
            have h1 := Digits.sep h0 ((digitOf_iff hb c' d).1 hd)
            have := ih rest' _ _ n (by simp at hl; omega) h1 h
            rw [hc]
            simpa using this
      · rw [if_neg hc] at h
        cases hd : digitOf base c with
        | none => rw [hd] at h; simp at h
        | some d =>
          rw [hd] at h
          dsimp only at h
          have h1 := Digits.more h0 ((digitOf_iff hb c d).1 hd)
          have := ih rest _ _ n (by simp at hl; omega) h1 h
          simpa using this

theorem digitsAux_append {base : Nat} (k : Nat) : ∀ (s t : Text) (n0 n : Nat), s.length ≤ k → digitsAux base n0 s = some n →
    digitsAux base n0 (s ++ t) = digitsAux base n t := by
  induction k with
  | zero =>
    intro s t n0 n hl h
    have : s = [] := List.length_eq_zero_iff.1 (by omega)
    subst this
    simp [digitsAux] at h
    subst h; rfl
  | succ k ih =>
    intro s t n0 n hl h
    match s with
    | [] => simp [digitsAux] at h; subst h; rfl
    | c :: rest =>
      rw [List.cons_append]
      unfold digitsAux at h
      conv => lhs; unfold digitsAux
      by_cases hc : c = '_'
      · rw [if_pos hc] at h ⊢
        match rest with
        | [] => simp at h
        | c' :: rest' =>
          dsimp only at h
          rw [List.cons_append]
          dsimp only
          cases hd : digitOf base c' with
          | none => rw [hd] at h; simp at h
          | some d =>
            rw [hd] at h
            exact ih rest' t _ n (by simp at hl; omega) h
      · rw [if_neg hc] at h ⊢
        cases hd : digitOf base c with
        | none => rw [hd] at h; simp at h
        | some d =>
          rw [hd] at h
          exact ih rest t _ n (by simp at hl; omega) h

theorem digitsVal_iff {base : Nat} (hb : base ≤ 16) (s : Text) (n : Nat) : digitsVal base s = some n ↔ Digits base s n := by
  constructor
  · intro h
    match s with
    | [] => simp [digitsVal] at h
    | c :: rest =>
      unfold digitsVal at h
      dsimp only at h
      cases hd : digitOf base c with
      | none => rw [hd] at h; simp at h
      | some d =>
        rw [hd] at h
        exact digitsAux_sound hb rest.length rest [c] d n (by omega) (.one ((digitOf_iff hb c d).1 hd)) h
  · intro h
    have happ : ∀ s t n, digitsVal base s = some n → digitsVal base (s ++ t) = digitsAux base n t := by
      intro s t n h
      match s with
      | [] => simp [digitsVal] at h
      | c :: rest =>
        rw [List.cons_append]
        unfold digitsVal at h ⊢
        dsimp only at h ⊢
        cases hd : digitOf base c with
        | none => rw [hd] at h; simp at h
        | some d =>
          rw [hd] at h
          exact digitsAux_append rest.length rest t d n (by omega) h
    induction h with
    | one hd =>
      unfold digitsVal
      dsimp only
      rw [(digitOf_iff hb _ _).2 hd]
      rfl
    | more _ hd ih =>
      have hd' := (digitOf_iff hb _ _).2 hd
      rw [happ _ _ _ ih]
      unfold digitsAux
      rw [if_neg (digitOf_ne hd').1, hd']
      rfl
    | sep _ hd ih =>
      have hd' := (digitOf_iff hb _ _).2 hd
      rw [happ _ _ _ ih]
      unfold digitsAux
      rw [if_pos rfl]
      dsimp only
      rw [hd']
      rfl

/-- A digit string starts with a digit. -/
theorem digits_head {base : Nat} {s : Text} {n : Nat} (h : Digits base s n) : ∃ c r d, s = c :: r ∧ IsDigit base c d := by
  induction h with
  | one hd => exact ⟨_, [], _, rfl, hd⟩
  | more _ _ ih => obtain ⟨c, r, d, rfl, h⟩ := ih; exact ⟨c, _, d, rfl, h⟩
  | sep _ _ ih => obtain ⟨c, r, d, rfl, h⟩ := ih; exact ⟨c, _, d, rfl, h⟩

/-- No white space or sign in a digit string. -/
theorem digits_chars {base : Nat} (hb : base ≤ 16) {s : Text} {n : Nat} (h : Digits base s n) :
    ∀ c ∈ s, isPySpace c = false ∧ c ≠ '+' ∧ c ≠ '-' := by
  induction h with
  | one hd =>
    have := digitOf_ne ((digitOf_iff hb _ _).2 hd)
    intro c hc
    simp at hc
    subst hc
    exact this.2
  | more _ hd ih =>
    have := digitOf_ne ((digitOf_iff hb _ _).2 hd)
    intro c hc
    rcases List.mem_append.1 hc with hc | hc
    · exact ih c hc
    · simp at hc; subst hc; exact this.2
  | sep _ hd ih =>
    have := digitOf_ne ((digitOf_iff hb _ _).2 hd)
    intro c hc
    rcases List.mem_append.1 hc with hc | hc
    · exact ih c hc
    · simp at hc
      rcases hc with rfl | rfl
      · decide
      · exact this.2

theorem skipUnderscore_iff {base : Nat} (hb : base ≤ 16) (r : Text) (n : Nat) :
    digitsVal base (skipUnderscore r) = some n ↔ ∃ u s, r = u ++ s ∧ (u = [] ∨ u = ['_']) ∧ Digits base s n := by
  rw [digitsVal_iff hb]
  constructor
  · intro h
    match r with
    | [] => exact ⟨[], _, rfl, .inl rfl, h⟩
    | c :: r' =>
      by_cases hc : c = '_'
      · subst hc
        exact ⟨['_'], r', rfl, .inr rfl, h⟩
      · have : skipUnderscore (c :: r') = c :: r' := by
          unfold skipUnderscore
          split
          · rename_i heq; simp at heq; exact absurd heq.1 hc
          · rfl
        rw [this] at h
        exact ⟨[], _, rfl, .inl rfl, h⟩
  · rintro ⟨u, s, rfl, hu, h⟩
    rcases hu with rfl | rfl
    · obtain ⟨c, r', d, rfl, hd⟩ := digits_head h
      have hc := (digitOf_ne ((digitOf_iff hb _ _).2 hd)).1
      have : skipUnderscore (c :: r') = c :: r' := by
        unfold skipUnderscore
        split
        · rename_i heq; simp at heq; exact absurd heq.1 hc
        · rfl
      simpa [this] using h
    · exact h

theorem xchars_not_digit : ∀ x : Char, (x = 'x' ∨ x = 'X' ∨ x = 'o' ∨ x = 'O' ∨ x = 'b' ∨ x = 'B') → ∀ d, ¬ IsDigit 10 x d := by
  intro x hx d h
  have := (digitOf_iff (by decide) _ _).2 h
  rcases hx with rfl | rfl | rfl | rfl | rfl | rfl <;> revert this <;> simp [digitOf, digitVal]

theorem digits10_second {x : Char} {r : Text} {n : Nat} (h : Digits 10 ('0' :: x :: r) n) :
    ¬ (x = 'x' ∨ x = 'X' ∨ x = 'o' ∨ x = 'O' ∨ x = 'b' ∨ x = 'B') := by
  intro hx
  have h2 := (digitsVal_iff (by decide) _ _).2 h
  unfold digitsVal at h2
  dsimp only at h2
  have e : digitOf 10 '0' = some 0 := by decide
  rw [e] at h2
  dsimp only at h2
  unfold digitsAux at h2
  have hne : x ≠ '_' := by rintro rfl; revert hx; decide
  rw [if_neg hne] at h2
  cases hd : digitOf 10 x with
  | none => rw [hd] at h2; simp at h2
  | some d => exact xchars_not_digit x hx d ((digitOf_iff (by decide) _ _).1 hd)

/-- `zeroOnly`: leading zeros are allowed in zero only. -/
def zeroOnly : Option Nat → Option Nat
  | some 0 => some 0
  | _ => none

theorem intBody_zero (x : Char) (r : Text) : intBody 0 ('0' :: x :: r) =
    if x = 'x' ∨ x = 'X' then digitsVal 16 (skipUnderscore r)
    else if x = 'o' ∨ x = 'O' then digitsVal 8 (skipUnderscore r)
    else if x = 'b' ∨ x = 'B' then digitsVal 2 (skipUnderscore r)
    else zeroOnly (digitsVal 10 ('0' :: x :: r)) := by
  simp only [intBody, zeroOnly, true_or, true_and, if_true]
  rfl

theorem intBody_iff (s : Text) (n : Nat) : intBody 0 s = some n ↔ Unsigned s n := by
  have hdec : digitsVal 10 s = some n ↔ Digits 10 s n := digitsVal_iff (by decide) s n
  match s with
  | [] =>
    simp only [intBody, digitsVal]
    constructor
    · intro h; simp at h
    · intro h
      cases h with
      | dec h _ => obtain ⟨_, _, _, h, _⟩ := digits_head h; cases h
  | [c] =>
    have e : intBody 0 [c] = digitsVal 10 [c] := by
      unfold intBody
      split
      · rename_i h; simp at h
      · rfl
    rw [e, hdec]
    constructor
    · intro h
      refine .dec h ?_
      intro hc
      simp at hc
      subst hc
      have := hdec.2 h
      simp [digitsVal, digitsAux, digitOf, digitVal] at this
      exact this.symm
    · intro h
      cases h with
      | dec h _ => exact h
  | c :: x :: r =>
    by_cases hc : c = '0'
    · subst hc
      rw [intBody_zero]
      by_cases c1 : x = 'x' ∨ x = 'X'
      · rw [if_pos c1, skipUnderscore_iff (by decide)]
        constructor
        · rintro ⟨u, s, rfl, hu, h⟩
          exact .pre (.inl ⟨rfl, c1⟩) hu h
        · intro h
          generalize hs : '0' :: x :: r = s at h
          cases h with
          | dec h _ => subst hs; exact absurd (by rcases c1 with h | h <;> simp [h]) (digits10_second h)
          | @pre x' s' n' b' u' hx hu h =>
            simp only [List.cons.injEq, true_and] at hs
            obtain ⟨rfl, rfl⟩ := hs
            have hb : b' = 16 := by
              rcases hx with ⟨rfl, _⟩ | ⟨_, h⟩ | ⟨_, h⟩
              · rfl
              · rcases c1 with rfl | rfl <;> rcases h with h | h <;> simp at h
              · rcases c1 with rfl | rfl <;> rcases h with h | h <;> simp at h
            exact ⟨_, _, rfl, hu, hb ▸ h⟩
      · rw [if_neg c1]
        by_cases c2 : x = 'o' ∨ x = 'O'
        · rw [if_pos c2, skipUnderscore_iff (by decide)]
          constructor
          · rintro ⟨u, s, rfl, hu, h⟩
            exact .pre (.inr (.inl ⟨rfl, c2⟩)) hu h
          · intro h
            generalize hs : '0' :: x :: r = s at h
            cases h with
            | dec h _ => subst hs; exact absurd (by rcases c2 with h | h <;> simp [h]) (digits10_second h)
            | @pre x' s' n' b' u' hx hu h =>
              simp only [List.cons.injEq, true_and] at hs
              obtain ⟨rfl, rfl⟩ := hs
              have hb : b' = 8 := by
                rcases hx with ⟨_, h⟩ | ⟨rfl, _⟩ | ⟨_, h⟩
                · exact absurd h c1
                · rfl
                · rcases c2 with rfl | rfl <;> rcases h with h | h <;> simp at h
              exact ⟨_, _, rfl, hu, hb ▸ h⟩
        · rw [if_neg c2]
          by_cases c3 : x = 'b' ∨ x = 'B'
          · rw [if_pos c3, skipUnderscore_iff (by decide)]
            constructor
            · rintro ⟨u, s, rfl, hu, h⟩
              exact .pre (.inr (.inr ⟨rfl, c3⟩)) hu h
            · intro h
              generalize hs : '0' :: x :: r = s at h
              cases h with
              | dec h _ => subst hs; exact absurd (by rcases c3 with h | h <;> simp [h]) (digits10_second h)
              | @pre x' s' n' b' u' hx hu h =>
                simp only [List.cons.injEq, true_and] at hs
                obtain ⟨rfl, rfl⟩ := hs
                have hb : b' = 2 := by
                  rcases hx with ⟨_, h⟩ | ⟨_, h⟩ | ⟨rfl, _⟩
                  · exact absurd h c1
                  · exact absurd h c2
                  · rfl
                exact ⟨_, _, rfl, hu, hb ▸ h⟩
          · rw [if_neg c3]
            have key : zeroOnly (digitsVal 10 ('0' :: x :: r)) = some n ↔
                digitsVal 10 ('0' :: x :: r) = some n ∧ n = 0 := by
              cases hd : digitsVal 10 ('0' :: x :: r) with
              | none => simp [zeroOnly]
              | some k =>
                cases k with
                | zero => simp only [zeroOnly, Option.some.injEq]; omega
                | succ k => simp only [zeroOnly, Option.some.injEq, reduceCtorEq, false_iff]; omega
            rw [key, hdec]
            constructor
            · rintro ⟨h1, h2⟩
              exact .dec h1 (fun _ => h2)
            · intro h
              generalize hs : '0' :: x :: r = s at h ⊢
              cases h with
              | dec h h0 => exact ⟨h, h0 (by rw [← hs]; rfl)⟩
              | @pre x' s' n' b' u' hx hu h =>
                simp only [List.cons.injEq, true_and] at hs
                obtain ⟨rfl, rfl⟩ := hs
                rcases hx with ⟨_, h⟩ | ⟨_, h⟩ | ⟨_, h⟩
                · exact absurd h c1
                · exact absurd h c2
                · exact absurd h c3
    · have e : intBody 0 (c :: x :: r) = digitsVal 10 (c :: x :: r) := by
        unfold intBody
        split
        · rename_i h; simp at h; exact absurd h.1 hc
        · rfl
      rw [e, hdec]
      constructor
      · intro h
        exact .dec h (by intro h; simp at h; exact absurd h hc)
      · intro h
        generalize hs : c :: x :: r = s at h ⊢
        cases h with
        | dec h _ => exact h
        | pre _ _ _ => simp at hs; exact absurd hs.1 hc

theorem unsigned_chars {s : Text} {n : Nat} (h : Unsigned s n) : ∀ c ∈ s, isPySpace c = false ∧ c ≠ '+' ∧ c ≠ '-' := by
  cases h with
  | dec h _ => exact digits_chars (by decide) h
  | @pre x' s' n' b' u' hx hu h =>
    intro c hc
    have hd := digits_chars (by rcases hx with ⟨h, _⟩ | ⟨h, _⟩ | ⟨h, _⟩ <;> omega) h
    simp only [List.mem_cons, List.mem_append] at hc
    rcases hc with rfl | rfl | hc | hc
    · decide
    · rcases hx with ⟨_, h | h⟩ | ⟨_, h | h⟩ | ⟨_, h | h⟩ <;> rw [h] <;> decide
    · rcases hu with rfl | rfl
      · simp at hc
      · simp at hc; subst hc; decide
    · exact hd c hc

theorem unsigned_ne {s : Text} {n : Nat} (h : Unsigned s n) : s ≠ [] := by
  cases h with
  | dec h _ => obtain ⟨_, _, _, h, _⟩ := digits_head h; simp [h]
  | pre _ _ _ => simp

theorem dropWhile_append_all {p : Char → Bool} (w s : Text) (h : ∀ c ∈ w, p c = true) : (w ++ s).dropWhile p = s.dropWhile p := by
  induction w with
  | nil => rfl
  | cons c w ih =>
    rw [List.cons_append, List.dropWhile_cons, if_pos (h c (by simp))]
    exact ih fun d hd => h d (by simp [hd])

theorem pyStrip_core {w1 w2 s : Text} (h1 : ∀ c ∈ w1, isPySpace c = true) (h2 : ∀ c ∈ w2, isPySpace c = true) (hs : ∀ c ∈ s, isPySpace c = false) :
    pyStrip (w1 ++ s ++ w2) = s := by
  by_cases hne : s = []
  · subst hne
    unfold pyStrip
    have : (w1 ++ [] ++ w2).dropWhile isPySpace = [] := by
      rw [List.append_nil, dropWhile_append_all _ _ h1]
      have := dropWhile_append_all w2 [] h2
      simpa using this
    rw [this]; rfl
  · unfold pyStrip
    rw [List.append_assoc, dropWhile_append_all _ _ h1]
    have e1 : (s ++ w2).dropWhile isPySpace = s ++ w2 := by
      apply dropWhile_self
      intro c hc
      rw [List.head?_append] at hc
      cases hh : s.head? with
      | none => simp at hh; exact absurd hh hne
      | some d =>
        rw [hh] at hc
        simp at hc
        subst hc
        exact hs d (List.mem_of_mem_head? hh)
    rw [e1, List.reverse_append, dropWhile_append_all _ _ (by intro c hc; exact h2 c (by simpa using hc))]
    have e2 : s.reverse.dropWhile isPySpace = s.reverse := by
      apply dropWhile_self
      intro c hc
      exact hs c (by simpa using List.mem_of_mem_head? hc)
    rw [e2, List.reverse_reverse]

theorem dropWhile_split (p : Char → Bool) (s : Text) : ∃ w, s = w ++ s.dropWhile p ∧ ∀ c ∈ w, p c = true := by
  refine ⟨s.takeWhile p, (List.takeWhile_append_dropWhile).symm, ?_⟩
  intro c hc
  induction s with
  | nil => simp at hc
  | cons d s ih =>
    rw [List.takeWhile_cons] at hc
    by_cases hd : p d = true
    · rw [if_pos hd] at hc
      rcases List.mem_cons.1 hc with rfl | hc
      · exact hd
      · exact ih hc
    · rw [if_neg hd] at hc; simp at hc

theorem pyStrip_split (s : Text) : ∃ w1 w2, s = w1 ++ pyStrip s ++ w2 ∧ (∀ c ∈ w1, isPySpace c = true) ∧ (∀ c ∈ w2, isPySpace c = true) := by
  obtain ⟨w1, e1, h1⟩ := dropWhile_split isPySpace s
  obtain ⟨w2, e2, h2⟩ := dropWhile_split isPySpace (s.dropWhile isPySpace).reverse
  refine ⟨w1, w2.reverse, ?_, h1, by intro c hc; exact h2 c (by simpa using hc)⟩
  unfold pyStrip
  rw [List.append_assoc, ← List.reverse_append, ← e2, List.reverse_reverse]
  exact e1

theorem isPySpace_iff (c : Char) : isPySpace c = true ↔ Blank c := by
  have hn : ∀ n, n < 128 → c.toNat = n → c = Char.ofNat n := by
    intro n _ h
    rw [← h, Char.ofNat_toNat]
  unfold isPySpace Blank
  constructor
  · intro h
    simp only [Bool.or_eq_true, beq_iff_eq, Bool.and_eq_true, decide_eq_true_eq] at h
    rcases h with h | ⟨h1, h2⟩
    · exact .inl h
    · have : c.toNat = 9 ∨ c.toNat = 10 ∨ c.toNat = 11 ∨ c.toNat = 12 ∨ c.toNat = 13 := by omega
      rcases this with h | h | h | h | h
      · exact .inr (.inl (hn _ (by decide) h))
      · exact .inr (.inr (.inl (hn _ (by decide) h)))
      · exact .inr (.inr (.inr (.inl (hn _ (by decide) h))))
      · exact .inr (.inr (.inr (.inr (.inl (hn _ (by decide) h)))))
      · exact .inr (.inr (.inr (.inr (.inr (hn _ (by decide) h)))))
  · rintro (rfl | rfl | rfl | rfl | rfl | rfl) <;> decide

theorem blanks {w : Text} (h : ∀ c ∈ w, isPySpace c = true) : ∀ c ∈ w, Blank c := fun c hc => (isPySpace_iff c).1 (h c hc)

theorem spaces {w : Text} (h : ∀ c ∈ w, Blank c) : ∀ c ∈ w, isPySpace c = true := fun c hc => (isPySpace_iff c).2 (h c hc)

/-- `int(s, 0)` gives the integer the text denotes, and a `ValueError` for all other texts. -/
theorem pyInt_iff (s : Text) (i : Int) : pyInt 0 s = some i ↔ IntText s i := by
  constructor
  · intro h
    obtain ⟨w1, w2, e, h1, h2⟩ := pyStrip_split s
    unfold pyInt at h
    generalize pyStrip s = t at e h
    subst e
    split at h
    · rename_i r
      cases hb : intBody 0 r with
      | none => rw [hb] at h; simp at h
      | some n =>
        rw [hb] at h; simp at h; subst h
        exact .minus (blanks h1) (blanks h2) ((intBody_iff _ _).1 hb)
    · rename_i r
      cases hb : intBody 0 r with
      | none => rw [hb] at h; simp at h
      | some n =>
        rw [hb] at h; simp at h; subst h
        exact .plus (blanks h1) (blanks h2) ((intBody_iff _ _).1 hb)
    · cases hb : intBody 0 t with
      | none => rw [hb] at h; simp at h
      | some n =>
        rw [hb] at h; simp at h; subst h
        exact .pos (blanks h1) (blanks h2) ((intBody_iff _ _).1 hb)
  · intro h
    cases h with
    | @pos w1 w2 t n h1 h2 hu =>
      have hc := unsigned_chars hu
      unfold pyInt
      rw [pyStrip_core (spaces h1) (spaces h2) (fun c hc' => (hc c hc').1)]
      obtain ⟨c, r, rfl⟩ := List.exists_cons_of_ne_nil (unsigned_ne hu)
      have := hc c (by simp)
      split
      · rename_i heq; simp at heq; exact absurd heq.1 this.2.2
      · rename_i heq; simp at heq; exact absurd heq.1 this.2.1
      · rw [(intBody_iff _ _).2 hu]; rfl
    | @plus w1 w2 t n h1 h2 hu =>
      have hc := unsigned_chars hu
      unfold pyInt
      rw [pyStrip_core (spaces h1) (spaces h2) (by
        intro c hc'
        rcases List.mem_cons.1 hc' with rfl | hc'
        · decide
        · exact (hc c hc').1)]
      show (intBody 0 t).map _ = _
      rw [(intBody_iff _ _).2 hu]; rfl
    | @minus w1 w2 t n h1 h2 hu =>
      have hc := unsigned_chars hu
      unfold pyInt
      rw [pyStrip_core (spaces h1) (spaces h2) (by
        intro c hc'
        rcases List.mem_cons.1 hc' with rfl | hc'
        · decide
        · exact (hc c hc').1)]
      show (intBody 0 t).map _ = _
      rw [(intBody_iff _ _).2 hu]; rfl

theorem intBody10 (s : Text) (n : Nat) : intBody 10 s = some n ↔ Digits 10 s n := by
  rw [← digitsVal_iff (by decide)]
  unfold intBody
  split
  · simp
  · simp

theorem digits_ne {s : Text} {n : Nat} (h : Digits 10 s n) : s ≠ [] := by
  obtain ⟨_, _, _, h, _⟩ := digits_head h
  simp [h]

/-- `int(s)` gives the integer the decimal text denotes, and a `ValueError` for all other texts. -/
theorem pyInt10_iff (s : Text) (i : Int) : pyInt 10 s = some i ↔ DecText s i := by
  constructor
  · intro h
    obtain ⟨w1, w2, e, h1, h2⟩ := pyStrip_split s
    unfold pyInt at h
    generalize pyStrip s = t at e h
    subst e
    split at h
    · rename_i r
      cases hb : intBody 10 r with
      | none => rw [hb] at h; simp at h
      | some n =>
        rw [hb] at h; simp at h; subst h
        exact .minus (blanks h1) (blanks h2) ((intBody10 _ _).1 hb)
    · rename_i r
      cases hb : intBody 10 r with
      | none => rw [hb] at h; simp at h
      | some n =>
        rw [hb] at h; simp at h; subst h
        exact .plus (blanks h1) (blanks h2) ((intBody10 _ _).1 hb)
    · cases hb : intBody 10 t with
      | none => rw [hb] at h; simp at h
      | some n =>
        rw [hb] at h; simp at h; subst h
        exact .pos (blanks h1) (blanks h2) ((intBody10 _ _).1 hb)
  · intro h
    cases h with
    | @pos w1 w2 t n h1 h2 hu =>
      have hc := digits_chars (by decide) hu
      unfold pyInt
      rw [pyStrip_core (spaces h1) (spaces h2) (fun c hc' => (hc c hc').1)]
      obtain ⟨c, r, rfl⟩ := List.exists_cons_of_ne_nil (digits_ne hu)
      have := hc c (by simp)
      split
      · rename_i heq; simp at heq; exact absurd heq.1 this.2.2
      · rename_i heq; simp at heq; exact absurd heq.1 this.2.1
      · rw [(intBody10 _ _).2 hu]; rfl
    | @plus w1 w2 t n h1 h2 hu =>
      have hc := digits_chars (by decide) hu
      unfold pyInt
      rw [pyStrip_core (spaces h1) (spaces h2) (by
        intro c hc'
        rcases List.mem_cons.1 hc' with rfl | hc'
        · decide
        · exact (hc c hc').1)]
      show (intBody 10 t).map _ = _
      rw [(intBody10 _ _).2 hu]; rfl
    | @minus w1 w2 t n h1 h2 hu =>
      have hc := digits_chars (by decide) hu
      unfold pyInt
      rw [pyStrip_core (spaces h1) (spaces h2) (by
        intro c hc'
        rcases List.mem_cons.1 hc' with rfl | hc'
        · decide
        · exact (hc c hc').1)]
      show (intBody 10 t).map _ = _
      rw [(intBody10 _ _).2 hu]; rfl

instance (s : Text) (i : Int) : Decidable (IntText s i) := decidable_of_iff _ (pyInt_iff s i)
instance (s : Text) (i : Int) : Decidable (DecText s i) := decidable_of_iff _ (pyInt10_iff s i)

end Verif
