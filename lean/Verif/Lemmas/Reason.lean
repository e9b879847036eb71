import Verif.Model.Reason

/-!
# Encoding a value raises no `SunSpecClientError`
-/

namespace Verif

theorem packU_own (n : Nat) (v : Int) : packU n v ≠ .error .sunSpecClientError := by unfold packU; split <;> simp
theorem packS_own (n : Nat) (v : Int) : packS n v ≠ .error .sunSpecClientError := by unfold packS; split <;> simp

theorem map_own {α β} {r : Py α} (f : α → β) (h : r ≠ .error .sunSpecClientError) : r.map f ≠ .error .sunSpecClientError := by
  cases r with
  | ok a => simp [Except.map]
  | error e => simpa [Except.map] using h

theorem b16decode_own : ∀ n (s : List Char), s.length ≤ n → b16decode s ≠ .error .sunSpecClientError := by
  intro n
  induction n with
  | zero => intro s h; have : s = [] := List.length_eq_zero_iff.1 (by omega); subst this; simp [b16decode]
  | succ n ih =>
    intro s h
    match s, h with
    | [], _ => simp [b16decode]
    | [_], _ => simp [b16decode]
    | a :: b :: rest, h =>
      have h' : rest.length ≤ n := by simp only [List.length_cons] at h; omega
      have hr := ih rest h'
      rw [b16decode]
      cases hexVal a <;> cases hexVal b <;> dsimp only <;> try simp
      generalize b16decode rest = r at hr
      cases r with
      | ok d => simp
      | error e => simpa using hr

theorem packF32_own (f : Flt) : packF32 f ≠ .error .sunSpecClientError := by
  unfold packF32
  split
  · split <;> simp
  · simp
  · simp
  · simp

theorem toData_own (t : PT) (v : Option Val) (n : Nat) : t.toData v n ≠ .error .sunSpecClientError := by
  have hf : floatToData v ≠ .error .sunSpecClientError := by
    unfold floatToData
    split
    · simp
    · exact map_own _ (packF32_own _)
    · split
      · exact map_own _ (packF32_own _)
      · simp
    · simp
  have h6 : ∀ s, ipv6ToData s (some n) ≠ .error .sunSpecClientError := by
    intro s
    unfold ipv6ToData
    have := b16decode_own _ (dropColons s) (Nat.le_refl _)
    split
    · rename_i e h; rw [h] at this; simpa using this
    · simp
  have hs : ∀ s, strToData s (some n) ≠ .error .sunSpecClientError := by
    intro s
    unfold strToData
    dsimp only
    unfold latin1Enc
    split
    · rename_i e h; split at h <;> simp at h; subst h; simp
    · split <;> simp
  unfold PT.toData
  split <;> first
    | exact packU_own _ _
    | exact packS_own _ _
    | exact h6 _
    | exact hs _
    | exact hf
    | simp

end Verif
