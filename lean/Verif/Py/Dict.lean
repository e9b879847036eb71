/-!
# Python dictionaries

A dictionary is a list of key/value pairs in insertion order with unique keys.
-/

namespace Verif

/-- `d.get(k)`. -/
def dictGet {κ α} [DecidableEq κ] (d : List (κ × α)) (k : κ) : Option α :=
  match d with
  | [] => none
  | (k', v) :: rest => if k' = k then some v else dictGet rest k

/-- `d[k] = v`: keeps the position of an existing key. -/
def dictSet {κ α} [DecidableEq κ] (d : List (κ × α)) (k : κ) (v : α) : List (κ × α) :=
  match d with
  | [] => [(k, v)]
  | (k', v') :: rest => if k' = k then (k, v) :: rest else (k', v') :: dictSet rest k v

/-- `del d[k]` for a key that may be absent. -/
def dictDel {κ α} [DecidableEq κ] (d : List (κ × α)) (k : κ) : List (κ × α) :=
  d.filter fun p => decide (p.1 ≠ k)

variable {κ α : Type} [DecidableEq κ]

theorem dictGet_set (d : List (κ × α)) (k : κ) (v : α) (k' : κ) :
    dictGet (dictSet d k v) k' = if k' = k then some v else dictGet d k' := by
  induction d with
  | nil =>
    simp only [dictSet, dictGet]
    by_cases h : k = k'
    · rw [if_pos h, if_pos h.symm]
    · rw [if_neg h, if_neg (Ne.symm h)]
  | cons p d ih =>
    obtain ⟨a, b⟩ := p
    simp only [dictSet]
    by_cases h : a = k
    · rw [if_pos h]
      simp only [dictGet]
      by_cases h2 : k = k'
      · rw [if_pos h2, if_pos h2.symm]
      · rw [if_neg h2, if_neg (Ne.symm h2), if_neg (by rw [h]; exact h2)]
    · rw [if_neg h]
      simp only [dictGet, ih]
      by_cases h2 : a = k'
      · rw [if_pos h2, if_pos h2, if_neg (by rw [← h2]; exact h)]
      · rw [if_neg h2, if_neg h2]

theorem dictGet_del (d : List (κ × α)) (k k' : κ) :
    dictGet (dictDel d k) k' = if k' = k then none else dictGet d k' := by
  induction d with
  | nil => simp [dictDel, dictGet]
  | cons p d ih =>
    obtain ⟨a, b⟩ := p
    unfold dictDel at ih ⊢
    rw [List.filter_cons]
    by_cases h : a = k
    · simp only [h, ne_eq, not_true_eq_false, decide_false, Bool.false_eq_true, if_false, ih, dictGet]
      by_cases h2 : k' = k
      · rw [if_pos h2, if_pos h2]
      · rw [if_neg h2, if_neg h2, if_neg (Ne.symm h2)]
    · simp only [ne_eq, h, not_false_eq_true, decide_true, if_true, dictGet, ih]
      by_cases h2 : a = k'
      · rw [if_pos h2, if_pos h2, if_neg (by rw [← h2]; exact h)]
      · rw [if_neg h2, if_neg h2]

theorem dictGet_eq_nil (d : List (κ × α)) : d = [] ↔ ∀ k, dictGet d k = none := by
  constructor
  · rintro rfl k; rfl
  · intro h
    cases d with
    | nil => rfl
    | cons p d =>
      have := h p.1
      simp [dictGet] at this

theorem dictSet_ne_nil (d : List (κ × α)) (k : κ) (v : α) : dictSet d k v ≠ [] := by
  cases d with
  | nil => simp [dictSet]
  | cons p d => simp only [dictSet]; split <;> simp

end Verif
