import Verif.Lemmas.Mbmap

/-!
# Facts about register memory
-/

namespace Verif
open Spec

theorem memRegs_get {mem : RegMem} {n : Nat} : ∀ {a : Int} {rs : List Reg}, memRegs mem a n = some rs →
    rs.length = n ∧ ∀ i : Nat, i < n → mem (a + i) = rs[i]? := by
  induction n with
  | zero => intro a rs h; simp [memRegs] at h; subst h; simp
  | succ n ih =>
    intro a rs h
    unfold memRegs at h
    cases h1 : mem a with
    | none => rw [h1] at h; simp at h
    | some r =>
      cases h2 : memRegs mem (a + 1) n with
      | none => rw [h1, h2] at h; simp at h
      | some rs' =>
        rw [h1, h2] at h
        simp only [Option.some.injEq] at h
        subst h
        obtain ⟨i1, i2⟩ := ih h2
        refine ⟨by simp [i1], ?_⟩
        intro i hi
        cases i with
        | zero => simp [h1]
        | succ i =>
          have := i2 i (by omega)
          rw [List.getElem?_cons_succ, ← this]
          congr 1
          push_cast
          omega

theorem memRegs_length {mem : RegMem} {n : Nat} {a : Int} {rs : List Reg} (h : memRegs mem a n = some rs) : rs.length = n :=
  (memRegs_get h).1

theorem memRegs_exists {mem : RegMem} {n : Nat} : ∀ {a : Int}, (∀ x, a ≤ x → x < a + n → mem x ≠ none) →
    ∃ rs, memRegs mem a n = some rs := by
  induction n with
  | zero => intro a _; exact ⟨[], rfl⟩
  | succ n ih =>
    intro a h
    obtain ⟨rs, hrs⟩ := ih (a := a + 1) (fun x h1 h2 => h x (by omega) (by push_cast; omega))
    have h0 := h a (by omega) (by push_cast; omega)
    cases h1 : mem a with
    | none => exact absurd h1 h0
    | some r =>
      refine ⟨r :: rs, ?_⟩
      unfold memRegs
      rw [h1, hrs]

/-- Registers exist if and only if `memRegs` gives them. -/
theorem memRegs_iff {mem : RegMem} {n : Nat} {a : Int} : memRegs mem a n ≠ none ↔ ∀ x, a ≤ x → x < a + n → mem x ≠ none := by
  constructor
  · intro h x h1 h2
    obtain ⟨rs, hrs⟩ := Option.ne_none_iff_exists'.1 h
    obtain ⟨l, g⟩ := memRegs_get hrs
    have := g (x - a).toNat (by omega)
    rw [show a + ((x - a).toNat : Int) = x by omega] at this
    rw [this]
    have hlt : (x - a).toNat < rs.length := by omega
    rw [List.getElem?_eq_getElem hlt]
    simp
  · intro h
    obtain ⟨rs, hrs⟩ := memRegs_exists h
    rw [hrs]; simp

theorem memRegs_congr {mem mem' : RegMem} {n : Nat} : ∀ {a : Int}, (∀ x, a ≤ x → x < a + n → mem x = mem' x) →
    memRegs mem a n = memRegs mem' a n := by
  induction n with
  | zero => intro a _; rfl
  | succ n ih =>
    intro a h
    unfold memRegs
    rw [h a (by omega) (by push_cast; omega), ih (fun x h1 h2 => h x (by omega) (by push_cast; omega))]

/-- Storing registers that all exist. -/
theorem memStore_all (rs : List Reg) : ∀ (mem : RegMem) (a : Int), memRegs mem a rs.length ≠ none →
    memStore mem a rs = ((fun x => if a ≤ x ∧ x < a + rs.length then rs[(x - a).toNat]? else mem x), true) := by
  induction rs with
  | nil =>
    intro mem a _
    unfold memStore
    congr 1
    funext x
    rw [if_neg (by simp)]
  | cons r rs ih =>
    intro mem a h
    rw [memRegs_iff] at h
    simp only [List.length_cons] at h ⊢
    have h0 := h a (by omega) (by push_cast; omega)
    cases h1 : mem a with
    | none => exact absurd h1 h0
    | some r0 =>
      unfold memStore
      rw [h1]
      dsimp only
      rw [ih]
      · congr 1
        funext x
        by_cases c1 : a + 1 ≤ x ∧ x < a + 1 + rs.length
        · rw [if_pos c1, if_pos (by push_cast; omega)]
          have : (x - a).toNat = (x - (a + 1)).toNat + 1 := by omega
          rw [this, List.getElem?_cons_succ]
        · rw [if_neg c1]
          unfold memSet
          by_cases c2 : x = a
          · subst c2
            rw [if_pos rfl, if_pos (by push_cast; omega)]
            simp
          · rw [if_neg c2, if_neg (by push_cast; omega)]
      · rw [memRegs_iff]
        intro x hx1 hx2
        unfold memSet
        by_cases c2 : x = a
        · rw [if_pos c2]; simp
        · rw [if_neg c2]; exact h x (by omega) (by push_cast; omega)

theorem regBytes_get (rs : List Reg) (i : Nat) (hi : i < rs.length) :
    rs[i]? = some ((regBytes rs).getD (2 * i) 0, (regBytes rs).getD (2 * i + 1) 0) := by
  induction rs generalizing i with
  | nil => simp at hi
  | cons r rs ih =>
    have e : regBytes (r :: rs) = r.1 :: r.2 :: regBytes rs := by simp [regBytes]
    cases i with
    | zero => rw [e]; simp
    | succ i =>
      rw [List.getElem?_cons_succ, ih i (by simpa using hi), e]
      have e1 : 2 * (i + 1) = 2 * i + 1 + 1 := by omega
      rw [e1]
      simp [List.getD_eq_getElem?_getD]

end Verif
