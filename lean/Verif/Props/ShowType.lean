import Verif.Spec.ShowType
import Verif.Props.Show
import Verif.Props.Load

/-!
# C88: the texts of definitions and maps tell their contents
-/

namespace Verif
open Spec

theorem word_name (t : PT) : Word t.name := by cases t <;> (unfold Word; decide)

theorem name_inj {t u : PT} (h : t.name = u.name) : t = u := by revert h; cases t <;> cases u <;> decide

theorem word_dec (i : Int) : Word (intDec i) := ⟨(intDec_chars i).1, (intDec_chars i).2.1⟩

theorem word_opt {s : Option Text} (h : OptWord s) : Word (strOpt s) := by
  cases s with
  | none => unfold Word strOpt; decide
  | some t => exact (h t rfl).1

theorem strOpt_inj {s t : Option Text} (h1 : OptWord s) (h2 : OptWord t) (h : strOpt s = strOpt t) : s = t := by
  cases s with
  | none =>
    cases t with
    | none => rfl
    | some t => exact absurd h.symm (h2 t rfl).2
  | some s =>
    cases t with
    | none => exact absurd h (h1 s rfl).2
    | some t => exact congrArg some h

theorem showPointType_inj {p q : PointType} (hp : WordPoint p) (hq : WordPoint q) {r r' : Text}
    (h : showPointType p ++ '\n' :: r = showPointType q ++ '\n' :: r') : pointFacts p = pointFacts q ∧ r = r' := by
  unfold showPointType at h
  simp only [List.append_assoc, List.cons_append, List.nil_append, List.cons.injEq, true_and] at h
  obtain ⟨e1, h⟩ := split_at hp.1.1 hq.1.1 h
  simp only [List.cons.injEq, true_and] at h
  obtain ⟨e2, h⟩ := split_at (word_dec _).1 (word_dec _).1 h
  simp only [List.cons.injEq, true_and] at h
  obtain ⟨e3, h⟩ := split_at (word_name _).1 (word_name _).1 h
  simp only [List.cons.injEq, true_and] at h
  obtain ⟨e4, h⟩ := split_at (word_dec _).1 (word_dec _).1 h
  simp only [List.cons.injEq, true_and] at h
  obtain ⟨e5, h⟩ := split_at (word_opt hp.2).1 (word_opt hq.2).1 h
  simp only [List.cons.injEq, true_and] at h
  have w1 : ∀ b : Bool, ' ' ∉ (if b then t!"rw" else t!"r") := by decide
  have w2 : ∀ b : Bool, '\n' ∉ (if b then t!"true" else t!"false") := by decide
  obtain ⟨e6, h⟩ := split_at (w1 _) (w1 _) h
  simp only [List.cons.injEq, true_and] at h
  obtain ⟨e7, h⟩ := split_at (w2 _) (w2 _) h
  have i6 : ∀ a b : Bool, (if a then t!"rw" else t!"r") = (if b then t!"rw" else t!"r") → a = b := by decide
  have i7 : ∀ a b : Bool, (if a then t!"true" else t!"false") = (if b then t!"true" else t!"false") → a = b := by decide
  unfold pointFacts
  rw [e1, intDec_inj e2, name_inj e3, intDec_inj e4, strOpt_inj hp.2 hq.2 e5, i6 _ _ e6, i7 _ _ e7]
  exact ⟨rfl, h⟩

theorem showPointTypes_inj : ∀ {ps qs : List PointType}, (∀ p ∈ ps, WordPoint p) → (∀ q ∈ qs, WordPoint q) → ∀ {r r' : Text},
    r.head? ≠ some ' ' → r'.head? ≠ some ' ' → showPointTypes ps ++ r = showPointTypes qs ++ r' → ps.map pointFacts = qs.map pointFacts ∧ r = r'
  | [], [], _, _, r, r', _, _, h => ⟨rfl, h⟩
  | [], q :: qs, _, _, r, r', hr, _, h => by
    have h : r = showPointTypes (q :: qs) ++ r' := h
    rw [h, showPointTypes] at hr
    exact absurd rfl hr
  | p :: ps, [], _, _, r, r', _, hr, h => by
    have h : showPointTypes (p :: ps) ++ r = r' := h
    rw [← h, showPointTypes] at hr
    exact absurd rfl hr
  | p :: ps, q :: qs, hp, hq, r, r', hr, hr', h => by
    rw [showPointTypes, showPointTypes] at h
    simp only [List.append_assoc, List.cons_append, List.nil_append, List.cons.injEq, true_and] at h
    obtain ⟨h1, h2⟩ := showPointType_inj (hp p (by simp)) (hq q (by simp)) h
    obtain ⟨h3, h4⟩ := showPointTypes_inj (fun x hx => hp x (by simp [hx])) (fun x hx => hq x (by simp [hx])) hr hr' h2
    exact ⟨by rw [List.map_cons, List.map_cons, h1, h3], h4⟩

theorem lenText_word {n : NumText} (h : ∀ s, n = .str s → Word s) : Word (lenText n) := by
  cases n with
  | int i => exact word_dec i
  | str s => exact h s rfl

theorem lenText_inj {m n : NumText} (h : lenText m = lenText n) : SameLen m n := by
  cases m <;> cases n
  · exact intDec_inj h
  · exact h.symm
  · exact h
  · exact h

theorem showBlockType_inj {b c : BlockType} (hb : WordBlock b) (hc : WordBlock c) {r r' : Text} (hr : r.head? ≠ some ' ') (hr' : r'.head? ≠ some ' ')
    (h : showBlockType b ++ r = showBlockType c ++ r') : AlikeBlock b c ∧ r = r' := by
  unfold showBlockType at h
  simp only [List.append_assoc, List.cons_append, List.nil_append, List.cons.injEq, true_and] at h
  have w1 : ∀ b : Bool, ' ' ∉ (if b then t!"repeating" else t!"fixed") := by decide
  obtain ⟨e1, h⟩ := split_at (w1 _) (w1 _) h
  simp only [List.cons.injEq, true_and] at h
  obtain ⟨e2, h⟩ := split_at (lenText_word hb.1).2 (lenText_word hc.1).2 h
  obtain ⟨e3, h⟩ := showPointTypes_inj hb.2 hc.2 hr hr' h
  have i1 : ∀ a b : Bool, (if a then t!"repeating" else t!"fixed") = (if b then t!"repeating" else t!"fixed") → a = b := by decide
  exact ⟨⟨i1 _ _ e1, lenText_inj e2, e3⟩, h⟩

/-- C88: definitions with the same text have the same id, length and blocks with the same points. -/
theorem C88_type (t u : ModelType) (ht : WordType t) (hu : WordType u) (h : showType t = showType u) : AlikeType t u := by
  unfold showType at h
  simp only [List.append_assoc, List.cons_append, List.nil_append, List.cons.injEq, true_and] at h
  obtain ⟨e1, h⟩ := split_at (word_dec _).1 (word_dec _).1 h
  simp only [List.cons.injEq, true_and] at h
  obtain ⟨e2, h⟩ := split_at (word_dec _).2 (word_dec _).2 h
  have hh : ∀ t : ModelType, (match t.rep with | none => [] | some b => showBlockType b : Text).head? ≠ some ' ' := by
    intro t
    cases t.rep with
    | none => simp
    | some b => unfold showBlockType; simp
  obtain ⟨e3, h⟩ := showBlockType_inj ht.1 hu.1 (hh t) (hh u) h
  refine ⟨intDec_inj e1, intDec_inj e2, e3, ?_⟩
  cases h1 : t.rep with
  | none =>
    cases h2 : u.rep with
    | none => exact .inl ⟨rfl, rfl⟩
    | some c => rw [h1, h2] at h; unfold showBlockType at h; simp at h
  | some b =>
    cases h2 : u.rep with
    | none => rw [h1, h2] at h; unfold showBlockType at h; simp at h
    | some c =>
      rw [h1, h2] at h
      have h : showBlockType b ++ [] = showBlockType c ++ [] := by simpa using h
      exact .inr ⟨b, c, rfl, rfl, (showBlockType_inj (ht.2 b h1) (hu.2 c h2) (by simp) (by simp) h).1⟩

/-- C88: symbols with the same text have the same id and value. -/
theorem C88_symbol (s t : Symbol) (hs : OptWord s.id) (ht : OptWord t.id) (hv : s.value ≠ some (t!"None")) (hw : t.value ≠ some (t!"None"))
    (h : showSymbol s = showSymbol t) : s.id = t.id ∧ s.value = t.value := by
  unfold showSymbol at h
  simp only [List.append_assoc, List.cons_append, List.nil_append, List.cons.injEq, true_and] at h
  obtain ⟨e1, h⟩ := split_at (word_opt hs).1 (word_opt ht).1 h
  simp only [List.cons.injEq, true_and] at h
  refine ⟨strOpt_inj hs ht e1, ?_⟩
  cases h1 : s.value with
  | none =>
    cases h2 : t.value with
    | none => rfl
    | some b => rw [h1, h2] at h; exact absurd (congrArg some h.symm) (h2 ▸ hw)
  | some a =>
    cases h2 : t.value with
    | none => rw [h1, h2] at h; exact absurd (congrArg some h) (h1 ▸ hv)
    | some b => rw [h1, h2] at h; exact congrArg some h

/-! ## Maps -/

theorem natDec_inj {m n : Nat} (h : natDec m = natDec n) : m = n := by
  have : intDec (m : Int) = intDec (n : Int) := by
    unfold intDec
    rw [if_neg (by omega), if_neg (by omega)]
    exact h
  exact_mod_cast intDec_inj this

theorem natDec_word (n : Nat) : Word (natDec n) ∧ '.' ∉ natDec n ∧ '-' ∉ natDec n := by
  refine ⟨⟨fun h => (natDec_chars n _ h).2.2.2 rfl, fun h => absurd (natDec_chars n _ h).1 (by decide)⟩, fun h => ?_, fun h => (natDec_chars n _ h).2.1 rfl⟩
  obtain ⟨ds, h1, h2, -⟩ := natDec_digits n
  rw [h1] at h
  obtain ⟨d, hd, he⟩ := List.mem_map.1 h
  have : ∀ d : Fin 10, dchr d ≠ '.' := by decide
  exact this ⟨d, h2 d hd⟩ he

theorem dot_intDec (i : Int) : '.' ∉ intDec i := by
  unfold intDec
  split
  · simp [(natDec_word i.natAbs).2.1]
  · exact (natDec_word _).2.1

/-- The fraction of a float. -/
def fracText (n : Nat) : Text := if n % 4 = 0 then t!"0" else if n % 4 = 1 then t!"25" else if n % 4 = 2 then t!"5" else t!"75"

theorem fracText_inj {m n : Nat} (h : fracText m = fracText n) : m % 4 = n % 4 := by
  have h1 : m % 4 < 4 := Nat.mod_lt _ (by decide)
  have h2 : n % 4 < 4 := Nat.mod_lt _ (by decide)
  unfold fracText at h
  generalize m % 4 = a at *
  generalize n % 4 = b at *
  have : ∀ a b : Fin 4, (if a.val = 0 then t!"0" else if a.val = 1 then t!"25" else if a.val = 2 then t!"5" else t!"75") =
      (if b.val = 0 then t!"0" else if b.val = 1 then t!"25" else if b.val = 2 then t!"5" else t!"75") → a.val = b.val := by decide
  exact this ⟨a, h1⟩ ⟨b, h2⟩ h

theorem fracText_word (n : Nat) : Word (fracText n) := by
  unfold fracText
  split
  · unfold Word; decide
  · split
    · unfold Word; decide
    · split <;> (unfold Word; decide)

theorem num_text (a : Num) : a.text = if a.float then (if a.q < 0 then t!"-" else []) ++ natDec (a.q.natAbs / 4) ++ '.' :: fracText a.q.natAbs
    else intDec a.toInt := rfl

theorem num_word (a : Num) : Word a.text := by
  rw [num_text]
  split
  · have h1 := (natDec_word (a.q.natAbs / 4)).1
    have h2 := fracText_word a.q.natAbs
    constructor
    · split <;> simp [h1.1, h2.1]
    · split <;> simp [h1.2, h2.2]
  · exact word_dec _

theorem num_inj {a b : Num} (ha : a.float = false → 4 ∣ a.q) (hb : b.float = false → 4 ∣ b.q) (h : a.text = b.text) : a = b := by
  obtain ⟨fa, qa⟩ := a
  obtain ⟨fb, qb⟩ := b
  rw [num_text, num_text] at h
  have hd : ∀ q : Int, '.' ∈ (if q < 0 then t!"-" else []) ++ natDec (q.natAbs / 4) ++ '.' :: fracText q.natAbs := by intro q; simp
  cases fa with
  | false =>
    cases fb with
    | false =>
      have h : intDec (Num.toInt ⟨false, qa⟩) = intDec (Num.toInt ⟨false, qb⟩) := h
      have h := intDec_inj h
      obtain ⟨x, hx⟩ := ha rfl
      obtain ⟨y, hy⟩ := hb rfl
      dsimp only at hx hy
      subst hx hy
      unfold Num.toInt at h
      dsimp only at h
      rw [Int.mul_tdiv_cancel_left _ (by decide), Int.mul_tdiv_cancel_left _ (by decide)] at h
      rw [h]
    | true =>
      have h : intDec (Num.toInt ⟨false, qa⟩) = (if qb < 0 then t!"-" else []) ++ natDec (qb.natAbs / 4) ++ '.' :: fracText qb.natAbs := h
      exact absurd (h ▸ hd qb) (dot_intDec _)
  | true =>
    cases fb with
    | false =>
      have h : (if qa < 0 then t!"-" else []) ++ natDec (qa.natAbs / 4) ++ '.' :: fracText qa.natAbs = intDec (Num.toInt ⟨false, qb⟩) := h
      exact absurd (h ▸ hd qa) (dot_intDec _)
    | true =>
      have h : ((if qa < 0 then t!"-" else []) ++ natDec (qa.natAbs / 4)) ++ '.' :: fracText qa.natAbs =
        ((if qb < 0 then t!"-" else []) ++ natDec (qb.natAbs / 4)) ++ '.' :: fracText qb.natAbs := h
      have nd : ∀ q : Int, '.' ∉ (if q < 0 then t!"-" else []) ++ natDec (q.natAbs / 4) := by
        intro q
        have := (natDec_word (q.natAbs / 4)).2.1
        split <;> simp [this]
      obtain ⟨e1, e2⟩ := split_at (nd qa) (nd qb) h
      have e2 := fracText_inj e2
      have key : ∀ m n : Nat, t!"-" ++ natDec m ≠ natDec n := by
        intro m n he
        exact (natDec_word n).2.2 (by rw [← he]; simp)
      by_cases h1 : qa < 0 <;> by_cases h2 : qb < 0
      · simp only [h1, h2, if_true, List.append_cancel_left_eq] at e1
        have := natDec_inj e1
        have : qa = qb := by omega
        rw [this]
      · simp only [h1, h2, if_true, if_false, List.nil_append] at e1
        exact absurd e1 (key _ _)
      · simp only [h1, h2, if_true, if_false, List.nil_append] at e1
        exact absurd e1.symm (key _ _)
      · simp only [h1, h2, if_false, List.nil_append] at e1
        have := natDec_inj e1
        have : qa = qb := by omega
        rw [this]

theorem showAllRegs_inj : ∀ {rs qs : List Regs}, (∀ r ∈ rs, WordRegs r) → (∀ q ∈ qs, WordRegs q) → ∀ {a b : Text}, '\n' ∉ a → '\n' ∉ b →
    a ++ showAllRegs rs = b ++ showAllRegs qs → a = b ∧ rs.map regsFacts = qs.map regsFacts
  | [], [], _, _, a, b, _, _, h => by simpa [showAllRegs] using h
  | [], q :: qs, _, _, a, b, ha, _, h => by
    rw [showAllRegs, List.append_nil] at h
    rw [h] at ha
    simp [showAllRegs] at ha
  | r :: rs, [], _, _, a, b, _, hb, h => by
    rw [showAllRegs.eq_def [], List.append_nil] at h
    rw [← h] at hb
    simp [showAllRegs] at hb
  | r :: rs, q :: qs, hr, hq, a, b, ha, hb, h => by
    rw [showAllRegs, showAllRegs] at h
    obtain ⟨e1, h⟩ := split_at ha hb h
    unfold showRegs at h
    simp only [List.append_assoc, List.cons_append, List.nil_append, List.cons.injEq, true_and] at h
    obtain ⟨r1, r2, r3⟩ := hr r (by simp)
    obtain ⟨q1, q2, q3⟩ := hq q (by simp)
    obtain ⟨e2, h⟩ := split_at (num_word _).1 (num_word _).1 h
    simp only [List.cons.injEq, true_and] at h
    obtain ⟨e3, h⟩ := split_at (num_word _).1 (num_word _).1 h
    simp only [List.cons.injEq, true_and] at h
    obtain ⟨e4, h⟩ := showAllRegs_inj (fun x hx => hr x (by simp [hx])) (fun x hx => hq x (by simp [hx])) r3.2 q3.2 h
    refine ⟨e1, ?_⟩
    rw [List.map_cons, List.map_cons, h]
    unfold regsFacts
    rw [num_inj r1 q1 e2, num_inj r2 q2 e3, e4]

/-- C88: maps with the same text have the same slave id, function and base address, and register blocks at the same offsets with
the same numbers of registers and the same access. -/
theorem C88_map (s s' : Option Int) (m n : MbMap) (hm : ∀ t, m.base = .str t → Word t) (hn : ∀ t, n.base = .str t → Word t)
    (hr : ∀ r ∈ m.regs, WordRegs r) (hq : ∀ r ∈ n.regs, WordRegs r) (h : showMap s m = showMap s' n) :
    s = s' ∧ m.func = n.func ∧ SameLen m.base n.base ∧ m.regs.map regsFacts = n.regs.map regsFacts := by
  unfold showMap at h
  simp only [List.append_assoc, List.cons_append, List.nil_append, List.cons.injEq, true_and] at h
  have hs : ∀ s : Option Int, OptWord (s.map intDec) := by
    intro s t ht
    cases s with
    | none => cases ht
    | some i =>
      cases ht
      exact ⟨word_dec i, fun h => (intDec_chars i).2.2 (by rw [h]; decide)⟩
  obtain ⟨e1, h⟩ := split_at (word_opt (hs s)).1 (word_opt (hs s')).1 h
  simp only [List.cons.injEq, true_and] at h
  obtain ⟨e2, h⟩ := split_at (natDec_word _).1.1 (natDec_word _).1.1 h
  simp only [List.cons.injEq, true_and] at h
  obtain ⟨e3, e4⟩ := showAllRegs_inj hr hq (lenText_word hm).2 (lenText_word hn).2 h
  have e1 := strOpt_inj (hs s) (hs s') e1
  refine ⟨?_, natDec_inj e2, lenText_inj e3, e4⟩
  cases s <;> cases s' <;> simp at e1
  · rfl
  · exact congrArg some (intDec_inj e1)

/-- The hypotheses are met: a definition with a fixed and a repeating block, and its text. -/
theorem exType_words : WordType exType := by
  refine ⟨⟨fun s h => ?_, fun p hp => ?_⟩, fun b hb => ?_⟩
  · cases h; unfold Word; decide
  · simp only [exType, List.mem_cons, List.not_mem_nil, or_false] at hp
    rcases hp with rfl | rfl | rfl
    · exact ⟨by unfold Word; decide, fun t ht => by cases ht; unfold Word; decide⟩
    · exact ⟨by unfold Word; decide, fun t ht => by cases ht⟩
    · exact ⟨by unfold Word; decide, fun t ht => by cases ht⟩
  · cases hb
    refine ⟨fun s h => ?_, fun p hp => ?_⟩
    · cases h; unfold Word; decide
    · simp only [List.mem_cons, List.not_mem_nil, or_false] at hp
      rcases hp with rfl | rfl
      · exact ⟨by unfold Word; decide, fun t ht => by cases ht; unfold Word; decide⟩
      · exact ⟨by unfold Word; decide, fun t ht => by cases ht; unfold Word; decide⟩

example : showType { exType with fixed := { exType.fixed with points := exType.fixed.points.take 1 }, rep := none } =
    t!"ModelType: id = 900 len = 3\nBlockType: type = fixed len = 3\n  PointType: id = A offset = 0 type = int16 len = 1 sf = A_SF access = rw mandatory = false\n" := by
  decide +kernel

/-- With another access of one point the text is another one. -/
example : showType exType ≠ showType { exType with rep := exType.rep.map fun b => { b with points := b.points.map fun p => { p with rw := false } } } := by
  intro h
  have hw : WordType { exType with rep := exType.rep.map fun b => { b with points := b.points.map fun p => { p with rw := false } } } := by
    refine ⟨exType_words.1, fun b hb => ?_⟩
    cases hb
    obtain ⟨h1, h2⟩ := exType_words.2 _ rfl
    refine ⟨h1, fun p hp => ?_⟩
    obtain ⟨q, hq, rfl⟩ := List.mem_map.1 hp
    exact h2 q hq
  obtain ⟨-, -, -, h3⟩ := C88_type _ _ exType_words hw h
  rcases h3 with ⟨h3, -⟩ | ⟨b, c, hb, hc, -, -, h5⟩
  · cases h3
  · cases hb; cases hc; simp [pointFacts] at h5

/-- A map with two blocks, one of them with a count that is a float. -/
def shownMap : MbMap := ⟨3, .str (t!"40000"), none, none, none, none, [⟨.int 0, .int 2, none, t!"r"⟩, ⟨.int 2, ⟨true, 10⟩, none, t!"rw"⟩]⟩

example : showMap none shownMap =
    t!"modbus_map: slave id = None func = 3 base_addr = 40000\n  offset = 0 count = 2 access = r\n  offset = 2 count = 2.5 access = rw" := by
  decide +kernel

example (s : Option Int) (h : showMap s shownMap = showMap none shownMap) : s = none :=
  (C88_map s none shownMap shownMap (fun t ht => by cases ht; unfold Word; decide) (fun t ht => by cases ht; unfold Word; decide)
    (by
      intro r hr
      simp only [shownMap, List.mem_cons, List.not_mem_nil, or_false] at hr
      rcases hr with rfl | rfl
      · exact ⟨fun _ => by decide, fun _ => by decide, by unfold Word; decide⟩
      · exact ⟨fun _ => by decide, fun h => (by cases h), by unfold Word; decide⟩)
    (by
      intro r hr
      simp only [shownMap, List.mem_cons, List.not_mem_nil, or_false] at hr
      rcases hr with rfl | rfl
      · exact ⟨fun _ => by decide, fun _ => by decide, by unfold Word; decide⟩
      · exact ⟨fun _ => by decide, fun h => (by cases h), by unfold Word; decide⟩) h).1

/-- Symbols. -/
example : showSymbol ⟨some (t!"OFF"), some (t!"1"), none, none, none⟩ = t!"Symbol: id = OFF value = 1" := by decide +kernel

example (v : Text) (hv : v ≠ t!"None") (h : showSymbol ⟨some (t!"OFF"), some v, none, none, none⟩ = showSymbol ⟨some (t!"OFF"), some (t!"1"), none, none, none⟩) :
    v = t!"1" :=
  Option.some.inj (C88_symbol _ _ (fun t ht => by cases ht; unfold Word; decide) (fun t ht => by cases ht; unfold Word; decide)
    (fun h => hv (Option.some.inj h)) (by decide) h).2

end Verif
