import Verif.Model.Show
import Verif.Spec.Session
import Verif.Lemmas.Text
import Verif.Props.CopyBack

/-!
# C85: the text of a device tells its values
-/

namespace Verif
open Spec

/-- The values of the point are texts. -/
def Spec.TextType (t : PT) : Prop := t = .string ∨ t = .ipv6addr ∨ t = .eui48

/-- The value as a number or text: the number a single stands for. -/
def Spec.shownValue : Option Val → Option Val
  | some (.flt b) => some (.dbl (f32Val b))
  | v => v

/-- A value that can be recognised in a text: none, an integer for a type of numbers, a number for the type `float32` if Python gives back
the number for its text (which contains neither spaces and newlines nor the letter N), or a text of one line that is not the word `None`,
for a type of texts. -/
def Spec.RecognisableVal (lib : FloatLib) (t : PT) (v : Option Val) : Prop :=
  v = none ∨ (∃ i, v = some (.int i) ∧ ¬ TextType t ∧ t ≠ .float32) ∨
  (∃ f, shownValue v = some (.dbl f) ∧ t = .float32 ∧ lib.parse (lib.repr f) = some f ∧ ' ' ∉ lib.repr f ∧ '\n' ∉ lib.repr f ∧
    'N' ∉ lib.repr f) ∨
  ∃ s, v = some (.str s) ∧ TextType t ∧ '\n' ∉ s ∧ s ≠ t!"None"

/-- The value of the point can be recognised; points with texts have no scale factor; the value of a scale factor is an integer or
none. -/
structure Spec.Recognisable (lib : FloatLib) (bs : List BlockObj) (p : PointObj) : Prop where
  base : RecognisableVal lib p.pt.type p.base
  text : TextType p.pt.type → p.sf = none
  sf : ∀ r, p.sf = some r → sfValue bs r = none ∨ ∃ i, sfValue bs r = some (.int i)

/-- The value of the scale factor of a point. -/
def Spec.shownScale (bs : List BlockObj) (p : PointObj) : Option Val := p.sf.bind (sfValue bs)

/-- The points of two blocks or lists of points have the same values and scale factors. -/
def Spec.ShownAlike (bs bs' : List BlockObj) (ps ps' : List PointObj) : Prop :=
  ps.map (fun p => (shownValue p.base, shownScale bs p)) = ps'.map (fun p => (shownValue p.base, shownScale bs' p))

/-- C85, full statement: two devices with the same models, blocks and points that have the same text have the same
values. -/
def C85_full : Prop :=
  ∀ (lib : FloatLib) (ms ms' : List MdlObj), ms.map layout = ms'.map layout →
    (∀ m ∈ ms, m.exposed = true) → showDevice lib ms = showDevice lib ms' →
    ∀ (i k : Nat) (m m' : MdlObj) (b b' : BlockObj), ms[i]? = some m → ms'[i]? = some m' → m.blocks[k]? = some b →
      m'.blocks[k]? = some b' → ShownAlike m.blocks m'.blocks b.pts b'.pts

theorem split_at {c : Char} {a a' r r' : Text} (h1 : c ∉ a) (h2 : c ∉ a') (h : a ++ c :: r = a' ++ c :: r') : a = a' ∧ r = r' := by
  induction a generalizing a' with
  | nil =>
    cases a' with
    | nil => simpa using h
    | cons x a' => simp only [List.nil_append, List.cons_append, List.cons.injEq] at h; simp [h.1] at h2
  | cons x a ih =>
    cases a' with
    | nil => simp only [List.nil_append, List.cons_append, List.cons.injEq] at h; simp [h.1] at h1
    | cons y a' =>
      simp only [List.cons_append, List.cons.injEq] at h
      obtain ⟨i1, i2⟩ := ih (fun hc => h1 (by simp [hc])) (fun hc => h2 (by simp [hc])) h.2
      exact ⟨by rw [h.1, i1], i2⟩

theorem intDec_chars (i : Int) : ' ' ∉ intDec i ∧ '\n' ∉ intDec i ∧ 'N' ∉ intDec i := by
  have key : ∀ n : Nat, ' ' ∉ natDec n ∧ '\n' ∉ natDec n ∧ 'N' ∉ natDec n := by
    intro n
    refine ⟨fun h => (natDec_chars n _ h).2.2.2 rfl, fun h => ?_, fun h => ?_⟩
    · exact absurd (natDec_chars n _ h).1 (by decide)
    · obtain ⟨ds, h1, h2, -⟩ := natDec_digits n
      rw [h1] at h
      obtain ⟨d, hd, he⟩ := List.mem_map.1 h
      have hd10 := h2 d hd
      have : ∀ d : Fin 10, dchr d ≠ 'N' := by decide
      exact this ⟨d, hd10⟩ he
  unfold intDec
  split
  · obtain ⟨h1, h2, h3⟩ := key i.natAbs
    refine ⟨?_, ?_, ?_⟩ <;> simp [h1, h2, h3]
  · exact key _

theorem intDec_inj {i j : Int} (h : intDec i = intDec j) : i = j := by
  have h1 := pyInt_intDec 10 (.inr rfl) i
  rw [h, pyInt_intDec 10 (.inr rfl) j] at h1
  exact (Option.some.inj h1).symm

/-- The texts of integers or None are different for different values. -/
theorem showVal_int {lib : FloatLib} {v w : Option Val} (hv : v = none ∨ ∃ i, v = some (.int i)) (hw : w = none ∨ ∃ i, w = some (.int i))
    (h : showVal lib v = showVal lib w) : v = w := by
  rcases hv with rfl | ⟨i, rfl⟩ <;> rcases hw with rfl | ⟨j, rfl⟩
  · rfl
  · have : 'N' ∈ showVal lib (some (.int j)) := by rw [← h]; show 'N' ∈ t!"None"; decide
    exact absurd this (intDec_chars j).2.2
  · have : 'N' ∈ showVal lib (some (.int i)) := by rw [h]; show 'N' ∈ t!"None"; decide
    exact absurd this (intDec_chars i).2.2
  · rw [intDec_inj (i := i) (j := j) h]

theorem showVal_line {lib : FloatLib} {v : Option Val} (hv : v = none ∨ ∃ i, v = some (.int i)) : ' ' ∉ showVal lib v ∧ '\n' ∉ showVal lib v := by
  rcases hv with rfl | ⟨i, rfl⟩
  · show ' ' ∉ t!"None" ∧ '\n' ∉ t!"None"; decide
  · exact ⟨(intDec_chars i).1, (intDec_chars i).2.1⟩

theorem showVal_shown {lib : FloatLib} {v : Option Val} {f : Flt} (h : shownValue v = some (.dbl f)) : showVal lib v = lib.repr f := by
  unfold shownValue at h
  split at h
  · cases h; rfl
  · subst h; rfl

/-- The texts of values of one type are different for different values. -/
theorem showVal_inj {lib : FloatLib} {t : PT} {v w : Option Val} (hv : RecognisableVal lib t v) (hw : RecognisableVal lib t w)
    (h : showVal lib v = showVal lib w) : shownValue v = shownValue w := by
  have none_flt : ∀ f, 'N' ∉ lib.repr f → showVal lib none ≠ lib.repr f := by
    intro f h1 h2
    rw [← h2] at h1
    exact h1 (by show 'N' ∈ t!"None"; decide)
  have none_str : ∀ s : Text, s ≠ t!"None" → showVal lib none ≠ s := fun s h1 h2 => h1 h2.symm
  rcases hv with rfl | ⟨i, rfl, x1, x2⟩ | ⟨f, a1, a2, a3, -, -, a4⟩ | ⟨s, rfl, a1, -, a2⟩
  · rcases hw with rfl | ⟨j, rfl, y1, y2⟩ | ⟨g, b1, b2, b3, -, -, b4⟩ | ⟨s', rfl, b1, -, b2⟩
    · rfl
    · rw [showVal_int (.inl rfl) (.inr ⟨j, rfl⟩) h]
    · rw [showVal_shown b1] at h; exact absurd h (none_flt g b4)
    · exact absurd h (none_str s' b2)
  · rcases hw with rfl | ⟨j, rfl, y1, y2⟩ | ⟨g, b1, b2, b3, -, -, b4⟩ | ⟨s', rfl, b1, -, b2⟩
    · rw [showVal_int (.inr ⟨i, rfl⟩) (.inl rfl) h]
    · rw [showVal_int (.inr ⟨i, rfl⟩) (.inr ⟨j, rfl⟩) h]
    · exact absurd b2 x2
    · exact absurd b1 x1
  · rw [showVal_shown a1] at h
    rcases hw with rfl | ⟨j, rfl, y1, y2⟩ | ⟨g, b1, b2, b3, -, -, b4⟩ | ⟨s', rfl, b1, -, b2⟩
    · exact absurd h.symm (none_flt f a4)
    · exact absurd a2 y2
    · rw [showVal_shown b1] at h
      rw [h, b3] at a3
      rw [a1, b1, Option.some.inj a3]
    · subst a2; rcases b1 with b1 | b1 | b1 <;> cases b1
  · rcases hw with rfl | ⟨j, rfl, y1, y2⟩ | ⟨g, b1, b2, b3, -, -, b4⟩ | ⟨s', rfl, b1, -, b2⟩
    · exact absurd h.symm (none_str s a2)
    · exact absurd a1 y1
    · subst b2; rcases a1 with a1 | a1 | a1 <;> cases a1
    · have : s = s' := h
      rw [this]

theorem showVal_chars {lib : FloatLib} {t : PT} {v : Option Val} (hv : RecognisableVal lib t v) :
    '\n' ∉ showVal lib v ∧ (¬ TextType t → ' ' ∉ showVal lib v) := by
  rcases hv with rfl | ⟨i, rfl, x1, x2⟩ | ⟨f, a1, a2, a3, a4, a5, -⟩ | ⟨s, rfl, a1, a2, -⟩
  · exact ⟨(showVal_line (.inl rfl)).2, fun _ => (showVal_line (.inl rfl)).1⟩
  · exact ⟨(showVal_line (.inr ⟨i, rfl⟩)).2, fun _ => (showVal_line (.inr ⟨i, rfl⟩)).1⟩
  · rw [showVal_shown a1]; exact ⟨a5, fun _ => a4⟩
  · exact ⟨a2, fun h => absurd a1 h⟩

theorem showPoint_inj {lib : FloatLib} {bs bs' : List BlockObj} {p p' : PointObj} (hu : unvalued p = unvalued p')
    (hp : Recognisable lib bs p) (hp' : Recognisable lib bs' p') {r r' : Text}
    (h : showPoint lib bs p ++ '\n' :: r = showPoint lib bs' p' ++ '\n' :: r') :
    shownValue p.base = shownValue p'.base ∧ shownScale bs p = shownScale bs' p' ∧ r = r' := by
  have e1 : p.pt = p'.pt := by have := congrArg (fun x : PointObj => x.pt) hu; exact this
  have e2 : p.impl = p'.impl := by have := congrArg (fun x : PointObj => x.impl) hu; exact this
  have e3 : p.addr = p'.addr := by have := congrArg (fun x : PointObj => x.addr) hu; exact this
  have e4 : p.sf = p'.sf := by have := congrArg (fun x : PointObj => x.sf) hu; exact this
  have hb := hp.base
  have hb' := hp'.base
  have hs' := hp'.sf
  unfold showPoint at h
  rw [← e1, ← e2, ← e3, ← e4] at h
  rw [← e1] at hb'
  rw [← e4] at hs'
  simp only [List.append_assoc] at h
  iterate 7 replace h := List.append_cancel_left h
  unfold shownScale
  rw [← e4]
  cases hsf : p.sf with
  | none =>
    rw [hsf] at h
    simp only [List.nil_append] at h
    obtain ⟨i1, i2⟩ := split_at (showVal_chars hb).1 (showVal_chars hb').1 h
    exact ⟨showVal_inj hb hb' i1, rfl, i2⟩
  | some ref =>
    have ht : ¬ TextType p.pt.type := fun ht => by rw [hp.text ht] at hsf; cases hsf
    rw [hsf] at h
    simp only [List.cons_append, List.append_assoc] at h
    obtain ⟨i1, i2⟩ := split_at ((showVal_chars hb).2 ht) ((showVal_chars hb').2 ht) h
    iterate 11 replace i2 := (List.cons.inj i2).2
    simp only [List.nil_append] at i2
    have s1 := hp.sf ref hsf
    have s2 := hs' ref hsf
    obtain ⟨j1, j2⟩ := split_at (showVal_line (lib := lib) s1).2 (showVal_line s2).2 i2
    exact ⟨showVal_inj hb hb' i1, showVal_int s1 s2 j1, j2⟩

theorem showPoints_inj {lib : FloatLib} {bs bs' : List BlockObj} {ps ps' : List PointObj} (hu : ps.map unvalued = ps'.map unvalued)
    (hp : ∀ p ∈ ps, Recognisable lib bs p) (hp' : ∀ p ∈ ps', Recognisable lib bs' p) {r r' : Text}
    (h : showPoints lib bs ps ++ r = showPoints lib bs' ps' ++ r') : ShownAlike bs bs' ps ps' ∧ r = r' := by
  induction ps generalizing ps' with
  | nil =>
    cases ps' with
    | nil => exact ⟨rfl, h⟩
    | cons p' ps' => simp at hu
  | cons p ps ih =>
    cases ps' with
    | nil => simp at hu
    | cons p' ps' =>
      simp only [List.map_cons, List.cons.injEq] at hu
      rw [showPoints, showPoints] at h
      simp only [List.append_assoc, List.cons_append, List.nil_append, List.cons.injEq, true_and] at h
      obtain ⟨a1, a2, a3⟩ := showPoint_inj hu.1 (hp p (by simp)) (hp' p' (by simp)) h
      obtain ⟨b1, b2⟩ := ih hu.2 (fun q hq => hp q (by simp [hq])) (fun q hq => hp' q (by simp [hq])) a3
      refine ⟨?_, b2⟩
      unfold ShownAlike at b1 ⊢
      rw [List.map_cons, List.map_cons, b1, a1, a2]

/-- The block without its values. -/
def bareBlock (b : BlockObj) : BlockObj := { b with pts := b.pts.map unvalued, sfs := b.sfs.map unvalued }

theorem showBlocks_inj {lib : FloatLib} {bs bs' : List BlockObj} {l l' : List BlockObj} (hu : l.map bareBlock = l'.map bareBlock)
    (hp : ∀ b ∈ l, ∀ p ∈ b.pts, Recognisable lib bs p) (hp' : ∀ b ∈ l', ∀ p ∈ b.pts, Recognisable lib bs' p) {r r' : Text}
    (h : showBlocks lib bs l ++ r = showBlocks lib bs' l' ++ r') :
    (∀ (k : Nat) (b b' : BlockObj), l[k]? = some b → l'[k]? = some b' → ShownAlike bs bs' b.pts b'.pts) ∧ r = r' := by
  induction l generalizing l' with
  | nil =>
    cases l' with
    | nil => exact ⟨fun k b b' hb => by simp at hb, h⟩
    | cons p' ps' => simp at hu
  | cons b l ih =>
    cases l' with
    | nil => simp at hu
    | cons b' l' =>
      simp only [List.map_cons, List.cons.injEq] at hu
      have e1 : b.bt = b'.bt := by have := congrArg (fun x : BlockObj => x.bt) hu.1; exact this
      have e2 : b.index = b'.index := by have := congrArg (fun x : BlockObj => x.index) hu.1; exact this
      have e3 : b.pts.map unvalued = b'.pts.map unvalued := by have := congrArg (fun x : BlockObj => x.pts) hu.1; exact this
      rw [showBlocks, showBlocks] at h
      unfold showBlock at h
      rw [← e1, ← e2] at h
      simp only [List.append_assoc, List.cons_append, List.nil_append, List.cons.injEq, true_and, List.append_cancel_left_eq] at h
      obtain ⟨a1, a2⟩ := showPoints_inj e3 (hp b (by simp)) (hp' b' (by simp)) h
      obtain ⟨b1, b2⟩ := ih hu.2 (fun q hq => hp q (by simp [hq])) (fun q hq => hp' q (by simp [hq])) a2
      refine ⟨?_, b2⟩
      intro k c c' hc hc'
      cases k with
      | zero =>
        simp only [List.getElem?_cons_zero, Option.some.injEq] at hc hc'
        subst hc; subst hc'
        exact a1
      | succ k => exact b1 k c c' (by simpa using hc) (by simpa using hc')

theorem showModel_inj {lib : FloatLib} {m m' : MdlObj} (hu : layout m = layout m') (hx : m.exposed = true)
    (hp : ∀ b ∈ m.blocks, ∀ p ∈ b.pts, Recognisable lib m.blocks p) (hp' : ∀ b ∈ m'.blocks, ∀ p ∈ b.pts, Recognisable lib m'.blocks p) {r r' : Text}
    (h : showModel lib m ++ r = showModel lib m' ++ r') :
    (∀ (k : Nat) (b b' : BlockObj), m.blocks[k]? = some b → m'.blocks[k]? = some b' → ShownAlike m.blocks m'.blocks b.pts b'.pts) ∧ r = r' := by
  have e1 : m.id = m'.id := by have := congrArg (fun x : MdlObj => x.id) hu; exact this
  have e2 : m.exposed = m'.exposed := by have := congrArg (fun x : MdlObj => x.exposed) hu; exact this
  have e3 : m.blocks.map bareBlock = m'.blocks.map bareBlock := by have := congrArg (fun x : MdlObj => x.blocks) hu; exact this
  unfold showModel at h
  rw [← e1, ← e2, if_pos hx, if_pos hx] at h
  simp only [List.append_assoc, List.cons_append, List.nil_append, List.cons.injEq, true_and, List.append_cancel_left_eq] at h
  generalize hB : m.blocks = bs at *
  generalize hB' : m'.blocks = bs' at *
  cases bs with
  | nil =>
    cases bs' with
    | nil => exact ⟨fun k b b' hb => by simp at hb, by simpa [showBlocks] using h⟩
    | cons b' bs' => simp at e3
  | cons b l =>
    cases bs' with
    | nil => simp at e3
    | cons b' l' =>
      simp only [List.map_cons, List.cons.injEq] at e3
      have e4 : b.pts.map unvalued = b'.pts.map unvalued := by have := congrArg (fun x : BlockObj => x.pts) e3.1; exact this
      dsimp only [List.tail_cons] at h
      obtain ⟨a1, a2⟩ := showPoints_inj e4 (hp b (by simp)) (hp' b' (by simp)) h
      obtain ⟨b1, b2⟩ := showBlocks_inj e3.2 (fun q hq => hp q (by simp [hq])) (fun q hq => hp' q (by simp [hq])) a2
      refine ⟨?_, b2⟩
      intro k c c' hc hc'
      cases k with
      | zero =>
        simp only [List.getElem?_cons_zero, Option.some.injEq] at hc hc'
        subst hc; subst hc'
        exact a1
      | succ k => exact b1 k c c' (by simpa using hc) (by simpa using hc')

/-- C85, for values that can be recognised in a text: devices with the same models, blocks and points and the same text have the
same values and the same scale factors. -/
theorem C85_values_partial (lib : FloatLib) (ms ms' : List MdlObj) (hu : ms.map layout = ms'.map layout)
    (hx : ∀ m ∈ ms, m.exposed = true) (hp : ∀ m ∈ ms, ∀ b ∈ m.blocks, ∀ p ∈ b.pts, Recognisable lib m.blocks p)
    (hp' : ∀ m ∈ ms', ∀ b ∈ m.blocks, ∀ p ∈ b.pts, Recognisable lib m.blocks p)
    (h : showDevice lib ms = showDevice lib ms') (i k : Nat) (m m' : MdlObj) (b b' : BlockObj) (hm : ms[i]? = some m)
    (hm' : ms'[i]? = some m') (hb : m.blocks[k]? = some b) (hb' : m'.blocks[k]? = some b') :
    ShownAlike m.blocks m'.blocks b.pts b'.pts := by
  induction ms generalizing ms' i with
  | nil => simp at hm
  | cons m0 ms ih =>
    cases ms' with
    | nil => simp at hu
    | cons m0' ms' =>
      simp only [List.map_cons, List.cons.injEq] at hu
      rw [showDevice, showDevice] at h
      obtain ⟨a1, a2⟩ := showModel_inj hu.1 (hx m0 (by simp)) (hp m0 (by simp)) (hp' m0' (by simp)) h
      cases i with
      | zero =>
        simp only [List.getElem?_cons_zero, Option.some.injEq] at hm hm'
        subst hm; subst hm'
        exact a1 k b b' hb hb'
      | succ i =>
        exact ih ms' hu.2 (fun q hq => hx q (by simp [hq])) (fun q hq => hp q (by simp [hq]))
          (fun q hq => hp' q (by simp [hq])) a2 i (by simpa using hm) (by simpa using hm')

theorem showPoints_has {lib : FloatLib} {bs : List BlockObj} {ps : List PointObj} {p : PointObj} (h : p ∈ ps) :
    ∃ a z, showPoints lib bs ps = a ++ (t!"  " ++ showPoint lib bs p ++ '\n' :: z) := by
  induction ps with
  | nil => cases h
  | cons q ps ih =>
    rcases List.mem_cons.1 h with rfl | h
    · exact ⟨[], showPoints lib bs ps, rfl⟩
    · obtain ⟨a, z, e⟩ := ih h
      exact ⟨t!"  " ++ showPoint lib bs q ++ '\n' :: a, z, by rw [showPoints, e]; simp⟩

theorem showBlocks_has {lib : FloatLib} {bs l : List BlockObj} {b : BlockObj} {p : PointObj} (h : b ∈ l) (hp : p ∈ b.pts) :
    ∃ a z, showBlocks lib bs l = a ++ (t!"  " ++ showPoint lib bs p ++ '\n' :: z) := by
  induction l with
  | nil => cases h
  | cons c l ih =>
    rcases List.mem_cons.1 h with rfl | h
    · obtain ⟨a, z, e⟩ := showPoints_has (lib := lib) (bs := bs) hp
      exact ⟨t!"Block: type: " ++ (if b.bt.repeating then t!"repeating" else t!"fixed") ++ t!" index: " ++ natDec b.index ++
        ':' :: '\n' :: a, z ++ showBlocks lib bs l, by rw [showBlocks, showBlock, e]; simp⟩
    · obtain ⟨a, z, e⟩ := ih h
      exact ⟨showBlock lib bs c ++ a, z, by rw [showBlocks, e]; simp⟩

/-- C85: every point of every loaded model has a line in the text of the device, with its id, address and value — a decimal
number, the text itself, or `None`. -/
theorem C85_lines (lib : FloatLib) (ms : List MdlObj) (m : MdlObj) (hm : m ∈ ms) (hx : m.exposed = true) (b : BlockObj)
    (hb : b ∈ m.blocks) (p : PointObj) (hp : p ∈ b.pts) :
    ∃ a v rest z, showDevice lib ms = a ++ t!"  Point: id = " ++ p.pt.id ++ t!" impl = " ++ (if p.impl then t!"True" else t!"False") ++
        t!" addr = " ++ intDec p.addr ++ t!" value_base = " ++ v ++ rest ++ '\n' :: z ∧
      (p.base = none → v = t!"None") ∧ (∀ i, p.base = some (.int i) → v = intDec i) ∧ (∀ s, p.base = some (.str s) → v = s) ∧
      (p.sf = none → rest = []) := by
  have hmod : ∃ a z, showModel lib m = a ++ (t!"  " ++ showPoint lib m.blocks p ++ '\n' :: z) := by
    unfold showModel
    rw [if_pos hx]
    generalize hB : m.blocks = bs at *
    cases bs with
    | nil => cases hb
    | cons b0 l =>
      rcases List.mem_cons.1 hb with rfl | hb
      · obtain ⟨a, z, e⟩ := showPoints_has (lib := lib) (bs := b :: l) hp
        exact ⟨t!"Model " ++ intDec m.id ++ ':' :: '\n' :: a, z ++ showBlocks lib (b :: l) l, by dsimp only; rw [e]; simp⟩
      · obtain ⟨a, z, e⟩ := showBlocks_has (lib := lib) (bs := b0 :: l) hb hp
        exact ⟨t!"Model " ++ intDec m.id ++ ':' :: '\n' :: (showPoints lib (b0 :: l) b0.pts ++ a), z, by rw [List.tail_cons, e]; simp⟩
  have hdev : ∃ a z, showDevice lib ms = a ++ (t!"  " ++ showPoint lib m.blocks p ++ '\n' :: z) := by
    clear hx
    induction ms with
    | nil => cases hm
    | cons m0 ms ih =>
      rcases List.mem_cons.1 hm with rfl | hm
      · obtain ⟨a, z, e⟩ := hmod
        exact ⟨a, z ++ showDevice lib ms, by rw [showDevice, e]; simp⟩
      · obtain ⟨a, z, e⟩ := ih hm
        exact ⟨showModel lib m0 ++ a, z, by rw [showDevice, e]; simp⟩
  obtain ⟨a, z, e⟩ := hdev
  refine ⟨a, showVal lib p.base, (match p.sf with | none => [] | some r => t!" sf_value = " ++ showVal lib (sfValue m.blocks r)), z,
    ?_, ?_, ?_, ?_, ?_⟩
  · rw [e, showPoint]
    cases p.sf <;> simp
  · intro h; rw [h]; rfl
  · intro i h; rw [h]; rfl
  · intro s h; rw [h]; rfl
  · intro h; rw [h]

/-- `strModel0` with a value for its first point. -/
def strWith (v : Option Val) : MdlObj :=
  { strModel0 with blocks := strModel0.blocks.map fun b => { b with pts := b.pts.map fun p =>
      if p.pt.id = t!"S" then { p with base := v } else p } }

instance (t : PT) : Decidable (TextType t) := by unfold TextType; infer_instance

theorem strWith_recognisable (lib : FloatLib) (s : Text) (h1 : '\n' ∉ s) (h2 : s ≠ t!"None") :
    ∀ b ∈ (strWith (some (.str s))).blocks, ∀ p ∈ b.pts, Recognisable lib (strWith (some (.str s))).blocks p := by
  intro b hb p hp
  unfold strWith at hb
  obtain ⟨b0, hb0, rfl⟩ := List.mem_map.1 hb
  obtain ⟨p0, hp0, rfl⟩ := List.mem_map.1 hp
  have h0 : ∀ b ∈ strModel0.blocks, ∀ p ∈ b.pts, p.sf = none ∧ p.base = none ∧ (p.pt.id = t!"S" → TextType p.pt.type) := by
    decide +kernel
  obtain ⟨e1, e2, e3⟩ := h0 b0 hb0 p0 hp0
  have hs : (if p0.pt.id = t!"S" then { p0 with base := some (.str s) } else p0).sf = none := by split <;> exact e1
  refine ⟨?_, fun _ => hs, fun r hr => by rw [hs] at hr; cases hr⟩
  split
  · rename_i hid
    exact .inr (.inr (.inr ⟨s, rfl, e3 hid, h1, h2⟩))
  · exact .inl e2

/-- Non-vacuity: the texts of devices with the strings `ab` and `cd` are different. -/
example : showDevice exactLib [strWith (some (.str (t!"ab")))] ≠ showDevice exactLib [strWith (some (.str (t!"cd")))] := by
  intro h
  have h1 := C85_values_partial exactLib [strWith (some (.str (t!"ab")))] [strWith (some (.str (t!"cd")))] (by decide +kernel)
    (by decide +kernel)
    (by intro m hm; rw [List.mem_singleton] at hm; subst hm; exact strWith_recognisable _ _ (by decide) (by decide))
    (by intro m hm; rw [List.mem_singleton] at hm; subst hm; exact strWith_recognisable _ _ (by decide) (by decide))
    h 0 0 _ _ ((strWith (some (.str (t!"ab")))).blocks.head (by decide +kernel))
    ((strWith (some (.str (t!"cd")))).blocks.head (by decide +kernel)) rfl rfl (by decide +kernel) (by decide +kernel)
  exact absurd h1 (by unfold ShownAlike; decide +kernel)

/-- `strModel0` with numbers of the type `float32`. -/
def fltWith (v : Option Val) : MdlObj :=
  { strModel0 with blocks := strModel0.blocks.map fun b => { b with pts := b.pts.map fun p =>
      { p with pt := { p.pt with type := .float32 }, base := v } } }

/-- A library that knows the numbers 1/2 and 1/4. -/
def twoLib : FloatLib := { exactLib with
  repr := fun f => if f = .fin (1 / 2) then t!"0.5" else t!"0.25"
  parse := fun s => if s = t!"0.5" then some (.fin (1 / 2)) else if s = t!"0.25" then some (.fin (1 / 4)) else none }

theorem fltWith_recognisable (v : Option Val) (f : Flt) (h : shownValue v = some (.dbl f)) (hf : f = .fin (1 / 2) ∨ f = .fin (1 / 4)) :
    ∀ b ∈ (fltWith v).blocks, ∀ p ∈ b.pts, Recognisable twoLib (fltWith v).blocks p := by
  intro b hb p hp
  unfold fltWith at hb
  obtain ⟨b0, hb0, rfl⟩ := List.mem_map.1 hb
  obtain ⟨p0, hp0, rfl⟩ := List.mem_map.1 hp
  have h0 : ∀ b ∈ strModel0.blocks, ∀ p ∈ b.pts, p.sf = none := by decide +kernel
  have hs := h0 b0 hb0 p0 hp0
  refine ⟨.inr (.inr (.inl ⟨f, h, rfl, ?_⟩)), fun _ => hs, fun r hr => by have hr : p0.sf = some r := hr; rw [hs] at hr; cases hr⟩
  rcases hf with rfl | rfl <;> decide +kernel

/-- Non-vacuity: the texts of devices with the numbers 0.5 (read from the device as a single) and 0.25 (assigned) are different. -/
example : showDevice twoLib [fltWith (some (.flt 0x3f000000))] ≠ showDevice twoLib [fltWith (some (.dbl (.fin (1 / 4))))] := by
  intro h
  have h1 := C85_values_partial twoLib [fltWith (some (.flt 0x3f000000))] [fltWith (some (.dbl (.fin (1 / 4))))] (by decide +kernel)
    (by decide +kernel)
    (by intro m hm; rw [List.mem_singleton] at hm; subst hm; exact fltWith_recognisable _ (.fin (1 / 2)) (by decide +kernel) (.inl rfl))
    (by intro m hm; rw [List.mem_singleton] at hm; subst hm; exact fltWith_recognisable _ (.fin (1 / 4)) (by decide +kernel) (.inr rfl))
    h 0 0 _ _ ((fltWith (some (.flt 0x3f000000))).blocks.head (by decide +kernel))
    ((fltWith (some (.dbl (.fin (1 / 4))))).blocks.head (by decide +kernel)) rfl rfl (by decide +kernel) (by decide +kernel)
  exact absurd h1 (by unfold ShownAlike; decide +kernel)

/-- C85 is violated: the text `None` is shown as no value is. -/
theorem C85_violated : ¬ C85_full := by
  intro h
  have h1 := h exactLib [strWith none] [strWith (some (.str (t!"None")))] (by decide +kernel) (by decide +kernel) (by decide +kernel)
    0 0 _ _ ((strWith none).blocks.head (by decide +kernel))
    ((strWith (some (.str (t!"None")))).blocks.head (by decide +kernel)) rfl rfl (by decide +kernel) (by decide +kernel)
  exact absurd h1 (by unfold ShownAlike; decide +kernel)

end Verif
