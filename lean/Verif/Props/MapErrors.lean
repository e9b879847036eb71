import Verif.Props.MapDoc
import Verif.Lemmas.IntText

/-!
# C84: building and loading maps: what is raised, and what stays
-/

namespace Verif
open Spec

/-- The registers of a map, the last block possibly continued and blocks added after it. -/
def Spec.Continued (rs rs' : List Regs) : Prop :=
  rs = [] ∨ ∃ (init : List Regs) (last last' : Regs) (new : List Regs) (d : Bytes),
    rs = init ++ [last] ∧ rs' = init ++ last' :: new ∧
    last'.offset = last.offset ∧ last'.access = last.access ∧
    (last' = last ∨ ∃ old, last.data = some old ∧ last'.data = some (old ++ d))

/-- The offset of an element, if it has one, is not a decimal integer. -/
def Spec.BadOffset (e : Elem) : Prop := ∃ s, e.get "offset" = some s ∧ ∀ i, ¬ DecText s i

/-- C84, full statement: constructing a map and loading a document or a hex file raise nothing but
`ModbusMapError`, and a map that cannot be loaded is left as it was. -/
def C84_full : Prop :=
  (∀ (func : Text) (base : Int) (e : Exc), mapNew func base = .error e → e = .modbusMapError) ∧
  (∀ (m : MbMap) (words : List Text) (e : Exc), (fromHex m words).2 = .error e →
    e = .modbusMapError ∧ (fromHex m words).1 = m) ∧
  ∀ (F : FloatText) (m : MbMap) (root : Elem) (e : Exc), (fromXml F m root).2 = .error e →
    e = .modbusMapError ∧ (fromXml F m root).1 = m

/-- C84: a map is constructed with the function 'holding' or 'input' and is refused with `ModbusMapError` for
every other. -/
theorem C84_function (func : Text) (base : Int) :
    (func = t!"holding" → ∃ m, mapNew func base = .ok m ∧ m.func = 3 ∧ m.base = .int base ∧ m.regs = []) ∧
    (func = t!"input" → ∃ m, mapNew func base = .ok m ∧ m.func = 4 ∧ m.base = .int base ∧ m.regs = []) ∧
    (func ≠ t!"holding" → func ≠ t!"input" → mapNew func base = .error .modbusMapError) := by
  unfold mapNew
  refine ⟨?_, ?_, ?_⟩
  · rintro rfl
    rw [show funcValue (t!"holding") = some 3 by decide]
    exact ⟨_, rfl, rfl, rfl, rfl⟩
  · rintro rfl
    rw [show funcValue (t!"input") = some 4 by decide]
    exact ⟨_, rfl, rfl, rfl, rfl⟩
  · intro h1 h2
    rw [show funcValue func = none by unfold funcValue; rw [if_neg h2, if_neg h1]]

/-- Non-vacuity. -/
example : mapNew (t!"coil") 0 = .error .modbusMapError := by decide

/-- C84: a hex file is refused with `ModbusMapError`, and then the map is unchanged. -/
theorem C84_hex (m : MbMap) (words : List Text) (e : Exc) (h : (fromHex m words).2 = .error e) :
    e = .modbusMapError ∧ (fromHex m words).1 = m := by
  unfold fromHex at h ⊢
  generalize hexWords words = w at *
  cases w with
  | error x => simp only [Except.error.injEq] at h; exact ⟨h.symm, rfl⟩
  | ok d =>
    cases d with
    | nil => simp only [Except.error.injEq] at h; exact ⟨h.symm, rfl⟩
    | cons b bs => simp at h

/-- Non-vacuity: a word that is not hexadecimal. -/
example : (fromHex newMap [t!"53", t!"7g"]).2 = .error .modbusMapError := by decide +kernel

theorem Spec.Continued.refl (rs : List Regs) : Continued rs rs := by
  rcases List.eq_nil_or_concat rs with h | ⟨init, last, h⟩
  · exact Or.inl h
  · refine Or.inr ⟨init, last, last, [], [], ?_, ?_, rfl, rfl, Or.inl rfl⟩
    · rw [h, List.concat_eq_append]
    · rw [h, List.concat_eq_append]

theorem Spec.Continued.trans {a b c : List Regs} (h1 : Continued a b) (h2 : Continued b c) : Continued a c := by
  rcases h1 with h1 | ⟨i1, l1, l1', n1, d1, ha, hb, o1, a1, k1⟩
  · exact Or.inl h1
  rcases h2 with h2 | ⟨i2, l2, l2', n2, d2, hb2, hc, o2, a2, k2⟩
  · rw [hb] at h2; simp at h2
  rcases List.eq_nil_or_concat n1 with hn | ⟨n, x, hn⟩
  · subst hn
    rw [hb] at hb2
    obtain ⟨e1, e2⟩ := List.append_inj' hb2 rfl
    subst e1
    simp only [List.cons.injEq, and_true] at e2
    subst e2
    rcases k1 with k1 | ⟨old1, k1, k1'⟩
    · subst k1
      exact Or.inr ⟨i1, l1', l2', n2, d2, ha, hc, o2, a2, k2⟩
    · rcases k2 with k2 | ⟨old2, k2, k2'⟩
      · subst k2
        exact Or.inr ⟨i1, l1, l2', n2, d1, ha, hc, o1, a1, Or.inr ⟨old1, k1, k1'⟩⟩
      · rw [k1'] at k2
        obtain rfl := Option.some.inj k2
        exact Or.inr ⟨i1, l1, l2', n2, d1 ++ d2, ha, hc, o2.trans o1, a2.trans a1,
          Or.inr ⟨old1, k1, by rw [k2', List.append_assoc]⟩⟩
  · rw [List.concat_eq_append] at hn
    subst hn
    rw [hb, ← List.cons_append, ← List.append_assoc] at hb2
    obtain ⟨e1, _⟩ := List.append_inj' hb2 rfl
    refine Or.inr ⟨i1, l1, l1', n ++ l2' :: n2, d1, ha, ?_, o1, a1, k1⟩
    rw [hc, ← e1]
    simp

theorem addRegs_continued {rs rs' : List Regs} {o c : Num} {d : Option Bytes} {acc : Text}
    (h : addRegs rs o c d acc = .ok rs') : Continued rs rs' := by
  unfold addRegs at h
  rcases List.eq_nil_or_concat rs with h0 | ⟨init, last, h0⟩
  · exact Or.inl h0
  rw [List.concat_eq_append] at h0
  subst h0
  rw [List.getLast?_concat] at h
  dsimp only at h
  split at h
  · obtain rfl := Except.ok.inj h
    exact Or.inr ⟨init, last, last, [⟨o, c, d, acc⟩], [], rfl, by simp, rfl, rfl, Or.inl rfl⟩
  · split at h
    · rename_i _ _ a b h1
      obtain rfl := Except.ok.inj h
      exact Or.inr ⟨init, last, { last with data := some (a ++ b), count := last.count.add c }, [], b, rfl,
        by rw [List.dropLast_concat], rfl, rfl, Or.inr ⟨a, h1, rfl⟩⟩
    · simp at h

theorem fromXmlLoop_keeps (F : FloatText) (es : List Elem) (rs : List Regs) (nx : Num) :
    Continued rs (fromXmlLoop F es rs nx).1 ∧
    ∀ e, (fromXmlLoop F es rs nx).2 = .error e →
      e = .modbusMapError ∨ e = .typeError ∧ ∃ el ∈ es, BadOffset el := by
  induction es generalizing rs nx with
  | nil => exact ⟨.refl rs, fun e h => by simp [fromXmlLoop] at h⟩
  | cons el es ih =>
    rw [fromXmlLoop]
    cases ho : elemOffset el nx with
    | none =>
      refine ⟨.refl rs, fun e h => ?_⟩
      simp only [Except.error.injEq] at h
      refine Or.inr ⟨h.symm, el, by simp, ?_⟩
      unfold elemOffset at ho
      cases hs : el.get "offset" with
      | none => rw [hs] at ho; simp at ho
      | some s =>
        rw [hs] at ho
        refine ⟨s, hs, fun i hi => ?_⟩
        dsimp only at ho
        rw [(pyInt10_iff _ _).2 hi] at ho
        simp at ho
    | some offset =>
      dsimp only
      have lose : ∀ e, (Except.error Exc.modbusMapError : Py Unit) = .error e →
          e = .modbusMapError ∨ e = .typeError ∧ ∃ el' ∈ el :: es, BadOffset el' :=
        fun e h => Or.inl (Except.error.inj h).symm
      cases elemLen el with
      | none => exact ⟨.refl rs, lose⟩
      | some rlen =>
        dsimp only
        split
        · exact ⟨.refl rs, lose⟩
        · generalize elemData F _ rlen el.text = w
          cases w with
          | error x => exact ⟨.refl rs, lose⟩
          | ok p =>
            obtain ⟨n, data⟩ := p
            dsimp only
            cases hadd : addRegs rs offset n data ((el.get "access").getD (t!"r")) with
            | error x => exact ⟨.refl rs, lose⟩
            | ok rs' =>
              dsimp only
              obtain ⟨i1, i2⟩ := ih rs' (offset.add n)
              refine ⟨(addRegs_continued hadd).trans i1, fun e h => ?_⟩
              rcases i2 e h with h | ⟨h, el', hm, hb⟩
              · exact Or.inl h
              · exact Or.inr ⟨h, el', by simp [hm], hb⟩

/-- C84: whatever the document, a map refuses it with `ModbusMapError` — or with a `TypeError`, if an offset in it
is not a number — and, loaded or refused, registers that were already in the map are still there, at the offsets
and with the contents they had. If the function of the document is unknown, nothing has changed. -/
theorem C84_load_partial (F : FloatText) (m : MbMap) (root : Elem) :
    Continued m.regs (fromXml F m root).1.regs ∧
    (∀ e, (fromXml F m root).2 = .error e → e = .modbusMapError ∨
      e = .typeError ∧ ∃ el ∈ root.findall "regs", BadOffset el) ∧
    (∀ f, root.get "func" = some f → f ≠ t!"holding" → f ≠ t!"input" →
      fromXml F m root = (m, .error .modbusMapError)) := by
  unfold fromXml
  refine ⟨?_, ?_, ?_⟩
  · cases funcValue ((root.get "func").getD (t!"holding")) with
    | none => exact .refl _
    | some v => exact (fromXmlLoop_keeps F (root.findall "regs") m.regs (.int 0)).1
  · cases funcValue ((root.get "func").getD (t!"holding")) with
    | none => exact fun e h => Or.inl (Except.error.inj h).symm
    | some v => exact (fromXmlLoop_keeps F (root.findall "regs") m.regs (.int 0)).2
  · intro f hf h1 h2
    rw [hf, Option.getD_some, show funcValue f = none by unfold funcValue; rw [if_neg h2, if_neg h1]]

/-- A document with a word that is not a number as an offset. -/
def offsetDoc : Elem := .mk "mbmap" [] none [.mk "regs" [("offset", t!"first")] none []]

/-- A document the second element of which overlaps the first. -/
def overlapDoc : Elem := .mk "mbmap" [] none
  [.mk "regs" [("offset", t!"0"), ("type", t!"u32")] (some (t!"7")) [],
   .mk "regs" [("offset", t!"1"), ("type", t!"u16")] (some (t!"7")) []]

/-- Non-vacuity: a refused document, of which the first element stays in the map. -/
example : (fromXml noFloats newMap overlapDoc).2 = .error .modbusMapError ∧
    (fromXml noFloats newMap overlapDoc).1.regs = [⟨.int 0, .int 2, some [0, 0, 0, 7], t!"r"⟩] := by decide +kernel

/-- C84: registers are only added by `regs_add`: those of the map stay, with the contents they had. -/
theorem C84_regs_add (m : MbMap) (addr offset : Option Int) (count : Int) (access : Text) :
    Continued m.regs (regsAdd m addr offset count access).1.regs := by
  unfold regsAdd
  dsimp only
  split
  · exact .refl _
  · split
    · exact .refl _
    · split
      · exact .refl _
      · split
        · rename_i rs' h
          exact addRegs_continued h
        · exact .refl _

/-- C84 is violated: a non-numeric offset raises `TypeError` (the text of the error message cannot be made). -/
theorem C84_violated : ¬ C84_full := by
  intro h
  have h1 : (fromXml noFloats newMap offsetDoc).2 = .error .typeError := by decide +kernel
  have h2 := (h.2.2 noFloats newMap offsetDoc .typeError h1).1
  exact absurd h2 (by decide)

/-- C84 is violated: a refused document leaves its first registers and its base address in the map. -/
theorem C84_violated_left :
    (fromXml noFloats newMap overlapDoc).2 = .error .modbusMapError ∧
    mapRead newMap 40000 2 none = .error .modbusMapError ∧
    mapRead (fromXml noFloats newMap overlapDoc).1 40000 2 none = .ok [0, 0, 0, 7] := by decide +kernel

end Verif
