import Verif.Props.PicsValue
import Verif.Props.Compare

/-!
# C83: a device loaded from its PICS document is equal to the device

`Device.from_pics` followed by `Device.not_equal` (`sunspec/core/device.py:186-236, 238-257`): how a program checks that a
document is that of a device (`sunspec/core/test/test_device.py`).
-/

namespace Verif
open Spec

variable {lib : FloatLib}

namespace Spec

/-- Every point with a scale factor has a value. -/
def ScaledImplemented (m : MdlObj) : Prop :=
  ∀ b ∈ m.blocks, ∀ p ∈ b.pts, p.sf ≠ none → p.base ≠ none

end Spec

/-- A value that text can carry is equal to itself. -/
theorem sameVal_self {t : PT} {v : Val} (h : TextOK lib t v) : SameVal (some v) (some v) := by
  cases v with
  | int i => exact .num rfl rfl (by simp)
  | str s => exact .text s
  | flt b =>
    obtain ⟨h1, h2, _⟩ := h
    subst h2
    have hn : f32IsNaN b = false := by
      have : (!f32IsNaN b) = true := h1
      simpa using this
    refine .num (x := unsignedZero (f32Val b)) rfl rfl ?_
    intro hx
    have hnan : f32Val b = .nan := by
      generalize f32Val b = f at hx
      cases f <;> simp_all [unsignedZero]
    have : f32IsNaN b = true := by
      unfold f32Val at hnan
      simp only at hnan
      unfold f32IsNaN
      simp only [Bool.and_eq_true, beq_iff_eq, bne_iff_ne]
      split at hnan
      · next h1 =>
        split at hnan
        · cases hnan
        · next h2 => exact ⟨h1, h2⟩
      · split at hnan
        · split at hnan <;> cases hnan
        · cases hnan
    rw [hn] at this
    cases this
  | dbl f =>
    obtain ⟨h1, h2, _⟩ := h
    subst h2
    have hn : f ≠ .nan := by
      have : (f != .nan) = true := h1
      simpa using this
    refine .num (x := unsignedZero f) rfl rfl ?_
    intro hx
    cases f <;> simp_all [unsignedZero]

theorem sameVal_self? {m : MdlObj} (hv : ValuesOK lib m) {b : BlockObj} (hb : b ∈ m.blocks) {p : PointObj} (hp : p ∈ b.pts ∨ p ∈ b.sfs) :
    SameVal p.base p.base := by
  cases h : p.base with
  | none => exact .missing
  | some v => exact sameVal_self (hv b hb p hp v h)

/-- A model and a model with the same definition and values are equal. -/
theorem equal_of_same {types : Int → Py ModelType} {m n : MdlObj} (q1 : LoadedModel types m) (q2 : ∀ mt, types m.id = .ok mt → DefOK mt)
    (q3 : ValuesOK lib m) (hr : ReadScales m) (hi : ScaledImplemented m) (h : SameModel m n) (hn : ScaledModel n) : EqualModel m n := by
  obtain ⟨mt, m', _, _, _, _, _, _, hp, _⟩ := picsPair (lib := lib) types m q1 q2 q3 0
  have hg : ∀ b ∈ m.blocks, GoodBlock b := by
    intro b hb
    obtain ⟨k, hk⟩ := List.getElem?_of_mem hb
    exact (hp.good k b hk).1
  constructor
  · have := (C48_loaded types m q1 q2).2
    cases ht : m.mtype with
    | none => exact absurd ht this
    | some t => exact ⟨t, rfl, h.mtype.trans ht⟩
  · refine forall₂_mem h.blocks fun b hb c hc hbc => ⟨hbc.bt, ?_⟩
    refine forall₂_mem hbc.pts fun p hp q hq hpq => ⟨hpq.1, ?_, ?_⟩
    · rw [hpq.2.2]
      exact sameVal_self? q3 hb (.inl hp)
    · have hs' := hn c hc q hq
      cases hsf : p.sf with
      | none =>
        have : p.vsf = none := by
          by_cases hb0 : p.base = none
          · exact (hr b hb p hp).2 hb0
          · exact ((hr b hb p hp).1 hb0).2 hsf
        rw [this, hs'.2 (hpq.2.1.trans hsf)]
        exact .missing
      | some ref =>
        have hb0 : p.base ≠ none := hi b hb p hp (by rw [hsf]; simp)
        have hv := ((hr b hb p hp).1 hb0).1 ref hsf
        rw [isScale_same hg h hv (hs'.1 ref (hpq.2.1.trans hsf))]
        cases ref with
        | const c => rw [show p.vsf = some (.int c) from hv]; exact .num rfl rfl (by simp)
        | point blk id =>
          obtain ⟨b1, q1, h1, h2, _, h4⟩ := hv
          rw [h4]
          exact sameVal_self? q3 (List.mem_of_getElem? h1) (.inr h2)

/-- C83: a device whose models have been loaded and read, and whose scaled points all have a value, is equal
(`not_equal` returns False) to the device loaded from its PICS document, and that one to it; if the two devices share
the objects of their definitions or these have no symbols. Missing: scaled points without a value
(`C83_unimplemented`), points that have a value in the first repeating block only (`C83_leak`), definitions with
symbols that are loaded again (`C83_symbols`). -/
theorem C83_equal_partial (same : Bool) (types : Int → Py ModelType) (ms : List MdlObj) (e : Elem)
    (hms : ∀ m ∈ ms, LoadedModel types m ∧ (∀ mt, types m.id = .ok mt → DefOK mt) ∧ ValuesOK lib m ∧ FirstLeast m)
    (hr : ∀ m ∈ ms, ReadScales m ∧ ScaledImplemented m) (hs : same = true ∨ ∀ m ∈ ms, NoSymbols m)
    (h : deviceToPics lib false ms = .ok e) :
    ∃ ms', deviceFromPics lib types e = (ms', .ok ()) ∧ deviceNe same ms ms' = .ok none ∧ deviceNe same ms' ms = .ok none := by
  obtain ⟨ms', h1, h2, h3⟩ := C41_roundtrip_partial (lib := lib) types ms e hms h
  have heq : List.Forall₂ EqualModel ms ms' := forall₂_mem h2 fun m hm n hn hmn =>
    equal_of_same (hms m hm).1 (hms m hm).2.1 (hms m hm).2.2.1 (hr m hm).1 (hr m hm).2 hmn (h3 n hn).2
  have hu : ∀ m ∈ ms, UniqueDefs m ∧ (same = true ∨ NoSymbols m) := fun m hm =>
    ⟨(C48_loaded types m (hms m hm).1 (hms m hm).2.1).1, hs.imp id fun h => h m hm⟩
  refine ⟨ms', h1, C48_equal_partial same ms ms' hu heq, ?_⟩
  have hsym : ∀ {a b : Option Val}, SameVal a b → SameVal b a := by
    intro a b h
    cases h with
    | missing => exact .missing
    | text s => exact .text s
    | num h1 h2 h3 => exact .num h2 h1 h3
  refine C48_equal_partial same ms' ms ?_ (heq.flip.imp fun n m h => ?_)
  · intro n hn
    obtain ⟨m, hm, hmn⟩ := mem_forall₂ heq hn
    obtain ⟨q1, q2⟩ := hu m hm
    obtain ⟨⟨t, t1, t2⟩, hb⟩ := hmn
    refine ⟨⟨?_, ?_⟩, q2.imp id fun h => ⟨?_, ?_⟩⟩
    · intro t' ht'
      rw [t2] at ht'
      cases ht'
      exact q1.1 t t1
    · intro c hc
      obtain ⟨b, hb', hbc⟩ := mem_forall₂ hb hc
      exact complete_of_same (q1.2 b hb') hbc.1 hbc.2
    · intro t' ht'
      rw [t2] at ht'
      cases ht'
      exact h.1 t t1
    · intro c hc
      obtain ⟨b, hb', hbc⟩ := mem_forall₂ hb hc
      rw [hbc.1]
      exact h.2 b hb'
  · obtain ⟨⟨t, t1, t2⟩, hb⟩ := h
    exact ⟨⟨t, t2, t1⟩, hb.flip.imp fun c b h => ⟨h.1.symm, h.2.flip.imp fun q p h => ⟨h.1.symm, hsym h.2.1, hsym h.2.2⟩⟩⟩

/-! ### What goes wrong -/

/-- The property in full: every device (loaded with well-formed definitions and read once, with values text can carry) is
equal to the device loaded from its document. Violated: `C83_violated`. -/
def C83_full : Prop :=
  ∀ (lib : FloatLib), PowOK lib → ∀ (same : Bool) (types : Int → Py ModelType) (ms : List MdlObj) (e : Elem),
    (∀ m ∈ ms, LoadedModel types m ∧ (∀ mt, types m.id = .ok mt → DefOK mt) ∧ ValuesOK lib m ∧ ReadScales m ∧
      ∀ b ∈ m.blocks, ∀ p ∈ b.pts ++ b.sfs, CanScale p) →
    deviceToPics lib false ms = .ok e →
    ∃ ms', deviceFromPics lib types e = (ms', .ok ()) ∧ deviceNe same ms ms' = .ok none

/-- C83: a device with a scaled point that is not implemented is different from the device loaded from its document: there
the point has a value of the scale factor. -/
theorem C83_unimplemented (same : Bool) :
    deviceNe same [unimplModel] (loadedBack exactLib [unimplModel]) = .ok (some (.inModel 900 (.inBlock 0 (.inPoint (t!"A") .value)))) := by
  cases same <;> decide +kernel

/-- A model in which all scaled points have values. -/
def completeModel : MdlObj := withVal fullModel 1 (t!"W") (some (.int 8)) (some (.int (-1)))

/-- A model in which all points but V in the second repeating block have values. -/
def firstOnly : MdlObj := withVal completeModel 2 (t!"V") none none

theorem firstOnly_loaded : LoadedModel (fun _ => .ok exType) firstOnly :=
  loadedModel_withVal (loadedModel_withVal fullModel_loaded _ _ _ _) _ _ _ _

/-- C83: a point that has a value in the first repeating block only has it in all of them in the device loaded from the
document. -/
theorem C83_leak (same : Bool) :
    deviceNe same [firstOnly] (loadedBack exactLib [firstOnly]) = .ok (some (.inModel 900 (.inBlock 2 (.inPoint (t!"V") .value)))) := by
  cases same <;> decide +kernel

/-- C83: a device whose definition has symbols is different from the device loaded from its document if the definition is
loaded again. -/
theorem C83_symbols : ∃ e ms', deviceToPics exactLib false [symModel] = .ok e ∧
    deviceFromPics exactLib (fun _ => .ok symType) e = (ms', .ok ()) ∧ deviceNe false [symModel] ms' ≠ .ok none := by
  refine ⟨_, _, rfl, rfl, ?_⟩
  decide +kernel

/-- C83 is violated: see `C83_leak`. -/
theorem C83_violated : ¬ C83_full := by
  intro h
  cases he : deviceToPics exactLib false [firstOnly] with
  | error x =>
    have : (deviceToPics exactLib false [firstOnly]).toBool = true := by decide +kernel
    rw [he] at this
    cases this
  | ok e =>
    obtain ⟨ms', h1, h2⟩ := h exactLib exactLib_ok true (fun _ => .ok exType) [firstOnly] e (by
      intro m hm
      rw [List.mem_singleton] at hm
      subst hm
      refine ⟨firstOnly_loaded, fun mt hmt => ?_, valuesOK_check _ (by decide +kernel), readScales_check _ (by decide +kernel), ?_⟩
      · cases hmt; exact exType_defOK
      · have : ∀ b ∈ firstOnly.blocks, ∀ p ∈ b.pts ++ b.sfs, checkCan p = true := by decide +kernel
        exact fun b hb p hp => canScale_check p (this b hb p hp)) he
    have hback : loadedBack exactLib [firstOnly] = ms' := by
      unfold loadedBack
      rw [he]
      dsimp only
      rw [h1]
    have := C83_leak true
    rw [hback, h2] at this
    cases this

/-! ### The hypotheses can be met -/

example : ∃ e ms', deviceToPics exactLib false [completeModel] = .ok e ∧
    deviceFromPics exactLib (fun _ => .ok exType) e = (ms', .ok ()) ∧ deviceNe false [completeModel] ms' = .ok none := by
  have hl : LoadedModel (fun _ => .ok exType) completeModel := loadedModel_withVal fullModel_loaded _ _ _ _
  have hv : ∀ m ∈ [completeModel], LoadedModel (fun _ => .ok exType) m ∧
      (∀ mt, (Except.ok exType : Py ModelType) = .ok mt → DefOK mt) ∧ ValuesOK exactLib m ∧ FirstLeast m := by
    intro m hm
    rw [List.mem_singleton] at hm
    subst hm
    refine ⟨hl, fun mt hmt => ?_, valuesOK_check _ (by decide +kernel), firstLeast_check _ (by decide +kernel)⟩
    cases hmt; exact exType_defOK
  have hc : ∀ b ∈ completeModel.blocks, ∀ p ∈ b.pts ++ b.sfs, checkCan p = true := by decide +kernel
  obtain ⟨e, he⟩ := C41_written exactLib_ok false [completeModel] (by
    intro m hm
    rw [List.mem_singleton] at hm
    subst hm
    exact fun b hb p hp => canScale_check p (hc b hb p hp))
  obtain ⟨ms', h1, h2, _⟩ := C83_equal_partial false _ _ e hv (by
    intro m hm
    rw [List.mem_singleton] at hm
    subst hm
    refine ⟨readScales_check _ (by decide +kernel), ?_⟩
    intro b hb p hp
    have : ∀ b ∈ completeModel.blocks, ∀ p ∈ b.pts, p.sf ≠ none → p.base ≠ none := by decide +kernel
    exact this b hb p hp) (.inr fun m hm => by
      rw [List.mem_singleton] at hm
      subst hm
      exact exModel_noSymbols _ hl) he
  exact ⟨e, ms', he, h1, h2⟩

end Verif
