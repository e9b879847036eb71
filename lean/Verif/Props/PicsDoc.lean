import Verif.Props.Pics

/-!
# C41: what a PICS document says
-/

namespace Verif
open Spec

namespace Spec

/-- The element of a point: its id; `impl="false"` for a point without a value, else `access="rw"` for a writable point; the text is the
unscaled value. -/
structure PicsPoint (lib : FloatLib) (p : PointObj) (e : Elem) : Prop where
  tag : e.tag = "point"
  id : e.get "id" = some p.pt.id
  impl : e.get "impl" = if getValue lib p = .ok .none then some (t!"false") else none
  access : e.get "access" = if getValue lib p = .ok .none ∨ p.pt.rw = false then none else some (t!"rw")
  text : e.text = p.base.map fun b => rstripNul (valText lib b)
  children : e.children = []

/-- The element of a block: its index, if greater than 1; `type="repeating"` for repeating blocks; the points in the order of the
definition, those that the block does not have (padding) left out. -/
structure PicsBlock (lib : FloatLib) (b : BlockObj) (e : Elem) : Prop where
  tag : e.tag = "block"
  index : e.get "index" = if b.index > 1 then some (natDec b.index) else none
  type : e.get "type" = if b.bt.repeating then some (t!"repeating") else none
  points : ∃ ps : List PointObj, List.Forall₂ (PicsPoint lib) ps e.children ∧ (∀ p ∈ ps, p ∈ b.pts ∨ p ∈ b.sfs) ∧
    ps.map (·.pt.id) = (b.bt.points.map (·.id)).filter fun i => decide (i ∈ (b.pts ++ b.sfs).map (·.pt.id))

/-- The element of a model: its id, length and, unless it is 1, index; the blocks, with `single` only the fixed and the first repeating
block. -/
structure PicsModel (lib : FloatLib) (single : Bool) (m : MdlObj) (e : Elem) : Prop where
  tag : e.tag = "model"
  id : e.get "id" = some (intDec m.id)
  len : e.get "len" = some (intDec m.len)
  index : e.get "index" = if m.index = .int 1 then none else some m.index.text
  blocks : List.Forall₂ (PicsBlock lib) (if single then m.blocks.filter fun b => decide (b.index ≤ 1) else m.blocks) e.children

end Spec

theorem find_lacks {ps : List PointObj} {i : Text} : (ps.find? fun p => decide (p.pt.id = i)) = none ↔ i ∉ ps.map (·.pt.id) := by
  rw [List.find?_eq_none]
  simp only [decide_eq_true_eq, List.mem_map, not_exists, not_and]

theorem picsFind_has {b : BlockObj} {i : Text} {p : PointObj} (h : picsFind b i = some p) : (p ∈ b.pts ∨ p ∈ b.sfs) ∧ p.pt.id = i := by
  unfold picsFind at h
  split at h
  · rename_i q hq
    cases h
    exact ⟨.inl (List.mem_of_find?_eq_some hq), by simpa using List.find?_some hq⟩
  · exact ⟨.inr (List.mem_of_find?_eq_some h), by simpa using List.find?_some h⟩

theorem picsFind_lacks {b : BlockObj} {i : Text} : picsFind b i = none ↔ i ∉ (b.pts ++ b.sfs).map (·.pt.id) := by
  unfold picsFind
  rw [List.map_append, List.mem_append, not_or, ← find_lacks (ps := b.pts), ← find_lacks (ps := b.sfs)]
  split
  · rename_i q hq; simp [hq]
  · rename_i hq; simp [hq]

theorem pointToPics_doc {lib : FloatLib} {p : PointObj} {e : Elem} (h : pointToPics lib p = .ok e) : PicsPoint lib p e := by
  unfold pointToPics at h
  split at h
  · cases h
  · rename_i v hv
    have h := (Except.ok.inj h).symm
    subst h
    by_cases hn : v = .none
    · have hg : getValue lib p = .ok .none := by rw [hv, hn]
      refine ⟨rfl, rfl, ?_, ?_, rfl, rfl⟩ <;> simp [hg, hn, Elem.get, Elem.attrib, dictGet]
    · have hne : getValue lib p ≠ .ok .none := by rw [hv]; intro h; exact hn (Except.ok.inj h)
      by_cases hr : p.pt.rw = true
      · refine ⟨rfl, rfl, ?_, ?_, rfl, rfl⟩ <;> simp [hne, hn, hr, Elem.get, Elem.attrib, dictGet]
      · refine ⟨rfl, rfl, ?_, ?_, rfl, rfl⟩ <;> simp [hne, hn, hr, Elem.get, Elem.attrib, dictGet]

theorem pointsToPics_doc {lib : FloatLib} {b : BlockObj} (ts : List PointType) : ∀ {els : List Elem}, pointsToPics lib b ts = .ok els →
    ∃ ps : List PointObj, List.Forall₂ (PicsPoint lib) ps els ∧ (∀ p ∈ ps, p ∈ b.pts ∨ p ∈ b.sfs) ∧
      ps.map (·.pt.id) = (ts.map (·.id)).filter fun i => decide (i ∈ (b.pts ++ b.sfs).map (·.pt.id)) := by
  induction ts with
  | nil => intro els h; rw [pointsToPics] at h; cases h; exact ⟨[], .nil, by simp, rfl⟩
  | cons t ts ih =>
    intro els h
    rw [pointsToPics] at h
    rw [List.map_cons, List.filter_cons]
    split at h
    · rename_i hn
      rw [if_neg (by rw [picsFind_lacks] at hn; simpa using hn)]
      exact ih h
    · rename_i p hp
      have hmem : t.id ∈ (b.pts ++ b.sfs).map (·.pt.id) := Classical.byContradiction fun hc => by
        rw [picsFind_lacks.mpr hc] at hp; cases hp
      rw [if_pos (by simpa using hmem)]
      split at h
      · cases h
      · rename_i el hel
        split at h
        · cases h
        · rename_i els' hels
          cases h
          obtain ⟨ps, h1, h2, h3⟩ := ih hels
          obtain ⟨g1, g2⟩ := picsFind_has hp
          refine ⟨p :: ps, .cons (pointToPics_doc hel) h1, ?_, ?_⟩
          · intro q hq
            rcases List.mem_cons.mp hq with rfl | hq
            · exact g1
            · exact h2 q hq
          · rw [List.map_cons, h3, g2]

theorem blockToPics_doc {lib : FloatLib} {b : BlockObj} {e : Elem} (h : blockToPics lib b = .ok e) : PicsBlock lib b e := by
  unfold blockToPics at h
  split at h
  · cases h
  · rename_i els hels
    have h := (Except.ok.inj h).symm
    subst h
    refine ⟨rfl, ?_, ?_, pointsToPics_doc _ hels⟩
    · by_cases h1 : b.index > 1 <;> by_cases h2 : b.bt.repeating = true <;> simp [h1, h2, Elem.get, Elem.attrib, dictGet]
    · by_cases h1 : b.index > 1 <;> by_cases h2 : b.bt.repeating = true <;> simp [h1, h2, Elem.get, Elem.attrib, dictGet]

theorem blocksToPics_doc {lib : FloatLib} {single : Bool} (bs : List BlockObj) : ∀ {els : List Elem}, blocksToPics lib single bs = .ok els →
    List.Forall₂ (PicsBlock lib) (if single then bs.filter fun b => decide (b.index ≤ 1) else bs) els := by
  induction bs with
  | nil => intro els h; rw [blocksToPics] at h; cases h; cases single <;> exact .nil
  | cons b bs ih =>
    intro els h
    rw [blocksToPics] at h
    by_cases hc : single = false ∨ b.index ≤ 1
    · rw [if_pos hc] at h
      split at h
      · cases h
      · rename_i el hel
        split at h
        · cases h
        · rename_i els' hels
          cases h
          have e : (if single then (b :: bs).filter (fun b => decide (b.index ≤ 1)) else b :: bs) =
              b :: (if single then bs.filter (fun b => decide (b.index ≤ 1)) else bs) := by
            cases single with
            | false => rfl
            | true =>
              have : b.index ≤ 1 := by simpa using hc
              simp [this]
          rw [e]
          exact .cons (blockToPics_doc hel) (ih hels)
    · rw [if_neg hc] at h
      have e : (if single then (b :: bs).filter (fun b => decide (b.index ≤ 1)) else b :: bs) =
          (if single then bs.filter (fun b => decide (b.index ≤ 1)) else bs) := by
        cases single with
        | false => simp at hc
        | true =>
          have : ¬ b.index ≤ 1 := by simpa using hc
          simp [this]
      rw [e]
      exact ih h

theorem modelToPics_doc {lib : FloatLib} {single : Bool} {m : MdlObj} {e : Elem} (h : modelToPics lib single m = .ok e) : PicsModel lib single m e := by
  unfold modelToPics at h
  split at h
  · cases h
  · rename_i els hels
    have h := (Except.ok.inj h).symm
    subst h
    refine ⟨rfl, rfl, rfl, ?_, blocksToPics_doc _ hels⟩
    by_cases h1 : m.index = .int 1 <;> simp [h1, Elem.get, Elem.attrib, dictGet]

/-- C41: for every device, what the document written by `to_pics` says: one element for each model, with an element for each block, with
an element for each point. -/
theorem C41_document (lib : FloatLib) (single : Bool) (ms : List MdlObj) (e : Elem) (h : deviceToPics lib single ms = .ok e) :
    e.tag = "device" ∧ e.get "v" = some (t!"1") ∧ List.Forall₂ (PicsModel lib single) ms e.children := by
  unfold deviceToPics at h
  split at h
  · cases h
  · rename_i els hels
    cases h
    refine ⟨rfl, rfl, ?_⟩
    show List.Forall₂ _ ms els
    clear * - hels
    induction ms generalizing els with
    | nil => rw [modelsToPics] at hels; cases hels; exact .nil
    | cons m ms ih =>
      rw [modelsToPics] at hels
      split at hels
      · cases hels
      · rename_i el hel
        split at hels
        · cases hels
        · rename_i els' hels'
          cases hels
          exact .cons (modelToPics_doc hel) (ih els' hels')

/-- The ids in a document. -/
def docIds (r : Py Elem) : List (List (Text × List Text)) :=
  match r with
  | .ok e => e.children.map fun m => m.children.map fun b => ((b.get "index").getD [], b.children.map fun p => (p.get "id").getD [])
  | .error _ => []

/-- Non-vacuity: the document of a device with one model of three blocks. -/
example : docIds (deviceToPics ⟨fun _ => .error .overflowError, fun _ => none, fun _ => []⟩ false [(mdlLoad (.ok exType) (mdlNew 900 40002 7)).1]) =
    [[([], [t!"A", t!"A_SF"]), ([], [t!"V", t!"W"]), (t!"2", [t!"V", t!"W"])]] := by
  decide +kernel

end Verif
