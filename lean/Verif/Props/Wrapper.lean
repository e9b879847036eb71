import Verif.Lemmas.Wrapper
import Verif.Props.Load
import Verif.Props.Value

/-!
# C47, C57: the scripting interface
-/

namespace Verif
open Spec

/-- C47 in full: a device with any (loaded) models gets its named attributes. -/
def C47_full : Prop :=
  ∀ (lib : FloatLib) (ms : List MdlObj), (∀ m ∈ ms, TailRep m) →
    ∃ d l, wrapDevice lib ms = (d, .ok ()) ∧ d.item (t!"models") = some (.list (l.map .name)) ∧
      FirstNames (ms.map modelName) l ∧
      ∀ n ∈ ms.map modelName, d.item n = namedAttr (positions (ms.map modelName) n)

/-- C47, for model names that are not attributes of the device object itself (`device`, `models`, `close`, `read`,
names like `__init__`) and definitions whose point and block names are not attributes of the generated objects:
`models` has every name once, in order of first appearance; the attribute of that name is the model, or the list
`[None, instance 1, instance 2, …]` in device order. -/
theorem C47_partial (lib : FloatLib) (ms : List MdlObj) (hw : ∀ m ∈ ms, Wrappable m)
    (hf : ∀ m ∈ ms, FreeName (modelName m)) :
    ∃ d l, wrapDevice lib ms = (d, .ok ()) ∧ d.item (t!"models") = some (.list (l.map .name)) ∧
      FirstNames (ms.map modelName) l ∧
      (∀ n, FreeName n → d.item n = namedAttr (positions (ms.map modelName) n)) ∧
      d.item (t!"device") = some (.one .dev) ∧ d.closed = false ∧ d.models = ms ∧ d.wraps.length = ms.length := by
  obtain ⟨d, hd, hi⟩ := wrapDevice_ok lib ms hw hf
  have hn := hi.names
  rw [List.take_length] at hn
  obtain ⟨l, hl, hfn⟩ := hn.models
  exact ⟨d, l, hd, hl, hfn, fun n hn' => hn.named n hn'.1 hn'.2.1, hn.dev, hi.closed, hi.models, hi.len⟩

/-- The instance number `k` of a name with several instances is element `k + 1` of the list; the elements are in
device order. -/
theorem C47_instances (ns : List Text) (n : Text) :
    (positions ns n).Pairwise (· < ·) ∧ ∀ i, i ∈ positions ns n ↔ ns[i]? = some n := by
  unfold positions
  constructor
  · exact List.Pairwise.filter _ List.pairwise_lt_range
  · intro i
    rw [List.mem_filter, List.mem_range, decide_eq_true_eq]
    constructor
    · exact fun h => h.2
    · intro h
      refine ⟨?_, h⟩
      rcases Nat.lt_or_ge i ns.length with h' | h'
      · exact h'
      · rw [List.getElem?_eq_none h'] at h; cases h

theorem loadLoop_tail (rep : Option BlockType) (e : Int) (fuel : Nat) :
    ∀ (index : Nat) (bt : BlockType) (a l r : Int) (m : MdlObj),
      (∀ b ∈ m.blocks.tail, rep = some b.bt) → (m.blocks ≠ [] → rep = some bt) →
      (∀ b ∈ (loadLoop rep e fuel index bt a l r m).1.blocks.tail, rep = some b.bt) ∧
      (loadLoop rep e fuel index bt a l r m).1.mtype = m.mtype := by
  induction fuel with
  | zero => intro index bt a l r m h1 _; exact ⟨h1, rfl⟩
  | succ fuel ih =>
    intro index bt a l r m h1 h2
    rw [loadLoop]
    split
    · exact ⟨h1, rfl⟩
    · have hnew : ∀ (nb : BlockObj), nb.bt = bt → ∀ b ∈ (m.blocks ++ [nb]).tail, rep = some b.bt := by
        intro nb hnb b hb
        cases hmb : m.blocks with
        | nil => rw [hmb] at hb; simp at hb
        | cons b0 bs =>
          rw [hmb] at hb
          simp only [List.cons_append, List.tail_cons, List.mem_append, List.mem_singleton] at hb
          rcases hb with hb | hb
          · exact h1 b (by rw [hmb]; exact hb)
          · rw [hb, hnb]; exact h2 (by rw [hmb]; simp)
      simp only []
      split
      · exact ⟨hnew _ rfl, rfl⟩
      · split
        · exact ⟨hnew _ rfl, rfl⟩
        · rename_i rb
          split
          · exact ⟨hnew _ rfl, rfl⟩
          · split
            · exact ⟨hnew _ rfl, rfl⟩
            · exact ih _ _ _ _ _ _ (hnew _ rfl) (fun _ => rfl)

/-- Loading a model, successfully or not, gives it no blocks after the first but those of its definition's
repeating block: the hypothesis of the theorems of this file holds for all models of a scanned device. -/
theorem mdlLoad_tailRep (mt : Py ModelType) (id addr len : Int) : TailRep (mdlLoad mt (mdlNew id addr len)).1 := by
  unfold mdlLoad loadWith
  cases mt with
  | error e => intro b hb; simp [mdlNew] at hb
  | ok mt =>
    simp only []
    split
    · intro b hb; simp [mdlNew] at hb
    · rename_i flen _
      have hl := loadLoop_tail mt.rep ((mdlNew id addr len).addr + if (mdlNew id addr len).len = 0 then mt.len else (mdlNew id addr len).len)
        (loadFuel (.ok mt) (mdlNew id addr len)) 0 mt.fixed (mdlNew id addr len).addr
        (if (mdlNew id addr len).id = 1 ∧ (if (mdlNew id addr len).len = 0 then mt.len else (mdlNew id addr len).len) = 65 then
          (if (mdlNew id addr len).len = 0 then mt.len else (mdlNew id addr len).len) else flen) (mdlNew id addr len).addr
        { mdlNew id addr len with
          readBlocks := (mdlNew id addr len).readBlocks ++ [(mdlNew id addr len).addr], mtype := some mt,
          len := if (mdlNew id addr len).len = 0 then mt.len else (mdlNew id addr len).len }
        (by intro b hb; simp [mdlNew] at hb) (by intro h; exact absurd rfl h)
      split
      · rename_i m2 e heq
        have h1 := hl.1
        have h2 := hl.2
        rw [heq] at h1 h2
        exact fun b hb => ⟨mt, h2, h1 b hb⟩
      · rename_i m2 heq
        have h1 := hl.1
        have h2 := hl.2
        rw [heq] at h1 h2
        exact fun b hb => ⟨mt, h2, h1 b hb⟩

theorem modify_at {α} {l : List α} {i : Nat} {x : α} (h : l[i]? = some x) (f : α → α) : l.modify i f = l.set i (f x) := by
  rw [List.modify_eq_set_getElem?, h]
  rfl

/-- C57, for the same devices: the attribute of the object for model `i` named like a point of the fixed block is,
in any later state `ms'` of the device, the value of that point; assigning to it sets the value of that point (with
the outcome of the assignment) and changes nothing else. Before the model is loaded the attributes are `None` and
assignments are ignored. -/
theorem C57_points_partial (lib : FloatLib) (ms : List MdlObj) (hw : ∀ m ∈ ms, Wrappable m)
    (hf : ∀ m ∈ ms, FreeName (modelName m)) :
    ∃ d, wrapDevice lib ms = (d, .ok ()) ∧ d.models = ms ∧
      ∀ i m mt, ms[i]? = some m → m.mtype = some mt → ∃ w, d.wraps[i]? = some w ∧
        w.getAttr lib ms (t!"name") = .ok (.text (modelName m)) ∧
        w.getAttr lib ms (t!"points") = .ok (.names ((dataPoints mt.fixed).map (·.id))) ∧
        (∀ ms' k p, PointAt ms' i 0 k p → (∃ t ∈ dataPoints mt.fixed, t.id = p.pt.id) →
          w.getAttr lib ms' p.pt.id = (getValue lib p).map .val ∧
          ∀ v, w.setAttr lib ms' p.pt.id v =
            (w, setPoint ms' i 0 k (setValue lib p v).1, (setValue lib p v).2)) ∧
        (∀ ms' m' t, ms'[i]? = some m' → m'.exposed = false → t ∈ dataPoints mt.fixed →
          w.getAttr lib ms' t.id = .ok (.val .none) ∧ ∀ v, w.setAttr lib ms' t.id v = (w, ms', .ok ())) := by
  obtain ⟨d, hd, hi⟩ := wrapDevice_ok lib ms hw hf
  refine ⟨d, hd, hi.models, ?_⟩
  intro i m mt hm hmt
  have hil : i < ms.length := by
    rcases Nat.lt_or_ge i ms.length with h | h
    · exact h
    · rw [List.getElem?_eq_none h] at hm; cases hm
  obtain ⟨w, hwi, hok⟩ := hi.wraps i m hil hm
  have hc := (hw m (List.mem_of_getElem? hm)).clash mt hmt
  have hp : w.cls.props = propIds mt.fixed := by rw [hok.cls, hmt]; rfl
  have hpts : w.cls.points = propIds mt.fixed := by rw [hok.cls, hmt]; rfl
  have np : ∀ x ∈ [t!"model", t!"name", t!"repeating", t!"repeating_name", t!"points", t!"_get_property",
      t!"_set_property"], x ∉ w.cls.props := fun x hx => by rw [hp]; exact not_mem_propIds hc.fixed hx
  have n1 := np (t!"model") (by decide)
  have n2 := np (t!"name") (by decide)
  have n3 := np (t!"points") (by decide)
  have n4 := np (t!"_get_property") (by decide)
  have n5 := np (t!"_set_property") (by decide)
  obtain ⟨q1, q2⟩ := hok.methods (hw m (List.mem_of_getElem? hm))
  have q1' : ¬ (w.hides (t!"_get_property") = true) := by rw [q1]; decide
  have q2' : ¬ (w.hides (t!"_set_property") = true) := by rw [q2]; decide
  refine ⟨w, hwi, ?_, ?_, ?_, ?_⟩
  · unfold MWrap.getAttr
    rw [if_neg n2, hok.name]
  · unfold MWrap.getAttr
    rw [if_neg n3, hok.points]
    simp only []
    rw [if_pos trivial, hpts, propIds_eq]
  · rintro ms' k p ⟨m', bl, h1, h2, h3, h4, h5⟩ ht
    have hin : p.pt.id ∈ w.cls.props := by rw [hp]; exact propIds_mem.2 ht
    have hmp : modelPts m' = bl.pts := by
      unfold modelPts
      rw [if_pos h2]
      cases hb : m'.blocks with
      | nil => rw [hb] at h3; cases h3
      | cons b bs => rw [hb] at h3; simp at h3; simp [h3]
    constructor
    · unfold MWrap.getAttr MWrap.getProp
      rw [if_pos hin, if_neg (by simp [n1, n4]), if_neg q1', hok.model]
      simp only [hok.mdl, h1, hmp]
      rw [ptsGet_at lib h4 h5]
    · intro v
      unfold MWrap.setAttr MWrap.setProp
      rw [if_pos hin, if_neg (by simp [n1, n5]), if_neg q2', hok.model]
      simp only [hok.mdl, h1]
      unfold setNth modelSet
      rw [if_pos h2, hmp, ptsSet_at lib h4 h5]
      simp only [MdlObj.withPts, h3]
      congr 2
      unfold setPoint
      rw [modify_at h1, modify_at h3]
  · intro ms' m' t h1 h2 ht
    have hin : t.id ∈ w.cls.props := by rw [hp]; exact propIds_mem.2 ⟨t, ht, rfl⟩
    have hmp : modelPts m' = [] := by unfold modelPts; rw [if_neg (by simp [h2])]
    constructor
    · unfold MWrap.getAttr MWrap.getProp
      rw [if_pos hin, if_neg (by simp [n1, n4]), if_neg q1', hok.model]
      simp only [hok.mdl, h1, hmp]
      rfl
    · intro v
      unfold MWrap.setAttr MWrap.setProp
      rw [if_pos hin, if_neg (by simp [n1, n5]), if_neg q2', hok.model]
      simp only [hok.mdl, h1]
      unfold setNth modelSet
      rw [if_neg (by simp [h2])]
      simp only []
      congr 2
      apply List.ext_getElem?
      intro j
      rw [List.getElem?_set]
      split
      · rename_i hj
        subst hj
        split
        · exact h1.symm
        · rename_i hlt
          rw [List.getElem?_eq_none (by omega)]
      · rfl

/-- C57, repeating blocks: `repeating` (also under the name of the block) is a list `[None, b1, …, bn]` with one object
per repeating block, in order; the attributes of `bj` are the values of the points of block `j`. -/
theorem C57_blocks_partial (lib : FloatLib) (ms : List MdlObj) (hw : ∀ m ∈ ms, Wrappable m)
    (hf : ∀ m ∈ ms, FreeName (modelName m)) :
    ∃ d, wrapDevice lib ms = (d, .ok ()) ∧
      ∀ i m, ms[i]? = some m → ∃ (w : MWrap) (bs : List BWrap), d.wraps[i]? = some w ∧
        w.getAttr lib ms (t!"repeating") = .ok (.reps (none :: bs.map some)) ∧
        (∀ b ∈ m.blocks.tail, w.getAttr lib ms b.bt.name = .ok (.reps (none :: bs.map some))) ∧
        bs.length = m.blocks.length - 1 ∧
        ∀ j b, m.blocks[j + 1]? = some b → ∃ bw : BWrap, bs[j]? = some bw ∧ bw.name = b.bt.name ∧
          ∀ ms' k p, PointAt ms' i (j + 1) k p → (∃ t ∈ dataPoints b.bt, t.id = p.pt.id) →
            bw.getAttr lib ms' i p.pt.id = getValue lib p ∧
            ∀ v, bw.setAttr lib ms' i p.pt.id v =
              (setPoint ms' i (j + 1) k (setValue lib p v).1, (setValue lib p v).2) := by
  obtain ⟨d, hd, hi⟩ := wrapDevice_ok lib ms hw hf
  refine ⟨d, hd, ?_⟩
  intro i m hm
  have hil : i < ms.length := by
    rcases Nat.lt_or_ge i ms.length with h | h
    · exact h
    · rw [List.getElem?_eq_none h] at hm; cases hm
  obtain ⟨w, hwi, hok⟩ := hi.wraps i m hil hm
  have hW := hw m (List.mem_of_getElem? hm)
  have nrep : t!"repeating" ∉ w.cls.props := by
    rw [hok.cls]
    match hmt : m.mtype with
    | none => simp [classOf]
    | some mt => exact not_mem_propIds (hW.clash mt hmt).fixed (by decide)
  refine ⟨w, w.reps, hwi, ?_, ?_, hok.reps.1, ?_⟩
  · unfold MWrap.getAttr
    rw [if_neg nrep, hok.repeating]
  · intro b hb
    obtain ⟨mt, hmt, hrep⟩ := hW.tail b hb
    have : b.bt.name ∉ w.cls.props := by
      rw [hok.cls, hmt]
      intro hx
      obtain ⟨t, ht, hte⟩ := propIds_mem.1 hx
      exact ((hW.clash mt hmt).block b.bt hrep).2 t ht hte
    unfold MWrap.getAttr
    rw [if_neg this, hok.byName b hb]
  · intro j b hj
    have hjt : m.blocks.tail[j]? = some b := by rw [List.getElem?_tail]; exact hj
    obtain ⟨mt, hmt, hrep⟩ := hW.tail b (List.mem_of_getElem? hjt)
    have hr := (hW.clash mt hmt).rep b.bt hrep
    have n1 : t!"block" ∉ propIds b.bt := not_mem_propIds hr (by decide)
    have n2 : t!"_get_property" ∉ propIds b.bt := not_mem_propIds hr (by decide)
    have n3 : t!"_set_property" ∉ propIds b.bt := not_mem_propIds hr (by decide)
    refine ⟨_, hok.reps.2 j b hjt, rfl, ?_⟩
    rintro ms' k p ⟨m', bl, h1, h2, h3, h4, h5⟩ ht
    have hin : p.pt.id ∈ propIds b.bt := propIds_mem.2 ht
    constructor
    · unfold BWrap.getAttr blockPts
      simp only []
      rw [if_pos hin, if_neg (by simp [n1, n2])]
      simp only [h1, h3]
      rw [ptsGet_at lib h4 h5]
    · intro v
      unfold BWrap.setAttr
      simp only []
      rw [if_pos hin, if_neg (by simp [n1, n3])]
      simp only [h1, h3]
      rw [ptsSet_at lib h4 h5]
      unfold setNth
      simp only [MdlObj.withPts, h3]
      congr 1
      unfold setPoint
      rw [modify_at h1, modify_at h3]

/-- C57, for the same devices: reading any other attribute — not a point of the fixed block, not the name of a block, none of the
documented attributes and methods, not beginning with an underscore — raises `AttributeError`. -/
theorem C57_unknown_partial (lib : FloatLib) (ms : List MdlObj) (hw : ∀ m ∈ ms, Wrappable m)
    (hf : ∀ m ∈ ms, FreeName (modelName m)) :
    ∃ d, wrapDevice lib ms = (d, .ok ()) ∧ ∀ (i : Nat) (m : MdlObj), ms[i]? = some m → ∃ w, d.wraps[i]? = some w ∧
      ∀ (ms' : List MdlObj) (n : Text), (∀ mt t, m.mtype = some mt → t ∈ dataPoints mt.fixed → t.id ≠ n) →
        (∀ b ∈ m.blocks.tail, b.bt.name ≠ n) → ¬ (t!"_") <+: n →
        n ∉ [t!"model", t!"name", t!"repeating", t!"repeating_name", t!"points", t!"load_error", t!"read", t!"write"] →
        w.getAttr lib ms' n = .error .attributeError := by
  obtain ⟨d, hd, hi⟩ := wrapDevice_ok lib ms hw hf
  refine ⟨d, hd, ?_⟩
  intro i m hm
  have hil : i < ms.length := by
    rcases Nat.lt_or_ge i ms.length with h | h
    · exact h
    · rw [List.getElem?_eq_none h] at hm; cases hm
  obtain ⟨w, hwi, hok⟩ := hi.wraps i m hil hm
  refine ⟨w, hwi, ?_⟩
  intro ms' n h1 h2 h3 h4
  have hnp : n ∉ w.cls.props := by
    rw [hok.cls]
    match hmt : m.mtype with
    | none => simp [classOf]
    | some mt =>
      intro hx
      obtain ⟨t, ht, hte⟩ := propIds_mem.1 hx
      exact h1 mt t hmt ht hte
  unfold MWrap.getAttr
  simp only [List.mem_cons, List.not_mem_nil, or_false, not_or] at h4
  obtain ⟨a1, a2, a3, a4, a5, a6, a7, a8⟩ := h4
  rw [if_neg hnp, hok.only n (by simp [a1, a2, a3, a4]) h2]
  dsimp only
  rw [if_neg a5, if_neg (fun h => a6 h.1), if_neg]
  simp only [List.mem_cons, List.not_mem_nil, or_false, not_or]
  refine ⟨a7, a8, ?_, ?_⟩
  · rintro rfl; exact h3 (by decide)
  · rintro rfl; exact h3 (by decide)

/-- Models: two of type `exType` around one of unknown type. -/
def exModels : List MdlObj :=
  [(mdlLoad (.ok exType) (mdlNew 900 40002 7)).1, (mdlLoad (.error .sunSpecError) (mdlNew 5 40011 4)).1,
    (mdlLoad (.ok exType) (mdlNew 900 40017 5)).1]

theorem exType_noClash : NoClash exType := by
  refine ⟨by decide, ?_, ?_⟩
  · intro rb h; cases h; decide
  · intro rb h; cases h; decide

theorem wrappable_of (mt : Py ModelType) (h : ∀ t, mt = .ok t → NoClash t) (id addr len : Int)
    (ht : (mdlLoad mt (mdlNew id addr len)).1.mtype = mt.toOption) : Wrappable (mdlLoad mt (mdlNew id addr len)).1 := by
  refine ⟨?_, mdlLoad_tailRep _ _ _ _⟩
  intro t hm
  rw [ht] at hm
  cases mt with
  | error e => cases hm
  | ok t' => cases hm; exact h _ rfl

theorem exModels_wrappable : ∀ m ∈ exModels, Wrappable m := by
  intro m hm
  have hc : ∀ t, (.ok exType : Py ModelType) = .ok t → NoClash t := fun t h => by cases h; exact exType_noClash
  simp only [exModels, List.mem_cons, List.not_mem_nil, or_false] at hm
  rcases hm with rfl | rfl | rfl
  · exact wrappable_of _ hc _ _ _ (by decide +kernel)
  · exact wrappable_of _ (fun t h => by cases h) _ _ _ (by decide +kernel)
  · exact wrappable_of _ hc _ _ _ (by decide +kernel)

theorem exModels_names : exModels.map modelName = [t!"example", t!"model_5", t!"example"] := by decide +kernel

theorem exModels_free : ∀ m ∈ exModels, FreeName (modelName m) := by
  intro m hm
  have h := List.mem_map_of_mem (f := modelName) hm
  rw [exModels_names] at h
  simp only [List.mem_cons, List.not_mem_nil, or_false] at h
  rcases h with h | h | h <;> (rw [h]; unfold FreeName; decide)

/-- Non-vacuity of `C57_unknown_partial`: no model of `exModels` has an attribute `Nothing`. -/
example : ∃ d, wrapDevice exactLib exModels = (d, .ok ()) ∧ ∃ w, d.wraps[0]? = some w ∧
    w.getAttr exactLib exModels (t!"Nothing") = .error .attributeError := by
  obtain ⟨d, h1, h2⟩ := C57_unknown_partial exactLib exModels exModels_wrappable exModels_free
  obtain ⟨w, h3, h4⟩ := h2 0 _ rfl
  refine ⟨d, h1, w, h3, h4 _ _ ?_ (by decide +kernel) (by decide) (by decide)⟩
  intro mt t hmt
  have e : mt = exType := Option.some.inj (hmt.symm.trans (by decide +kernel))
  subst e
  revert t
  decide +kernel

/-- The hypotheses of C47 and C57 hold of three models, two of them with repeating blocks; `example` is a list,
`model_5` a model. -/
example (lib : FloatLib) : ∃ d l, wrapDevice lib exModels = (d, .ok ()) ∧
    d.item (t!"models") = some (.list (l.map .name)) ∧ FirstNames (exModels.map modelName) l ∧
    d.item (t!"example") = some (.list [.none, .wrap 0, .wrap 2]) ∧ d.item (t!"model_5") = some (.one (.wrap 1)) := by
  obtain ⟨d, l, h1, h2, h3, h4, -⟩ := C47_partial lib exModels exModels_wrappable exModels_free
  refine ⟨d, l, h1, h2, h3, ?_, ?_⟩
  · rw [h4 _ (by unfold FreeName; decide), exModels_names]; decide
  · rw [h4 _ (by unfold FreeName; decide), exModels_names]; decide

example : ∃ p, PointAt exModels 0 0 0 p ∧ p.pt.id = t!"A" ∧ ∃ q, PointAt exModels 0 2 1 q ∧ q.pt.id = t!"W" := by
  refine ⟨_, ⟨_, _, rfl, ?_, rfl, ?_, rfl⟩, ?_, _, ⟨_, _, rfl, ?_, rfl, ?_, rfl⟩, ?_⟩ <;>
    first | decide +kernel | (unfold UniqueIds; decide +kernel)

/-- A definition called `read` with one point. -/
def readType : ModelType := { exType with name := t!"read" }

/-- A definition with a point of type `ty` called `id`. -/
def clashType (id : Text) (ty : PT) (len : Int) : ModelType where
  id := 901
  len := len
  name := t!"clash"
  fixed := ⟨false, .int len, t!"fixed", [{ id := id, offset := 0, type := ty, len := len, rw := true }]⟩
  rep := none

/-- A model called `read`: the attribute `read` becomes the list `[None, <method read>, model]`, and `models` does not
have the name. -/
theorem C47_read : ∃ d, wrapDevice exactLib [(mdlLoad (.ok readType) (mdlNew 900 40002 3)).1] = (d, .ok ()) ∧
    d.item (t!"read") = some (.list [.none, .method (t!"read"), .wrap 0]) ∧ d.item (t!"models") = some (.list []) := by
  refine ⟨_, Prod.ext rfl ?_, ?_, ?_⟩ <;> decide +kernel

/-- A model called `models`: the constructor raises an `AttributeError`. -/
theorem C47_models : (wrapDevice exactLib
    [(mdlLoad (.ok { readType with name := t!"models" }) (mdlNew 900 40002 3)).1]).2 = .error .attributeError := by
  decide +kernel

/-- C47: if the constructor raises an exception, the device has been closed (unless a model called `device` has taken its place). -/
theorem C47_closed (lib : FloatLib) (ms : List MdlObj) (d : DWrap) (e : Exc)
    (h : wrapDevice lib ms = (d, .error e)) (hd : d.item (t!"device") = some (.one .dev)) : d.closed = true := by
  unfold wrapDevice at h
  split at h
  · cases h
  · rename_i d' e' _
    split at h
    · cases h; rfl
    · rename_i hne
      cases h
      exact absurd hd (fun h => hne h)

/-- A point called `points` makes the constructor raise; the device is closed. -/
example : (wrapDevice exactLib [(mdlLoad (.ok (clashType (t!"points") .int16 1)) (mdlNew 901 40002 1)).1]).2 = .error .attributeError ∧
    (wrapDevice exactLib [(mdlLoad (.ok (clashType (t!"points") .int16 1)) (mdlNew 901 40002 1)).1]).1.closed = true := by
  decide +kernel

/-- A definition with a point (that is a property) called `n` in its fixed or repeating block. -/
def HasProperty (mt : ModelType) (n : Text) : Prop :=
  (∃ p ∈ mt.fixed.points, p.id = n ∧ p.type ≠ .sunssf ∧ p.type ≠ .pad) ∨
  ∃ bt, mt.rep = some bt ∧ ∃ p ∈ bt.points, p.id = n ∧ p.type ≠ .sunssf ∧ p.type ≠ .pad

theorem propIds_has {bt : BlockType} {n : Text} (h : ∃ p ∈ bt.points, p.id = n ∧ p.type ≠ .sunssf ∧ p.type ≠ .pad) : n ∈ propIds bt := by
  obtain ⟨p, h1, h2, h3⟩ := h
  unfold propIds
  rw [List.mem_map]
  exact ⟨p, List.mem_filter.2 ⟨h1, by simpa using h3⟩, h2⟩

theorem modelClass_points {mt : ModelType} (h : HasProperty mt (t!"points")) : modelClass (some mt) = .error .attributeError := by
  unfold modelClass
  dsimp only
  rcases h with h | ⟨bt, h1, h⟩
  · rw [if_pos (propIds_has h)]
  · rw [h1]
    dsimp only
    rw [if_pos (propIds_has h)]
    split <;> rfl

theorem wrapLoop_points (lib : FloatLib) (m : MdlObj) (mt : ModelType) (hm : m.mtype = some mt) (h : HasProperty mt (t!"points")) :
    ∀ (ms : List MdlObj) (i : Nat) (d : DWrap), m ∈ ms → ∃ d' e, wrapLoop lib ms i d = (d', .error e) := by
  intro ms
  induction ms with
  | nil => intro i d hmem; cases hmem
  | cons x ms ih =>
    intro i d hmem
    rw [wrapLoop]
    generalize hx : wrapOne lib d i x = r
    obtain ⟨d1, r⟩ := r
    cases r with
    | error e => exact ⟨d1, e, rfl⟩
    | ok _ =>
      rcases List.mem_cons.1 hmem with rfl | hmem
      · exfalso
        unfold wrapOne at hx
        rw [hm, modelClass_points h] at hx
        cases hx
      · exact ih _ _ hmem

/-- C47: a device with a model whose definition has a point called `points`, in the fixed or in the repeating block, cannot be constructed, wherever the
model is; if it is the first model that raises is an `AttributeError`. -/
theorem C47_points_name (lib : FloatLib) (ms : List MdlObj) (m : MdlObj) (mt : ModelType) (hm : m.mtype = some mt) (h : HasProperty mt (t!"points")) :
    (m ∈ ms → ∃ e, (wrapDevice lib ms).2 = .error e) ∧
    (wrapDevice lib (m :: ms)).2 = .error .attributeError ∧ (wrapDevice lib (m :: ms)).1.closed = true := by
  constructor
  · intro hmem
    obtain ⟨d', e, hd⟩ := wrapLoop_points lib m mt hm h ms 0 (DWrap.init ms) hmem
    unfold wrapDevice
    rw [hd]
    dsimp only
    split
    · exact ⟨_, rfl⟩
    · exact ⟨_, rfl⟩
  · have hx : wrapOne lib (DWrap.init (m :: ms)) 0 m = (DWrap.init (m :: ms), .error .attributeError) := by
      unfold wrapOne
      rw [hm, modelClass_points h]
    have hl : wrapLoop lib (m :: ms) 0 (DWrap.init (m :: ms)) = (DWrap.init (m :: ms), .error .attributeError) := by
      rw [wrapLoop, hx]
    unfold wrapDevice
    rw [hl]
    have hd : dictGet (DWrap.init (m :: ms)).dict (t!"device") = some (.one .dev) := by
      unfold DWrap.init
      rfl
    dsimp only
    rw [hd]
    exact ⟨rfl, rfl⟩

example : HasProperty (clashType (t!"points") .int16 1) (t!"points") := by
  left
  simp [clashType]

theorem C47_violated : ¬ C47_full := by
  intro h
  obtain ⟨d, l, h1, -, -, h4⟩ := h exactLib [(mdlLoad (.ok readType) (mdlNew 900 40002 3)).1]
    (by intro m hm; rw [List.mem_singleton] at hm; rw [hm]; exact mdlLoad_tailRep _ _ _ _)
  obtain ⟨d', h1', h2', -⟩ := C47_read
  rw [h1] at h1'
  have hd : d = d' := (Prod.mk.inj h1').1
  have h5 := h4 (t!"read") (by decide +kernel)
  rw [hd, h2'] at h5
  revert h5
  decide +kernel

/-- C57 in full: constructing the object changes no point of the device, for any definition. -/
def C57_full : Prop :=
  ∀ (lib : FloatLib) (ms : List MdlObj), (∀ m ∈ ms, TailRep m) →
    (∀ m ∈ ms, FreeName (modelName m)) → ∃ d, wrapDevice lib ms = (d, .ok ()) ∧ d.models = ms

/-- A definition with a string point called `name`: constructing the object assigns the name of the model to that point
and marks it for the next write. -/
theorem C57_name : (wrapDevice exactLib
      [(mdlLoad (.ok (clashType (t!"name") .string 4)) (mdlNew 901 40002 4)).1]).2 = .ok () ∧
    (wrapDevice exactLib
      [(mdlLoad (.ok (clashType (t!"name") .string 4)) (mdlNew 901 40002 4)).1]).1.models.map
        (fun m => m.blocks.map fun b => b.pts.map fun p => (p.base, p.dirty)) = [[[(some (.str (t!"clash")), true)]]] := by
  constructor <;> decide +kernel

/-- A definition with a point called `model`: the constructor raises a `RecursionError`; with an integer point called
`name`, a `ValueError`; with a point called `points`, an `AttributeError`. -/
theorem C57_errors :
    (wrapDevice exactLib
      [(mdlLoad (.ok (clashType (t!"model") .uint16 1)) (mdlNew 901 40002 1)).1]).2 = .error .recursionError ∧
    (wrapDevice exactLib
      [(mdlLoad (.ok (clashType (t!"name") .uint16 1)) (mdlNew 901 40002 1)).1]).2 = .error .valueError ∧
    (wrapDevice exactLib
      [(mdlLoad (.ok (clashType (t!"points") .uint16 1)) (mdlNew 901 40002 1)).1]).2 = .error .attributeError := by
  refine ⟨?_, ?_, ?_⟩ <;> decide +kernel

theorem C57_violated : ¬ C57_full := by
  intro h
  obtain ⟨d, h1, -⟩ := h exactLib [(mdlLoad (.ok (clashType (t!"model") .uint16 1)) (mdlNew 901 40002 1)).1]
    (by intro m hm; rw [List.mem_singleton] at hm; rw [hm]; exact mdlLoad_tailRep _ _ _ _)
    (by intro m hm; rw [List.mem_singleton] at hm; rw [hm]; unfold FreeName; decide +kernel)
  have h2 := C57_errors.1
  rw [h1] at h2
  cases h2

end Verif
