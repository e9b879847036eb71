import Verif.Spec.Program
import Verif.Props.Script
import Verif.Props.Session

/-!
# C67: programs that use the scripting interface
-/

namespace Verif
open Spec

/-- `w['name']` is `w.name`, for every point. -/
theorem C67_items (lib : FloatLib) (ms : List MdlObj) (w : MWrap) (n : Text) (hn : n ∈ w.cls.props) :
    w.getAttr lib ms n = (w.getItem lib ms n).map .val ∧ ∀ v, w.setAttr lib ms n v = (w, w.setItem lib ms n v) := by
  refine ⟨?_, fun v => ?_⟩
  · unfold MWrap.getAttr MWrap.getItem
    rw [if_pos hn]
  · unfold MWrap.setAttr MWrap.setItem
    rw [if_pos hn]

/-- `b['name']` is `b.name`, for every point. -/
theorem C67_block_items (lib : FloatLib) (ms : List MdlObj) (i : Nat) (w : BWrap) (n : Text) (hn : n ∈ w.props) :
    w.getAttr lib ms i n = w.getItem lib ms i n ∧ ∀ v, w.setAttr lib ms i n v = w.setItem lib ms i n v := by
  refine ⟨?_, fun v => ?_⟩
  · unfold BWrap.getAttr BWrap.getItem
    rw [if_pos hn]
    rfl
  · unfold BWrap.setAttr BWrap.setItem
    rw [if_pos hn]
    rfl

/-- C67: points with the names of the methods behind the attributes make their object useless: with a point called
`_get_property` every point raises `RecursionError` when it is read, with a point called `_set_property` (and none
called `_get_property` or like the attribute for the model or block) every assignment raises `TypeError`; no
assignment changes anything then. -/
theorem C67_hidden_methods (lib : FloatLib) (ms : List MdlObj) :
    (∀ (w : MWrap) (n : Text), t!"_get_property" ∈ w.cls.props → w.getItem lib ms n = .error .recursionError) ∧
    (∀ (i : Nat) (w : BWrap) (n : Text), t!"_get_property" ∈ w.props → w.getItem lib ms i n = .error .recursionError) ∧
    (∀ (w : MWrap) (n : Text) (v : UVal), t!"_set_property" ∈ w.cls.props → t!"_get_property" ∉ w.cls.props →
      t!"model" ∉ w.cls.props → w.setItem lib ms n v = (ms, .error .typeError)) ∧
    (∀ (i : Nat) (w : BWrap) (n : Text) (v : UVal), t!"_set_property" ∈ w.props → t!"_get_property" ∉ w.props →
      t!"block" ∉ w.props → w.setItem lib ms i n v = (ms, .error .typeError)) ∧
    (∀ (w : MWrap) (n : Text) (v : UVal), t!"_set_property" ∈ w.cls.props → t!"_get_property" ∈ w.cls.props →
      w.setItem lib ms n v = (ms, .error .recursionError)) := by
  refine ⟨?_, ?_, ?_, ?_, ?_⟩
  · intro w n h
    unfold MWrap.getItem MWrap.getProp
    rw [if_pos (.inr h)]
  · intro i w n h
    unfold BWrap.getItem
    rw [if_pos (.inr h)]
  · intro w n v h1 h2 h3
    unfold MWrap.setItem MWrap.setProp setterError
    rw [if_pos (.inr h1), if_pos ⟨h3, h2⟩]
  · intro i w n v h1 h2 h3
    unfold BWrap.setItem setterError
    rw [if_pos (.inr h1), if_pos ⟨h3, h2⟩]
  · intro w n v h1 h2
    unfold MWrap.setItem MWrap.setProp setterError
    rw [if_pos (.inr h1), if_neg (fun h => h.2 h2)]

/-- Non-vacuity: an object with such a point comes into being, and assigning to its point fails. -/
example : ∃ w, (wrapDevice exactLib [(mdlLoad (.ok (clashType (t!"_set_property") .uint16 1)) (mdlNew 901 40002 1)).1]).1.wraps[0]? =
    some w ∧ t!"_set_property" ∈ w.cls.props ∧ t!"_get_property" ∉ w.cls.props ∧ t!"model" ∉ w.cls.props :=
  ⟨((wrapDevice exactLib [(mdlLoad (.ok (clashType (t!"_set_property") .uint16 1)) (mdlNew 901 40002 1)).1]).1.wraps[0]?).get
    (by decide +kernel), by rw [Option.some_get], by decide +kernel, by decide +kernel, by decide +kernel⟩

theorem setPoint_putAt (ms : List MdlObj) (i b k : Nat) (p : PointObj) : setPoint ms i b k p = ms.modify i fun m => putAt m b k p := rfl

theorem set_self {α} {l : List α} {i : Nat} {x : α} (h : l[i]? = some x) : l.set i x = l := by
  obtain ⟨hi, rfl⟩ := List.getElem?_eq_some_iff.1 h
  exact List.set_getElem_self hi

/-- The points of a model in a later state. -/
theorem later_pt {m m' : MdlObj} (h : layout m' = layout m) {b k : Nat} {p : PointObj} (hp : ptAt m b k = some p) :
    ∃ p', ptAt m' b k = some p' ∧ unvalued p' = unvalued p := by
  obtain ⟨p', h1, h2⟩ := same_layout h.symm b k p hp
  exact ⟨p', h1, h2.symm⟩

theorem pointAt_later {ms : List MdlObj} {i b k : Nat} {m : MdlObj} {p : PointObj} (hm : ms[i]? = some m) (hx : m.exposed = true) (hl : WellLaid m)
    (hp : ptAt m b k = some p) : PointAt ms i b k p ∧ ∃ bl, m.blocks[b]? = some bl ∧ ∃ t ∈ dataPoints bl.bt, t.id = p.pt.id := by
  unfold ptAt at hp
  cases hb : m.blocks[b]? with
  | none => rw [hb] at hp; cases hp
  | some bl =>
    rw [hb, Option.bind_some] at hp
    obtain ⟨h1, h2⟩ := hl.pts bl (List.mem_of_getElem? hb)
    refine ⟨⟨m, bl, hm, hx, hb, h2, hp⟩, bl, rfl, p.pt, ?_, rfl⟩
    rw [← h1]
    exact List.mem_map_of_mem (List.mem_of_getElem? hp)

/-- An assignment, in a later state of the device. -/
theorem assign_step {σ} (dev : MbDev σ) (lib : FloatLib) (ms : List MdlObj) (hw : ∀ m ∈ ms, Wrappable m) (hf : ∀ m ∈ ms, FreeName (modelName m))
    (hl : ∀ m ∈ ms, WellLaid m) (d : DWrap) (hd : wrapDevice lib ms = (d, .ok ())) (d' : DWrap) (hw' : d'.wraps = d.wraps)
    (hlay : d'.models.map layout = ms.map layout) (s : σ) (st : Stmt) (b : Nat) (n : Text) (v : UVal) (ht : st.target = some (b, n, v)) (hleg : st.Legal ms) :
    ∃ m m' k p p', ms[st.model]? = some m ∧ d'.models[st.model]? = some m' ∧ ptAt m b k = some p ∧ p.pt.id = n ∧ ptAt m' b k = some p' ∧
      unvalued p' = unvalued p ∧
      st.run dev lib s d' = (s, { d' with models := d'.models.modify st.model fun x => putAt x b k (setValue lib p' v).1 }, (setValue lib p' v).2) := by
  obtain ⟨m, hm, hx, hleg⟩ := hleg
  rw [ht] at hleg
  obtain ⟨k, p, hp, hid⟩ := hleg
  have hil : st.model < ms.length := (List.getElem?_eq_some_iff.1 hm).1
  obtain ⟨m', hm', hlm⟩ : ∃ m', d'.models[st.model]? = some m' ∧ layout m' = layout m := by
    have h := congrArg (fun l => l[st.model]?) hlay
    simp only [List.getElem?_map, hm, Option.map_some] at h
    cases h2 : d'.models[st.model]? with
    | none => rw [h2] at h; cases h
    | some m' => rw [h2] at h; exact ⟨m', rfl, Option.some.inj h⟩
  obtain ⟨p', hp', hu⟩ := later_pt hlm hp
  have hpid : p'.pt = p.pt := by
    have := (congrArg PointObj.pt hu :)
    exact this
  obtain ⟨-, hx', -⟩ := layout_blocks hlm
  have hlw := (hl m (List.mem_of_getElem? hm)).later hlm
  obtain ⟨hat, bl, hbl, t, ht1, ht2⟩ := pointAt_later hm' (by rw [hx', hx]) hlw hp'
  refine ⟨m, m', k, p, p', hm, hm', hp, hid, hp', hu, ?_⟩
  have hn : n = p'.pt.id := by rw [hpid, hid]
  rw [← setPoint_putAt]
  cases b with
  | zero =>
    obtain ⟨mt, hmt, hbt⟩ := hlw.head bl hbl
    have hmt' : m.mtype = some mt := by
      have := (layout_blocks hlm).2.2.1
      rw [← this]; exact hmt
    obtain ⟨d1, e1, -, e3⟩ := C57_points_partial lib ms hw hf
    have : d1 = d := by rw [hd] at e1; exact (Prod.mk.inj e1).1.symm
    subst this
    obtain ⟨w, w1, -, -, w4, -⟩ := e3 _ m mt hm hmt'
    obtain ⟨-, w5⟩ := w4 d'.models k p' hat ⟨t, by rw [← hbt]; exact ht1, ht2⟩
    have hprop : n ∈ w.cls.props := by
      obtain ⟨d2, hd2, hi⟩ := wrapDevice_ok lib ms hw hf
      have : d2 = d1 := by rw [hd] at hd2; exact (Prod.mk.inj hd2).1.symm
      subst this
      obtain ⟨w', hwi, hok⟩ := hi.wraps _ m hil hm
      have : w' = w := by rw [w1] at hwi; exact (Option.some.inj hwi).symm
      subst this
      rw [hok.cls, hmt']
      show n ∈ propIds mt.fixed
      rw [propIds_eq, hn, ← ht2, ← hbt]
      exact List.mem_map_of_mem ht1
    have hset : w.setAttr lib d'.models n v = (w, setPoint d'.models st.model 0 k (setValue lib p' v).1, (setValue lib p' v).2) := by
      rw [hn]; exact w5 v
    have hitem : w.setItem lib d'.models n v = (setPoint d'.models st.model 0 k (setValue lib p' v).1, (setValue lib p' v).2) := by
      have := (C67_items lib d'.models w n hprop).2 v
      rw [hset] at this
      exact (Prod.mk.inj this).2.symm
    cases st with
    | attr i n' v' =>
      obtain ⟨rfl, rfl⟩ : n' = n ∧ v' = v := by
        have := Option.some.inj ht
        exact ⟨(Prod.mk.inj (Prod.mk.inj this).2).1, (Prod.mk.inj (Prod.mk.inj this).2).2⟩
      unfold Stmt.run
      have : d'.wraps[i]? = some w := by rw [hw']; exact w1
      simp only [this, hset]
      rw [set_self this]
    | item i n' v' =>
      obtain ⟨rfl, rfl⟩ : n' = n ∧ v' = v := by
        have := Option.some.inj ht
        exact ⟨(Prod.mk.inj (Prod.mk.inj this).2).1, (Prod.mk.inj (Prod.mk.inj this).2).2⟩
      unfold Stmt.run
      have : d'.wraps[i]? = some w := by rw [hw']; exact w1
      simp only [this, hitem]
    | battr i j n' v' => simp [Stmt.target] at ht
    | bitem i j n' v' => simp [Stmt.target] at ht
    | read i => simp [Stmt.target] at ht
    | write i => simp [Stmt.target] at ht
  | succ j =>
    obtain ⟨bl0, hbl0, hbt, -⟩ := (layout_blocks hlm).2.2.2.2 (j + 1) bl hbl
    obtain ⟨d1, e1, e3⟩ := C57_blocks_partial lib ms hw hf
    have : d1 = d := by rw [hd] at e1; exact (Prod.mk.inj e1).1.symm
    subst this
    obtain ⟨w, bs, w1, w2, -, -, w4⟩ := e3 _ m hm
    obtain ⟨bw, b1, -, b3⟩ := w4 j bl0 hbl0
    obtain ⟨-, b4⟩ := b3 d'.models k p' hat ⟨t, by rw [← hbt]; exact ht1, ht2⟩
    obtain ⟨d2, hd2, hi⟩ := wrapDevice_ok lib ms hw hf
    have : d2 = d1 := by rw [hd] at hd2; exact (Prod.mk.inj hd2).1.symm
    subst this
    obtain ⟨w', hwi, hok⟩ := hi.wraps _ m hil hm
    have : w' = w := by rw [w1] at hwi; exact (Option.some.inj hwi).symm
    subst this
    have hW := hw m (List.mem_of_getElem? hm)
    have nrep : t!"repeating" ∉ w'.cls.props := by
      rw [hok.cls]
      match hmt : m.mtype with
      | none => simp [classOf]
      | some mt => exact not_mem_propIds (hW.clash mt hmt).fixed (by decide)
    have hbs : bs = w'.reps := by
      unfold MWrap.getAttr at w2
      rw [if_neg nrep, hok.repeating] at w2
      have := List.tail_eq_of_cons_eq (WRes.reps.inj (Except.ok.inj w2))
      exact (List.map_injective_iff.2 (Option.some_injective _) this).symm
    rw [hbs] at b1
    have hbw : bw = BWrap.mk (propIds bl0.bt) (j + 1) bl0.bt.name := by
      have := hok.reps.2 j bl0 (by rw [List.getElem?_tail]; exact hbl0)
      rw [b1] at this
      exact Option.some.inj this
    have hprop : n ∈ bw.props := by
      rw [hbw]
      show n ∈ propIds bl0.bt
      rw [propIds_eq, hn, ← ht2, ← hbt]
      exact List.mem_map_of_mem ht1
    have hset : bw.setAttr lib d'.models st.model n v = (setPoint d'.models st.model (j + 1) k (setValue lib p' v).1, (setValue lib p' v).2) := by
      rw [hn]; exact b4 v
    have hitem : bw.setItem lib d'.models st.model n v = (setPoint d'.models st.model (j + 1) k (setValue lib p' v).1, (setValue lib p' v).2) := by
      rw [← (C67_block_items lib d'.models st.model bw n hprop).2 v]
      exact hset
    cases st with
    | battr i j' n' v' =>
      obtain ⟨rfl, rfl, rfl⟩ : j' = j ∧ n' = n ∧ v' = v := by
        have := Option.some.inj ht
        exact ⟨Nat.succ.inj (Prod.mk.inj this).1, (Prod.mk.inj (Prod.mk.inj this).2).1, (Prod.mk.inj (Prod.mk.inj this).2).2⟩
      unfold Stmt.run
      have : (d'.wraps[i]?).bind (fun w => w.reps[j']?) = some bw := by
        rw [hw', show d2.wraps[i]? = some w' from w1]; exact b1
      simp only [this]
      rw [show bw.setAttr lib d'.models i n' v' = _ from hset]
    | bitem i j' n' v' =>
      obtain ⟨rfl, rfl, rfl⟩ : j' = j ∧ n' = n ∧ v' = v := by
        have := Option.some.inj ht
        exact ⟨Nat.succ.inj (Prod.mk.inj this).1, (Prod.mk.inj (Prod.mk.inj this).2).1, (Prod.mk.inj (Prod.mk.inj this).2).2⟩
      unfold Stmt.run
      have : (d'.wraps[i]?).bind (fun w => w.reps[j']?) = some bw := by
        rw [hw', show d2.wraps[i]? = some w' from w1]; exact b1
      simp only [this]
      rw [show bw.setItem lib d'.models i n' v' = _ from hitem]
    | attr i n' v' => simp [Stmt.target] at ht
    | item i n' v' => simp [Stmt.target] at ht
    | read i => simp [Stmt.target] at ht
    | write i => simp [Stmt.target] at ht

/-- The state of the models after an execution. -/
structure RanInv {σ} (dev : MbDev σ) (lib : FloatLib) (ms : List MdlObj) (d : DWrap) (l : List (Stmt × Py Unit)) (s : σ) (d' : DWrap) : Prop where
  wraps : d'.wraps = d.wraps
  count : d'.models.length = ms.length
  history : ∀ (i : Nat) (m : MdlObj), ms[i]? = some m → ∃ m' h, d'.models[i]? = some m' ∧ History dev lib m h s m' ∧ Means lib m i l h

theorem RanInv.layout {σ} {dev : MbDev σ} {lib : FloatLib} {ms : List MdlObj} {d : DWrap} {l : List (Stmt × Py Unit)} {s : σ} {d' : DWrap}
    (h : RanInv dev lib ms d l s d') : d'.models.map Spec.layout = ms.map Spec.layout := by
  apply List.ext_getElem?
  intro i
  rw [List.getElem?_map, List.getElem?_map]
  cases hm : ms[i]? with
  | none =>
    rw [List.getElem?_eq_none_iff] at hm
    rw [List.getElem?_eq_none (by rw [h.count]; exact hm)]
  | some m =>
    obtain ⟨m', hh, h1, h2, -⟩ := h.history i m hm
    rw [h1, Option.map_some, Option.map_some, history_layout h2]

/-- `w.read()` and `w.write()`, in a later state of the device. -/
theorem method_step {σ} (dev : MbDev σ) (lib : FloatLib) (ms : List MdlObj) (hw : ∀ m ∈ ms, Wrappable m) (hf : ∀ m ∈ ms, FreeName (modelName m))
    (d : DWrap) (hd : wrapDevice lib ms = (d, .ok ())) (d' : DWrap) (hw' : d'.wraps = d.wraps) (s : σ) (i : Nat) (m m' : MdlObj) (hm : ms[i]? = some m)
    (hm' : d'.models[i]? = some m') (hno : MethodsFree m) :
    Stmt.run dev lib s d' (.read i) = ((readPoints dev s m').1, { d' with models := d'.models.set i (readPoints dev s m').2.1 }, (readPoints dev s m').2.2) ∧
    Stmt.run dev lib s d' (.write i) =
      ((writePoints dev s m').1, { d' with models := d'.models.set i (writePoints dev s m').2.1 }, (writePoints dev s m').2.2) := by
  have hil : i < ms.length := (List.getElem?_eq_some_iff.1 hm).1
  obtain ⟨d2, hd2, hinv⟩ := wrapDevice_ok lib ms hw hf
  have : d2 = d := by rw [hd] at hd2; exact (Prod.mk.inj hd2).1.symm
  subst this
  obtain ⟨w, hwi, hwok⟩ := hinv.wraps _ m hil hm
  have hno' : t!"read" ∉ w.cls.props ∧ t!"write" ∉ w.cls.props := by
    rw [hwok.cls]
    match hmt : m.mtype with
    | none => simp [classOf]
    | some mt =>
      constructor
      · intro hx
        obtain ⟨t, k1, k2⟩ := propIds_mem.1 hx
        exact ((hno mt hmt).1 t k1).1 k2
      · intro hx
        obtain ⟨t, k1, k2⟩ := propIds_mem.1 hx
        exact ((hno mt hmt).1 t k1).2 k2
  have hW := hw m (List.mem_of_getElem? hm)
  have hr : ¬ (t!"read" ∈ w.cls.props ∨ w.hides (t!"read") = true) := by
    rintro (h | h)
    · exact hno'.1 h
    · rw [hwok.plain hW (by decide) fun mt rb h1 h2 => ((hno mt h1).2 rb h2).1] at h
      cases h
  have hwt : ¬ (t!"write" ∈ w.cls.props ∨ w.hides (t!"write") = true) := by
    rintro (h | h)
    · exact hno'.2 h
    · rw [hwok.plain hW (by decide) fun mt rb h1 h2 => ((hno mt h1).2 rb h2).2] at h
      cases h
  have e1 : d'.wraps[i]? = some w := by rw [hw']; exact hwi
  have e4 : w.read dev s d'.models = ((readPoints dev s m').1, d'.models.set i (readPoints dev s m').2.1, (readPoints dev s m').2.2) := by
    unfold MWrap.read
    rw [if_neg hr, hwok.model, hwok.mdl, hm']
  have e5 : w.write dev s d'.models = ((writePoints dev s m').1, d'.models.set i (writePoints dev s m').2.1, (writePoints dev s m').2.2) := by
    unfold MWrap.write
    rw [if_neg hwt, hwok.model, hwok.mdl, hm']
  unfold Stmt.run
  simp only [e1, e4, e5]
  exact ⟨trivial, trivial⟩

theorem ranInv_step {σ} {dev : MbDev σ} {lib : FloatLib} {ms : List MdlObj} (hw : ∀ m ∈ ms, Wrappable m) (hf : ∀ m ∈ ms, FreeName (modelName m))
    (hl : ∀ m ∈ ms, WellLaid m) {d : DWrap} (hd : wrapDevice lib ms = (d, .ok ())) {l : List (Stmt × Py Unit)} {s : σ} {d' : DWrap}
    (hi : RanInv dev lib ms d l s d') (st : Stmt) (hleg : st.Legal ms) :
    RanInv dev lib ms d ((st, (st.run dev lib s d').2.2) :: l) (st.run dev lib s d').1 (st.run dev lib s d').2.1 := by
  -- reads and writes of a model
  have hset : ∀ (i : Nat) (m : MdlObj) (s1 : σ) (m1 : MdlObj) (r : Py Unit), ms[i]? = some m → st.model = i →
      st.run dev lib s d' = (s1, { d' with models := d'.models.set i m1 }, r) →
      (∀ m' h, d'.models[i]? = some m' → History dev lib m h s m' → Means lib m i l h →
        ∃ h', History dev lib m h' s1 m1 ∧ Means lib m i ((st, r) :: l) h') →
      RanInv dev lib ms d ((st, (st.run dev lib s d').2.2) :: l) (st.run dev lib s d').1 (st.run dev lib s d').2.1 := by
    intro i m s1 m1 r hm hst hrun hmeans
    rw [hrun]
    refine ⟨hi.wraps, ?_, ?_⟩
    · show (d'.models.set i m1).length = _
      rw [List.length_set]; exact hi.count
    · intro i' m2 hm2
      obtain ⟨m', h, h1, h2, h3⟩ := hi.history i' m2 hm2
      by_cases he : i = i'
      · subst he
        have : m2 = m := by rw [hm] at hm2; exact (Option.some.inj hm2).symm
        subst this
        obtain ⟨h', k1, k2⟩ := hmeans m' h h1 h2 h3
        refine ⟨m1, h', ?_, k1, k2⟩
        show (d'.models.set i m1)[i]? = _
        rw [List.getElem?_set_self (List.getElem?_eq_some_iff.1 h1).1]
      · refine ⟨m', h, ?_, .change s1 h2, .other h3 (by rw [hst]; exact he)⟩
        show (d'.models.set i m1)[i']? = _
        rw [List.getElem?_set_ne he]; exact h1
  cases ht : st.target with
  | some x =>
    obtain ⟨b, n, v⟩ := x
    obtain ⟨m, m', k, p, p', h1, h2, h3, h4, h5, h6, h7⟩ := assign_step dev lib ms hw hf hl d hd d' hi.wraps hi.layout s st b n v ht hleg
    rw [modify_at h2] at h7
    refine hset st.model m s (putAt m' b k (setValue lib p' v).1) (setValue lib p' v).2 h1 rfl h7 ?_
    intro m2 h hm2 hh hme
    have : m2 = m' := by rw [h2] at hm2; exact (Option.some.inj hm2).symm
    subst this
    rcases C34_refused lib p' v with ⟨e, he⟩ | ⟨b0, he⟩
    · rw [he]
      refine ⟨h, ?_, .refused hme rfl ht⟩
      dsimp only
      rw [putAt_self h5]
      exact hh
    · rw [he]
      exact ⟨_, .assign b k p' _ v hh h5 he, .assigned hme rfl ht h3 h4 h6 he⟩
  | none =>
    obtain ⟨m, hm, hx, hleg⟩ := hleg
    rw [ht] at hleg
    obtain ⟨m', -, h1, -⟩ := hi.history _ m hm
    obtain ⟨hrd, hwr⟩ := method_step dev lib ms hw hf d hd d' hi.wraps s _ m m' hm h1 hleg
    cases st with
    | read i =>
      refine hset i m _ _ _ hm rfl hrd ?_
      intro m2 h hm2 hh hme
      have : m2 = m' := by
        have h1 : d'.models[i]? = some m' := h1
        rw [h1] at hm2; exact (Option.some.inj hm2).symm
      subst this
      exact ⟨_, .read hh rfl, .read hme⟩
    | write i =>
      have hrun := hwr
      simp only [Stmt.model] at hrun
      refine hset i m _ _ _ hm rfl hrun ?_
      intro m2 h hm2 hh hme
      have : m2 = m' := by
        have h1 : d'.models[i]? = some m' := h1
        rw [h1] at hm2; exact (Option.some.inj hm2).symm
      subst this
      cases hr : (writePoints dev s m2).2.2 with
      | ok u => exact ⟨_, .write hh (s' := (writePoints dev s m2).1) (m' := (writePoints dev s m2).2.1) (Prod.ext rfl (Prod.ext rfl hr)), .written hme⟩
      | error e => exact ⟨_, .fail hh (s' := (writePoints dev s m2).1) (m' := (writePoints dev s m2).2.1) (Prod.ext rfl (Prod.ext rfl hr)), .failed hme⟩
    | attr i n v => simp [Stmt.target] at ht
    | item i n v => simp [Stmt.target] at ht
    | battr i j n v => simp [Stmt.target] at ht
    | bitem i j n v => simp [Stmt.target] at ht

theorem ran_inv {σ} {dev : MbDev σ} {lib : FloatLib} {ms : List MdlObj} (hw : ∀ m ∈ ms, Wrappable m) (hf : ∀ m ∈ ms, FreeName (modelName m))
    (hl : ∀ m ∈ ms, WellLaid m) {d : DWrap} (hd : wrapDevice lib ms = (d, .ok ())) {l : List (Stmt × Py Unit)} {s : σ} {d' : DWrap}
    (hran : Ran dev lib d l s d') (hleg : ∀ x ∈ l, x.1.Legal ms) : RanInv dev lib ms d l s d' := by
  obtain ⟨d1, hd1, hinv⟩ := wrapDevice_ok lib ms hw hf
  have : d1 = d := by rw [hd] at hd1; exact (Prod.mk.inj hd1).1.symm
  subst this
  induction hran with
  | start s =>
    refine ⟨rfl, by rw [hinv.models], ?_⟩
    intro i m hm
    exact ⟨m, [], by rw [hinv.models]; exact hm, .start s, .nil⟩
  | step st _ ih =>
    exact ranInv_step hw hf hl hd (ih fun x hx => hleg x (by simp [hx])) st (hleg _ List.mem_cons_self)
  | change s' _ ih =>
    obtain ⟨h1, h2, h3⟩ := ih hleg
    refine ⟨h1, h2, ?_⟩
    intro i m hm
    obtain ⟨m', h, k1, k2, k3⟩ := h3 i m hm
    exact ⟨m', h, k1, .change s' k2, k3⟩

/-- C67: a program that uses the scripting interface (assigns to points by attribute or item, reads and writes models, in any order) does to each
model what its statements say: the model it ends with is that of the corresponding history of assignments, reads and writes of the model (see C60).
Refused assignments do nothing; every statement may raise an exception. -/
theorem C67_program_partial {σ} (dev : MbDev σ) (lib : FloatLib) (ms : List MdlObj) (hw : ∀ m ∈ ms, Wrappable m) (hf : ∀ m ∈ ms, FreeName (modelName m))
    (hl : ∀ m ∈ ms, WellLaid m) :
    ∃ d, wrapDevice lib ms = (d, .ok ()) ∧ ∀ l s d', Ran dev lib d l s d' → (∀ x ∈ l, x.1.Legal ms) →
      ∀ (i : Nat) (m : MdlObj), ms[i]? = some m → ∃ m' h, d'.models[i]? = some m' ∧ History dev lib m h s m' ∧ Means lib m i l h := by
  obtain ⟨d, hd, -⟩ := wrapDevice_ok lib ms hw hf
  exact ⟨d, hd, fun l s d' hran hleg => (ran_inv hw hf hl hd hran hleg).history⟩

/-- C67, `w.write()`: at the end of such a program, in which the model has not been read between an assignment and the next write, it stores the
values assigned since the last write in the registers of their points (unless a `write()` has raised since, see `C60_failed_write`), and
changes no other register. -/
theorem C67_write_partial {σ} {dev : MbDev σ} {R : σ → RegMem → Prop} {wr : Nat → Prop} (hdev : IsMem dev R wr) (lib : FloatLib) (ms : List MdlObj)
    (hw : ∀ m ∈ ms, Wrappable m) (hf : ∀ m ∈ ms, FreeName (modelName m)) (hl : ∀ m ∈ ms, WellLaid m) (hwr : ∀ n, 0 < n → wr n) :
    ∃ d, wrapDevice lib ms = (d, .ok ()) ∧ ∀ l s d' mem, Ran dev lib d l s d' → (∀ x ∈ l, x.1.Legal ms) → R s mem →
      ∀ (i : Nat) (m : MdlObj), ms[i]? = some m → (Stmt.write i).Legal ms → (∀ j k p, ptAt m j k = some p → p.dirty = false) → ModelOK m → Separate m →
      (∀ x, m.addr ≤ x → x < m.addr + m.len → mem x ≠ none) →
      ∃ h, Means lib m i l h ∧ ((∀ j k, pending h j k ≠ none → Unread h j k) →
        (∀ j k p b, ptAt m j k = some p → pending h j k = some b → Writable { p with base := b }) →
        ∃ s' d'' mem', (Stmt.write i).run dev lib s d' = (s', d'', .ok ()) ∧ R s' mem' ∧
          (∀ j k p b, ptAt m j k = some p → pending h j k = some b → ¬ Tried h j k →
            ∃ rs, Encoded { p with base := b } rs ∧ memRegs mem' p.addr p.pt.len.toNat = some rs) ∧
          ∀ x, (∀ j k p, ptAt m j k = some p → pending h j k ≠ none → ¬ (p.addr ≤ x ∧ x < p.addr + p.pt.len)) → mem' x = mem x) := by
  obtain ⟨d, hd, -⟩ := wrapDevice_ok lib ms hw hf
  refine ⟨d, hd, ?_⟩
  intro l s d' mem hran hleg hs i m hm hlegw hc hok hsep hex
  have hi := ran_inv hw hf hl hd hran hleg
  obtain ⟨m', h, h1, h2, h3⟩ := hi.history i m hm
  refine ⟨h, h3, ?_⟩
  intro hun hval
  obtain ⟨m1, hm1, -, hno⟩ := hlegw
  have : m1 = m := by
    have hm1 : ms[i]? = some m1 := hm1
    rw [hm] at hm1; exact (Option.some.inj hm1).symm
  subst this
  obtain ⟨s', mem', w1, w2, w3, w4⟩ := C60_write_partial hdev lib m1 m' h s mem hc h2 hs hok hsep hex (fun _ _ n hn _ => hwr n hn) hun hval
  refine ⟨s', { d' with models := d'.models.set i (cleanModel m') }, mem', ?_, w2, w3, w4⟩
  · rw [(method_step dev lib ms hw hf d hd d' hi.wraps s i m1 m' hm h1 hno).2, w1]

/-- C67, `w.read()`: at any point of such a program it makes the attributes of all points the values of their registers. -/
theorem C67_read_partial {σ} {dev : MbDev σ} {R : σ → RegMem → Prop} {wr : Nat → Prop} (hdev : IsMem dev R wr) (lib : FloatLib) (ms : List MdlObj)
    (hw : ∀ m ∈ ms, Wrappable m) (hf : ∀ m ∈ ms, FreeName (modelName m)) (hl : ∀ m ∈ ms, WellLaid m) :
    ∃ d, wrapDevice lib ms = (d, .ok ()) ∧ ∀ l s d' mem, Ran dev lib d l s d' → (∀ x ∈ l, x.1.Legal ms) → R s mem →
      ∀ (i : Nat) (m m' : MdlObj), ms[i]? = some m → (Stmt.read i).Legal ms → d'.models[i]? = some m' → ModelOK m' →
      Tiles m'.addr (m'.addr + m'.len) (readPlan m') → (∀ c ∈ readPlan m', 0 ≤ c.2) → (∀ x, m'.addr ≤ x → x < m'.addr + m'.len → mem x ≠ none) →
      ∃ s' m'', (Stmt.read i).run dev lib s d' = (s', { d' with models := d'.models.set i m'' }, .ok ()) ∧ R s' mem ∧ ModelRead mem m' m'' := by
  obtain ⟨d, hd, -⟩ := wrapDevice_ok lib ms hw hf
  refine ⟨d, hd, ?_⟩
  intro l s d' mem hran hleg hs i m m' hm hlegr hm' hok ht hp hex
  have hi := ran_inv hw hf hl hd hran hleg
  obtain ⟨m1, hm1, -, hno⟩ := hlegr
  have : m1 = m := by
    have hm1 : ms[i]? = some m1 := hm1
    rw [hm] at hm1; exact (Option.some.inj hm1).symm
  subst this
  obtain ⟨s', m'', r1, r2, r3⟩ := C32_memory hdev mem s hs m' hok ht hp hex
  refine ⟨s', m'', ?_, r2, r3⟩
  rw [(method_step dev lib ms hw hf d hd d' hi.wraps s i m1 m' hm hm' hno).1, r1]

/-! ### Violations -/

/-- C67, full statement: `w.read()` reads the model of `w`, and `w.write()` writes it. -/
def C67_full : Prop :=
  ∀ (lib : FloatLib) (ms : List MdlObj), (∀ m ∈ ms, Wrappable m) → (∀ m ∈ ms, FreeName (modelName m)) → (∀ m ∈ ms, WellLaid m) →
    ∃ d, wrapDevice lib ms = (d, .ok ()) ∧ ∀ (dev : MbDev Unit) (i : Nat) (m : MdlObj) (w : MWrap), ms[i]? = some m → d.wraps[i]? = some w →
      (w.read dev () ms).2.1 = ms.set i (readPoints dev () m).2.1 ∧ (w.read dev () ms).2.2 = (readPoints dev () m).2.2

/-- A point called `read` hides the method, as does an attribute of that name (which a repeating block called `read` leads to): the
model cannot be read through its object. -/
theorem C67_method_hidden {σ} (dev : MbDev σ) (s : σ) (ms : List MdlObj) (w : MWrap) :
    (t!"read" ∈ w.cls.props ∨ w.hides (t!"read") → w.read dev s ms = (s, ms, .error .typeError)) ∧
    (t!"write" ∈ w.cls.props ∨ w.hides (t!"write") → w.write dev s ms = (s, ms, .error .typeError)) := by
  refine ⟨fun h => ?_, fun h => ?_⟩
  · unfold MWrap.read; rw [if_pos h]
  · unfold MWrap.write; rw [if_pos h]

/-- Names that no point has are not refused: the item is None, and an assignment to it is lost. -/
theorem C67_unknown_ignored (lib : FloatLib) (ms : List MdlObj) (hw : ∀ m ∈ ms, Wrappable m) (hf : ∀ m ∈ ms, FreeName (modelName m)) :
    ∃ d, wrapDevice lib ms = (d, .ok ()) ∧ ∀ (i : Nat) (m : MdlObj) (ms' : List MdlObj) (m' : MdlObj) (n : Text), ms[i]? = some m → ms'[i]? = some m' →
      (∀ b ∈ m'.blocks, ∀ p ∈ b.pts, p.pt.id ≠ n) → ∃ w, d.wraps[i]? = some w ∧ w.getItem lib ms' n = .ok .none ∧
      ∀ v, w.setItem lib ms' n v = (ms', .ok ()) := by
  obtain ⟨d, hd, hinv⟩ := wrapDevice_ok lib ms hw hf
  refine ⟨d, hd, ?_⟩
  intro i m ms' m' n hm hm' hno
  have hil : i < ms.length := (List.getElem?_eq_some_iff.1 hm).1
  obtain ⟨w, hwi, hok⟩ := hinv.wraps _ m hil hm
  have hW := hw m (List.mem_of_getElem? hm)
  have nprop : ∀ x ∈ [t!"model", t!"name", t!"repeating", t!"repeating_name", t!"points", t!"_get_property",
      t!"_set_property"], x ∉ w.cls.props := by
    intro x hx
    rw [hok.cls]
    match hmt : m.mtype with
    | none => simp [classOf]
    | some mt => exact not_mem_propIds (hW.clash mt hmt).fixed hx
  have n1 := nprop (t!"model") (by decide)
  have n2 := nprop (t!"_get_property") (by decide)
  have n3 := nprop (t!"_set_property") (by decide)
  have hidx : ptIdx (modelPts m') n = none := by
    unfold ptIdx
    rw [List.findIdx?_eq_none_iff]
    intro p hp
    unfold modelPts at hp
    split at hp
    · split at hp
      · cases hp
      · rename_i b bs hb
        simpa using hno b (by rw [hb]; simp) p hp
    · cases hp
  refine ⟨w, hwi, ?_, fun v => ?_⟩
  · unfold MWrap.getItem MWrap.getProp
    rw [if_neg (by simp [n1, n2]), if_neg (by rw [(hok.methods hW).1]; decide), hok.model]
    simp only [hok.mdl, hm', ptsGet, hidx]
  · unfold MWrap.setItem MWrap.setProp
    rw [if_neg (by simp [n1, n3]), if_neg (by rw [(hok.methods hW).2]; decide), hok.model]
    have h1 : modelSet lib m' n v = (m', .ok ()) := by
      unfold modelSet
      split
      · rename_i hx
        simp only [ptsSet, hidx]
        refine Prod.ext ?_ rfl
        unfold MdlObj.withPts modelPts
        rw [if_pos hx]
        cases hb : m'.blocks with
        | nil => rfl
        | cons b bs =>
          show ({ m' with blocks := (b :: bs) } : MdlObj) = m'
          rw [← hb]
      · rfl
    simp only [hok.mdl, hm', h1, setNth]
    rw [set_self hm']

/-- `d['name'] = x` on a `SunSpecClientDevice` always raises `AttributeError`. -/
theorem C67_device_item (d : DWrap) (k : Text) (x : WAttr) : d.setItem k x = (d, .error .attributeError) := rfl

/-- A model with a point called `read`. -/
def hidModel : MdlObj := (mdlLoad (.ok (clashType (t!"read") .uint16 1)) (mdlNew 901 40002 1)).1

theorem hidModel_wrap : Wrappable hidModel ∧ FreeName (modelName hidModel) ∧ WellLaid hidModel := by
  refine ⟨⟨?_, mdlLoad_tailRep _ _ _ _⟩, ?_, ?_⟩
  · intro mt hmt
    have : hidModel.mtype = some (clashType (t!"read") .uint16 1) := by decide +kernel
    rw [this] at hmt
    cases hmt
    refine ⟨by decide, ?_, ?_⟩ <;> intro rb h <;> cases h
  · unfold FreeName; decide +kernel
  · refine ⟨?_, by decide +kernel, by decide +kernel⟩
    intro b hb
    refine ⟨clashType (t!"read") .uint16 1, by decide +kernel, ?_⟩
    have : hidModel.blocks[0]?.map (·.bt) = some (clashType (t!"read") .uint16 1).fixed := by decide +kernel
    rw [hb] at this
    exact Option.some.inj this

/-- A device in which all registers are 7. -/
def sevenDev : MbDev Unit where
  read _ _ n := ((), .ok (some ((List.replicate n.toNat [0, 7]).flatten)))
  write _ _ _ := ((), .ok ())

theorem C67_violated : ¬ C67_full := by
  intro h
  obtain ⟨d, h1, h2⟩ := h exactLib [hidModel] (by simp [hidModel_wrap.1]) (by simp [hidModel_wrap.2.1]) (by simp [hidModel_wrap.2.2])
  have hw : (wrapDevice exactLib [hidModel]).1.wraps.map (fun w => (w.read sevenDev () [hidModel]).2.2) = [.error .typeError] := by decide +kernel
  rw [h1] at hw
  cases hd : d.wraps with
  | nil => rw [hd] at hw; cases hw
  | cons w ws =>
    rw [hd] at hw
    have e : (MWrap.read sevenDev () [hidModel] w).2.2 = .error .typeError := (List.cons.inj hw).1
    obtain ⟨-, h3⟩ := h2 sevenDev 0 hidModel w rfl (by rw [hd]; rfl)
    rw [e] at h3
    have : (readPoints sevenDev () hidModel).2.2 = .ok () := by decide +kernel
    rw [this] at h3
    cases h3

/-- A model whose repeating block is called `read`. -/
def hidBlock : MdlObj :=
  (mdlLoad (.ok { clashType (t!"A") .uint16 1 with
    rep := some ⟨true, .int 1, t!"read", [{ id := t!"W", offset := 0, type := .uint16, len := 1, rw := true }]⟩ }) (mdlNew 901 40002 2)).1

/-- A repeating block called `read` hides the method, too: the list of blocks is called. -/
theorem C67_block_hidden : ∃ w, (wrapDevice exactLib [hidBlock]).1.wraps = [w] ∧ (wrapDevice exactLib [hidBlock]).2 = .ok () ∧
    t!"read" ∉ w.cls.props ∧ (w.read sevenDev () [hidBlock]).2.2 = .error .typeError ∧ (readPoints sevenDev () hidBlock).2.2 = .ok () := by
  refine ⟨⟨⟨[t!"A"], [t!"A"], false, some [t!"W"]⟩, 0, [(t!"model", .mdl), (t!"repeating", .reps), (t!"repeating_name", .text (t!"read")),
    (t!"name", .text (t!"clash")), (t!"read", .reps)], [⟨[t!"W"], 1, t!"read"⟩]⟩, ?_, ?_, ?_, ?_, ?_⟩ <;> decide +kernel

/-! ### Non-vacuity -/

theorem exModels_legal : (Stmt.attr 0 (t!"A") (.int 5)).Legal exModels ∧ (Stmt.bitem 0 1 (t!"W") (.int 6)).Legal exModels ∧ (Stmt.write 0).Legal exModels ∧
    (Stmt.read 0).Legal exModels := by
  have hx : exModel.exposed = true := by decide +kernel
  have h0 : exModels[0]? = some exModel := rfl
  have hm : exModel.mtype = some exType := by decide +kernel
  have hno : MethodsFree exModel := by
    intro mt hmt
    rw [hm] at hmt
    cases hmt
    refine ⟨by decide +kernel, ?_⟩
    intro rb hrb
    cases hrb
    decide +kernel
  refine ⟨⟨exModel, h0, hx, 0, exPoint exModel 0 0, ?_⟩, ⟨exModel, h0, hx, 1, exPoint exModel 2 1, ?_⟩, ⟨exModel, h0, hx, hno⟩, ⟨exModel, h0, hx, hno⟩⟩ <;> decide +kernel

/-- A program that assigns `A` of the first model and writes it. -/
example : ∃ d, wrapDevice noLib exModels = (d, .ok ()) ∧ ∃ s d', Ran mapDev noLib d [(.attr 0 (t!"A") (.int 5), .ok ())] s d' ∧ s = exMap ∧
    ∃ h, Means noLib exModel 0 [(.attr 0 (t!"A") (.int 5), .ok ())] h ∧ h = [.assigned 0 0 (some (.int 5))] := by
  obtain ⟨d, hd, -⟩ := wrapDevice_ok noLib exModels exModels_wrappable exModels_free
  refine ⟨d, hd, ?_⟩
  have hr : ((Stmt.attr 0 (t!"A") (.int 5)).run mapDev noLib exMap (wrapDevice noLib exModels).1).2.2 = .ok () := by decide +kernel
  rw [hd] at hr
  have hs : ((Stmt.attr 0 (t!"A") (.int 5)).run mapDev noLib exMap d).1 = exMap := by
    unfold Stmt.run
    simp only []
    split <;> rfl
  refine ⟨_, ((Stmt.attr 0 (t!"A") (.int 5)).run mapDev noLib exMap d).2.1, ?_, hs, _, ?_, rfl⟩
  · have := Ran.step (Stmt.attr 0 (t!"A") (.int 5)) (Ran.start (dev := mapDev) (lib := noLib) (d0 := d) exMap)
    rw [hr] at this
    exact this
  · exact .assigned (q := exPoint exModel 0 0) (q' := { exPoint exModel 0 0 with base := some (.int 5), dirty := true }) .nil rfl rfl exPoint_eq
      (by decide +kernel) rfl (by decide +kernel)

end Verif
