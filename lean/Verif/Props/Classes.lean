import Verif.Spec.Classes
import Verif.Props.Script

/-!
# C87: scripting devices do not affect each other
-/

namespace Verif
open Spec

theorem addProps_new (ids : List Text) : ∀ c : WClass, ids.Nodup → (∀ n ∈ ids, n ∉ c.props) → t!"points" ∉ ids →
    addProps ids c = ({ c with props := c.props ++ ids, points := c.points ++ ids }, .ok ()) := by
  induction ids with
  | nil => intro c _ _ _; rw [List.append_nil, List.append_nil]; rfl
  | cons n ns ih =>
    intro c hn hd hp
    rw [List.nodup_cons] at hn
    have h1 : n ∉ c.props := hd n (List.mem_cons_self ..)
    have h2 : n ≠ t!"points" := fun h => hp (h ▸ List.mem_cons_self ..)
    rw [addProps, if_neg h1, if_neg h2, ih _ hn.2 ?_ (fun h => hp (List.mem_cons_of_mem _ h))]
    · dsimp only
      rw [List.append_assoc, List.append_assoc]
      rfl
    · intro x hx hm
      dsimp only at hm
      rcases List.mem_append.1 hm with h | h
      · exact hd x (List.mem_cons_of_mem _ hx) h
      · rw [List.mem_singleton.1 h] at hx
        exact hn.1 hx

theorem addProps_old (ids : List Text) : ∀ c : WClass, (∀ n ∈ ids, n ∈ c.props) → t!"points" ∉ ids →
    addProps ids c = ({ c with points := c.points ++ ids }, .ok ()) := by
  induction ids with
  | nil => intro c _ _; rw [List.append_nil]; rfl
  | cons n ns ih =>
    intro c hd hp
    have h1 : n ∈ c.props := hd n (List.mem_cons_self ..)
    have h2 : n ≠ t!"points" := fun h => hp (h ▸ List.mem_cons_self ..)
    rw [addProps, if_pos h1, if_neg h2, ih { c with props := c.props, points := c.points ++ [n] } (fun x hx => hd x (List.mem_cons_of_mem _ hx))
      (fun h => hp (List.mem_cons_of_mem _ h))]
    dsimp only
    rw [List.append_assoc]
    rfl

theorem goodIds_prop {bt : BlockType} (h : GoodIds bt) : (propIds bt).Nodup ∧ t!"points" ∉ propIds bt := by
  refine ⟨propIds_eq bt ▸ h.1, fun hm => ?_⟩
  obtain ⟨t, ht, e⟩ := propIds_mem.1 hm
  exact h.2 t ht e

theorem modelClass_good {mt : Option ModelType} (h : ∀ t, mt = some t → GoodDef t) : modelClass mt = .ok (classOf mt) := by
  cases mt with
  | none => rfl
  | some t =>
    have hg := h t rfl
    unfold modelClass
    dsimp only
    rw [if_neg (goodIds_prop hg.1).2]
    match hr : t.rep with
    | none => simp [classOf, hr]
    | some rb =>
      simp only []
      rw [if_neg (goodIds_prop (hg.2 rb hr)).2]
      simp [classOf, hr]

/-- All classes are those of the definitions. -/
def ClassesOf (defs : Int → Option ModelType) (cs : Classes) : Prop := ∀ id c, dictGet cs id = some c → c = classOf (defs id)

theorem filter_points {l : List Text} (h : t!"points" ∉ l) : (l.filter fun n => decide (n ≠ t!"points")) = l := by
  rw [List.filter_eq_self]
  intro a ha
  exact decide_eq_true (fun e => h (e ▸ ha))

theorem classGet_same {defs : Int → Option ModelType} (hg : ∀ id t, defs id = some t → GoodDef t) {cs : Classes} (hcs : ClassesOf defs cs)
    (id : Int) : classGet cs id (defs id) = (dictSet cs id (classOf (defs id)), .ok (classOf (defs id))) := by
  unfold classGet
  cases hd : defs id with
  | none =>
    dsimp only
    cases hc : dictGet cs id with
    | none => rfl
    | some c =>
      have hc' : c = classOf (defs id) := hcs id c hc
      rw [hd] at hc'
      rw [hc']
      rfl
  | some t =>
    have g := hg id t hd
    obtain ⟨g1, g2⟩ := goodIds_prop g.1
    dsimp only
    have hb : ∀ rb, t.rep = some rb → addProps (propIds rb) ⟨[], [], false, none⟩ = (⟨propIds rb, propIds rb, false, none⟩, .ok ()) := by
      intro rb hr
      obtain ⟨b1, b2⟩ := goodIds_prop (g.2 rb hr)
      exact addProps_new _ _ b1 (fun n _ h => by cases h) b2
    cases hc : dictGet cs id with
    | none =>
      have h1 := addProps_new (propIds t.fixed) ⟨[], [], false, none⟩ g1 (fun n _ h => by cases h) g2
      simp only [Option.getD_none, List.filter_nil, h1, List.nil_append, classOf]
      cases hr : t.rep with
      | none => rfl
      | some rb => dsimp only; rw [hb rb hr]; rfl
    | some c =>
      have hc' : c = classOf (defs id) := hcs id c hc
      rw [hd] at hc'
      rw [hc']
      have h1 := addProps_old (propIds t.fixed) { classOf (some t) with points := [] } (fun n h => h) g2
      simp only [classOf] at h1
      simp only [Option.getD_some, classOf, filter_points g2, h1, List.nil_append]
      cases hr : t.rep with
      | none => rfl
      | some rb => dsimp only; rw [hb rb hr]; rfl

theorem classesOf_set {defs : Int → Option ModelType} {cs : Classes} (h : ClassesOf defs cs) (id : Int) :
    ClassesOf defs (dictSet cs id (classOf (defs id))) := by
  intro id' c hc
  rw [dictGet_set] at hc
  split at hc
  · rename_i e
    rw [e]
    exact (Option.some.inj hc).symm
  · exact h id' c hc

theorem wrapOneIn_same {defs : Int → Option ModelType} (hg : ∀ id t, defs id = some t → GoodDef t) (lib : FloatLib) {cs : Classes}
    (hcs : ClassesOf defs cs) (d : DWrap) (i : Nat) (m : MdlObj) (hm : m.mtype = defs m.id) :
    ∃ cs', wrapOneIn lib cs d i m = (cs', wrapOne lib d i m) ∧ ClassesOf defs cs' := by
  refine ⟨dictSet cs m.id (classOf (defs m.id)), ?_, classesOf_set hcs _⟩
  have hgm : ∀ t, m.mtype = some t → GoodDef t := fun t ht => hg m.id t (hm ▸ ht)
  unfold wrapOneIn wrapOne
  rw [modelClass_good hgm, hm, classGet_same hg hcs]
  dsimp only
  rcases newModelWrap lib (classOf (defs m.id)) m i (modelName m) with ⟨m1, e | w⟩ <;> rfl

theorem wrapLoopIn_same {defs : Int → Option ModelType} (hg : ∀ id t, defs id = some t → GoodDef t) (lib : FloatLib) :
    ∀ (ms : List MdlObj) (i : Nat) (cs : Classes) (d : DWrap), ClassesOf defs cs → (∀ m ∈ ms, m.mtype = defs m.id) →
    ∃ cs', wrapLoopIn lib ms i cs d = (cs', wrapLoop lib ms i d) ∧ ClassesOf defs cs' := by
  intro ms
  induction ms with
  | nil => intro i cs d hcs _; exact ⟨cs, rfl, hcs⟩
  | cons m ms ih =>
    intro i cs d hcs hm
    obtain ⟨cs1, h1, h2⟩ := wrapOneIn_same hg lib hcs d i m (hm m (List.mem_cons_self ..))
    rw [wrapLoopIn, wrapLoop, h1]
    rcases wrapOne lib d i m with ⟨d1, e | u⟩
    · exact ⟨cs1, rfl, h2⟩
    · exact ih (i + 1) cs1 d1 h2 fun x hx => hm x (List.mem_cons_of_mem _ hx)

theorem wrapDeviceIn_same {defs : Int → Option ModelType} (hg : ∀ id t, defs id = some t → GoodDef t) (lib : FloatLib)
    {cs : Classes} (hcs : ClassesOf defs cs) (models : List MdlObj) (hm : ∀ m ∈ models, m.mtype = defs m.id) :
    ∃ cs', wrapDeviceIn lib cs models = (cs', wrapDevice lib models) ∧ ClassesOf defs cs' := by
  obtain ⟨cs1, h1, h2⟩ := wrapLoopIn_same hg lib models 0 cs (DWrap.init models) hcs hm
  refine ⟨cs1, ?_, h2⟩
  unfold wrapDeviceIn wrapDevice
  rw [h1]
  rcases wrapLoop lib models 0 (DWrap.init models) with ⟨d, e | u⟩
  · dsimp only
    generalize dictGet d.dict (t!"device") = o
    rcases o with _ | ⟨x⟩ | l
    · rfl
    · cases x <;> rfl
    · rfl
  · rfl

/-! ## The objects of a device and their classes -/

theorem withPts_id (m : MdlObj) (k : Nat) (pts : List PointObj) : (m.withPts k pts).id = m.id := by
  unfold MdlObj.withPts
  split <;> rfl

theorem modelSet_id (lib : FloatLib) (m : MdlObj) (n : Text) (v : UVal) : (modelSet lib m n v).1.id = m.id := by
  unfold modelSet
  split
  · exact withPts_id ..
  · rfl

theorem newBlockWrap_id (lib : FloatLib) (props : List Text) (m : MdlObj) (k : Nat) (n : Text) :
    (newBlockWrap lib props m k n).1.id = m.id := by
  unfold newBlockWrap
  split
  · rfl
  · split
    · split
      · rfl
      · exact withPts_id ..
    · rfl

theorem repLoop_id (lib : FloatLib) (cls : WClass) : ∀ (bs : List BlockObj) (k : Nat) (m : MdlObj) (r : Text) (d : List (Text × WV))
    (acc : List BWrap), (repLoop lib cls bs k m r d acc).1.id = m.id := by
  intro bs
  induction bs with
  | nil => intros; rfl
  | cons b bs ih =>
    intro k m r d acc
    rw [repLoop]
    split
    · rfl
    · dsimp only
      cases cls.rep with
      | none => rfl
      | some props =>
        dsimp only
        have h := newBlockWrap_id lib props m k b.bt.name
        generalize newBlockWrap lib props m k b.bt.name = q at h ⊢
        rcases q with ⟨m1, e | w⟩
        · exact h
        · exact (ih ..).trans h

theorem newModelWrap_keeps (lib : FloatLib) (cls : WClass) (m : MdlObj) (i : Nat) (name : Text) :
    (newModelWrap lib cls m i name).1.id = m.id ∧ ∀ w, (newModelWrap lib cls m i name).2 = .ok w → w.cls = cls ∧ w.mdl = i := by
  unfold newModelWrap
  split
  · exact ⟨rfl, fun w h => by cases h⟩
  · dsimp only
    have h1 : (if t!"name" ∈ cls.props then modelSet lib m (t!"name") (.str name) else (m, .ok ())).1.id = m.id := by
      split
      · exact modelSet_id ..
      · rfl
    generalize (if t!"name" ∈ cls.props then modelSet lib m (t!"name") (.str name) else (m, .ok ())) = r at h1 ⊢
    rcases r with ⟨m1, e | u⟩
    · exact ⟨h1, fun w h => by cases h⟩
    · dsimp only at h1 ⊢
      split
      · exact ⟨h1, fun w h => by cases h⟩
      · generalize (if t!"name" ∈ cls.props then [(t!"model", WV.mdl), (t!"repeating", .reps), (t!"repeating_name", .text (t!"repeating"))]
          else dictSet [(t!"model", WV.mdl), (t!"repeating", .reps), (t!"repeating_name", .text (t!"repeating"))] (t!"name") (.text name)) = dd
        have h2 := repLoop_id lib cls m1.blocks.tail 1 m1 (t!"repeating") dd []
        generalize repLoop lib cls m1.blocks.tail 1 m1 (t!"repeating") dd [] = q at h2 ⊢
        rcases q with ⟨m2, e | ⟨d2, bs⟩⟩
        · exact ⟨h2.trans h1, fun w h => by cases h⟩
        · exact ⟨h2.trans h1, fun w h => by cases h; exact ⟨rfl, rfl⟩⟩

/-- The classes of the objects of a device are those of the definitions of its models. -/
def Classed (defs : Int → Option ModelType) (d : DWrap) : Prop :=
  ∀ w ∈ d.wraps, ∀ m, d.models[w.mdl]? = some m → w.cls = classOf (defs m.id)

theorem classed_iff {defs : Int → Option ModelType} {d d' : DWrap}
    (h1 : d'.wraps.map (fun w => (w.cls, w.mdl)) = d.wraps.map (fun w => (w.cls, w.mdl)))
    (h2 : d'.models.map (·.id) = d.models.map (·.id)) (h : Classed defs d) : Classed defs d' := by
  intro w hw m hm
  have h3 : (w.cls, w.mdl) ∈ d'.wraps.map (fun w => (w.cls, w.mdl)) := List.mem_map.2 ⟨w, hw, rfl⟩
  rw [h1] at h3
  obtain ⟨w', hw', e⟩ := List.mem_map.1 h3
  have e1 : w'.cls = w.cls := congrArg Prod.fst e
  have e2 : w'.mdl = w.mdl := congrArg Prod.snd e
  have h4 : (d'.models.map (·.id))[w.mdl]? = some m.id := by rw [List.getElem?_map, hm]; rfl
  rw [h2, List.getElem?_map] at h4
  cases h5 : d.models[w.mdl]? with
  | none => rw [h5] at h4; cases h4
  | some m' =>
    rw [h5] at h4
    have e3 : m'.id = m.id := Option.some.inj h4
    rw [← e1, ← e3]
    exact h w' hw' m' (e2 ▸ h5)

theorem wrapOne_classed {defs : Int → Option ModelType} (hg : ∀ id t, defs id = some t → GoodDef t) (lib : FloatLib) (d : DWrap) (i : Nat)
    (m : MdlObj) (hm : m.mtype = defs m.id) (hi : d.models[i]? = some m) (h : Classed defs d) :
    Classed defs (wrapOne lib d i m).1 ∧ (wrapOne lib d i m).1.models.map (·.id) = d.models.map (·.id) := by
  have hgm : ∀ t, m.mtype = some t → GoodDef t := fun t ht => hg m.id t (hm ▸ ht)
  obtain ⟨k1, k2⟩ := newModelWrap_keeps lib (classOf m.mtype) m i (modelName m)
  unfold wrapOne
  rw [modelClass_good hgm]
  dsimp only
  have hids : ∀ m1 : MdlObj, m1.id = m.id → (d.models.set i m1).map (·.id) = d.models.map (·.id) := by
    intro m1 h1
    rw [List.map_set, h1]
    apply List.ext_getElem?
    intro j
    rw [List.getElem?_set]
    split
    · rename_i e
      subst e
      rw [List.getElem?_map, hi]
      have : i < d.models.length := (List.getElem?_eq_some_iff.1 hi).1
      rw [List.length_map, if_pos this]
      rfl
    · rfl
  generalize newModelWrap lib (classOf m.mtype) m i (modelName m) = q at k1 k2 ⊢
  rcases q with ⟨m1, e | w⟩
  · exact ⟨classed_iff (d := d) rfl (hids m1 k1) h, hids m1 k1⟩
  · refine ⟨?_, hids m1 k1⟩
    intro w' hw' m' hm'
    dsimp only at hw' hm'
    rcases List.mem_append.1 hw' with hw | hw
    · have h5 : Classed defs { d with models := d.models.set i m1 } := classed_iff (d := d) rfl (hids m1 k1) h
      exact h5 w' hw m' hm'
    · rw [List.mem_singleton.1 hw] at hm' ⊢
      obtain ⟨q1, q2⟩ := k2 w rfl
      rw [q2, List.getElem?_set_self (List.getElem?_eq_some_iff.1 hi).1] at hm'
      have e := Option.some.inj hm'
      rw [q1, ← e, hm]
      exact congrArg _ (congrArg _ k1.symm)

theorem wrapLoop_classed {defs : Int → Option ModelType} (hg : ∀ id t, defs id = some t → GoodDef t) (lib : FloatLib) :
    ∀ (ms : List MdlObj) (i : Nat) (d : DWrap), (∀ m ∈ ms, m.mtype = defs m.id) → (∀ j m, ms[j]? = some m → d.models[i + j]? = some m) →
    Classed defs d → Classed defs (wrapLoop lib ms i d).1 := by
  intro ms
  induction ms with
  | nil => intro i d _ _ h; exact h
  | cons m ms ih =>
    intro i d hm hd h
    have hi : d.models[i]? = some m := hd 0 m rfl
    obtain ⟨h1, h2⟩ := wrapOne_classed hg lib d i m (hm m (List.mem_cons_self ..)) hi h
    have h3 : ∀ j, j ≠ i → (wrapOne lib d i m).1.models[j]? = d.models[j]? := by
      intro j hj
      unfold wrapOne
      split
      · rfl
      · split <;> exact List.getElem?_set_ne (Ne.symm hj)
    rw [wrapLoop]
    generalize wrapOne lib d i m = q at h1 h2 h3 ⊢
    rcases q with ⟨d1, e | u⟩
    · exact h1
    · refine ih (i + 1) d1 (fun x hx => hm x (List.mem_cons_of_mem _ hx)) (fun j x hx => ?_) h1
      rw [h3 (i + 1 + j) (by omega), show i + 1 + j = i + (j + 1) by omega]
      exact hd (j + 1) x hx

theorem wrapDevice_classed {defs : Int → Option ModelType} (hg : ∀ id t, defs id = some t → GoodDef t) (lib : FloatLib)
    (models : List MdlObj) (hm : ∀ m ∈ models, m.mtype = defs m.id) (d : DWrap) (h : wrapDevice lib models = (d, .ok ())) : Classed defs d := by
  have hc := wrapLoop_classed hg lib models 0 (DWrap.init models) hm (fun j m h => by rw [Nat.zero_add]; exact h)
    (fun w hw => absurd hw List.not_mem_nil)
  unfold wrapDevice at h
  rcases hr : wrapLoop lib models 0 (DWrap.init models) with ⟨d1, e | u⟩
  · rw [hr] at h
    dsimp only at h
    split at h <;> cases h
  · rw [hr] at h hc
    cases h
    exact hc

theorem live_same {defs : Int → Option ModelType} {cs : Classes} (hcs : ClassesOf defs cs) {d : DWrap} (hd : Classed defs d) :
    d.live cs = d := by
  unfold DWrap.live
  have : (d.wraps.map fun w => liveClass cs d.models[w.mdl]? w) = d.wraps := by
    have h : ∀ w ∈ d.wraps, liveClass cs d.models[w.mdl]? w = w := by
      intro w hw
      unfold liveClass
      cases hm : d.models[w.mdl]? with
      | none => rfl
      | some m =>
        dsimp only
        cases hc : dictGet cs m.id with
        | none => rfl
        | some c =>
          dsimp only
          rw [hcs _ _ hc, ← hd w hw m hm]
    rw [List.map_congr_left h]
    exact List.map_id' _
  rw [this]

/-- C87: programs with any number of scripting devices print what they would print, and leave the devices as they would be, if
each device were the only one, provided that a model id has one definition during the program. -/
theorem C87_program_partial (lib : FloatLib) (defs : Int → Option ModelType) (hg : ∀ id t, defs id = some t → GoodDef t)
    (es : List DeviceEvent) (ho : OneDefinition defs es) (hu : ∀ j f, DeviceEvent.use j f ∈ es → Uses f) :
    (shared lib ([], [], []) es).2 = separate lib ([], []) es := by
  have key : ∀ (es : List DeviceEvent) (cs : Classes) (ds : List DWrap) (out : List Text), OneDefinition defs es →
      (∀ j f, DeviceEvent.use j f ∈ es → Uses f) → ClassesOf defs cs → (∀ d ∈ ds, Classed defs d) →
      (shared lib (cs, ds, out) es).2 = separate lib (ds, out) es := by
    intro es
    induction es with
    | nil => intros; rfl
    | cons e es ih =>
      intro cs ds out ho hu hcs hds
      have ho' : OneDefinition defs es := fun ms h => ho ms (List.mem_cons_of_mem _ h)
      have hu' : ∀ j f, DeviceEvent.use j f ∈ es → Uses f := fun j f h => hu j f (List.mem_cons_of_mem _ h)
      cases e with
      | create models =>
        have hm := ho models (List.mem_cons_self ..)
        obtain ⟨cs1, h1, h2⟩ := wrapDeviceIn_same hg lib hcs models hm
        rw [shared, separate, h1]
        rcases hw : wrapDevice lib models with ⟨d, e | u⟩
        · exact ih cs1 ds out ho' hu' h2 hds
        · refine ih cs1 (ds ++ [d]) out ho' hu' h2 fun x hx => ?_
          rcases List.mem_append.1 hx with hx | hx
          · exact hds x hx
          · rw [List.mem_singleton.1 hx]
            exact wrapDevice_classed hg lib models hm d hw
      | use j f =>
        rw [shared, separate]
        cases hj : ds[j]? with
        | none => exact ih cs ds out ho' hu' hcs hds
        | some d =>
          have hd := hds d (List.mem_of_getElem? hj)
          dsimp only
          rw [live_same hcs hd]
          refine ih cs _ _ ho' hu' hcs fun x hx => ?_
          rcases List.mem_or_eq_of_mem_set hx with hx | rfl
          · exact hds x hx
          · obtain ⟨k1, k2⟩ := hu j f (List.mem_cons_self ..) d
            exact classed_iff k1 k2 hd
  exact key es [] [] [] ho hu (fun id c h => by cases h) (fun d hd => absurd hd List.not_mem_nil)

/-! ## The classes really are shared -/

/-- C87 in full: for all programs, also if definitions change while it runs. -/
def C87_full : Prop :=
  ∀ (lib : FloatLib) (es : List DeviceEvent), (∀ models, DeviceEvent.create models ∈ es → ∀ m ∈ models, ∀ t, m.mtype = some t → GoodDef t) →
    (∀ j f, DeviceEvent.use j f ∈ es → Uses f) → (shared lib ([], [], []) es).2 = separate lib ([], []) es

/-- Assign to an attribute of the first object of the device, and print the object. -/
def setAndPrint (lib : FloatLib) (name : Text) (v : UVal) (d : DWrap) : DWrap × Text :=
  match d.wraps with
  | [] => (d, [])
  | w :: ws =>
    let r := w.setAttr lib d.models name v
    let d' : DWrap := { d with wraps := r.1 :: ws, models := r.2.1 }
    (d', match r.1.str lib r.2.1 with | .ok t => t | .error _ => t!"error")

theorem setNth_ids (ms : List MdlObj) (i : Nat) (m : MdlObj) (hi : ms[i]? = some m) (r : MdlObj × Py Unit) (hr : r.1.id = m.id) :
    (setNth ms i r).1.map (·.id) = ms.map (·.id) := by
  unfold setNth
  rw [List.map_set, hr]
  apply List.ext_getElem?
  intro j
  rw [List.getElem?_set]
  split
  · rename_i e
    subst e
    rw [List.getElem?_map, hi, List.length_map, if_pos (List.getElem?_eq_some_iff.1 hi).1]
    rfl
  · rfl

theorem setProp_ids (lib : FloatLib) (ms : List MdlObj) (w : MWrap) (name : Text) (v : UVal) :
    (w.setProp lib ms name v).1.map (·.id) = ms.map (·.id) := by
  unfold MWrap.setProp
  split
  · rfl
  split
  · rfl
  · split
    · split
      · rename_i m hm
        exact setNth_ids ms w.mdl m hm _ (modelSet_id ..)
      · rfl
    · rfl

/-- Assignments and printing are uses in the sense of C87. -/
theorem setAndPrint_uses (lib : FloatLib) (name : Text) (v : UVal) : Uses (setAndPrint lib name v) := by
  intro d
  unfold setAndPrint
  cases hw : d.wraps with
  | nil => exact ⟨by rw [hw], rfl⟩
  | cons w ws =>
    dsimp only
    unfold MWrap.setAttr
    split
    · exact ⟨rfl, setProp_ids ..⟩
    · exact ⟨rfl, rfl⟩

/-- Two devices with a model 901 that have one definition: `X`, or `Y` after the path list has been changed. -/
def otherModel (id : Text) : MdlObj := (mdlLoad (.ok (clashType id .int16 1)) (mdlNew 901 40002 1)).1

/-- The first device's `X` is set to 5 and printed; a second device is created; the first device's `X` is set to 6 and printed. -/
def twoDevices (lib : FloatLib) (id2 : Text) : List DeviceEvent :=
  [.create [otherModel (t!"X")], .use 0 (setAndPrint lib (t!"X") (.int 5)), .create [otherModel id2], .use 0 (setAndPrint lib (t!"X") (.int 6))]

/-- With another definition the first device's object does not show its own point any more. -/
theorem C87_changed :
    (shared exactLib ([], [], []) (twoDevices exactLib (t!"Y"))).2.2 = [t!"\nclash (901):\nX:  5\n", t!"\nclash (901):\n"] ∧
    (separate exactLib ([], []) (twoDevices exactLib (t!"Y"))).2 = [t!"\nclash (901):\nX:  5\n", t!"\nclash (901):\nX:  6\n"] := by
  constructor <;> decide +kernel

theorem otherModel_good (id : Text) (h : id ≠ t!"points") (t : ModelType) (ht : (otherModel id).mtype = some t) : GoodDef t := by
  have e : t = clashType id .int16 1 := Option.some.inj (ht.symm.trans rfl)
  subst e
  refine ⟨⟨List.nodup_singleton _, fun p hp => ?_⟩, fun rb hr => by cases hr⟩
  rw [List.mem_singleton.1 hp]
  exact h

theorem C87_violated : ¬ C87_full := by
  intro h
  have h1 := h exactLib (twoDevices exactLib (t!"Y")) ?_ ?_
  · have h2 := C87_changed
    rw [h1, h2.2] at h2
    exact absurd h2.1 (by decide)
  · intro models hm m hmm t ht
    simp only [twoDevices, List.mem_cons, DeviceEvent.create.injEq, reduceCtorEq, List.not_mem_nil, or_false, false_or] at hm
    rcases hm with rfl | rfl
    · rw [List.mem_singleton.1 hmm] at ht
      exact otherModel_good _ (by decide) t ht
    · rw [List.mem_singleton.1 hmm] at ht
      exact otherModel_good _ (by decide) t ht
  · intro j f hf
    simp only [twoDevices, List.mem_cons, DeviceEvent.use.injEq, reduceCtorEq, List.not_mem_nil, or_false, false_or] at hf
    rcases hf with ⟨rfl, rfl⟩ | ⟨rfl, rfl⟩
    · exact setAndPrint_uses _ _ _
    · exact setAndPrint_uses _ _ _

/-- The hypotheses of C87 are met: two devices with the same definition of model 901. -/
example : (shared exactLib ([], [], []) (twoDevices exactLib (t!"X"))).2 = separate exactLib ([], []) (twoDevices exactLib (t!"X")) ∧
    (separate exactLib ([], []) (twoDevices exactLib (t!"X"))).2 = [t!"\nclash (901):\nX:  5\n", t!"\nclash (901):\nX:  6\n"] := by
  refine ⟨C87_program_partial exactLib (fun id => if id = 901 then some (clashType (t!"X") .int16 1) else none) ?_ _ ?_ ?_, by decide +kernel⟩
  · intro id t ht
    split at ht
    · exact otherModel_good (t!"X") (by decide) t ht
    · cases ht
  · intro models hm m hmm
    simp only [twoDevices, List.mem_cons, DeviceEvent.create.injEq, reduceCtorEq, List.not_mem_nil, or_false, false_or, or_self] at hm
    rw [hm] at hmm
    rw [List.mem_singleton.1 hmm]
    decide +kernel
  · intro j f hf
    simp only [twoDevices, List.mem_cons, DeviceEvent.use.injEq, reduceCtorEq, List.not_mem_nil, or_false, false_or] at hf
    rcases hf with ⟨rfl, rfl⟩ | ⟨rfl, rfl⟩
    · exact setAndPrint_uses _ _ _
    · exact setAndPrint_uses _ _ _

/-- A point called `points` (`addProps`): the call that creates the class raises `AttributeError`. -/
example : (match (classGet [] 901 (some (clashType (t!"points") .uint16 1))).2 with | .ok _ => Option.none | .error e => some e) = some .attributeError := by
  decide +kernel

end Verif
