import Verif.Spec.Data
import Verif.Lemmas.IntText
import Verif.Props.Value

/-!
# C42: data records
-/

namespace Verif
open Spec

variable {lib : FloatLib}

/-! ### Attributes -/

/-- Looking up in attributes that may be missing. -/
theorem get_rec (k k' : String) (v : UVal) (rest : List (String × UVal)) :
    (dictGet (recAttr k v ++ rest) k').getD .none = if dataTrue v = true ∧ k = k' then v else (dictGet rest k').getD .none := by
  unfold recAttr
  by_cases h : dataTrue v = true
  · by_cases e : k = k'
    · subst e; simp [h, dictGet]
    · have e' : ¬ k' = k := fun x => e x.symm
      simp [h, e, e', dictGet]
  · simp [h]

theorem dataTrue_name {v : UVal} (h : NameOK v) : dataTrue v = true ∨ v = .none := by
  rcases h with rfl | ⟨s, hs, rfl⟩
  · exact .inr rfl
  · left
    unfold dataTrue
    cases s with
    | nil => exact absurd rfl hs
    | cons c s => rfl

theorem if_name {v w : UVal} (h : NameOK v) (hw : w = .none) : (if dataTrue v = true then v else w) = v := by
  rcases dataTrue_name h with h | h
  · rw [if_pos h]
  · subst h; rw [if_neg (by simp [dataTrue]), hw]

theorem rec_text {k : String} {v : UVal} (h : NameOK v) : allText (recAttr k v) = true := by
  rcases h with rfl | ⟨s, _, rfl⟩
  · rfl
  · unfold recAttr allText
    split <;> rfl

theorem allText_append (a b : List (String × UVal)) : allText (a ++ b) = (allText a && allText b) := by
  simp [allText]

theorem dictGet_skip {k : String} (a rest : List (String × UVal)) (ha : ∀ kv ∈ a, kv.1 ≠ k) : dictGet (a ++ rest) k = dictGet rest k := by
  induction a with
  | nil => rfl
  | cons kv a ih =>
    obtain ⟨k', v⟩ := kv
    have hk : k' ≠ k := ha (k', v) (by simp)
    rw [List.cons_append]
    simp only [dictGet]
    rw [if_neg (fun e => hk (by simpa using e)), ih fun x hx => ha x (by simp [hx])]

theorem rec_keys {k k' : String} {v : UVal} (h : k ≠ k') : ∀ kv ∈ recAttr k v, kv.1 ≠ k' := by
  intro kv hk
  unfold recAttr at hk
  split at hk
  · simp at hk; rw [hk]; exact h
  · simp at hk

theorem get_rec_name {k : String} {v : UVal} (h : NameOK v) : (dictGet (recAttr k v) k).getD .none = v := by
  have := get_rec k k v []
  rw [List.append_nil] at this
  rw [this]
  simp only [and_true]
  exact if_name h rfl

theorem get_rec_other {k k' : String} {v : UVal} (h : k ≠ k') : (dictGet (recAttr k v) k').getD .none = .none := by
  have := get_rec k k' v []
  rw [List.append_nil] at this
  rw [this, if_neg (fun e => h e.2)]
  rfl

theorem dataTrue_none : ¬ dataTrue .none = true := by simp [dataTrue]
theorem dataTrue_int {i : Int} (h : i ≠ 0) : dataTrue (.int i) = true := by simp [dataTrue, h]

/-! ### Points -/

theorem sunsToStr_int (i : Int) : sunsToStr lib (.int i) = intDec i := rfl

theorem optInt_text (i : Int) : optInt (.str (intDec i)) = .ok (.int i) := by
  unfold optInt
  rw [if_neg (by simp)]
  unfold dataInt
  dsimp only
  rw [pyInt_intDec 10 (.inr rfl)]

theorem point_roundtrip (p : PointData) (h : PlainPoint lib p) : ∃ q, pointFromXml (pointToXml lib p) = .ok q ∧ SamePointData lib p q := by
  obtain ⟨pid, value, index, sf, units, desc, time⟩ := p
  obtain ⟨⟨s, hs⟩, hi, hsf, ht, hv⟩ := h
  dsimp only at hs hi hsf ht hv
  subst hs
  have hget : ∀ k', (pointToXml lib ⟨.str s, value, index, sf, units, desc, time⟩).get k' =
      (dictGet ([("id", .str s)] ++ ((if dataTrue index then [("index", .str (sunsToStr lib index))] else []) ++
        ((if sf = .none then [] else [("sf", .str (sunsToStr lib sf))]) ++ recAttr "t" time))) k').getD .none := by
    intro k'
    simp only [DElem.get, pointToXml, DElem.attrib, sunsToStr, List.append_assoc]
  have hid : (pointToXml lib ⟨.str s, value, index, sf, units, desc, time⟩).get "id" = .str s := by
    rw [hget]; simp [dictGet]
  have htime : (pointToXml lib ⟨.str s, value, index, sf, units, desc, time⟩).get "t" = time := by
    rw [hget, dictGet_skip _ _ (by simp), dictGet_skip _ _ (by split <;> simp), dictGet_skip _ _ (by split <;> simp)]
    exact get_rec_name ht
  have hindex : optInt ((pointToXml lib ⟨.str s, value, index, sf, units, desc, time⟩).get "index") = .ok index := by
    rw [hget, dictGet_skip _ _ (by simp)]
    rcases hi with rfl | ⟨i, i0, rfl⟩
    · rw [if_neg dataTrue_none, List.nil_append, dictGet_skip _ _ (by split <;> simp), get_rec_other (by decide)]; rfl
    · rw [if_pos (dataTrue_int i0)]
      exact optInt_text i
  have hsf' : optInt ((pointToXml lib ⟨.str s, value, index, sf, units, desc, time⟩).get "sf") = .ok sf := by
    rw [hget, dictGet_skip _ _ (by simp), dictGet_skip _ _ (by split <;> simp)]
    rcases hsf with rfl | ⟨j, rfl⟩
    · rw [if_pos rfl, List.nil_append, get_rec_other (by decide)]; rfl
    · rw [if_neg (by simp)]
      exact optInt_text j
  refine ⟨⟨.str s, textOf lib value, index, sf, .none, .none, time⟩, ?_, ⟨rfl, rfl, rfl, rfl, rfl⟩⟩
  unfold pointFromXml
  rw [hindex, hsf', hid, htime]
  dsimp only
  congr 2
  unfold pointToXml textOf
  dsimp only [DElem.text]
  by_cases hvn : value = .none
  · simp [hvn]
  · simp [hvn]

theorem points_roundtrip (ps : List PointData) (h : ∀ p ∈ ps, PlainPoint lib p) :
    ∃ qs, pointsFromXml (ps.map (pointToXml lib)) = .ok qs ∧ List.Forall₂ (SamePointData lib) ps qs := by
  induction ps with
  | nil => exact ⟨[], rfl, .nil⟩
  | cons p ps ih =>
    obtain ⟨q, h1, h2⟩ := point_roundtrip p (h p (by simp))
    obtain ⟨qs, h3, h4⟩ := ih fun p hp => h p (by simp [hp])
    refine ⟨q :: qs, ?_, .cons h2 h4⟩
    rw [List.map_cons, pointsFromXml, if_neg (by simp [pointToXml, DElem.tag]), h1, h3]

/-! ### Models -/

theorem model_data_roundtrip (m : ModelData) (h : PlainModel lib m) :
    ∃ e n, modelToXml lib m = .ok e ∧ e.tag = "m" ∧ modelFromXml e = .ok n ∧ SameModelData lib m n := by
  obtain ⟨mid, ns, index, points⟩ := m
  obtain ⟨⟨s, hs⟩, hns, hi, hp⟩ := h
  dsimp only at hs hns hi hp
  subst hs
  obtain ⟨qs, h1, h2⟩ := points_roundtrip points hp
  obtain ⟨gt, hgt, hx⟩ : ∃ gt, indexGt index = .ok gt ∧
      optInt ((dictGet ((if gt then [("x", index)] else []) ++ recAttr "ns" ns) "x").getD .none) = .ok index := by
    rcases hi with rfl | ⟨i, i1, rfl⟩
    · refine ⟨false, rfl, ?_⟩
      rw [if_neg (by simp), List.nil_append, get_rec_other (by decide)]; rfl
    · refine ⟨true, by simp [indexGt, i1], ?_⟩
      rw [if_pos rfl]
      rfl
  refine ⟨.mk "m" ([("id", .str s)] ++ (if gt then [("x", index)] else []) ++ recAttr "ns" ns) none (points.map (pointToXml lib)),
    ⟨.str s, ns, index, qs⟩, ?_, rfl, ?_, rfl, rfl, rfl, h2⟩
  · unfold modelToXml
    dsimp only
    rw [hgt]
    rfl
  · unfold modelFromXml
    simp only [DElem.get, DElem.attrib, DElem.children, List.append_assoc]
    rw [dictGet_skip [("id", UVal.str s)] _ (k := "x") (by simp), hx]
    dsimp only
    rw [h1]
    dsimp only
    rw [dictGet_skip [("id", UVal.str s)] _ (k := "ns") (by simp), dictGet_skip _ _ (k := "ns") (by split <;> simp), get_rec_name hns]
    rfl

theorem models_data_roundtrip (ms : List ModelData) (h : ∀ m ∈ ms, PlainModel lib m) :
    ∃ es ns, modelsToXml lib ms = .ok es ∧ modelsFromXml es = .ok ns ∧ List.Forall₂ (SameModelData lib) ms ns := by
  induction ms with
  | nil => exact ⟨[], [], rfl, rfl, .nil⟩
  | cons m ms ih =>
    obtain ⟨e, n, h1, h2, h3, h4⟩ := model_data_roundtrip m (h m (by simp))
    obtain ⟨es, ns, h5, h6, h7⟩ := ih fun p hp => h p (by simp [hp])
    refine ⟨e :: es, n :: ns, ?_, ?_, .cons h4 h7⟩
    · rw [modelsToXml, h1, h5]
    · rw [modelsFromXml, if_neg (by simp [h2]), h3, h6]

/-! ### Devices -/

theorem device_data_roundtrip (d : DeviceData) (h : PlainDevice lib d) :
    ∃ e n, deviceToXml lib d = .ok e ∧ e.tag = "d" ∧ deviceFromXml e = .ok n ∧ SameDeviceData lib d n := by
  obtain ⟨es, ns, h1, h2, h3⟩ := models_data_roundtrip d.models h.models
  refine ⟨.mk "d" (deviceAttrs d) none es,
    { lid := d.lid, ns := d.ns, did := d.did, ifc := d.ifc, man := d.man, mod := d.mod, sn := d.sn, time := d.timestamp, cid := d.cid, models := ns },
    ?_, rfl, ?_, rfl, rfl, rfl, rfl, rfl, rfl, rfl, rfl, rfl, h3⟩
  · unfold deviceToXml
    rw [h1]
  · unfold deviceFromXml
    dsimp only [DElem.children]
    rw [h2]
    dsimp only
    congr 1
    simp only [DElem.get, DElem.attrib, deviceAttrs, List.append_assoc, get_rec]
    simp only [String.reduceEq, and_false, and_true, if_false]
    simp only [get_rec_other (show "cid" ≠ "lid" by decide), get_rec_other (show "cid" ≠ "ns" by decide), get_rec_other (show "cid" ≠ "id" by decide),
      get_rec_other (show "cid" ≠ "if" by decide), get_rec_other (show "cid" ≠ "man" by decide), get_rec_other (show "cid" ≠ "mod" by decide),
      get_rec_other (show "cid" ≠ "sn" by decide), get_rec_other (show "cid" ≠ "t" by decide), get_rec_name h.cid,
      if_name h.lid rfl, if_name h.ns rfl, if_name h.did rfl, if_name h.ifc rfl, if_name h.man rfl, if_name h.mod rfl, if_name h.sn rfl,
      if_name h.timestamp rfl]

theorem devices_data_roundtrip (ds : List DeviceData) (h : ∀ d ∈ ds, PlainDevice lib d) :
    ∃ es ns, devicesToXml lib ds = .ok es ∧ devicesFromXml es = .ok ns ∧ List.Forall₂ (SameDeviceData lib) ds ns := by
  induction ds with
  | nil => exact ⟨[], [], rfl, rfl, .nil⟩
  | cons m ms ih =>
    obtain ⟨e, n, h1, h2, h3, h4⟩ := device_data_roundtrip m (h m (by simp))
    obtain ⟨es, ns, h5, h6, h7⟩ := ih fun p hp => h p (by simp [hp])
    refine ⟨e :: es, n :: ns, ?_, ?_, .cons h4 h7⟩
    · rw [devicesToXml, h1, h5]
    · rw [devicesFromXml, if_neg (by simp [h2]), h3, h6]

/-! ### Through the text -/

theorem xmlEol_self : ∀ s : Text, (∀ c ∈ s, c ≠ '\r') → xmlEol s = s
  | [], _ => rfl
  | c :: s, h => by
    have hc := h c (by simp)
    rw [xmlEol, if_neg hc, xmlEol_self s fun d hd => h d (by simp [hd])]
    intro s' h1 _
    exact hc h1

theorem xmlChar_iff (c : Char) : xmlChar c = true ↔ XmlChar c := by
  unfold xmlChar XmlChar
  simp only [Bool.or_eq_true, Bool.and_eq_true, decide_eq_true_eq, bne_iff_ne, or_assoc, and_assoc]

/-- The tree that is written: indented or not. -/
theorem reparse_points (pretty : Bool) (lvl : Nat) (ps : List PointData) (h : ∀ p ∈ ps, PlainPoint lib p) (hl : ∀ p ∈ ps, XmlPoint lib p) :
    reparseAll (if pretty then indentAll lvl (ps.map (pointToXml lib)) else ps.map (pointToXml lib)) = .ok (ps.map (pointToXml lib)) := by
  have hind : indentAll lvl (ps.map (pointToXml lib)) = ps.map (pointToXml lib) := by
    clear h hl
    induction ps with
    | nil => rfl
    | cons p ps ih =>
      rw [List.map_cons, indentAll, ih]
      unfold pointToXml
      rw [indentElem]
      simp [indentAll]
  rw [hind, ite_self]
  induction ps with
  | nil => rfl
  | cons p ps ih =>
    have hp := h p (by simp)
    have : reparse (pointToXml lib p) = .ok (pointToXml lib p) := by
      have ht : allText ([("id", UVal.str (sunsToStr lib p.pid))] ++ (if dataTrue p.index then [("index", .str (sunsToStr lib p.index))] else []) ++
          (if p.sf = .none then [] else [("sf", .str (sunsToStr lib p.sf))]) ++ recAttr "t" p.time) = true := by
        rw [allText_append, allText_append, allText_append, rec_text hp.time]
        simp only [Bool.and_true, Bool.and_eq_true]
        refine ⟨⟨rfl, ?_⟩, ?_⟩
        · split <;> rfl
        · split <;> rfl
      unfold pointToXml
      rw [reparse, if_pos ht, reparseAll]
      dsimp only
      congr 2
      split
      · rw [if_neg (by simp)]; rfl
      · rw [if_neg (by simpa using hp.value), Option.map_some, xmlEol_self _ fun c hc => ((hl p (by simp)).value c hc).2]
    rw [List.map_cons, reparseAll, this]
    dsimp only
    rw [ih (fun p hp => h p (by simp [hp])) (fun p hp => hl p (by simp [hp]))]
    clear ih
    induction ps with
    | nil => rfl
    | cons p ps ih =>
      rw [List.map_cons, indentAll]
      rw [List.map_cons, indentAll] at hind
      exact (List.cons.inj hind).2

theorem model_reparse (m : ModelData) (h : PlainModel lib m) (hl : XmlModel lib m) (hx : m.index = .none) (e : DElem) (he : modelToXml lib m = .ok e)
    (pretty : Bool) (lvl : Nat) :
    ∃ e', reparse (if pretty then indentElem lvl e else e) = .ok e' ∧ e'.tag = "m" ∧ modelFromXml e' = modelFromXml e := by
  unfold modelToXml at he
  rw [hx] at he
  dsimp only [indexGt] at he
  have := (Except.ok.inj he).symm; subst this
  have ht : allText ([("id", UVal.str (sunsToStr lib m.mid))] ++ (if false = true then [("x", UVal.none)] else []) ++ recAttr "ns" m.ns) = true := by
    rw [allText_append, allText_append, rec_text h.ns]
    rfl
  have hr : ∀ t, ∃ t', reparse (DElem.mk "m" ([("id", UVal.str (sunsToStr lib m.mid))] ++ (if false = true then [("x", UVal.none)] else []) ++ recAttr "ns" m.ns) t
      (if pretty then indentAll (lvl + 1) (m.points.map (pointToXml lib)) else m.points.map (pointToXml lib))) =
      .ok (DElem.mk "m" ([("id", UVal.str (sunsToStr lib m.mid))] ++ (if false = true then [("x", UVal.none)] else []) ++ recAttr "ns" m.ns) t'
        (m.points.map (pointToXml lib))) := by
    intro t
    refine ⟨if t = some [] then none else t.map xmlEol, ?_⟩
    rw [reparse, if_pos ht, reparse_points pretty (lvl + 1) m.points h.points hl.points]
  cases pretty with
  | true =>
    simp only [if_true, indentElem] at hr ⊢
    obtain ⟨t', ht'⟩ := hr _
    exact ⟨_, ht', rfl, rfl⟩
  | false =>
    simp only [Bool.false_eq_true, if_false] at hr ⊢
    obtain ⟨t', ht'⟩ := hr none
    exact ⟨_, ht', rfl, rfl⟩

theorem models_reparse (ms : List ModelData) (h : ∀ m ∈ ms, PlainModel lib m) (hl : ∀ m ∈ ms, XmlModel lib m) (hx : ∀ m ∈ ms, m.index = .none) (es : List DElem)
    (he : modelsToXml lib ms = .ok es) (pretty : Bool) (lvl : Nat) :
    ∃ es', reparseAll (if pretty then indentAll lvl es else es) = .ok es' ∧ modelsFromXml es' = modelsFromXml es := by
  induction ms generalizing es with
  | nil =>
    rw [modelsToXml] at he
    have := (Except.ok.inj he).symm; subst this
    refine ⟨[], ?_, rfl⟩
    cases pretty <;> rfl
  | cons m ms ih =>
    obtain ⟨e, n, h1, h2, h3, h4⟩ := model_data_roundtrip m (h m (by simp))
    obtain ⟨fs, ns, h5, h6, h7⟩ := models_data_roundtrip ms fun p hp => h p (by simp [hp])
    rw [modelsToXml, h1, h5] at he
    have := (Except.ok.inj he).symm; subst this
    obtain ⟨es', a1, a2⟩ := ih (fun p hp => h p (by simp [hp])) (fun p hp => hl p (by simp [hp])) (fun p hp => hx p (by simp [hp])) _ h5
    obtain ⟨e', b1, b2, b3⟩ := model_reparse m (h m (by simp)) (hl m (by simp)) (hx m (by simp)) e h1 pretty lvl
    refine ⟨e' :: es', ?_, ?_⟩
    · cases pretty with
      | true =>
        simp only [if_true] at a1 b1 ⊢
        rw [indentAll, reparseAll, b1, a1]
      | false =>
        simp only [Bool.false_eq_true, if_false] at a1 b1 ⊢
        rw [reparseAll, b1, a1]
    · rw [modelsFromXml, modelsFromXml, if_neg (by simp [b2]), if_neg (by simp [h2]), b3, a2]

theorem device_reparse (d : DeviceData) (h : PlainDevice lib d) (hl : XmlDevice lib d) (hx : ∀ m ∈ d.models, m.index = .none) (e : DElem) (he : deviceToXml lib d = .ok e)
    (pretty : Bool) (lvl : Nat) :
    ∃ e', reparse (if pretty then indentElem lvl e else e) = .ok e' ∧ e'.tag = "d" ∧ deviceFromXml e' = deviceFromXml e := by
  obtain ⟨es, ns, h1, h2, h3⟩ := models_data_roundtrip d.models h.models
  unfold deviceToXml at he
  rw [h1] at he
  dsimp only at he
  have := (Except.ok.inj he).symm; subst this
  obtain ⟨es', a1, a2⟩ := models_reparse d.models h.models hl.models hx es h1 pretty (lvl + 1)
  have ht : allText (deviceAttrs d) = true := by
    simp only [deviceAttrs, allText_append, rec_text h.lid, rec_text h.ns, rec_text h.did, rec_text h.ifc, rec_text h.man, rec_text h.mod, rec_text h.sn,
      rec_text h.timestamp, rec_text h.cid, Bool.and_true]
  have hr : ∀ t, ∃ t', reparse (DElem.mk "d" (deviceAttrs d) t (if pretty then indentAll (lvl + 1) es else es)) = .ok (DElem.mk "d" (deviceAttrs d) t' es') := by
    intro t
    refine ⟨if t = some [] then none else t.map xmlEol, ?_⟩
    rw [reparse, if_pos ht, a1]
  have hf : ∀ t, deviceFromXml (DElem.mk "d" (deviceAttrs d) t es') = deviceFromXml (DElem.mk "d" (deviceAttrs d) none es) := by
    intro t
    unfold deviceFromXml
    dsimp only [DElem.children]
    rw [a2]
    rfl
  cases pretty with
  | true =>
    simp only [if_true, indentElem] at hr ⊢
    obtain ⟨t', ht'⟩ := hr _
    exact ⟨_, ht', rfl, hf _⟩
  | false =>
    simp only [Bool.false_eq_true, if_false] at hr ⊢
    obtain ⟨t', ht'⟩ := hr none
    exact ⟨_, ht', rfl, hf _⟩

theorem devices_reparse (ds : List DeviceData) (h : ∀ d ∈ ds, PlainDevice lib d) (hl : ∀ d ∈ ds, XmlDevice lib d) (hx : ∀ d ∈ ds, ∀ m ∈ d.models, m.index = .none) (es : List DElem)
    (he : devicesToXml lib ds = .ok es) (pretty : Bool) (lvl : Nat) :
    ∃ es', reparseAll (if pretty then indentAll lvl es else es) = .ok es' ∧ devicesFromXml es' = devicesFromXml es := by
  induction ds generalizing es with
  | nil =>
    rw [devicesToXml] at he
    have := (Except.ok.inj he).symm; subst this
    refine ⟨[], ?_, rfl⟩
    cases pretty <;> rfl
  | cons d ds ih =>
    obtain ⟨e, n, h1, h2, h3, h4⟩ := device_data_roundtrip d (h d (by simp))
    obtain ⟨fs, ns, h5, h6, h7⟩ := devices_data_roundtrip ds fun p hp => h p (by simp [hp])
    rw [devicesToXml, h1, h5] at he
    have := (Except.ok.inj he).symm; subst this
    obtain ⟨es', a1, a2⟩ := ih (fun p hp => h p (by simp [hp])) (fun p hp => hl p (by simp [hp])) (fun p hp => hx p (by simp [hp])) _ h5
    obtain ⟨e', b1, b2, b3⟩ := device_reparse d (h d (by simp)) (hl d (by simp)) (hx d (by simp)) e h1 pretty lvl
    refine ⟨e' :: es', ?_, ?_⟩
    · cases pretty with
      | true =>
        simp only [if_true] at a1 b1 ⊢
        rw [indentAll, reparseAll, b1, a1]
      | false =>
        simp only [Bool.false_eq_true, if_false] at a1 b1 ⊢
        rw [reparseAll, b1, a1]
    · rw [devicesFromXml, devicesFromXml, if_neg (by simp [b2]), if_neg (by simp [h2]), b3, a2]

/-! ### C42 -/

/-- C42, the full statement: writing any plain record and parsing the text gives the same record, and the record that was parsed
can be written again with the same result. Not true of the code: `C42_violated`. -/
def C42_full : Prop :=
  ∀ (lib : FloatLib) (pretty : Bool) (r : DataRecord), PlainRecord lib r →
    ∃ e q, recordToStr lib pretty r = .ok e ∧ recordFromXml e = .ok q ∧ SameRecord lib r q

/-- C42 for element trees (`to_xml`, `SunSpecData(element)`): for every record made of plain values, the tree that is built parses
to the same record - every device with its identification, every model with its namespace and index, every point with its index,
scale factor and time, and its value as text. Missing: see `C42_violated`. -/
theorem C42_tree_partial (r : DataRecord) (h : PlainRecord lib r) :
    ∃ e q, recordToXml lib r = .ok e ∧ recordFromXml e = .ok q ∧ SameRecord lib r q := by
  obtain ⟨es, ns, h1, h2, h3⟩ := devices_data_roundtrip r.devices h.devices
  refine ⟨.mk "sunSpecData" (recAttr "v" r.version) none es, ⟨r.version, ns⟩, ?_, ?_, rfl, h3⟩
  · unfold recordToXml
    rw [h1]
  · unfold recordFromXml
    rw [if_neg (by simp [DElem.tag])]
    dsimp only [DElem.children, DElem.get, DElem.attrib]
    rw [h2, get_rec_name h.version]

/-! The trees of records that XML can carry have legal characters. -/

theorem all_xmlChar {s : Text} (h : ∀ c ∈ s, XmlChar c) : s.all xmlChar = true := List.all_eq_true.2 fun c hc => (xmlChar_iff c).2 (h c hc)

theorem legalVal_of {v : UVal} (h : XmlName v) : legalVal v = true := by
  cases v with
  | str s => exact all_xmlChar (h s rfl)
  | _ => rfl

theorem legal_rec (k : String) {v : UVal} (h : XmlName v) : ((recAttr k v).all fun kv => legalVal kv.2) = true := by
  unfold recAttr
  split
  · simp [legalVal_of h]
  · rfl

theorem xmlChar_nat (n : Nat) : (natDec n).all xmlChar = true := by
  refine List.all_eq_true.2 fun c hc => ?_
  obtain ⟨ds, h1, h2, -⟩ := natDec_digits n
  rw [h1] at hc
  obtain ⟨d, hd, rfl⟩ := List.mem_map.1 hc
  have := h2 d hd
  have : ∀ d, d < 10 → xmlChar (dchr d) = true := by decide
  exact this d (h2 d hd)

theorem xmlChar_dec (i : Int) : (intDec i).all xmlChar = true := by
  unfold intDec
  split
  · rw [List.all_cons, xmlChar_nat]; rfl
  · exact xmlChar_nat _

theorem legal_point {p : PointData} (hp : PlainPoint lib p) (h : XmlPoint lib p) : (pointToXml lib p).legal = true := by
  unfold pointToXml
  rw [DElem.legal]
  simp only [List.all_append, Bool.and_eq_true]
  refine ⟨⟨⟨⟨⟨?_, ?_⟩, ?_⟩, legal_rec _ h.time⟩, ?_⟩, rfl⟩
  · obtain ⟨s, hs⟩ := hp.pid
    rw [List.all_cons, hs]
    show ((s.all xmlChar) && true) = true
    rw [all_xmlChar (h.pid s hs)]; rfl
  · split
    · next ht =>
      rcases hp.index with hi | ⟨i, -, hi⟩
      · rw [hi] at ht; exact absurd ht (by decide)
      · rw [hi, List.all_cons]
        show ((intDec i).all xmlChar && true) = true
        rw [xmlChar_dec]; rfl
    · rfl
  · split
    · rfl
    · next ht =>
      rcases hp.sf with hi | ⟨i, hi⟩
      · exact absurd hi ht
      · rw [hi, List.all_cons]
        show ((intDec i).all xmlChar && true) = true
        rw [xmlChar_dec]; rfl
  · split
    · rfl
    · exact all_xmlChar fun c hc => (h.value c hc).1

theorem legal_points : ∀ {ps : List PointData}, (∀ p ∈ ps, PlainPoint lib p) → (∀ p ∈ ps, XmlPoint lib p) → legalAll (ps.map (pointToXml lib)) = true
  | [], _, _ => rfl
  | p :: ps, hp, h => by
    rw [List.map_cons, legalAll, legal_point (hp p (by simp)) (h p (by simp)), legal_points (fun q hq => hp q (by simp [hq])) fun q hq => h q (by simp [hq])]
    rfl

theorem legal_models : ∀ {ms : List ModelData} {es : List DElem}, (∀ m ∈ ms, PlainModel lib m) → (∀ m ∈ ms, XmlModel lib m) →
    modelsToXml lib ms = .ok es → legalAll es = true
  | [], es, _, _, he => by rw [modelsToXml] at he; cases he; rfl
  | m :: ms, es, hp, h, he => by
    rw [modelsToXml] at he
    split at he
    · cases he
    · next e he1 =>
      split at he
      · cases he
      · next es' he2 =>
        cases he
        rw [legalAll, legal_models (fun q hq => hp q (by simp [hq])) (fun q hq => h q (by simp [hq])) he2, Bool.and_true]
        have pm := hp m (by simp)
        have xm := h m (by simp)
        unfold modelToXml at he1
        split at he1
        · cases he1
        · cases he1
          rw [DElem.legal]
          simp only [List.all_append, Bool.and_eq_true]
          refine ⟨⟨⟨⟨?_, ?_⟩, legal_rec _ xm.ns⟩, rfl⟩, legal_points pm.points xm.points⟩
          · obtain ⟨s, hs⟩ := pm.mid
            rw [List.all_cons, hs]
            show ((s.all xmlChar) && true) = true
            rw [all_xmlChar (xm.mid s hs)]; rfl
          · split
            · rcases pm.index with hi | ⟨i, -, hi⟩ <;> rw [hi] <;> rfl
            · rfl

theorem legal_devices : ∀ {ds : List DeviceData} {es : List DElem}, (∀ d ∈ ds, PlainDevice lib d) → (∀ d ∈ ds, XmlDevice lib d) →
    devicesToXml lib ds = .ok es → legalAll es = true
  | [], es, _, _, he => by rw [devicesToXml] at he; cases he; rfl
  | d :: ds, es, hp, h, he => by
    rw [devicesToXml] at he
    split at he
    · cases he
    · next e he1 =>
      split at he
      · cases he
      · next es' he2 =>
        cases he
        rw [legalAll, legal_devices (fun q hq => hp q (by simp [hq])) (fun q hq => h q (by simp [hq])) he2, Bool.and_true]
        have pd := hp d (by simp)
        have xd := h d (by simp)
        unfold deviceToXml at he1
        split at he1
        · cases he1
        · next fs hfs =>
          cases he1
          rw [DElem.legal]
          simp only [deviceAttrs, List.all_append, Bool.and_eq_true]
          exact ⟨⟨⟨⟨⟨⟨⟨⟨⟨⟨legal_rec _ xd.lid, legal_rec _ xd.ns⟩, legal_rec _ xd.did⟩, legal_rec _ xd.ifc⟩, legal_rec _ xd.man⟩, legal_rec _ xd.mod⟩,
            legal_rec _ xd.sn⟩, legal_rec _ xd.timestamp⟩, legal_rec _ xd.cid⟩, rfl⟩, legal_models pd.models xd.models hfs⟩

/-- C42 for texts (`to_xml_str`, `SunSpecData(data_record=…)`): the same, pretty printed or not, if no model has an index.
Missing: models with an index, which cannot be written at all (`C42_model_index_fails`), characters XML does not
have (`C42_control_fails`) and carriage returns in values (`C42_return_lost`). -/
theorem C42_text_partial (pretty : Bool) (r : DataRecord) (h : PlainRecord lib r) (hl : XmlRecord lib r) (hx : NoIndex r) :
    ∃ e q, recordToStr lib pretty r = .ok e ∧ recordFromXml e = .ok q ∧ SameRecord lib r q := by
  obtain ⟨es, ns, h1, h2, h3⟩ := devices_data_roundtrip r.devices h.devices
  obtain ⟨es', a1, a2⟩ := devices_reparse r.devices h.devices hl.devices hx es h1 pretty 1
  have hr : ∀ t, ∃ t', reparse (DElem.mk "sunSpecData" (recAttr "v" r.version) t (if pretty then indentAll 1 es else es)) =
      .ok (DElem.mk "sunSpecData" (recAttr "v" r.version) t' es') := by
    intro t
    refine ⟨if t = some [] then none else t.map xmlEol, ?_⟩
    rw [reparse, if_pos (rec_text h.version), a1]
  have hf : ∀ t, recordFromXml (DElem.mk "sunSpecData" (recAttr "v" r.version) t es') = .ok ⟨r.version, ns⟩ := by
    intro t
    unfold recordFromXml
    rw [if_neg (by simp [DElem.tag])]
    dsimp only [DElem.children, DElem.get, DElem.attrib]
    rw [a2, h2, get_rec_name h.version]
  have hleg : (DElem.mk "sunSpecData" (recAttr "v" r.version) none es).legal = true := by
    rw [DElem.legal, legal_rec _ hl.version, legal_devices h.devices hl.devices h1]
    rfl
  have hs : ∃ t', reparse (if pretty then indentElem 0 (DElem.mk "sunSpecData" (recAttr "v" r.version) none es)
      else DElem.mk "sunSpecData" (recAttr "v" r.version) none es) = .ok (DElem.mk "sunSpecData" (recAttr "v" r.version) t' es') := by
    cases pretty with
    | true =>
      simp only [if_true, indentElem] at hr ⊢
      exact hr _
    | false =>
      simp only [Bool.false_eq_true, if_false] at hr ⊢
      exact hr none
  obtain ⟨t', ht'⟩ := hs
  refine ⟨_, _, ?_, hf t', rfl, h3⟩
  unfold recordToStr recordToXml
  simp only [h1, ht', hleg, if_true]

/-! ### What cannot be written -/

theorem allText_mem {a : List (String × UVal)} (h : allText a = true) {k : String} {v : UVal} (hm : (k, v) ∈ a) : ∃ s, v = .str s := by
  have := List.all_eq_true.mp h (k, v) hm
  dsimp only at this
  split at this
  · exact ⟨_, rfl⟩
  · exact absurd this (by simp)

theorem reparse_child {tag : String} {a : List (String × UVal)} {t : Option Text} {cs : List DElem} {e : DElem}
    (h : reparse (.mk tag a t cs) = .ok e) : allText a = true ∧ ∃ cs', reparseAll cs = .ok cs' ∧ e.attrib = a ∧ e.tag = tag ∧ e.children = cs' := by
  rw [reparse] at h
  split at h
  · next ha =>
    split at h
    · cases h
    · next cs' hc =>
      have := (Except.ok.inj h).symm; subst this
      exact ⟨ha, cs', hc, rfl, rfl, rfl⟩
  · cases h

theorem reparseAll_mem {cs cs' : List DElem} (h : reparseAll cs = .ok cs') {c : DElem} (hc : c ∈ cs) : ∃ c', reparse c = .ok c' := by
  induction cs generalizing cs' with
  | nil => cases hc
  | cons x xs ih =>
    rw [reparseAll] at h
    split at h
    · cases h
    · next x' hx =>
      split at h
      · cases h
      · next xs' hxs =>
        rcases List.mem_cons.mp hc with rfl | hc
        · exact ⟨x', hx⟩
        · exact ih hxs hc

theorem indentAll_mem {lvl : Nat} {cs : List DElem} {c : DElem} (h : c ∈ cs) : indentElem lvl c ∈ indentAll lvl cs := by
  induction cs with
  | nil => cases h
  | cons x xs ih =>
    rw [indentAll]
    rcases List.mem_cons.mp h with rfl | h
    · exact List.mem_cons_self
    · exact List.mem_cons_of_mem _ (ih h)

/-- If the tree of a child is written then its attributes are texts, indented or not. -/
theorem written_child (pretty : Bool) (lvl : Nat) {e e' : DElem} (h : reparse (if pretty then indentElem lvl e else e) = .ok e') :
    allText e.attrib = true ∧ ∀ c ∈ e.children, ∃ c', reparse (if pretty then indentElem (lvl + 1) c else c) = .ok c' := by
  obtain ⟨tag, a, t, cs⟩ := e
  cases pretty with
  | true =>
    simp only [if_true, indentElem] at h ⊢
    obtain ⟨h1, cs', h2, -⟩ := reparse_child h
    exact ⟨h1, fun c hc => reparseAll_mem h2 (indentAll_mem hc)⟩
  | false =>
    simp only [Bool.false_eq_true, if_false] at h ⊢
    obtain ⟨h1, cs', h2, -⟩ := reparse_child h
    exact ⟨h1, fun c hc => reparseAll_mem h2 hc⟩

theorem modelsToXml_mem {ms : List ModelData} {es : List DElem} (h : modelsToXml lib ms = .ok es) {m : ModelData} (hm : m ∈ ms) :
    ∃ e ∈ es, modelToXml lib m = .ok e := by
  induction ms generalizing es with
  | nil => cases hm
  | cons x xs ih =>
    rw [modelsToXml] at h
    split at h
    · cases h
    · next x' hx =>
      split at h
      · cases h
      · next xs' hxs =>
        have := (Except.ok.inj h).symm; subst this
        rcases List.mem_cons.mp hm with rfl | hm
        · exact ⟨x', by simp, hx⟩
        · obtain ⟨e, he, hm⟩ := ih hxs hm
          exact ⟨e, by simp [he], hm⟩

theorem devicesToXml_mem {ds : List DeviceData} {es : List DElem} (h : devicesToXml lib ds = .ok es) {d : DeviceData} (hm : d ∈ ds) :
    ∃ e ∈ es, deviceToXml lib d = .ok e := by
  induction ds generalizing es with
  | nil => cases hm
  | cons x xs ih =>
    rw [devicesToXml] at h
    split at h
    · cases h
    · next x' hx =>
      split at h
      · cases h
      · next xs' hxs =>
        have := (Except.ok.inj h).symm; subst this
        rcases List.mem_cons.mp hm with rfl | hm
        · exact ⟨x', by simp, hx⟩
        · obtain ⟨e, he, hm⟩ := ih hxs hm
          exact ⟨e, by simp [he], hm⟩

/-- If a record is written, the attributes of each of its models are texts. -/
theorem written_model (pretty : Bool) {r : DataRecord} {e : DElem} (h : recordToStr lib pretty r = .ok e) {d : DeviceData} (hd : d ∈ r.devices)
    {m : ModelData} (hm : m ∈ d.models) : ∃ f, modelToXml lib m = .ok f ∧ allText f.attrib = true := by
  unfold recordToStr recordToXml at h
  split at h
  · cases h
  · next root hroot =>
    split at hroot
    · cases hroot
    · next es hes =>
      have := (Except.ok.inj hroot).symm; subst this
      split at h
      · cases h
      rename_i e0 h0
      obtain ⟨de, hde, hdx⟩ := devicesToXml_mem hes hd
      obtain ⟨c', hc'⟩ := (written_child pretty 0 h0).2 de hde
      unfold deviceToXml at hdx
      split at hdx
      · cases hdx
      · next ms hms =>
        have := (Except.ok.inj hdx).symm; subst this
        obtain ⟨f, hf, hfx⟩ := modelsToXml_mem hms hm
        obtain ⟨f', hf'⟩ := (written_child pretty (0 + 1) hc').2 f hf
        exact ⟨f, hfx, (written_child pretty (0 + 1 + 1) hf').1⟩

/-- A record with a model index that would have to be written cannot be turned into text at all: the index is put into the tree
as an int. -/
theorem C42_model_index_fails (pretty : Bool) (r : DataRecord) (d : DeviceData) (hd : d ∈ r.devices) (m : ModelData) (hm : m ∈ d.models)
    (i : Int) (hi : 1 < i) (hx : m.index = .int i) (e : DElem) : recordToStr lib pretty r ≠ .ok e := by
  intro h
  obtain ⟨f, hf, ht⟩ := written_model pretty h hd hm
  unfold modelToXml at hf
  simp only [hx, indexGt, decide_eq_true hi] at hf
  have := (Except.ok.inj hf).symm; subst this
  obtain ⟨s, hs⟩ := allText_mem ht (k := "x") (v := .int i) (by simp [DElem.attrib])
  cases hs

theorem legalAll_mem : ∀ {cs : List DElem} {c : DElem}, legalAll cs = true → c ∈ cs → c.legal = true
  | c :: cs, d, h, hd => by
    rw [legalAll, Bool.and_eq_true] at h
    rcases List.mem_cons.1 hd with rfl | hd
    · exact h.1
    · exact legalAll_mem h.2 hd

/-- A record with a value that contains a control character or another character XML does not have gives a text that cannot be
parsed. -/
theorem C42_control_fails (pretty : Bool) (r : DataRecord) (d : DeviceData) (hd : d ∈ r.devices) (m : ModelData) (hm : m ∈ d.models)
    (p : PointData) (hp : p ∈ m.points) (hv : p.value ≠ .none) (c : Char) (hc : c ∈ sunsToStr lib p.value) (hx : ¬ XmlChar c) (e : DElem) :
    recordToStr lib pretty r ≠ .ok e := by
  intro h
  unfold recordToStr recordToXml at h
  split at h
  · cases h
  · next root hroot =>
    split at hroot
    · cases hroot
    · next es hes =>
      have := (Except.ok.inj hroot).symm; subst this
      split at h
      · cases h
      split at h
      · next hleg =>
        rw [DElem.legal, Bool.and_eq_true] at hleg
        obtain ⟨de, hde, hdx⟩ := devicesToXml_mem hes hd
        have hl1 := legalAll_mem hleg.2 hde
        unfold deviceToXml at hdx
        split at hdx
        · cases hdx
        · next ms hms =>
          have := (Except.ok.inj hdx).symm; subst this
          rw [DElem.legal, Bool.and_eq_true] at hl1
          obtain ⟨f, hf, hfx⟩ := modelsToXml_mem hms hm
          have hl2 := legalAll_mem hl1.2 hf
          unfold modelToXml at hfx
          split at hfx
          · cases hfx
          · cases hfx
            rw [DElem.legal, Bool.and_eq_true] at hl2
            have hl3 := legalAll_mem hl2.2 (List.mem_map.2 ⟨p, hp, rfl⟩)
            unfold pointToXml at hl3
            rw [DElem.legal, if_neg hv, Bool.and_eq_true, Bool.and_eq_true] at hl3
            exact hx ((xmlChar_iff c).1 (List.all_eq_true.1 hl3.1.2 c hc))
      · cases h

/-- A model that was added to a device with an index other than 0, or with a namespace, makes the record impossible to write:
`model_add` swaps the two. -/
theorem C42_model_add_fails (pretty : Bool) (r : DataRecord) (d : DeviceData) (mid index ns : UVal) (hd : modelAdd lib d mid index ns ∈ r.devices)
    (h : (∃ i : Int, i ≠ 0 ∧ index = .int i) ∨ (∃ s, ns = .str s)) (e : DElem) : recordToStr lib pretty r ≠ .ok e := by
  intro hw
  obtain ⟨f, hf, ht⟩ := written_model pretty hw hd (m := modelDataNew lib mid ns index) (by simp [modelAdd])
  unfold modelToXml at hf
  split at hf
  · cases hf
  · next gt hgt =>
    have := (Except.ok.inj hf).symm; subst this
    rcases h with ⟨i, i0, rfl⟩ | ⟨s, rfl⟩
    · obtain ⟨s, hs⟩ := allText_mem ht (k := "ns") (v := .int i) (by simp [DElem.attrib, modelDataNew, recAttr, dataTrue_int i0])
      cases hs
    · simp [modelDataNew, indexGt] at hgt

/-! ### The time of a device -/

theorem devicesFromXml_timestamp {es : List DElem} {ds : List DeviceData} (h : devicesFromXml es = .ok ds) : ∀ d ∈ ds, d.timestamp = .none := by
  induction es generalizing ds with
  | nil =>
    rw [devicesFromXml] at h
    have := (Except.ok.inj h).symm; subst this
    simp
  | cons e es ih =>
    rw [devicesFromXml] at h
    split at h
    · cases h
    · split at h
      · cases h
      · next d hd =>
        split at h
        · cases h
        · next ds' hds =>
          have := (Except.ok.inj h).symm; subst this
          intro x hx
          rcases List.mem_cons.mp hx with rfl | hx
          · unfold deviceFromXml at hd
            split at hd
            · cases hd
            · have := (Except.ok.inj hd).symm; subst this
              rfl
          · exact ih hds x hx

theorem devicesToXml_of {ds : List DeviceData} {es : List DElem} (h : devicesToXml lib ds = .ok es) {e : DElem} (he : e ∈ es) :
    ∃ d ∈ ds, deviceToXml lib d = .ok e := by
  induction ds generalizing es with
  | nil =>
    rw [devicesToXml] at h
    have := (Except.ok.inj h).symm; subst this
    cases he
  | cons x xs ih =>
    rw [devicesToXml] at h
    split at h
    · cases h
    · next x' hx =>
      split at h
      · cases h
      · next xs' hxs =>
        have := (Except.ok.inj h).symm; subst this
        rcases List.mem_cons.mp he with rfl | he
        · exact ⟨x, by simp, hx⟩
        · obtain ⟨d, hd, hx⟩ := ih hxs he
          exact ⟨d, by simp [hd], hx⟩

/-- The time of a device does not survive parsing and writing: `from_xml` keeps it in `time`, `to_xml` writes `timestamp`. -/
theorem C42_time_lost (doc : DElem) (q : DataRecord) (h : recordFromXml doc = .ok q) (e : DElem) (he : recordToXml lib q = .ok e) :
    ∀ c ∈ e.children, c.get "t" = .none := by
  unfold recordFromXml at h
  split at h
  · cases h
  · split at h
    · cases h
    · next ds hds =>
      have := (Except.ok.inj h).symm; subst this
      unfold recordToXml at he
      split at he
      · cases he
      · next es hes =>
        have := (Except.ok.inj he).symm; subst this
        intro c hc
        obtain ⟨d, hd, hdx⟩ := devicesToXml_of hes hc
        unfold deviceToXml at hdx
        split at hdx
        · cases hdx
        · have := (Except.ok.inj hdx).symm; subst this
          simp only [DElem.get, DElem.attrib, deviceAttrs, List.append_assoc, get_rec, devicesFromXml_timestamp hds d hd, dataTrue_none]
          simp [get_rec_other (show "cid" ≠ "t" by decide)]

/-! ### Errors -/

/-- The errors of parsing. -/
def ParseErr (x : Exc) : Prop := x = .sunSpecDataError ∨ x = .valueError

theorem get_text {e : DElem} (h : allText e.attrib = true) (k : String) : e.get k = .none ∨ ∃ s, e.get k = .str s := by
  unfold DElem.get
  cases hg : dictGet e.attrib k with
  | none => exact .inl rfl
  | some v =>
    refine .inr ?_
    obtain ⟨s, hs⟩ : ∃ s, v = .str s := by
      generalize e.attrib = a at h hg
      induction a with
      | nil => simp [dictGet] at hg
      | cons kv a ih =>
        obtain ⟨k', v'⟩ := kv
        simp only [dictGet] at hg
        split at hg
        · have := Option.some.inj hg; subst this
          exact allText_mem h (k := k') List.mem_cons_self
        · exact ih (by simp only [allText, List.all_cons, Bool.and_eq_true] at h ⊢; exact h.2) hg
    exact ⟨s, hs⟩

theorem optInt_err {v : UVal} (h : v = .none ∨ ∃ s, v = .str s) {x : Exc} (hx : optInt v = .error x) : ParseErr x := by
  rcases h with rfl | ⟨s, rfl⟩
  · simp [optInt] at hx
  · unfold optInt at hx
    rw [if_neg (by simp)] at hx
    unfold dataInt at hx
    dsimp only at hx
    split at hx
    · next y hy =>
      split at hy
      · cases hy
      · have := Except.error.inj hy
        have := Except.error.inj hx
        subst_vars
        exact .inr rfl
    · cases hx

theorem reparse_attr {c c' : DElem} (h : reparse c = .ok c') : allText c'.attrib = true := by
  obtain ⟨tag, a, t, cs⟩ := c
  obtain ⟨h1, _, _, h2, -⟩ := reparse_child h
  rw [h2]; exact h1

theorem reparse_children {c c' : DElem} (h : reparse c = .ok c') : reparseAll c.children = .ok c'.children := by
  obtain ⟨tag, a, t, cs⟩ := c
  obtain ⟨_, _, h1, _, _, h2⟩ := reparse_child h
  rw [h2]; exact h1

theorem reparseAll_cases {cs : List DElem} {e : DElem} {es : List DElem} (h : reparseAll cs = .ok (e :: es)) :
    ∃ c cs', cs = c :: cs' ∧ reparse c = .ok e ∧ reparseAll cs' = .ok es := by
  cases cs with
  | nil => rw [reparseAll] at h; cases h
  | cons x xs =>
    rw [reparseAll] at h
    split at h
    · cases h
    · next x' hx =>
      split at h
      · cases h
      · next xs' hxs =>
        obtain ⟨rfl, rfl⟩ := List.cons.inj (Except.ok.inj h)
        exact ⟨x, xs, rfl, hx, hxs⟩

theorem pointsFromXml_err {cs es : List DElem} (h : reparseAll cs = .ok es) {x : Exc} (hx : pointsFromXml es = .error x) : ParseErr x := by
  induction es generalizing cs with
  | nil => rw [pointsFromXml] at hx; cases hx
  | cons e es ih =>
    obtain ⟨c, cs', rfl, hc, hcs⟩ := reparseAll_cases h
    have ht := reparse_attr hc
    rw [pointsFromXml] at hx
    split at hx
    · exact .inl (Except.error.inj hx).symm
    · split at hx
      · next y hy =>
        have := Except.error.inj hx; subst this
        unfold pointFromXml at hy
        split at hy
        · next z hz =>
          have := Except.error.inj hy; subst this
          exact optInt_err (get_text ht _) hz
        · split at hy
          · next z hz =>
            have := Except.error.inj hy; subst this
            exact optInt_err (get_text ht _) hz
          · cases hy
      · split at hx
        · next y hy =>
          have := Except.error.inj hx; subst this
          exact ih hcs hy
        · cases hx

theorem modelsFromXml_err {cs es : List DElem} (h : reparseAll cs = .ok es) {x : Exc} (hx : modelsFromXml es = .error x) : ParseErr x := by
  induction es generalizing cs with
  | nil => rw [modelsFromXml] at hx; cases hx
  | cons e es ih =>
    obtain ⟨c, cs', rfl, hc, hcs⟩ := reparseAll_cases h
    have ht := reparse_attr hc
    rw [modelsFromXml] at hx
    split at hx
    · exact .inl (Except.error.inj hx).symm
    · split at hx
      · next y hy =>
        have := Except.error.inj hx; subst this
        unfold modelFromXml at hy
        split at hy
        · next z hz =>
          have := Except.error.inj hy; subst this
          exact optInt_err (get_text ht _) hz
        · split at hy
          · next z hz =>
            have := Except.error.inj hy; subst this
            exact pointsFromXml_err (reparse_children hc) hz
          · cases hy
      · split at hx
        · next y hy =>
          have := Except.error.inj hx; subst this
          exact ih hcs hy
        · cases hx

theorem devicesFromXml_err {cs es : List DElem} (h : reparseAll cs = .ok es) {x : Exc} (hx : devicesFromXml es = .error x) : ParseErr x := by
  induction es generalizing cs with
  | nil => rw [devicesFromXml] at hx; cases hx
  | cons e es ih =>
    obtain ⟨c, cs', rfl, hc, hcs⟩ := reparseAll_cases h
    rw [devicesFromXml] at hx
    split at hx
    · exact .inl (Except.error.inj hx).symm
    · split at hx
      · next y hy =>
        have := Except.error.inj hx; subst this
        unfold deviceFromXml at hy
        split at hy
        · next z hz =>
          have := Except.error.inj hy; subst this
          exact modelsFromXml_err (reparse_children hc) hz
        · cases hy
      · split at hx
        · next y hy =>
          have := Except.error.inj hx; subst this
          exact ih hcs hy
        · cases hx

/-- Whatever the document, parsing it gives a record or raises SunSpecDataError (an unexpected element) or ValueError (an index or
scale factor that is not an int). -/
theorem C42_errors (doc doc' : DElem) (h : reparse doc = .ok doc') (x : Exc) (hx : recordFromXml doc' = .error x) :
    x = .sunSpecDataError ∨ x = .valueError := by
  unfold recordFromXml at hx
  split at hx
  · exact .inl (Except.error.inj hx).symm
  · split at hx
    · next y hy =>
      have := Except.error.inj hx; subst this
      exact devicesFromXml_err (reparse_children h) hy
    · cases hx

/-! ### Examples -/

/-- A record with a device with a time, a model with the index, a point with everything. -/
def exRecord (index : UVal) : DataRecord :=
  let ps : List PointData :=
    [{ pid := .str (t!"W"), value := .int 2380, index := .int 3, sf := .int (-1), time := .str (t!"t") }, { pid := .str (t!"A") }]
  let ms : List ModelData := [{ mid := .str (t!"103"), ns := .str (t!"mfg"), index := index, points := ps }]
  ⟨.str (t!"1"), [{ lid := .str (t!"ll"), man := .str (t!"m"), sn := .str (t!"sn-1"), timestamp := .str (t!"2014-01-01T00:00:00Z"), models := ms }]⟩

/-- A model with index 2. -/
def exData : DataRecord := exRecord (.int 2)

/-- The same without the model index. -/
def exData1 : DataRecord := exRecord .none

theorem name_text (s : Text) (h : s ≠ []) : NameOK (.str s) := .inr ⟨s, h, rfl⟩

theorem exPoints_plain (p : PointData)
    (hp : p ∈ [({ pid := .str (t!"W"), value := .int 2380, index := .int 3, sf := .int (-1), time := .str (t!"t") } : PointData), { pid := .str (t!"A") }]) :
    PlainPoint lib p := by
  simp only [List.mem_cons, List.not_mem_nil, or_false] at hp
  rcases hp with rfl | rfl
  · exact ⟨⟨_, rfl⟩, .inr ⟨3, by decide, rfl⟩, .inr ⟨-1, rfl⟩, name_text _ (by decide), by rw [sunsToStr_int]; decide⟩
  · exact ⟨⟨_, rfl⟩, .inl rfl, .inl rfl, .inl rfl, by simp [sunsToStr]⟩

theorem exData_plain : PlainRecord lib exData := by
  refine ⟨name_text _ (by decide), ?_⟩
  intro d hd
  simp only [exData, exRecord, List.mem_cons, List.not_mem_nil, or_false] at hd
  subst hd
  refine ⟨name_text _ (by decide), .inl rfl, .inl rfl, .inl rfl, name_text _ (by decide), .inl rfl, name_text _ (by decide), name_text _ (by decide), .inl rfl, ?_⟩
  intro m hm
  simp only [List.mem_cons, List.not_mem_nil, or_false] at hm
  subst hm
  exact ⟨⟨_, rfl⟩, name_text _ (by decide), .inr ⟨2, by decide, rfl⟩, exPoints_plain⟩

theorem exData1_plain : PlainRecord lib exData1 := by
  refine ⟨name_text _ (by decide), ?_⟩
  intro d hd
  simp only [exData1, exRecord, List.mem_cons, List.not_mem_nil, or_false] at hd
  subst hd
  refine ⟨name_text _ (by decide), .inl rfl, .inl rfl, .inl rfl, name_text _ (by decide), .inl rfl, name_text _ (by decide), name_text _ (by decide), .inl rfl, ?_⟩
  intro m hm
  simp only [List.mem_cons, List.not_mem_nil, or_false] at hm
  subst hm
  exact ⟨⟨_, rfl⟩, name_text _ (by decide), .inl rfl, exPoints_plain⟩

example : ∃ e q, recordToXml lib exData = .ok e ∧ recordFromXml e = .ok q ∧ SameRecord lib exData q := C42_tree_partial _ exData_plain

theorem exData1_noIndex : NoIndex exData1 := by
  intro d hd m hm
  simp only [exData1, exRecord, List.mem_cons, List.not_mem_nil, or_false] at hd
  subst hd
  simp only [List.mem_cons, List.not_mem_nil, or_false] at hm
  subst hm
  rfl

theorem xmlName_none : XmlName .none := fun _ h => by cases h

theorem xmlName_text {s : Text} (h : s.all xmlChar = true) : XmlName (.str s) := by
  intro t ht c hc
  cases ht
  exact (xmlChar_iff c).1 (List.all_eq_true.1 h c hc)

theorem exData1_xml : XmlRecord lib exData1 := by
  refine ⟨xmlName_text (by decide), ?_⟩
  intro d hd
  simp only [exData1, exRecord, List.mem_cons, List.not_mem_nil, or_false] at hd
  subst hd
  refine ⟨xmlName_text (by decide), xmlName_none, xmlName_none, xmlName_none, xmlName_text (by decide), xmlName_none, xmlName_text (by decide),
    xmlName_text (by decide), xmlName_none, ?_⟩
  intro m hm
  simp only [List.mem_cons, List.not_mem_nil, or_false] at hm
  subst hm
  refine ⟨xmlName_text (by decide), xmlName_text (by decide), ?_⟩
  intro p hp
  simp only [List.mem_cons, List.not_mem_nil, or_false] at hp
  rcases hp with rfl | rfl
  · refine ⟨xmlName_text (by decide), xmlName_text (by decide), ?_⟩
    show ∀ c ∈ intDec 2380, XmlChar c ∧ c ≠ '\r'
    intro c hc
    exact ⟨(xmlChar_iff c).1 (List.all_eq_true.1 (xmlChar_dec _) c hc), by revert c; decide⟩
  · refine ⟨xmlName_text (by decide), xmlName_none, ?_⟩
    show ∀ c ∈ t!"None", XmlChar c ∧ c ≠ '\r'
    intro c hc
    exact ⟨(xmlChar_iff c).1 (List.all_eq_true.1 (show (t!"None").all xmlChar = true by decide) c hc), by revert c; decide⟩

example : ∃ e q, recordToStr lib true exData1 = .ok e ∧ recordFromXml e = .ok q ∧ SameRecord lib exData1 q :=
  C42_text_partial true _ exData1_plain exData1_xml exData1_noIndex

/-- A record with one point. -/
def oneValue (s : Text) : DataRecord := { devices := [{ models := [{ mid := .str (t!"1"), points := [{ pid := .str (t!"Mn"), value := .str s }] }] }] }

/-- A carriage return in a value is not what is parsed. -/
theorem C42_return_lost : (match recordToStr exactLib false (oneValue (t!"a\rb")) with
    | .ok e => (recordFromXml e).toOption
    | .error _ => none) = some (oneValue (t!"a\nb")) := by decide +kernel

/-- The hypotheses of `C42_control_fails` are met. -/
example (e : DElem) : recordToStr lib true (oneValue ['a', Char.ofNat 0]) ≠ .ok e :=
  C42_control_fails true _ _ (List.mem_singleton.2 rfl) _ (List.mem_singleton.2 rfl) _ (List.mem_singleton.2 rfl) (by simp) (Char.ofNat 0)
    (by show Char.ofNat 0 ∈ ['a', Char.ofNat 0]; simp) (by rw [← xmlChar_iff]; decide) e

/-- The full statement is false: a record with two instances of a model cannot be written as text. -/
theorem C42_violated : ¬ C42_full := by
  intro h
  obtain ⟨e, q, h1, -⟩ := h exactLib false exData exData_plain
  exact C42_model_index_fails false exData _ (List.mem_cons_self) _ (List.mem_cons_self) 2 (by decide) rfl e h1

/-- A point with index 0 is written without it. -/
theorem C42_index_zero_lost (p : PointData) (h : p.index = .int 0) (hp : PlainPoint lib { p with index := .none }) :
    ∃ q, pointFromXml (pointToXml lib p) = .ok q ∧ q.index = .none := by
  obtain ⟨q, h1, h2⟩ := point_roundtrip _ hp
  refine ⟨q, ?_, h2.index⟩
  rw [← h1]
  unfold pointToXml
  simp only [h]
  have h0 : ¬ dataTrue (.int 0) = true := by simp [dataTrue]
  rw [if_neg h0, if_neg dataTrue_none]

example : ∃ q, pointFromXml (pointToXml lib { pid := .str (t!"W"), index := .int 0 }) = .ok q ∧ q.index = .none :=
  C42_index_zero_lost _ rfl ⟨⟨_, rfl⟩, .inl rfl, .inl rfl, .inl rfl, by simp [sunsToStr]⟩

end Verif
