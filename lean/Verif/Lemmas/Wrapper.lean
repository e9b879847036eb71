import Verif.Spec.Wrapper
import Verif.Lemmas.Load

/-!
# Lemmas: the scripting interface
-/

namespace Verif
open Spec

theorem positions_snoc (ns : List Text) (n n' : Text) :
    positions (ns ++ [n]) n' = positions ns n' ++ (if n = n' then [ns.length] else []) := by
  unfold positions
  rw [List.length_append, List.length_singleton, List.range_succ, List.filter_append]
  congr 1
  · apply List.filter_congr
    intro i hi
    rw [List.mem_range] at hi
    rw [List.getElem?_append_left hi]
  · by_cases h : n = n'
    · simp [h]
    · simp [h]

theorem positions_nil_iff (ns : List Text) (n : Text) : positions ns n = [] ↔ n ∉ ns := by
  unfold positions
  rw [List.filter_eq_nil_iff]
  constructor
  · intro h hm
    obtain ⟨i, hi⟩ := List.getElem?_of_mem hm
    have hl : i < ns.length := by
      rcases Nat.lt_or_ge i ns.length with h | h
      · exact h
      · rw [List.getElem?_eq_none h] at hi; cases hi
    exact h i (List.mem_range.2 hl) (by simp [hi])
  · intro h i _ hd
    simp only [decide_eq_true_eq] at hd
    exact h (List.mem_of_getElem? hd)

theorem Spec.FirstNames.snoc_old {ns l : List Text} {n : Text} (h : FirstNames ns l) (hn : n ∈ ns) :
    FirstNames (ns ++ [n]) l := by
  refine ⟨h.once, fun m => ?_, ?_⟩
  · rw [h.same, List.mem_append, List.mem_singleton]
    constructor
    · exact Or.inl
    · rintro (h | rfl)
      · exact h
      · exact hn
  · refine List.Pairwise.imp_of_mem ?_ h.order
    intro a b ha hb hab
    rw [List.idxOf_append, List.idxOf_append, if_pos ((h.same a).1 ha), if_pos ((h.same b).1 hb)]
    exact hab

theorem Spec.FirstNames.snoc_new {ns l : List Text} {n : Text} (h : FirstNames ns l) (hn : n ∉ ns) :
    FirstNames (ns ++ [n]) (l ++ [n]) := by
  refine ⟨?_, fun m => ?_, ?_⟩
  · rw [List.nodup_append]
    refine ⟨h.once, by simp, ?_⟩
    intro a ha b hb
    rw [List.mem_singleton] at hb
    rw [hb]
    rintro rfl
    exact hn ((h.same a).1 ha)
  · rw [List.mem_append, List.mem_append, h.same]
  · rw [List.pairwise_append]
    refine ⟨?_, by simp, ?_⟩
    · refine List.Pairwise.imp_of_mem ?_ h.order
      intro a b ha hb hab
      rw [List.idxOf_append, List.idxOf_append, if_pos ((h.same a).1 ha), if_pos ((h.same b).1 hb)]
      exact hab
    · intro a ha b hb
      rw [List.mem_singleton] at hb
      rw [hb, List.idxOf_append, List.idxOf_append, if_pos ((h.same a).1 ha), if_neg hn]
      have := List.idxOf_lt_length_of_mem ((h.same a).1 ha)
      omega

/-- The state of the attributes after the models with names `ns` have been named. -/
structure NamesInv (ns : List Text) (d : List (Text × WAttr)) : Prop where
  dev : dictGet d (t!"device") = some (.one .dev)
  models : ∃ l, dictGet d (t!"models") = some (.list (l.map .name)) ∧ FirstNames ns l
  named : ∀ n, n ≠ t!"device" → n ≠ t!"models" → dictGet d n = namedAttr (positions ns n)

theorem namesInv_init (ms : List MdlObj) : NamesInv [] (DWrap.init ms).dict := by
  refine ⟨rfl, ⟨[], rfl, ⟨by simp, by simp, by simp⟩⟩, ?_⟩
  intro n h1 h2
  simp only [DWrap.init, dictGet]
  rw [if_neg (Ne.symm h1), if_neg (Ne.symm h2)]
  rfl

theorem existing_free {ns : List Text} {d : List (Text × WAttr)} (h : NamesInv ns d) {n : Text} (hf : FreeName n) :
    existing d n = namedAttr (positions ns n) := by
  obtain ⟨h1, h2, h3, h4, h5⟩ := hf
  have hd : isDunder n = false := by
    unfold isDunder
    rw [Bool.eq_false_iff]
    intro hb
    exact h5 (List.isPrefixOf_iff_prefix.1 hb)
  unfold existing
  rw [h.named n h1 h2]
  match hp : positions ns n with
  | [] => simp [namedAttr, h3, h4, hd]
  | [i] => simp [namedAttr]
  | i :: j :: r => simp [namedAttr]

theorem namesInv_step {ns : List Text} {d : List (Text × WAttr)} (h : NamesInv ns d) {n : Text} (hf : FreeName n) :
    (nameStep d ns.length n).2 = .ok () ∧ NamesInv (ns ++ [n]) (nameStep d ns.length n).1 := by
  have h1 := hf.1
  have h2 := hf.2.1
  have he := existing_free h hf
  obtain ⟨l, hl, hfn⟩ := h.models
  unfold nameStep
  rw [he]
  have other : ∀ (a : WAttr) (m : Text), m ≠ n → m ≠ t!"device" → m ≠ t!"models" →
      dictGet (dictSet d n a) m = namedAttr (positions (ns ++ [n]) m) := by
    intro a m hm hm1 hm2
    rw [dictGet_set, if_neg hm, h.named m hm1 hm2, positions_snoc, if_neg (Ne.symm hm), List.append_nil]
  match hp : positions ns n with
  | [] =>
    have hn : n ∉ ns := (positions_nil_iff ns n).1 hp
    have hm : dictGet (dictSet d n (.one (.wrap ns.length))) (t!"models") = some (.list (l.map .name)) := by
      rw [dictGet_set, if_neg (Ne.symm h2), hl]
    simp only [namedAttr, hm]
    refine ⟨trivial, ?_, ?_, ?_⟩
    · rw [dictGet_set, if_neg (by decide), dictGet_set, if_neg (Ne.symm h1), h.dev]
    · refine ⟨l ++ [n], ?_, hfn.snoc_new hn⟩
      rw [dictGet_set, if_pos rfl, List.map_append]
      rfl
    · intro m hm1 hm2
      rw [dictGet_set, if_neg hm2]
      by_cases hmn : m = n
      · rw [hmn, dictGet_set, if_pos rfl, positions_snoc, hp, if_pos rfl]
        rfl
      · exact other _ m hmn hm1 hm2
  | [i] =>
    have hn : n ∈ ns := Classical.byContradiction fun hc => by
      rw [(positions_nil_iff ns n).2 hc] at hp; cases hp
    simp only [namedAttr]
    refine ⟨trivial, ?_, ?_, ?_⟩
    · rw [dictGet_set, if_neg (Ne.symm h1), h.dev]
    · exact ⟨l, by rw [dictGet_set, if_neg (Ne.symm h2), hl], hfn.snoc_old hn⟩
    · intro m hm1 hm2
      by_cases hmn : m = n
      · rw [hmn, dictGet_set, if_pos rfl, positions_snoc, hp, if_pos rfl]
        rfl
      · exact other _ m hmn hm1 hm2
  | i :: j :: r =>
    have hn : n ∈ ns := Classical.byContradiction fun hc => by
      rw [(positions_nil_iff ns n).2 hc] at hp; cases hp
    simp only [namedAttr]
    refine ⟨trivial, ?_, ?_, ?_⟩
    · rw [dictGet_set, if_neg (Ne.symm h1), h.dev]
    · exact ⟨l, by rw [dictGet_set, if_neg (Ne.symm h2), hl], hfn.snoc_old hn⟩
    · intro m hm1 hm2
      by_cases hmn : m = n
      · rw [hmn, dictGet_set, if_pos rfl, positions_snoc, hp, if_pos rfl]
        simp [namedAttr]
      · exact other _ m hmn hm1 hm2

theorem propIds_mem {bt : BlockType} {x : Text} : x ∈ propIds bt ↔ ∃ t ∈ dataPoints bt, t.id = x := by
  unfold propIds dataPoints
  simp only [List.mem_map, List.mem_filter, decide_eq_true_eq]
  constructor
  · rintro ⟨t, ⟨h1, h2, h3⟩, h4⟩; exact ⟨t, ⟨h1, h3, h2⟩, h4⟩
  · rintro ⟨t, ⟨h1, h2, h3⟩, h4⟩; exact ⟨t, ⟨h1, h3, h2⟩, h4⟩

theorem propIds_eq (bt : BlockType) : propIds bt = (dataPoints bt).map (·.id) := by
  unfold propIds dataPoints
  congr 1
  apply List.filter_congr
  intro t _
  simp only [decide_eq_decide]
  exact And.comm

theorem not_mem_propIds {bt : BlockType} {l : List Text} (h : ∀ t ∈ dataPoints bt, t.id ∉ l) {x : Text} (hx : x ∈ l) :
    x ∉ propIds bt := by
  intro hm
  obtain ⟨t, ht, rfl⟩ := propIds_mem.1 hm
  exact h t ht hx

/-- The class generated for a definition without clash. -/
def classOf : Option ModelType → WClass
  | none => ⟨[], [], true, none⟩
  | some mt => ⟨propIds mt.fixed, propIds mt.fixed, false, mt.rep.map propIds⟩

theorem modelClass_ok {o : Option ModelType} (h : ∀ mt, o = some mt → NoClash mt) :
    modelClass o = .ok (classOf o) := by
  cases o with
  | none => rfl
  | some mt =>
    have hc := h mt rfl
    simp only [modelClass]
    rw [if_neg (not_mem_propIds hc.fixed (by decide))]
    match hr : mt.rep with
    | none => simp [classOf, hr]
    | some rb =>
      simp only []
      rw [if_neg (not_mem_propIds (hc.rep rb hr) (by decide))]
      simp [classOf, hr]

theorem repLoop_same (lib : FloatLib) (cls : WClass) (props : List Text) (m : MdlObj)
    (nm : Text) (hr : cls.rep = some props) (h1 : t!"block" ∉ props) (h2 : t!"name" ∉ props)
    (bs : List BlockObj) (hb : ∀ b ∈ bs, b.bt.name = nm) (k : Nat) (d : List (Text × WV)) (acc : List BWrap) :
    repLoop lib cls bs k m nm d acc =
      (m, .ok (d, acc ++ (List.range' k bs.length).map fun j => ⟨props, j, nm⟩)) := by
  induction bs generalizing k acc with
  | nil => simp [repLoop]
  | cons b bs ih =>
    have hn : b.bt.name = nm := hb b List.mem_cons_self
    rw [repLoop, if_neg (by simp [hn])]
    simp only [hr, newBlockWrap, if_neg h1, if_neg h2, hn, ne_eq, not_true_eq_false, if_false]
    rw [ih (fun b' hb' => hb b' (List.mem_cons_of_mem _ hb'))]
    simp [List.range'_succ]

theorem repLoop_ok (lib : FloatLib) (cls : WClass) (props : List Text) (m : MdlObj)
    (nm rname : Text) (hr : cls.rep = some props) (h1 : t!"block" ∉ props) (h2 : t!"name" ∉ props)
    (h3 : nm ∉ cls.props) (bs : List BlockObj) (hb : ∀ b ∈ bs, b.bt.name = nm) (hne : bs ≠ []) (k : Nat)
    (d : List (Text × WV)) (acc : List BWrap) :
    repLoop lib cls bs k m rname d acc =
      (m, .ok (if nm = rname then d else dictSet (dictSet d (t!"repeating_name") (.text nm)) nm .reps,
        acc ++ (List.range' k bs.length).map fun j => ⟨props, j, nm⟩)) := by
  cases bs with
  | nil => exact absurd rfl hne
  | cons b bs =>
    have hn : b.bt.name = nm := hb b List.mem_cons_self
    rw [repLoop, if_neg (by rw [hn]; exact fun h => h3 h.2)]
    simp only [hr, newBlockWrap, if_neg h1, if_neg h2, hn]
    rw [repLoop_same lib cls props m nm hr h1 h2 bs (fun b' hb' => hb b' (List.mem_cons_of_mem _ hb'))]
    by_cases h : nm = rname
    · simp [h, List.range'_succ]
    · simp [h, List.range'_succ]

/-- The object for model `m`, number `i`. -/
structure WrapOK (m : MdlObj) (i : Nat) (w : MWrap) : Prop where
  cls : w.cls = classOf m.mtype
  mdl : w.mdl = i
  model : dictGet w.dict (t!"model") = some .mdl
  name : dictGet w.dict (t!"name") = some (.text (modelName m))
  repeating : dictGet w.dict (t!"repeating") = some .reps
  points : dictGet w.dict (t!"points") = none
  byName : ∀ b ∈ m.blocks.tail, dictGet w.dict b.bt.name = some .reps
  reps : w.reps.length = m.blocks.length - 1 ∧
    ∀ j b, m.blocks.tail[j]? = some b → w.reps[j]? = some (BWrap.mk (propIds b.bt) (j + 1) b.bt.name)
  only : ∀ n, n ∉ [t!"model", t!"name", t!"repeating", t!"repeating_name"] → (∀ b ∈ m.blocks.tail, b.bt.name ≠ n) →
    dictGet w.dict n = none

/-- No attribute of the object hides a method that no block is named after. -/
theorem WrapOK.plain {m : MdlObj} {i : Nat} {w : MWrap} (h : WrapOK m i w) (hw : Wrappable m) {n : Text}
    (hn : n ∉ [t!"model", t!"name", t!"repeating", t!"repeating_name"])
    (hb : ∀ mt rb, m.mtype = some mt → mt.rep = some rb → rb.name ≠ n) : w.hides n = false := by
  unfold MWrap.hides
  rw [h.only n hn]
  · rfl
  · intro b hb'
    obtain ⟨mt, h1, h2⟩ := hw.tail b hb'
    exact hb mt b.bt h1 h2

/-- The methods behind the attributes are not hidden. -/
theorem WrapOK.methods {m : MdlObj} {i : Nat} {w : MWrap} (h : WrapOK m i w) (hw : Wrappable m) :
    w.hides (t!"_get_property") = false ∧ w.hides (t!"_set_property") = false := by
  constructor
  · exact h.plain hw (by decide) fun mt rb h1 h2 e => ((hw.clash mt h1).block rb h2).1 (by rw [e]; decide)
  · exact h.plain hw (by decide) fun mt rb h1 h2 e => ((hw.clash mt h1).block rb h2).1 (by rw [e]; decide)

theorem newDict_only {name n : Text} (h : n ∉ [t!"model", t!"name", t!"repeating", t!"repeating_name"]) :
    dictGet (dictSet [(t!"model", WV.mdl), (t!"repeating", .reps), (t!"repeating_name", .text (t!"repeating"))] (t!"name")
      (.text name)) n = none := by
  simp only [List.mem_cons, List.not_mem_nil, or_false, not_or] at h
  obtain ⟨h1, h2, h3, h4⟩ := h
  rw [dictGet_set, if_neg h2]
  simp [dictGet, Ne.symm h1, Ne.symm h3, Ne.symm h4]

theorem newModelWrap_ok (lib : FloatLib) (m : MdlObj) (i : Nat) (h : Wrappable m) :
    ∃ w, newModelWrap lib (classOf m.mtype) m i (modelName m) = (m, .ok w) ∧ WrapOK m i w := by
  have hnp : ∀ x ∈ [t!"model", t!"name", t!"repeating", t!"repeating_name", t!"points"], x ∉ (classOf m.mtype).props := by
    intro x hx
    match hm : m.mtype with
    | none => simp [classOf]
    | some mt =>
      refine not_mem_propIds (h.clash mt hm).fixed ?_
      simp only [List.mem_cons, List.not_mem_nil, or_false] at hx ⊢
      rcases hx with h | h | h | h | h <;> simp [h]
  unfold newModelWrap
  rw [if_neg (hnp _ (by simp)), if_neg (hnp _ (by simp))]
  simp only []
  rw [if_neg (by
    rintro (h | h)
    · exact hnp _ (by simp) h
    · exact hnp _ (by simp) h), if_neg (hnp _ (by simp))]
  match hb : m.blocks.tail with
  | [] =>
    refine ⟨_, rfl, rfl, rfl, rfl, ?_, rfl, rfl, ?_, ?_, fun n hn _ => newDict_only hn⟩
    · rfl
    · rw [hb]; intro b hb'; cases hb'
    · refine ⟨?_, ?_⟩
      · have := congrArg List.length hb
        simp only [List.length_tail, List.length_nil] at this
        simp [this]
      · rw [hb]; intro j b hj; cases hj
  | b :: bs =>
    obtain ⟨mt, hmt, hrep⟩ := h.tail b (by rw [hb]; exact List.mem_cons_self)
    have hc := h.clash mt hmt
    have hall : ∀ b' ∈ b :: bs, b'.bt = b.bt := by
      intro b' hb'
      obtain ⟨mt', hmt', hrep'⟩ := h.tail b' (by rw [hb]; exact hb')
      rw [hmt] at hmt'
      cases hmt'
      rw [hrep] at hrep'
      exact (Option.some.inj hrep').symm
    obtain ⟨hnm, hnt⟩ := hc.block b.bt hrep
    have hcr : (classOf m.mtype).rep = some (propIds b.bt) := by simp [classOf, hmt, hrep]
    have hnp3 : b.bt.name ∉ (classOf m.mtype).props := by
      rw [hmt]
      intro hx
      obtain ⟨t, ht, hte⟩ := propIds_mem.1 hx
      exact hnt t ht hte
    rw [repLoop_ok lib _ (propIds b.bt) m b.bt.name _ hcr
      (not_mem_propIds (hc.rep b.bt hrep) (by decide)) (not_mem_propIds (hc.rep b.bt hrep) (by decide))
      hnp3 (b :: bs) (fun b' hb' => by rw [hall b' hb']) (by simp)]
    refine ⟨_, rfl, rfl, rfl, ?_, ?_, ?_, ?_, ?_, ?_, ?_⟩
    · simp only []
      split
      · rfl
      · rw [dictGet_set, if_neg (fun hh => hnm (by simp [← hh]))]; rfl
    · simp only []
      split
      · rfl
      · rw [dictGet_set, if_neg (fun hh => hnm (by simp [← hh]))]; rfl
    · simp only []
      split
      · rfl
      · rw [dictGet_set]
        split
        · rfl
        · rfl
    · simp only []
      split
      · rfl
      · rw [dictGet_set, if_neg (fun hh => hnm (by simp [← hh]))]; rfl
    · rw [hb]
      intro b' hb'
      rw [hall b' hb']
      simp only []
      split
      · rename_i hh; rw [hh]; rfl
      · rw [dictGet_set, if_pos rfl]
    · have hl : m.blocks.length - 1 = (b :: bs).length := by rw [← hb, List.length_tail]
      refine ⟨by simp [hl], ?_⟩
      rw [hb]
      intro j b' hj
      have hb' := hall b' (List.mem_of_getElem? hj)
      have hjl : j < (b :: bs).length := by
        rcases Nat.lt_or_ge j (b :: bs).length with h | h
        · exact h
        · rw [List.getElem?_eq_none h] at hj; cases hj
      simp only [List.nil_append, List.getElem?_map]
      rw [List.getElem?_range' hjl, hb']
      simp [Nat.add_comm]
    · intro n hn hnb
      have hbn : b.bt.name ≠ n := hnb b (by rw [hb]; simp)
      simp only []
      split
      · exact newDict_only hn
      · rw [dictGet_set, if_neg (Ne.symm hbn), dictGet_set, if_neg (fun hh => hn (by simp [hh]))]
        exact newDict_only hn

theorem wrapOne_ok (lib : FloatLib) (d : DWrap) (i : Nat) (m : MdlObj) (h : Wrappable m)
    (hm : d.models[i]? = some m) :
    ∃ w, WrapOK m i w ∧ wrapOne lib d i m =
      ({ d with wraps := d.wraps ++ [w], dict := (nameStep d.dict i (modelName m)).1 }, (nameStep d.dict i (modelName m)).2) := by
  obtain ⟨w, hw, hok⟩ := newModelWrap_ok lib m i h
  refine ⟨w, hok, ?_⟩
  unfold wrapOne
  rw [modelClass_ok h.clash]
  simp only [hw]
  have : d.models.set i m = d.models := by
    apply List.ext_getElem?
    intro j
    rw [List.getElem?_set]
    by_cases hj : i = j
    · subst hj
      rw [if_pos rfl, hm]
      have hlt : i < d.models.length := by
        rcases Nat.lt_or_ge i d.models.length with h | h
        · exact h
        · rw [List.getElem?_eq_none h] at hm; cases hm
      rw [if_pos hlt]
    · rw [if_neg hj]
  rw [this]

/-- The state after the first `k` models have been processed. -/
structure LoopInv (ms : List MdlObj) (k : Nat) (d : DWrap) : Prop where
  models : d.models = ms
  names : NamesInv ((ms.take k).map modelName) d.dict
  closed : d.closed = false
  len : d.wraps.length = k
  wraps : ∀ i m, i < k → ms[i]? = some m → ∃ w, d.wraps[i]? = some w ∧ WrapOK m i w

theorem wrapLoop_ok (lib : FloatLib) (ms : List MdlObj) (hw : ∀ m ∈ ms, Wrappable m)
    (hf : ∀ m ∈ ms, FreeName (modelName m)) :
    ∀ (rest : List MdlObj) (k : Nat) (d : DWrap), ms.drop k = rest → LoopInv ms k d → k ≤ ms.length →
      ∃ d', wrapLoop lib rest k d = (d', .ok ()) ∧ LoopInv ms ms.length d' := by
  intro rest
  induction rest with
  | nil =>
    intro k d hd hi hk
    have : k = ms.length := by
      have := congrArg List.length hd
      simp at this
      omega
    subst this
    exact ⟨d, rfl, hi⟩
  | cons m rest ih =>
    intro k d hd hi hk
    have hget : ms[k]? = some m := by
      have := congrArg (fun l => l[0]?) hd
      simpa using this
    have hlt : k < ms.length := by
      rcases Nat.lt_or_ge k ms.length with h | h
      · exact h
      · rw [List.getElem?_eq_none h] at hget; cases hget
    have hmem := List.mem_of_getElem? hget
    obtain ⟨w, hwok, hone⟩ := wrapOne_ok lib d k m (hw m hmem) (by rw [hi.models]; exact hget)
    have hlen : ((ms.take k).map modelName).length = k := by simp; omega
    have hst := namesInv_step hi.names (hf m hmem)
    rw [hlen] at hst
    have htake : (ms.take (k + 1)).map modelName = (ms.take k).map modelName ++ [modelName m] := by
      rw [List.take_add_one, hget]; simp
    rw [wrapLoop, hone, hst.1]
    refine ih (k + 1) _ ?_ ⟨hi.models, ?_, hi.closed, ?_, ?_⟩ hlt
    · rw [← List.drop_drop, hd]; rfl
    · rw [htake]; exact hst.2
    · simp [hi.len]
    · intro i m' hik hm'
      rcases Nat.lt_or_ge i k with h | h
      · obtain ⟨w', hw', hok'⟩ := hi.wraps i m' h hm'
        refine ⟨w', ?_, hok'⟩
        simp only []
        rw [List.getElem?_append_left (by rw [hi.len]; exact h)]
        exact hw'
      · have : i = k := by omega
        subst this
        rw [hget] at hm'
        cases hm'
        refine ⟨w, ?_, hwok⟩
        simp only []
        rw [List.getElem?_append_right (by rw [hi.len]), hi.len]
        simp

theorem wrapDevice_ok (lib : FloatLib) (ms : List MdlObj) (hw : ∀ m ∈ ms, Wrappable m)
    (hf : ∀ m ∈ ms, FreeName (modelName m)) :
    ∃ d, wrapDevice lib ms = (d, .ok ()) ∧ LoopInv ms ms.length d := by
  obtain ⟨d, hd, hi⟩ := wrapLoop_ok lib ms hw hf ms 0 (DWrap.init ms) rfl
    ⟨rfl, by simpa using namesInv_init ms, rfl, rfl, fun i m h => absurd h (Nat.not_lt_zero i)⟩ (Nat.zero_le _)
  refine ⟨d, ?_, hi⟩
  unfold wrapDevice
  rw [hd]

/-! Point access -/

theorem ptIdx_unique {pts : List PointObj} (hu : UniqueIds pts) {k : Nat} {p : PointObj} (hk : pts[k]? = some p) :
    ptIdx pts p.pt.id = some k := by
  unfold ptIdx
  rw [List.findIdx?_eq_some_iff_getElem]
  have hlt : k < pts.length := by
    rcases Nat.lt_or_ge k pts.length with h | h
    · exact h
    · rw [List.getElem?_eq_none h] at hk; cases hk
  have hp : pts[k] = p := by
    rw [List.getElem?_eq_getElem hlt] at hk; exact Option.some.inj hk
  refine ⟨hlt, by simp [hp], ?_⟩
  intro j hj hd
  simp only [decide_eq_true_eq] at hd
  have hjl : j < pts.length := by omega
  have hjk := List.pairwise_iff_getElem.1 hu j k (by simpa using hjl) (by simpa using hlt) hj
  apply hjk
  rw [List.getElem_map, List.getElem_map, hp, hd]

theorem ptsGet_at (lib : FloatLib) {pts : List PointObj} (hu : UniqueIds pts) {k : Nat} {p : PointObj}
    (hk : pts[k]? = some p) : ptsGet lib pts p.pt.id = getValue lib p := by
  unfold ptsGet
  rw [ptIdx_unique hu hk]
  simp [hk]

theorem ptsSet_at (lib : FloatLib) {pts : List PointObj} (hu : UniqueIds pts) {k : Nat}
    {p : PointObj} (hk : pts[k]? = some p) (v : UVal) :
    ptsSet lib pts p.pt.id v = (pts.set k (setValue lib p v).1, (setValue lib p v).2) := by
  unfold ptsSet
  rw [ptIdx_unique hu hk]
  simp [hk]

theorem ptIdx_absent {pts : List PointObj} {n : Text} (h : ∀ p ∈ pts, p.pt.id ≠ n) : ptIdx pts n = none := by
  unfold ptIdx
  rw [List.findIdx?_eq_none_iff]
  intro p hp
  simp [h p hp]

end Verif
