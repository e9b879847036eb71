import Verif.Spec.Script
import Verif.Props.Wrapper
import Verif.Props.Session

/-!
# C65: printing models
-/

namespace Verif
open Spec

theorem strPoints_eq (lib : FloatLib) (get : Text → Py UVal) (pts : List PointObj) (hg : ∀ p ∈ pts, get p.pt.id = getValue lib p)
    (hr : ∀ p ∈ pts, ∃ v, getValue lib p = .ok v) (s : Text) :
    strPoints lib get (pts.map fun p => p.pt.id) s = .ok (s ++ pts.flatMap fun p =>
      match getValue lib p with
      | .ok .none => []
      | .ok v => p.pt.id ++ t!":  " ++ sunsToStr lib v ++ t!"\n"
      | .error _ => []) := by
  induction pts generalizing s with
  | nil => rw [List.map_nil, strPoints, List.flatMap_nil, List.append_nil]
  | cons p ps ih =>
    rw [List.map_cons, strPoints, hg p (by simp), List.flatMap_cons]
    obtain ⟨v, hv⟩ := hr p (by simp)
    have ih' := fun s => ih (fun q hq => hg q (List.mem_cons_of_mem _ hq)) (fun q hq => hr q (List.mem_cons_of_mem _ hq)) s
    rw [hv]
    cases v <;> simp only [] <;> rw [ih'] <;> simp

theorem strPoints_none (lib : FloatLib) (get : Text → Py UVal) (ids : List Text) (hg : ∀ n ∈ ids, get n = .ok .none) (s : Text) :
    strPoints lib get ids s = .ok s := by
  induction ids generalizing s with
  | nil => rfl
  | cons p ps ih =>
    rw [strPoints, hg p (by simp)]
    exact ih (fun q hq => hg q (List.mem_cons_of_mem _ hq)) s

theorem strBlocks_eq (lib : FloatLib) (ms : List MdlObj) (i : Nat) (bs : List BWrap) (ts : List Text)
    (h : List.Forall₂ (fun b t => b.str lib ms i = .ok t) bs ts) (s : Text) : strBlocks lib ms i bs s = .ok (s ++ ts.flatten) := by
  induction h generalizing s with
  | nil => rw [strBlocks]; simp
  | cons h1 _ ih =>
    rw [strBlocks, h1]
    simp only []
    rw [ih]
    simp

/-- The points of a later state. -/
theorem layout_blocks {m m' : MdlObj} (h : layout m' = layout m) :
    m'.id = m.id ∧ m'.exposed = m.exposed ∧ m'.mtype = m.mtype ∧ m'.blocks.length = m.blocks.length ∧
    ∀ (j : Nat) (b' : BlockObj), m'.blocks[j]? = some b' → ∃ b : BlockObj, m.blocks[j]? = some b ∧ b'.bt = b.bt ∧ b'.index = b.index ∧
      b'.pts.map (·.pt) = b.pts.map (·.pt) := by
  unfold layout at h
  have hb : m'.blocks.map (fun b => { b with pts := b.pts.map unvalued, sfs := b.sfs.map unvalued }) =
      m.blocks.map (fun b => { b with pts := b.pts.map unvalued, sfs := b.sfs.map unvalued }) := (MdlObj.mk.inj h).2.2.2.2.2.1
  refine ⟨(MdlObj.mk.inj h).1, (MdlObj.mk.inj h).2.2.2.2.2.2.2.2, (MdlObj.mk.inj h).2.2.2.2.1, ?_, ?_⟩
  · have := congrArg List.length hb
    simpa using this
  · intro j b' hj
    have h1 := congrArg (fun l => l[j]?) hb
    simp only [List.getElem?_map, hj, Option.map_some] at h1
    cases hm : m.blocks[j]? with
    | none => rw [hm] at h1; cases h1
    | some b =>
      rw [hm] at h1
      simp only [Option.map_some, Option.some.injEq, BlockObj.mk.injEq] at h1
      refine ⟨b, rfl, h1.1, h1.2.2.2.1, ?_⟩
      have h2 := congrArg (List.map (·.pt)) h1.2.2.2.2.1
      simpa [unvalued, Function.comp_def] using h2

theorem Spec.WellLaid.later {m m' : MdlObj} (h : WellLaid m) (hl : layout m' = layout m) : WellLaid m' := by
  obtain ⟨h1, h2, h3, h4, h5⟩ := layout_blocks hl
  constructor
  · intro b hb
    obtain ⟨b0, k1, k2, -⟩ := h5 0 b hb
    obtain ⟨mt, k3, k4⟩ := h.head b0 k1
    exact ⟨mt, by rw [h3]; exact k3, by rw [k2]; exact k4⟩
  · intro b hb
    obtain ⟨j, hj⟩ := List.getElem?_of_mem hb
    obtain ⟨b0, k1, k2, _, k3⟩ := h5 j b hj
    obtain ⟨q1, q2⟩ := h.pts b0 (List.mem_of_getElem? k1)
    refine ⟨by rw [k3, k2]; exact q1, ?_⟩
    unfold UniqueIds at q2 ⊢
    have e : b.pts.map (fun p => p.pt.id) = b0.pts.map (fun p => p.pt.id) := by
      have := congrArg (List.map (·.id)) k3
      simpa [Function.comp_def] using this
    rw [e]
    exact q2
  · intro he
    rw [h2] at he
    have := h.shown he
    intro hn
    rw [hn] at h4
    exact this (List.eq_nil_of_length_eq_zero h4.symm)

theorem ids_of_defs {b : BlockObj} (h : b.pts.map (·.pt) = dataPoints b.bt) : propIds b.bt = b.pts.map fun p => p.pt.id := by
  rw [propIds_eq, ← h]
  simp [Function.comp_def]

/-- C65: `str()` of the object for model `i` of a `SunSpecClientDevice` is its name and id, one line `id:  value` per point that has a value, in the order of the definition,
and the same for each repeating block, with its name and index; in every later state of the device. -/
theorem C65_model_partial (lib : FloatLib) (ms : List MdlObj) (hw : ∀ m ∈ ms, Wrappable m) (hf : ∀ m ∈ ms, FreeName (modelName m))
    (hl : ∀ m ∈ ms, WellLaid m) :
    ∃ d, wrapDevice lib ms = (d, .ok ()) ∧ ∀ (i : Nat) (m m' : MdlObj) (ms' : List MdlObj), ms[i]? = some m → ms'[i]? = some m' → layout m' = layout m →
      Readable lib m' → ∃ w, d.wraps[i]? = some w ∧ w.str lib ms' = .ok (printed lib m') := by
  obtain ⟨d, hd, hi⟩ := wrapDevice_ok lib ms hw hf
  refine ⟨d, hd, ?_⟩
  intro i m m' ms' hm hm' hlay hr
  have hil : i < ms.length := (List.getElem?_eq_some_iff.1 hm).1
  obtain ⟨w, hwi, hok⟩ := hi.wraps i m hil hm
  refine ⟨w, hwi, ?_⟩
  have hmm := List.mem_of_getElem? hm
  have hW := hw m hmm
  have hL := (hl m hmm).later hlay
  obtain ⟨e1, e2, e3, e4, e5⟩ := layout_blocks hlay
  have nprop : ∀ x ∈ [t!"model", t!"name", t!"repeating", t!"repeating_name", t!"points", t!"_get_property",
      t!"_set_property"], x ∉ w.cls.props := by
    intro x hx
    rw [hok.cls]
    match hmt : m.mtype with
    | none => simp [classOf]
    | some mt => exact not_mem_propIds (hW.clash mt hmt).fixed hx
  have n1 := nprop (t!"model") (by decide)
  have n2 := nprop (t!"name") (by decide)
  have n4 := nprop (t!"_get_property") (by decide)
  have hname : w.getAttr lib ms' (t!"name") = .ok (.text (modelName m')) := by
    unfold MWrap.getAttr
    rw [if_neg n2, hok.name]
    unfold modelName
    rw [e3, e1]
  have hcp : w.cls.points = w.cls.props := by
    rw [hok.cls]
    unfold classOf
    split <;> rfl
  have hget : ∀ x ∈ w.cls.props, WRes.toVal (w.getAttr lib ms' x) = ptsGet lib (modelPts m') x := by
    intro x hx
    unfold MWrap.getAttr MWrap.getProp
    rw [if_pos hx, if_neg (by simp [n1, n4]), if_neg (by rw [(hok.methods hW).1]; decide), hok.model]
    simp only [hok.mdl, hm']
    cases ptsGet lib (modelPts m') x <;> rfl
  -- the fixed block
  have hfix : ∀ s, strPoints lib (fun x => WRes.toVal (w.getAttr lib ms' x)) w.cls.points s =
      .ok (s ++ (match m'.blocks with
        | [] => []
        | b :: _ => if m'.exposed then valueLines lib b else [])) := by
    intro s
    cases hx : m'.exposed with
    | false =>
      rw [strPoints_none]
      · cases m'.blocks <;> simp
      · intro n hn
        rw [hget n (by rw [← hcp]; exact hn)]
        unfold modelPts
        rw [hx]
        rfl
    | true =>
      cases hb : m'.blocks with
      | nil => exact absurd hb (hL.shown hx)
      | cons b bs =>
        obtain ⟨mt, k1, k2⟩ := hL.head b (by rw [hb]; rfl)
        obtain ⟨k3, k4⟩ := hL.pts b (by rw [hb]; simp)
        have hids : w.cls.points = b.pts.map fun p => p.pt.id := by
          rw [hcp, hok.cls, ← e3, k1, ← ids_of_defs k3, k2]
          rfl
        have hmp : modelPts m' = b.pts := by unfold modelPts; rw [hx, hb]; rfl
        rw [hids, strPoints_eq lib _ b.pts]
        · simp only [if_true]; rfl
        · intro p hp
          obtain ⟨k, hk⟩ := List.getElem?_of_mem hp
          rw [hget p.pt.id (by rw [← hcp, hids]; exact List.mem_map_of_mem hp), hmp, ptsGet_at lib k4 hk]
        · exact hr b (by rw [hb]; simp)
  -- the repeating blocks
  have hreps : List.Forall₂ (fun b t => BWrap.str lib ms' i b = .ok t) w.reps
      (m'.blocks.tail.map fun b => t!"\n" ++ b.bt.name ++ t!"[" ++ natDec b.index ++ t!"]:\n" ++ valueLines lib b) := by
    rw [List.forall₂_iff_get]
    have hlen : w.reps.length = m'.blocks.tail.length := by rw [hok.reps.1, List.length_tail, e4]
    refine ⟨by rw [List.length_map]; exact hlen, ?_⟩
    intro j h1 h2
    have h3 : j < m'.blocks.tail.length := by rw [← hlen]; exact h1
    have hbj : m'.blocks[j + 1]? = some (m'.blocks.tail[j]) := by
      rw [← List.getElem?_tail]
      exact List.getElem?_eq_getElem h3
    generalize hb : m'.blocks.tail[j] = b at hbj
    obtain ⟨b0, k1, k2, -⟩ := e5 (j + 1) b hbj
    have hb0 : m.blocks.tail[j]? = some b0 := by rw [List.getElem?_tail]; exact k1
    have hwj := hok.reps.2 j b0 hb0
    rw [← k2] at hwj
    have hwj' : w.reps[j] = BWrap.mk (propIds b.bt) (j + 1) b.bt.name := by
      rw [List.getElem?_eq_getElem h1] at hwj
      exact Option.some.inj hwj
    simp only [List.get_eq_getElem, List.getElem_map, hwj', hb]
    obtain ⟨mt, hmt, hrep⟩ := hW.tail b0 (List.mem_of_getElem? hb0)
    rw [← k2] at hrep
    have hc := (hW.clash mt hmt).rep b.bt hrep
    have n1 : t!"block" ∉ propIds b.bt := not_mem_propIds hc (by decide)
    have n2 : t!"_get_property" ∉ propIds b.bt := not_mem_propIds hc (by decide)
    have hbm := List.mem_of_getElem? hbj
    obtain ⟨k3, k4⟩ := hL.pts b hbm
    unfold BWrap.str
    simp only [hm', Option.bind_some, hbj]
    rw [ids_of_defs k3, strPoints_eq lib _ b.pts]
    · rfl
    · intro p hp
      obtain ⟨k, hk⟩ := List.getElem?_of_mem hp
      unfold BWrap.getAttr blockPts
      simp only []
      rw [← ids_of_defs k3, if_pos (by rw [ids_of_defs k3]; exact List.mem_map_of_mem hp), if_neg (by simp [n1, n2])]
      simp only [hm', hbj]
      rw [ptsGet_at lib k4 hk]
    · exact hr b hbm
  unfold MWrap.str
  rw [hname, hok.mdl, hm']
  simp only []
  rw [hfix]
  simp only []
  rw [strBlocks_eq lib ms' i _ _ hreps]
  unfold printed
  cases m'.blocks with
  | nil => simp
  | cons b bs => simp [List.flatMap_def]

theorem firstNames_distinct {ns l : List Text} (h : FirstNames ns l) (hn : ns.Nodup) : l = ns := by
  have hperm : l.Perm ns := (List.perm_ext_iff_of_nodup h.once hn).2 h.same
  have hs : ns.Pairwise fun a b => ns.idxOf a < ns.idxOf b := by
    rw [List.pairwise_iff_getElem]
    intro i j hi hj hij
    rw [hn.idxOf_getElem i hi, hn.idxOf_getElem j hj]
    exact hij
  refine hperm.eq_of_pairwise ?_ h.order hs
  intro a b _ _ h1 h2
  omega

theorem positions_distinct {ns : List Text} (hn : ns.Nodup) {i : Nat} {n : Text} (h : ns[i]? = some n) : positions ns n = [i] := by
  have hi : i < ns.length := (List.getElem?_eq_some_iff.1 h).1
  unfold positions
  have : ∀ j ∈ List.range ns.length, decide (ns[j]? = some n) = decide (j = i) := by
    intro j hj
    rw [List.mem_range] at hj
    rw [decide_eq_decide]
    constructor
    · intro hj'
      exact (List.getElem?_inj hj hn).1 (by rw [hj', h])
    · rintro rfl; exact h
  rw [List.filter_congr this]
  have h2 : ∀ k, i < k → (List.range k).filter (fun j => decide (j = i)) = [i] := by
    intro k
    induction k with
    | zero => intro h; omega
    | succ k ih =>
      intro hk
      rw [List.range_succ, List.filter_append]
      by_cases hki : i < k
      · rw [ih hki, List.filter_cons_of_neg (by simp; omega)]
        rfl
      · have : k = i := by omega
        subst this
        rw [List.filter_eq_nil_iff.2 (by intro x hx; rw [List.mem_range] at hx; simp; omega)]
        simp
  exact h2 _ hi

/-- C65 for devices without two models of the same name: `str()` of the device is the texts of its models, in order. -/
theorem C65_device_partial (lib : FloatLib) (other : WAttr → Text) (ms : List MdlObj) (hw : ∀ m ∈ ms, Wrappable m) (hf : ∀ m ∈ ms, FreeName (modelName m))
    (hl : ∀ m ∈ ms, WellLaid m) (hn : (ms.map modelName).Nodup) :
    ∃ d, wrapDevice lib ms = (d, .ok ()) ∧ ∀ ms' : List MdlObj, ms'.map layout = ms.map layout → (∀ m ∈ ms', Readable lib m) →
      DWrap.str lib other { d with models := ms' } = .ok (ms'.flatMap (printed lib)) := by
  obtain ⟨d, hd, hstr⟩ := C65_model_partial lib ms hw hf hl
  obtain ⟨d1, l, hd1, h1, h2, h3, -⟩ := C47_partial lib ms hw hf
  have hdd : d1 = d := by rw [hd] at hd1; exact (Prod.mk.inj hd1).1.symm
  subst hdd
  refine ⟨d1, hd, ?_⟩
  intro ms' hlay hr
  have hlen : ms'.length = ms.length := by simpa using congrArg List.length hlay
  have hls := firstNames_distinct h2 hn
  subst hls
  unfold DWrap.str
  have e1 : DWrap.item { d1 with models := ms' } (t!"models") = d1.item (t!"models") := rfl
  rw [e1, h1]
  simp only []
  have key : ∀ (k : Nat) (rest : List MdlObj) (s : Text), ms'.drop k = rest →
      strNames lib other { d1 with models := ms' } (((ms.drop k).map modelName).map .name) s = .ok (s ++ rest.flatMap (printed lib)) := by
    intro k rest
    induction rest generalizing k with
    | nil =>
      intro s hk
      have : ms.drop k = [] := by
        rw [List.drop_eq_nil_iff] at hk ⊢; omega
      rw [this]
      simp [strNames]
    | cons m' rest ih =>
      intro s hk
      have hk' : k < ms'.length := by
        rcases Nat.lt_or_ge k ms'.length with h | h
        · exact h
        · rw [List.drop_eq_nil_iff.2 h] at hk; cases hk
      have hm' : ms'[k]? = some m' := by
        have := congrArg List.head? hk
        rwa [List.head?_drop, List.head?_cons] at this
      have hrest : ms'.drop (k + 1) = rest := by
        rw [← List.tail_drop, hk]; rfl
      have hkm : k < ms.length := by omega
      rw [List.drop_eq_getElem_cons hkm]
      have hm : ms[k]? = some ms[k] := List.getElem?_eq_getElem hkm
      have hlm : layout m' = layout ms[k] := by
        have := congrArg (fun l => l[k]?) hlay
        simpa [hm', hm] using this
      obtain ⟨w, w1, w2⟩ := hstr k ms[k] m' ms' hm hm' hlm (hr m' (List.mem_of_getElem? hm'))
      have hitem : DWrap.item { d1 with models := ms' } (modelName ms[k]) = some (.one (.wrap k)) := by
        show d1.item _ = _
        rw [h3 _ (hf _ (List.getElem_mem hkm)), positions_distinct hn (i := k) (by simp [hm])]
        rfl
      simp only [List.map_cons]
      rw [strNames, hitem]
      simp only [w1, w2]
      rw [ih (k + 1) _ hrest]
      simp
  have := key 0 ms' [] rfl
  simpa using this

/-- C65 is violated: if each name belongs to several models, the text of the device does not depend on the values at all. -/
theorem C65_duplicates (lib : FloatLib) (other : WAttr → Text) (ms : List MdlObj) (hw : ∀ m ∈ ms, Wrappable m) (hf : ∀ m ∈ ms, FreeName (modelName m))
    (hdup : ∀ n ∈ ms.map modelName, 2 ≤ (positions (ms.map modelName) n).length) :
    ∃ d, wrapDevice lib ms = (d, .ok ()) ∧ ∃ t, ∀ ms' : List MdlObj, DWrap.str lib other { d with models := ms' } = .ok t := by
  obtain ⟨d, l, hd, h1, h2, h3, -⟩ := C47_partial lib ms hw hf
  refine ⟨d, hd, ?_⟩
  have key : ∀ (ns : List Text), (∀ n ∈ ns, n ∈ ms.map modelName) → ∀ s, ∃ t, ∀ ms' : List MdlObj,
      strNames lib other { d with models := ms' } (ns.map .name) s = .ok t := by
    intro ns
    induction ns with
    | nil => intro _ s; exact ⟨s, fun _ => rfl⟩
    | cons n ns ih =>
      intro hns s
      have hmem := hns n (by simp)
      have hlen := hdup n hmem
      obtain ⟨m, hm, hmn⟩ := List.mem_map.1 hmem
      have hitem := h3 n (by rw [← hmn]; exact hf m hm)
      cases hp : positions (ms.map modelName) n with
      | nil => rw [hp] at hlen; simp at hlen
      | cons i r =>
        cases r with
        | nil => rw [hp] at hlen; simp at hlen
        | cons j r =>
          rw [hp] at hitem
          obtain ⟨t, ht⟩ := ih (fun n hn => hns n (by simp [hn])) (s ++ other (.list (.none :: (i :: j :: r).map .wrap)))
          refine ⟨t, fun ms' => ?_⟩
          have hi' : DWrap.item { d with models := ms' } n = some (.list (.none :: (i :: j :: r).map .wrap)) := hitem
          rw [List.map_cons, strNames, hi']
          exact ht ms'
  obtain ⟨t, ht⟩ := key l (fun n hn => (h2.same n).1 hn) []
  refine ⟨t, fun ms' => ?_⟩
  unfold DWrap.str
  have e1 : DWrap.item { d with models := ms' } (t!"models") = d.item (t!"models") := rfl
  rw [e1, h1]
  exact ht ms'

/-- C65, full statement: the text of a device shows its models. -/
def C65_full : Prop :=
  ∀ (lib : FloatLib) (other : WAttr → Text) (ms : List MdlObj), (∀ m ∈ ms, Wrappable m) → (∀ m ∈ ms, FreeName (modelName m)) → (∀ m ∈ ms, WellLaid m) →
    ∃ d, wrapDevice lib ms = (d, .ok ()) ∧ ∀ ms' : List MdlObj, ms'.map layout = ms.map layout → (∀ m ∈ ms', Readable lib m) →
      DWrap.str lib other { d with models := ms' } = .ok (ms'.flatMap (printed lib))

instance (b : BlockObj) : Decidable (UniqueIds b.pts) := by unfold UniqueIds; infer_instance

/-- Two models of the same type. -/
def twins : List MdlObj := [(mdlLoad (.ok exType) (mdlNew 900 40002 7)).1, (mdlLoad (.ok exType) (mdlNew 900 40017 5)).1]

theorem exModels_laid : ∀ m ∈ exModels, WellLaid m := by
  intro m hm
  simp only [exModels, List.mem_cons, List.not_mem_nil, or_false] at hm
  have hpts : ∀ x ∈ exModels, ∀ b ∈ x.blocks, b.pts.map (·.pt) = dataPoints b.bt ∧ UniqueIds b.pts := by decide +kernel
  have hhead : ∀ x ∈ exModels, ∀ b ∈ x.blocks.head?, x.mtype.map (·.fixed) = some b.bt := by decide +kernel
  have hsh : ∀ x ∈ exModels, x.exposed = true → x.blocks ≠ [] := by decide +kernel
  have hx : m ∈ exModels := by simpa only [exModels, List.mem_cons, List.not_mem_nil, or_false] using hm
  refine ⟨?_, hpts m hx, hsh m hx⟩
  intro b hb
  have := hhead m hx b (by rw [List.head?_eq_getElem?, hb]; rfl)
  cases hmt : m.mtype with
  | none => rw [hmt] at this; cases this
  | some mt => rw [hmt] at this; exact ⟨mt, rfl, (Option.some.inj this).symm⟩

theorem twins_sub : ∀ m ∈ twins, m ∈ exModels := by
  intro m hm
  simp only [twins, exModels, List.mem_cons, List.not_mem_nil, or_false] at hm ⊢
  rcases hm with h | h
  · exact .inl h
  · exact .inr (.inr h)

/-- `twins` with a value in a point of the first model. -/
def twinsRead : List MdlObj := twins.map fun m => { m with blocks := m.blocks.map fun b => { b with pts := b.pts.map fun p => { p with base := some (.int 7) } } }

theorem C65_violated : ¬ C65_full := by
  intro h
  have hw : ∀ m ∈ twins, Wrappable m := fun m hm => exModels_wrappable m (twins_sub m hm)
  have hf : ∀ m ∈ twins, FreeName (modelName m) := fun m hm => exModels_free m (twins_sub m hm)
  obtain ⟨d, hd, t, ht⟩ := C65_duplicates exactLib (fun _ => []) twins hw hf (by decide +kernel)
  obtain ⟨d', hd', h2⟩ := h exactLib (fun _ => []) twins hw hf (fun m hm => exModels_laid m (twins_sub m hm))
  have : d' = d := by rw [hd] at hd'; exact (Prod.mk.inj hd').1.symm
  subst this
  have hr : ∀ ms' : List MdlObj, (∀ m ∈ ms', ∀ b ∈ m.blocks, ∀ p ∈ b.pts, p.vsf = none) → ∀ m ∈ ms', Readable exactLib m := by
    intro ms' h m hm b hb p hp
    refine ⟨baseVal p.base, ?_⟩
    unfold getValue
    rw [h m hm b hb p hp]
    rfl
  have q1 := h2 twins rfl (hr _ (by decide +kernel))
  have q2 := h2 twinsRead (by decide +kernel) (hr _ (by decide +kernel))
  rw [ht] at q1 q2
  rw [q1] at q2
  exact absurd q2 (by decide +kernel)

/-- Non-vacuity: a model of known and one of unknown type, and the text. -/
example : ∃ d, wrapDevice exactLib (exModels.take 2) = (d, .ok ()) ∧ ∀ ms' : List MdlObj, ms'.map layout = (exModels.take 2).map layout → (∀ m ∈ ms', Readable exactLib m) →
    DWrap.str exactLib (fun _ => []) { d with models := ms' } = .ok (ms'.flatMap (printed exactLib)) :=
  C65_device_partial exactLib _ _ (fun m hm => exModels_wrappable m (List.mem_of_mem_take hm)) (fun m hm => exModels_free m (List.mem_of_mem_take hm))
    (fun m hm => exModels_laid m (List.mem_of_mem_take hm)) (by decide +kernel)
example : (twinsRead.take 1).flatMap (printed exactLib) =
    t!"\nexample (900):\nA:  7\n\nrepeating[1]:\nV:  7\nW:  7\n\nrepeating[2]:\nV:  7\nW:  7\n" := by decide +kernel

end Verif
