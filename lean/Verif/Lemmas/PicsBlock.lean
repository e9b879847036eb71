import Verif.Lemmas.Pics
import Verif.Lemmas.Single

/-!
# Writing a block to a PICS document and loading it
-/

namespace Verif
open Spec

variable {lib : FloatLib}

/-- A point after the element of `p` has been applied. -/
def fill (q p : PointObj) : PointObj :=
  match p.base with
  | none => { q with impl := false }
  | some v => { q with impl := true, base := some v }

theorem fill_pt (q p : PointObj) : (fill q p).pt = q.pt := by unfold fill; cases p.base <;> rfl
theorem fill_sf (q p : PointObj) : (fill q p).sf = q.sf := by unfold fill; cases p.base <;> rfl

theorem natDec_not_nul (n : Nat) : ∀ c ∈ natDec n, c ≠ Char.ofNat 0 := by
  obtain ⟨ds, h1, h2, h3⟩ := natDec_digits n
  intro c hc
  rw [h1] at hc
  obtain ⟨d, hd, rfl⟩ := List.mem_map.1 hc
  have : ∀ d : Fin 10, dchr d ≠ Char.ofNat 0 := by decide
  exact this ⟨d, h2 d hd⟩

theorem intDec_not_nul (i : Int) : ∀ c ∈ intDec i, c ≠ Char.ofNat 0 := by
  intro c hc
  unfold intDec at hc
  split at hc
  · rcases List.mem_cons.1 hc with rfl | hc
    · decide
    · exact natDec_not_nul _ c hc
  · exact natDec_not_nul _ c hc

theorem intDec_ne_nil (i : Int) : intDec i ≠ [] := by
  unfold intDec
  split
  · simp
  · exact natDec_ne_nil _

theorem rstripNul_self {s : Text} (h : s.getLast? ≠ some (Char.ofNat 0)) : rstripNul s = s := by
  unfold rstripNul
  rw [dropWhile_self, List.reverse_reverse]
  intro c hc
  rw [List.head?_reverse] at hc
  simp only [beq_eq_false_iff_ne, ne_eq]
  intro e
  rw [e] at hc
  exact h hc

theorem baseVal_none {v : Option Val} : baseVal v = .none ↔ v = none := by
  rcases v with _ | v
  · simp [baseVal]
  · cases v <;> simp [baseVal]

/-- The element written for a point gives the point its value. -/
theorem pointFromPics_to (p q : PointObj) (el : Elem) (h : pointToPics lib p = .ok el) (hq : q.pt = p.pt)
    (hv : ∀ v, p.base = some v → TextOK lib p.pt.type v) :
    el.tag = "point" ∧ el.get "id" = some p.pt.id ∧ pointFromPics lib q el = (fill q p, .ok ()) := by
  unfold pointToPics at h
  cases hg : getValue lib p with
  | error e => rw [hg] at h; cases h
  | ok v =>
    rw [hg] at h
    dsimp only at h
    have he := (Except.ok.inj h).symm
    subst he
    refine ⟨rfl, ?_, ?_⟩
    · simp [Elem.get, Elem.attrib, dictGet]
    · have hnone : v = .none ↔ p.base = none := by
        unfold getValue at hg
        cases hs : scaleOf p.vsf with
        | none =>
          rw [hs] at hg
          rw [← Except.ok.inj hg]; exact baseVal_none
        | some k =>
          rw [hs] at hg
          dsimp only at hg
          cases hp : lib.pow10 k with
          | error e => rw [hp] at hg; cases hg
          | ok f =>
            rw [hp] at hg
            dsimp only at hg
            unfold mulBase at hg
            cases hb : p.base with
            | none => rw [hb] at hg; cases hg
            | some w =>
              rw [hb] at hg
              cases w with
              | str s => cases hg
              | flt b => simp only at hg; rw [← Except.ok.inj hg]; simp
              | dbl b => simp only at hg; rw [← Except.ok.inj hg]; simp
              | int i =>
                dsimp only at hg
                cases hi : intToFlt i with
                | error e => rw [hi] at hg; cases hg
                | ok f => rw [hi] at hg; rw [← Except.ok.inj hg]; simp
      unfold pointFromPics fill
      cases hb : p.base with
      | none =>
        have hvn := hnone.2 hb
        rw [if_pos (by simp [Elem.get, Elem.attrib, dictGet, hvn])]
      | some w =>
        have hvn : ¬ v = .none := fun hc => by rw [hnone.1 hc] at hb; cases hb
        rw [if_neg (by by_cases hr : p.pt.rw <;> simp [Elem.get, Elem.attrib, dictGet, hvn, hr])]
        obtain ⟨himp, hk⟩ := hv w hb
        simp only [Elem.text, Option.map_some]
        have key : ∀ s : Text, s ≠ [] → p.pt.type.toValue lib (.str s) = .ok (some w) →
            (match (some s : Option Text) with
              | none | some [] => ((q, .ok ()) : PointObj × Py Unit)
              | some (c :: cs) =>
                match q.pt.type.toValue lib (.str (c :: cs)) with
                | .error x => (q, .error x)
                | .ok v =>
                  if q.pt.type.isImpl v then
                    match v with
                    | some w => ({ q with impl := true, base := some w }, .ok ())
                    | none => ({ q with impl := true }, .ok ())
                  else ({ q with impl := false }, .ok ())) = ({ q with impl := true, base := some w }, .ok ()) := by
          intro s hs ht
          cases s with
          | nil => exact absurd rfl hs
          | cons c cs =>
            dsimp only
            rw [hq, ht]
            dsimp only
            rw [if_pos himp]
        cases w with
        | int i =>
          have e : rstripNul (valText lib (.int i)) = intDec i :=
            rstripNul_self fun hl => intDec_not_nul i _ (List.mem_of_getLast? hl) rfl
          rw [e]
          refine key _ (intDec_ne_nil i) ?_
          unfold PT.toValue
          rw [if_pos hk, sunsToInt, pyInt_intDec 0 (.inl rfl)]
        | str s =>
          obtain ⟨k1, k2, k3, k4⟩ := hk
          have e : rstripNul (valText lib (.str s)) = s := rstripNul_self k4
          rw [e]
          refine key _ k3 ?_
          unfold PT.toValue
          rw [if_neg (by simp [k1]), if_neg k2]
          rfl
        | flt b =>
          obtain ⟨k1, k2, k3, k5⟩ := hk
          have e : rstripNul (valText lib (.flt b)) = lib.repr (f32Val b) := rstripNul_self k3
          rw [e]
          refine key _ k2 ?_
          unfold PT.toValue
          rw [if_neg (by simp [k1, PT.isInt]), if_pos k1]
          rw [k1] at himp
          simp only [PT.isImpl, Bool.not_eq_true'] at himp
          simp only [sunsToFloat, UVal.toFlt, k5, ofFlt_f32Val b himp]
        | dbl f =>
          obtain ⟨k1, k2, k3, k4, k5⟩ := hk
          have e : rstripNul (valText lib (.dbl f)) = lib.repr f := rstripNul_self k3
          rw [e]
          refine key _ k2 ?_
          unfold PT.toValue
          rw [if_neg (by simp [k1, PT.isInt]), if_pos k1]
          simp only [sunsToFloat, UVal.toFlt, k5, k4]

theorem updFirst_map (f : PointObj → PointObj × Py Unit) (F : PointObj → PointObj) (pid : Text) (ps : List PointObj)
    (hn : (ps.map (·.pt.id)).Nodup) (hf : ∀ q ∈ ps, q.pt.id = pid → f q = (F q, .ok ())) :
    updFirst f pid ps = (ps.map (fun q => if q.pt.id = pid then F q else q), .ok ()) := by
  induction ps with
  | nil => rfl
  | cons p ps ih =>
    rw [List.map_cons, List.nodup_cons] at hn
    rw [updFirst, List.map_cons]
    by_cases h : p.pt.id = pid
    · rw [if_pos h, if_pos h, hf p (by simp) h]
      have : ps.map (fun q => if q.pt.id = pid then F q else q) = ps := by
        conv_rhs => rw [← List.map_id ps]
        apply List.map_congr_left
        intro q hq
        rw [if_neg]; · rfl
        intro hc
        exact hn.1 (List.mem_map.2 ⟨q, hq, hc.trans h.symm⟩)
      rw [this]
    · rw [if_neg h, if_neg h, ih hn.2 fun q hq => hf q (by simp [hq])]

/-- The points of the block are those of its type, whose ids are unique. -/
structure GoodBlock (b : BlockObj) : Prop where
  ids : (b.bt.points.map (·.id)).Nodup
  pts : b.pts.map (·.pt) = dataPoints b.bt
  sfs : b.sfs.map (·.pt) = sfPoints b.bt

namespace GoodBlock
variable {b c : BlockObj}

theorem mem_pts (h : GoodBlock b) {p : PointObj} (hp : p ∈ b.pts) : p.pt ∈ b.bt.points ∧ p.pt.type ≠ .sunssf := by
  have : p.pt ∈ dataPoints b.bt := by rw [← h.pts]; exact List.mem_map.2 ⟨p, hp, rfl⟩
  unfold dataPoints at this
  have := List.mem_filter.1 this
  simp at this
  exact ⟨this.1, this.2.2⟩

theorem mem_sfs (h : GoodBlock b) {p : PointObj} (hp : p ∈ b.sfs) : p.pt ∈ b.bt.points ∧ p.pt.type = .sunssf := by
  have : p.pt ∈ sfPoints b.bt := by rw [← h.sfs]; exact List.mem_map.2 ⟨p, hp, rfl⟩
  unfold sfPoints at this
  have := List.mem_filter.1 this
  simp at this
  exact this

theorem mem_points (h : GoodBlock b) {p : PointObj} (hp : p ∈ b.pts ∨ p ∈ b.sfs) : p.pt ∈ b.bt.points := by
  rcases hp with hp | hp
  · exact (h.mem_pts hp).1
  · exact (h.mem_sfs hp).1

theorem inj (h : GoodBlock b) {s t : PointType} (hs : s ∈ b.bt.points) (ht : t ∈ b.bt.points) (e : s.id = t.id) : s = t :=
  List.inj_on_of_nodup_map h.ids hs ht e

theorem nodup_pts (h : GoodBlock b) : (b.pts.map (·.pt.id)).Nodup := by
  have e : b.pts.map (·.pt.id) = (dataPoints b.bt).map (·.id) := by rw [← h.pts, List.map_map]; rfl
  rw [e]
  exact h.ids.sublist ((List.filter_sublist).map _)

theorem nodup_sfs (h : GoodBlock b) : (b.sfs.map (·.pt.id)).Nodup := by
  have e : b.sfs.map (·.pt.id) = (sfPoints b.bt).map (·.id) := by rw [← h.sfs, List.map_map]; rfl
  rw [e]
  exact h.ids.sublist ((List.filter_sublist).map _)

theorem disjoint (h : GoodBlock b) {p q : PointObj} (hp : p ∈ b.pts) (hq : q ∈ b.sfs) : p.pt.id ≠ q.pt.id := by
  intro e
  have := h.inj (h.mem_pts hp).1 (h.mem_sfs hq).1 e
  exact (h.mem_pts hp).2 (this ▸ (h.mem_sfs hq).2)

/-- Points changed, definitions not. -/
theorem of_map (h : GoodBlock b) (f g : PointObj → PointObj) (hf : ∀ p, (f p).pt = p.pt) (hg : ∀ p, (g p).pt = p.pt) :
    GoodBlock { b with pts := b.pts.map f, sfs := b.sfs.map g } := by
  refine ⟨h.ids, ?_, ?_⟩
  · simp only [List.map_map, Function.comp_def, hf]; exact h.pts
  · simp only [List.map_map, Function.comp_def, hg]; exact h.sfs

end GoodBlock

theorem picsFind_some {b : BlockObj} {pid : Text} {p : PointObj} (h : picsFind b pid = some p) :
    (p ∈ b.pts ∨ p ∈ b.sfs) ∧ p.pt.id = pid := by
  unfold picsFind at h
  cases h1 : b.pts.find? (fun p => decide (p.pt.id = pid)) with
  | some q =>
    rw [h1] at h
    have := Option.some.inj h
    subst this
    exact ⟨.inl (List.mem_of_find?_eq_some h1), by simpa using List.find?_some h1⟩
  | none =>
    rw [h1] at h
    dsimp only at h
    exact ⟨.inr (List.mem_of_find?_eq_some h), by simpa using List.find?_some h⟩

theorem picsFind_mem {b : BlockObj} (hb : GoodBlock b) {p : PointObj} (hp : p ∈ b.pts ∨ p ∈ b.sfs) : picsFind b p.pt.id = some p := by
  have aux : ∀ ps : List PointObj, (ps.map (·.pt.id)).Nodup → ∀ p ∈ ps, ps.find? (fun q => decide (q.pt.id = p.pt.id)) = some p := by
    intro ps
    induction ps with
    | nil => intro _ p hp; cases hp
    | cons x ps ih =>
      intro hn p hp
      rw [List.map_cons, List.nodup_cons] at hn
      rcases List.mem_cons.1 hp with rfl | hp
      · simp
      · have hne : ¬ x.pt.id = p.pt.id := fun e => hn.1 (List.mem_map.2 ⟨p, hp, e.symm⟩)
        rw [List.find?_cons, decide_eq_false hne]
        exact ih hn.2 p hp
  unfold picsFind
  rcases hp with hp | hp
  · rw [aux _ hb.nodup_pts p hp]
  · rw [aux _ hb.nodup_sfs p hp]
    have : b.pts.find? (fun q => decide (q.pt.id = p.pt.id)) = none := by
      rw [List.find?_eq_none]
      intro x hx
      simpa using hb.disjoint hx hp
    rw [this]

/-! ### Blocks -/

/-- A point after the elements of the block `b` have been applied. -/
def fillFrom (b : BlockObj) (q : PointObj) : PointObj :=
  match picsFind b q.pt.id with
  | some p => fill q p
  | none => q

theorem fillFrom_pt (b : BlockObj) (q : PointObj) : (fillFrom b q).pt = q.pt := by
  unfold fillFrom; cases picsFind b q.pt.id <;> simp [fill_pt]

theorem fillFrom_sf (b : BlockObj) (q : PointObj) : (fillFrom b q).sf = q.sf := by
  unfold fillFrom; cases picsFind b q.pt.id <;> simp [fill_sf]

/-- The same for the points named in `ids` only. -/
def fillIds (b : BlockObj) (ids : List Text) (q : PointObj) : PointObj := if q.pt.id ∈ ids then fillFrom b q else q

theorem fillIds_pt (b : BlockObj) (ids : List Text) (q : PointObj) : (fillIds b ids q).pt = q.pt := by
  unfold fillIds; split
  · exact fillFrom_pt b q
  · rfl

/-- All values in a block can be carried by text. -/
def BlockText (lib : FloatLib) (b : BlockObj) : Prop :=
  ∀ p, p ∈ b.pts ∨ p ∈ b.sfs → ∀ v, p.base = some v → TextOK lib p.pt.type v

theorem blockPointsFromPics_to (b : BlockObj) (hb : GoodBlock b) (hv : BlockText lib b) (ts : List PointType) :
    ∀ (els : List Elem) (c : BlockObj), (ts.map (·.id)).Nodup → c.bt = b.bt → GoodBlock c → pointsToPics lib b ts = .ok els →
      blockPointsFromPics lib c els =
        ({ c with pts := c.pts.map (fillIds b (ts.map (·.id))), sfs := c.sfs.map (fillIds b (ts.map (·.id))) }, .ok ()) := by
  induction ts with
  | nil =>
    intro els c _ _ _ h
    rw [pointsToPics] at h
    rw [← Except.ok.inj h, blockPointsFromPics]
    have e : fillIds b (([] : List PointType).map (·.id)) = id := by funext q; simp [fillIds]
    rw [e, List.map_id, List.map_id]
  | cons t ts ih =>
    intro els c hn hbt hc h
    rw [List.map_cons, List.nodup_cons] at hn
    rw [pointsToPics] at h
    cases hf : picsFind b t.id with
    | none =>
      rw [hf] at h
      have e : fillIds b ((t :: ts).map (·.id)) = fillIds b (ts.map (·.id)) := by
        funext q
        unfold fillIds
        by_cases hq : q.pt.id = t.id
        · rw [if_pos (by simp [hq]), if_neg (by rw [hq]; exact hn.1)]
          unfold fillFrom; rw [hq, hf]
        · simp [hq]
      rw [e]
      exact ih els c hn.2 hbt hc h
    | some p =>
      rw [hf] at h
      dsimp only at h
      cases hp : pointToPics lib p with
      | error e => rw [hp] at h; cases h
      | ok el =>
        rw [hp] at h
        dsimp only at h
        cases hr : pointsToPics lib b ts with
        | error e => rw [hr] at h; cases h
        | ok els' =>
          rw [hr] at h
          have he := (Except.ok.inj h).symm
          subst he
          obtain ⟨hpm, hpid⟩ := picsFind_some hf
          have hpt : ∀ q, q ∈ c.pts ∨ q ∈ c.sfs → q.pt.id = t.id → q.pt = p.pt := by
            intro q hq e
            have h1 := hc.mem_points hq
            rw [hbt] at h1
            exact hb.inj h1 (hb.mem_points hpm) (e.trans hpid.symm)
          have hbase := fun q hq => pointFromPics_to p q el hp hq (hv p hpm)
          obtain ⟨htag, hid, _⟩ := hbase p rfl
          -- one element
          let F : PointObj → PointObj := fun q => if q.pt.id = t.id then fillFrom b q else q
          have hFpt : ∀ q, (F q).pt = q.pt := by
            intro q
            show (if q.pt.id = t.id then fillFrom b q else q).pt = q.pt
            split
            · exact fillFrom_pt b q
            · rfl
          have hupd : ∀ q, q ∈ c.pts ∨ q ∈ c.sfs → q.pt.id = t.id → pointFromPics lib q el = (fillFrom b q, .ok ()) := by
            intro q hq e
            rw [(hbase q (hpt q hq e)).2.2]
            unfold fillFrom
            rw [e, hf]
          have hstep : blockPointFromPics lib c el = ({ c with pts := c.pts.map F, sfs := c.sfs.map F }, .ok ()) := by
            unfold blockPointFromPics
            rw [if_neg (by simp [htag]), hid, hpid]
            dsimp only
            rw [updFirst_map _ (fillFrom b) t.id c.pts hc.nodup_pts fun q hq e => hupd q (.inl hq) e]
            rw [updFirst_map _ (fillFrom b) t.id c.sfs hc.nodup_sfs fun q hq e => hupd q (.inr hq) e]
            by_cases hany : c.pts.any (fun p => decide (p.pt.id = t.id)) = true
            · rw [if_pos hany]
              obtain ⟨x, hx, hxe⟩ := List.any_eq_true.1 hany
              have hs : c.sfs.map F = c.sfs := by
                conv_rhs => rw [← List.map_id c.sfs]
                apply List.map_congr_left
                intro q hq
                have : ¬ q.pt.id = t.id := fun e => hc.disjoint hx hq ((by simpa using hxe : x.pt.id = t.id).trans e.symm)
                show (if q.pt.id = t.id then fillFrom b q else q) = q
                rw [if_neg this]
              rw [hs]
            · rw [if_neg hany]
              have hs : c.pts.map F = c.pts := by
                conv_rhs => rw [← List.map_id c.pts]
                apply List.map_congr_left
                intro q hq
                have : ¬ q.pt.id = t.id := fun e => hany (List.any_eq_true.2 ⟨q, hq, by simpa using e⟩)
                show (if q.pt.id = t.id then fillFrom b q else q) = q
                rw [if_neg this]
              rw [hs]
          rw [blockPointsFromPics, hstep]
          dsimp only
          rw [ih els' { c with pts := c.pts.map F, sfs := c.sfs.map F } hn.2 hbt (hc.of_map F F hFpt hFpt) hr]
          have e : fillIds b (ts.map (·.id)) ∘ F = fillIds b ((t :: ts).map (·.id)) := by
            funext q
            show fillIds b (ts.map (·.id)) (F q) = _
            by_cases hq : q.pt.id = t.id
            · have hF : F q = fillFrom b q := if_pos hq
              rw [hF]
              unfold fillIds
              rw [fillFrom_pt, if_neg (by rw [hq]; exact hn.1), if_pos (by simp [hq])]
            · have hF : F q = q := if_neg hq
              rw [hF]
              unfold fillIds
              simp [hq]
          simp only [List.map_map, e]

/-- A block after the elements of the block `b` have been applied (but for the values of scale factors). -/
def fillBlk (b c : BlockObj) : BlockObj := { c with pts := c.pts.map (fillFrom b), sfs := c.sfs.map (fillFrom b) }

theorem blockPointsFromPics_block (b c : BlockObj) (hb : GoodBlock b) (hc : GoodBlock c) (hv : BlockText lib b) (hbt : c.bt = b.bt)
    (els : List Elem) (h : pointsToPics lib b b.bt.points = .ok els) :
    blockPointsFromPics lib c els = (fillBlk b c, .ok ()) := by
  rw [blockPointsFromPics_to b hb hv _ els c hb.ids hbt hc h]
  have e1 : c.pts.map (fillIds b (b.bt.points.map (·.id))) = c.pts.map (fillFrom b) := by
    apply List.map_congr_left
    intro q hq
    unfold fillIds
    rw [if_pos (List.mem_map.2 ⟨q.pt, hbt ▸ (hc.mem_pts hq).1, rfl⟩)]
  have e2 : c.sfs.map (fillIds b (b.bt.points.map (·.id))) = c.sfs.map (fillFrom b) := by
    apply List.map_congr_left
    intro q hq
    unfold fillIds
    rw [if_pos (List.mem_map.2 ⟨q.pt, hbt ▸ (hc.mem_sfs hq).1, rfl⟩)]
  rw [e1, e2]
  rfl

end Verif
