import Verif.Props.Pics
import Verif.Props.Value
import Verif.Props.ClientRead

/-!
# C41: the values of points in PICS documents
-/

namespace Verif
open Spec

variable {lib : FloatLib}

/-! ### Values with the scale factors applied -/

theorem mem_forall₂ {α β : Type} {R : α → β → Prop} {as : List α} {bs : List β} (h : List.Forall₂ R as bs) {b : β} (hb : b ∈ bs) :
    ∃ a ∈ as, R a b := by
  induction h with
  | nil => cases hb
  | cons r _ ih =>
    rcases List.mem_cons.1 hb with rfl | hb
    · exact ⟨_, by simp, r⟩
    · obtain ⟨a, h1, h2⟩ := ih hb
      exact ⟨a, by simp [h1], h2⟩

theorem forall₂_mem {α β : Type} {R S : α → β → Prop} {as : List α} {bs : List β} (h : List.Forall₂ R as bs)
    (hS : ∀ a ∈ as, ∀ b ∈ bs, R a b → S a b) : List.Forall₂ S as bs := by
  induction h with
  | nil => exact .nil
  | cons r _ ih => exact .cons (hS _ (by simp) _ (by simp) r) (ih fun a ha b hb => hS a (by simp [ha]) b (by simp [hb]))

/-- Scale factors of models with the same values are the same. -/
theorem isScale_same {m n : MdlObj} (hg : ∀ b ∈ m.blocks, GoodBlock b) (h : SameModel m n) {ref : SfRef} {v w : Option Val}
    (hv : IsScale m.blocks ref v) (hw : IsScale n.blocks ref w) : w = v := by
  cases ref with
  | const c => exact hw.trans hv.symm
  | point blk id =>
    obtain ⟨b, q, h1, h2, h3, h4⟩ := hv
    obtain ⟨c, r, g1, g2, g3, g4⟩ := hw
    have hb := forall₂_get h.blocks blk b c h1 g1
    obtain ⟨q', hq', hqr⟩ := mem_forall₂ hb.sfs g2
    have hgood := hg b (List.mem_of_getElem? h1)
    have e1 := picsFind_mem hgood (.inr h2)
    have e2 := picsFind_mem hgood (.inr hq')
    rw [h3] at e1
    rw [← hqr.1, g3, e1] at e2
    have := Option.some.inj e2
    rw [g4, h4, hqr.2.2, this]

/-- C41, the values a program sees (with the scale factors applied): the points that have a value in the original
device have the same value in the device loaded from its document. Missing: points that have none, see
`C41_unimplemented`. -/
theorem C41_values_partial (types : Int → Py ModelType) (ms : List MdlObj) (e : Elem)
    (hms : ∀ m ∈ ms, LoadedModel types m ∧ (∀ mt, types m.id = .ok mt → DefOK mt) ∧ ValuesOK lib m ∧ FirstLeast m)
    (hsc : ∀ m ∈ ms, ReadScales m)
    (h : deviceToPics lib false ms = .ok e) :
    ∃ ms', deviceFromPics lib types e = (ms', .ok ()) ∧
      List.Forall₂ (fun m n => List.Forall₂ (fun b c => List.Forall₂ (fun p q => p.base ≠ none → getValue lib q = getValue lib p) b.pts c.pts)
        m.blocks n.blocks) ms ms' := by
  obtain ⟨ms', h1, h2, h3⟩ := C41_roundtrip_partial (lib := lib) types ms e hms h
  refine ⟨ms', h1, forall₂_mem h2 ?_⟩
  intro m hm n hn hmn
  obtain ⟨q1, q2, q3, _⟩ := hms m hm
  obtain ⟨mt, m', _, _, _, _, _, _, hp, _⟩ := picsPair (lib := lib) types m q1 q2 q3 0
  have hg : ∀ b ∈ m.blocks, GoodBlock b := by
    intro b hb
    obtain ⟨k, hk⟩ := List.getElem?_of_mem hb
    exact (hp.good k b hk).1
  refine forall₂_mem hmn.blocks fun b hb c hc hbc => ?_
  refine forall₂_mem hbc.pts fun p hp q hq hpq hbase => ?_
  have hs := (hsc m hm b hb p hp).1 hbase
  have hs' := (h3 n hn).2 c hc q hq
  have hvsf : q.vsf = p.vsf := by
    cases hsf : p.sf with
    | none => rw [hs.2 hsf, hs'.2 (hpq.2.1.trans hsf)]
    | some ref => exact isScale_same hg hmn (hs.1 ref hsf) (hs'.1 ref (hpq.2.1.trans hsf))
  unfold getValue
  rw [hvsf, hpq.2.2]

/-! ### Devices that can be written -/

/-- C41: a device can be written if its points that have no value have no value of the scale factor either, as after
reading the device once, and scaled points are numbers. -/
theorem C41_written (hl : PowOK lib) (single : Bool) (ms : List MdlObj)
    (hv : ∀ m ∈ ms, ∀ b ∈ m.blocks, ∀ p ∈ b.pts ++ b.sfs, CanScale p) : ∃ e, deviceToPics lib single ms = .ok e := by
  have hget : ∀ p, CanScale p → ∃ v, getValue lib p = .ok v := by
    intro p hp
    unfold getValue
    cases hs : scaleOf p.vsf with
    | none => exact ⟨_, rfl⟩
    | some k =>
      dsimp only
      cases hv : p.vsf with
      | none => rw [hv] at hs; cases hs
      | some w =>
        cases w with
        | str s => rw [hv] at hs; cases hs
        | flt b => rw [hv] at hs; cases hs
        | dbl b => rw [hv] at hs; cases hs
        | int k' =>
          have hk : k' ≠ 0 ∧ k' = k := by
            rw [hv] at hs
            have hs : (if k' = 0 then none else some k') = some k := hs
            split at hs
            · cases hs
            · next h => exact ⟨h, Option.some.inj hs⟩
          obtain ⟨hk0, rfl⟩ := hk
          rcases hp k' hv with h0 | ⟨h1, h2, h3⟩
          · exact absurd h0 hk0
          · obtain ⟨pw, hpw, _⟩ := hl k' h1 h2
            rcases h3 with ⟨i, hi, hi2⟩ | ⟨f, hf⟩ | ⟨f, hf⟩
            · obtain ⟨q, hq, _⟩ := C34_get_partial lib hl p k' i hv hk0 h1 h2 hi hi2
              unfold getValue at hq
              rw [hs] at hq
              exact ⟨_, hq⟩
            · rw [hpw, hf]
              exact ⟨_, rfl⟩
            · rw [hpw, hf]
              exact ⟨_, rfl⟩
  have hpoint : ∀ p, CanScale p → ∃ el, pointToPics lib p = .ok el := by
    intro p hp
    obtain ⟨v, h⟩ := hget p hp
    unfold pointToPics
    rw [h]
    exact ⟨_, rfl⟩
  have hpoints : ∀ (b : BlockObj), (∀ p ∈ b.pts ++ b.sfs, CanScale p) → ∀ ts, ∃ els, pointsToPics lib b ts = .ok els := by
    intro b hb ts
    induction ts with
    | nil => exact ⟨_, rfl⟩
    | cons t ts ih =>
      obtain ⟨els, ih⟩ := ih
      rw [pointsToPics]
      cases hf : picsFind b t.id with
      | none => exact ⟨els, ih⟩
      | some p =>
        obtain ⟨el, he⟩ := hpoint p (hb p (by simpa using (picsFind_some hf).1))
        dsimp only
        rw [he, ih]
        exact ⟨_, rfl⟩
  have hblock : ∀ (b : BlockObj), (∀ p ∈ b.pts ++ b.sfs, CanScale p) → ∃ el, blockToPics lib b = .ok el := by
    intro b hb
    obtain ⟨els, h⟩ := hpoints b hb b.bt.points
    unfold blockToPics
    rw [h]
    exact ⟨_, rfl⟩
  have hblocks : ∀ bs : List BlockObj, (∀ b ∈ bs, ∀ p ∈ b.pts ++ b.sfs, CanScale p) → ∃ els, blocksToPics lib single bs = .ok els := by
    intro bs
    induction bs with
    | nil => intro _; exact ⟨_, rfl⟩
    | cons b bs ih =>
      intro hb
      obtain ⟨els, ih⟩ := ih fun x hx => hb x (by simp [hx])
      obtain ⟨el, he⟩ := hblock b (hb b (by simp))
      rw [blocksToPics, he, ih]
      split
      · exact ⟨_, rfl⟩
      · exact ⟨_, rfl⟩
  have hmodels : ∀ ms : List MdlObj, (∀ m ∈ ms, ∀ b ∈ m.blocks, ∀ p ∈ b.pts ++ b.sfs, CanScale p) →
      ∃ els, modelsToPics lib single ms = .ok els := by
    intro ms
    induction ms with
    | nil => intro _; exact ⟨_, rfl⟩
    | cons m ms ih =>
      intro hm
      obtain ⟨els, ih⟩ := ih fun x hx => hm x (by simp [hx])
      obtain ⟨bl, hb⟩ := hblocks m.blocks (hm m (by simp))
      have : ∃ el, modelToPics lib single m = .ok el := by
        unfold modelToPics
        rw [hb]
        exact ⟨_, rfl⟩
      obtain ⟨el, he⟩ := this
      rw [modelsToPics, he, ih]
      exact ⟨_, rfl⟩
  obtain ⟨els, h⟩ := hmodels ms hv
  unfold deviceToPics
  rw [h]
  exact ⟨_, rfl⟩

/-! ### What goes wrong -/

/-- The property in full: every device (read once, with well-formed definitions and values text can carry) can be
written, and the device loaded from the document has the same models and point values, also those a program sees.
Violated: see `C41_violated`. -/
def C41_full : Prop :=
  ∀ (lib : FloatLib), PowOK lib → ∀ (types : Int → Py ModelType) (ms : List MdlObj),
    (∀ m ∈ ms, LoadedModel types m ∧ (∀ mt, types m.id = .ok mt → DefOK mt) ∧ ValuesOK lib m ∧ ReadScales m ∧
      ∀ b ∈ m.blocks, ∀ p ∈ b.pts ++ b.sfs, CanScale p) →
    ∃ e ms', deviceToPics lib false ms = .ok e ∧ deviceFromPics lib types e = (ms', .ok ()) ∧ List.Forall₂ SameModel ms ms' ∧
      List.Forall₂ (fun m n => List.Forall₂ (fun b c => List.Forall₂ (fun p q => getValue lib q = getValue lib p) b.pts c.pts)
        m.blocks n.blocks) ms ms'

/-- A model with a value assigned to the points `id` of block `k`. -/
def withVal (m : MdlObj) (k : Nat) (id : Text) (v vsf : Option Val) : MdlObj :=
  { m with blocks := m.blocks.modify k fun b =>
    { b with pts := b.pts.map fun p => if p.pt.id = id then { p with base := v, vsf := vsf } else p
             sfs := b.sfs.map fun p => if p.pt.id = id then { p with base := v, vsf := vsf } else p } }

theorem forall₂_map_self {α : Type} {R : α → α → Prop} {f : α → α} (h : ∀ a, R a (f a)) (as : List α) : List.Forall₂ R as (as.map f) := by
  induction as with
  | nil => exact .nil
  | cons a as ih => exact .cons (h a) ih

theorem kind_withVal (m : MdlObj) (k : Nat) (id : Text) (v vsf : Option Val) : List.Forall₂ BlockKind m.blocks (withVal m k id v vsf).blocks := by
  have hk : ∀ p : PointObj, SameKind p (if p.pt.id = id then { p with base := v, vsf := vsf } else p) := by
    intro p
    split <;> exact ⟨rfl, rfl⟩
  unfold withVal
  dsimp only
  generalize m.blocks = bs
  induction bs generalizing k with
  | nil => cases k <;> exact .nil
  | cons b bs ih =>
    have hb : BlockKind b b := ⟨rfl, rfl, rfl, List.forall₂_same.2 fun _ _ => ⟨rfl, rfl⟩, List.forall₂_same.2 fun _ _ => ⟨rfl, rfl⟩⟩
    cases k with
    | zero =>
      refine .cons ⟨rfl, rfl, rfl, forall₂_map_self hk _, forall₂_map_self hk _⟩ (List.forall₂_same.2 fun b _ => ?_)
      exact ⟨rfl, rfl, rfl, List.forall₂_same.2 fun _ _ => ⟨rfl, rfl⟩, List.forall₂_same.2 fun _ _ => ⟨rfl, rfl⟩⟩
    | succ k => exact .cons hb (ih k)

theorem Spec.BlockKind.trans {a b c : BlockObj} (h1 : BlockKind a b) (h2 : BlockKind b c) : BlockKind a c := by
  have t : ∀ {as bs cs : List PointObj}, List.Forall₂ SameKind as bs → List.Forall₂ SameKind bs cs → List.Forall₂ SameKind as cs := by
    intro as bs cs h
    induction h generalizing cs with
    | nil => intro h; cases h; exact .nil
    | cons r _ ih => intro h; cases h with
      | cons s hs => exact .cons ⟨s.1.trans r.1, s.2.trans r.2⟩ (ih hs)
  exact ⟨h2.bt.trans h1.bt, h2.index.trans h1.index, h2.len.trans h1.len, t h1.pts h2.pts, t h1.sfs h2.sfs⟩

theorem kinds_trans {as bs cs : List BlockObj} (h1 : List.Forall₂ BlockKind as bs) (h2 : List.Forall₂ BlockKind bs cs) :
    List.Forall₂ BlockKind as cs := by
  induction h1 generalizing cs with
  | nil => cases h2; exact .nil
  | cons r _ ih => cases h2 with
    | cons s hs => exact .cons (r.trans s) (ih hs)

theorem loadedModel_withVal {types : Int → Py ModelType} {m : MdlObj} (h : LoadedModel types m) (k : Nat) (id : Text) (v vsf : Option Val) :
    LoadedModel types (withVal m k id v vsf) := by
  obtain ⟨addr, len, m0, h1, h2, h3, h4⟩ := h
  exact ⟨addr, len, m0, h1, h2, h3, kinds_trans h4 (kind_withVal m k id v vsf)⟩

theorem exModel_loadedModel : LoadedModel (fun _ => .ok exType) exModel :=
  ⟨40002, 7, exModel, by
    have : mdlLoad (.ok exType) (mdlNew 900 40002 7) = (exModel, .ok ()) := exModel_loaded
    exact this, rfl, rfl, List.forall₂_same.2 fun _ _ =>
      ⟨rfl, rfl, rfl, List.forall₂_same.2 fun _ _ => ⟨rfl, rfl⟩, List.forall₂_same.2 fun _ _ => ⟨rfl, rfl⟩⟩⟩

theorem exType_defOK : DefOK exType := by
  refine ⟨rfl, ?_, by decide, ?_⟩
  · intro rb h; cases h; rfl
  · intro rb h; cases h; decide

/-! To show that concrete models meet the hypotheses. -/

def checkVal (p : PointObj) : Bool :=
  match p.base with
  | none => true
  | some (.int i) => p.pt.type.isInt && p.pt.type.isImpl (some (.int i))
  | _ => false

theorem valuesOK_check (m : MdlObj) (h : ∀ b ∈ m.blocks, ∀ p ∈ b.pts ++ b.sfs, checkVal p = true) : ValuesOK lib m := by
  intro b hb p hp v hv
  have hc := h b hb p (by simpa using hp)
  unfold checkVal at hc
  rw [hv] at hc
  cases v with
  | int i =>
    simp only [Bool.and_eq_true] at hc
    exact ⟨hc.2, hc.1⟩
  | str s => cases hc
  | flt f => cases hc
  | dbl f => cases hc

def checkScale (bs : List BlockObj) (p : PointObj) : Bool :=
  match p.base with
  | none => decide (p.vsf = none)
  | some _ =>
    match p.sf with
    | none => decide (p.vsf = none)
    | some (.const c) => decide (p.vsf = some (.int c))
    | some (.point blk id) =>
      match bs[blk]? with
      | none => false
      | some b => b.sfs.any fun q => decide (q.pt.id = id) && decide (p.vsf = q.base)

theorem readScales_check (m : MdlObj) (h : ∀ b ∈ m.blocks, ∀ p ∈ b.pts, checkScale m.blocks p = true) : ReadScales m := by
  intro b hb p hp
  have hc := h b hb p hp
  unfold checkScale at hc
  cases hbase : p.base with
  | none =>
    rw [hbase] at hc
    exact ⟨fun h => absurd rfl h, fun _ => by simpa using hc⟩
  | some v =>
    rw [hbase] at hc
    refine ⟨fun _ => ⟨?_, ?_⟩, fun h => by cases h⟩
    · intro ref href
      rw [href] at hc
      cases ref with
      | const c => show p.vsf = some (.int c); exact of_decide_eq_true hc
      | point blk id =>
        dsimp only at hc
        cases hbk : m.blocks[blk]? with
        | none => rw [hbk] at hc; cases hc
        | some c =>
          rw [hbk] at hc
          simp only [List.any_eq_true, Bool.and_eq_true, decide_eq_true_eq] at hc
          obtain ⟨q, h1, h2, h3⟩ := hc
          exact ⟨c, q, hbk, h1, h2, h3⟩
    · intro hs
      rw [hs] at hc
      simpa using hc

def checkCan (p : PointObj) : Bool :=
  match p.vsf with
  | some (.int k) => decide (k = 0) || (decide (-250 ≤ k ∧ k ≤ 250) && match p.base with
    | some (.int i) => decide (-(2 ^ 64) ≤ i ∧ i ≤ 2 ^ 64)
    | _ => false)
  | _ => true

theorem canScale_check (p : PointObj) (h : checkCan p = true) : CanScale p := by
  intro k hk
  unfold checkCan at h
  rw [hk] at h
  simp only [Bool.or_eq_true, Bool.and_eq_true, decide_eq_true_eq] at h
  rcases h with h | ⟨⟨h1, h2⟩, h3⟩
  · exact .inl h
  · refine .inr ⟨h1, h2, .inl ?_⟩
    cases hb : p.base with
    | none => rw [hb] at h3; cases h3
    | some v => cases v with
      | int i =>
        rw [hb] at h3
        simp only [decide_eq_true_eq] at h3
        exact ⟨i, rfl, abs_le.2 h3⟩
      | str s => rw [hb] at h3; cases h3
      | flt f => rw [hb] at h3; cases h3
      | dbl f => rw [hb] at h3; cases h3

/-- A model with two repeating blocks; point V has the value 5 in the first and is not implemented in the second. -/
def leakModel : MdlObj := withVal (withVal exModel 0 (t!"A_SF") (some (.int 0)) none) 1 (t!"V") (some (.int 5)) (some (.int 0))

theorem leakModel_loaded : LoadedModel (fun _ => .ok exType) leakModel :=
  loadedModel_withVal (loadedModel_withVal exModel_loadedModel _ _ _ _) _ _ _ _

/-- The models loaded from the document of a device. -/
def loadedBack (lib : FloatLib) (ms : List MdlObj) : List MdlObj :=
  match deviceToPics lib false ms with
  | .ok e => (deviceFromPics lib (fun _ => .ok exType) e).1
  | .error _ => []

/-- The point at position `j` of block `k` of the first model. -/
def pointAt (ms : List MdlObj) (k j : Nat) : Option PointObj := ((ms[0]?).bind (·.blocks[k]?)).bind (·.pts[j]?)

theorem forall₂_at {α β : Type} {R : α → β → Prop} {as : List α} {bs : List β} (h : List.Forall₂ R as bs) (k : Nat) (b : β)
    (hb : bs[k]? = some b) : ∃ a, as[k]? = some a ∧ R a b := by
  obtain ⟨a, ha⟩ := get_exists (l := as) (k := k) (by rw [h.length_eq]; exact get_of_lt hb)
  exact ⟨a, ha, forall₂_get h k a b ha hb⟩

theorem pointAt_rel {R : PointObj → PointObj → Prop} {ms ms' : List MdlObj}
    (h : List.Forall₂ (fun m n => List.Forall₂ (fun b c => List.Forall₂ R b.pts c.pts) m.blocks n.blocks) ms ms') (k j : Nat)
    (q : PointObj) (hq : pointAt ms' k j = some q) : ∃ p, pointAt ms k j = some p ∧ R p q := by
  unfold pointAt at hq ⊢
  obtain ⟨c, hc, hq⟩ := Option.bind_eq_some_iff.1 hq
  obtain ⟨n, hn, hc⟩ := Option.bind_eq_some_iff.1 hc
  obtain ⟨m, hm, hmn⟩ := forall₂_at h 0 n hn
  obtain ⟨b, hb, hbc⟩ := forall₂_at hmn k c hc
  obtain ⟨p, hp, hpq⟩ := forall₂_at hbc j q hq
  exact ⟨p, by rw [hm]; simp only [Option.bind_some]; rw [hb]; exact hp, hpq⟩

/-- C41 is violated: a point that is not implemented in the second repeating block gets the value of the first. -/
theorem C41_violated : ¬ C41_full := by
  intro h
  obtain ⟨e, ms', h1, h2, h3, _⟩ := h exactLib exactLib_ok (fun _ => .ok exType) [leakModel] (by
    intro m hm
    rw [List.mem_singleton] at hm
    subst hm
    refine ⟨leakModel_loaded, fun mt hmt => ?_, valuesOK_check _ ?_, readScales_check _ ?_, ?_⟩
    · cases hmt; exact exType_defOK
    · decide +kernel
    · decide +kernel
    · have : ∀ b ∈ leakModel.blocks, ∀ p ∈ b.pts ++ b.sfs, checkCan p = true := by decide +kernel
      exact fun b hb p hp => canScale_check p (this b hb p hp))
  have hback : loadedBack exactLib [leakModel] = ms' := by
    unfold loadedBack
    rw [h1]
    dsimp only
    rw [h2]
  have hval : (pointAt (loadedBack exactLib [leakModel]) 2 0).bind (·.base) = some (.int 5) := by decide +kernel
  have horig : (pointAt [leakModel] 2 0).bind (·.base) = none := by decide +kernel
  rw [hback] at hval
  obtain ⟨q, hq, hqv⟩ := Option.bind_eq_some_iff.1 hval
  obtain ⟨p, hp, hpq⟩ := pointAt_rel (R := SamePoint) (h3.imp fun _ _ h => h.blocks.imp fun _ _ h => h.pts) 2 0 q hq
  rw [hp] at horig
  have : p.base = none := horig
  rw [hpq.2.2, this] at hqv
  cases hqv

theorem write_fails {m : MdlObj} {ms : List MdlObj} {b : BlockObj} {bs : List BlockObj} {t : PointType} {ts : List PointType}
    {p : PointObj} {x : Exc} (h1 : m.blocks = b :: bs) (h2 : b.bt.points = t :: ts) (h3 : picsFind b t.id = some p)
    (h4 : getValue lib p = .error x) : deviceToPics lib false (m :: ms) = .error x := by
  have e1 : pointToPics lib p = .error x := by unfold pointToPics; rw [h4]
  have e2 : blockToPics lib b = .error x := by
    unfold blockToPics
    rw [h2, pointsToPics, h3]
    dsimp only
    rw [e1]
  have e3 : modelToPics lib false m = .error x := by
    unfold modelToPics
    rw [h1, blocksToPics, if_pos (.inl rfl), e2]
  unfold deviceToPics
  rw [modelsToPics, e3]

/-- A model whose point A (scale factor -2) is not implemented. -/
def unimplModel : MdlObj := withVal exModel 0 (t!"A_SF") (some (.int (-2))) none

/-- C41: a scaled point that is not implemented has no value in the device; in the device loaded from the document
asking for its value raises `TypeError` (also for writing it again). -/
theorem C41_unimplemented (hl : PowOK lib) :
    (∀ p, pointAt [unimplModel] 0 0 = some p → getValue lib p = .ok .none) ∧
    ∃ q, pointAt (loadedBack lib [unimplModel]) 0 0 = some q ∧ getValue lib q = .error .typeError ∧
      deviceToPics lib false (loadedBack lib [unimplModel]) = .error .typeError := by
  have hq : pointAt (loadedBack lib [unimplModel]) 0 0 = some
      { pt := { id := t!"A", offset := 0, type := .int16, len := 1, sf := some (t!"A_SF"), rw := true }, addr := 40004,
        sf := some (.point 0 (t!"A_SF")), impl := false, base := none, vsf := some (.int (-2)) } := by rfl
  obtain ⟨pw, hp, _⟩ := hl (-2) (by decide) (by decide)
  refine ⟨?_, _, hq, ?_, ?_⟩
  · intro p hp
    have : some p = some _ := hp.symm.trans (show pointAt [unimplModel] 0 0 = some
      { pt := { id := t!"A", offset := 0, type := .int16, len := 1, sf := some (t!"A_SF"), rw := true }, addr := 40002,
        sf := some (.point 0 (t!"A_SF")), impl := true, base := none, vsf := none } by rfl)
    cases this
    rfl
  · show (match lib.pow10 (-2) with | .ok f => mulBase none f | .error e => .error e) = _
    rw [hp]; rfl
  · obtain ⟨m, ms, b, bs, t, ts, h1, h2, h3, h4⟩ : ∃ m ms b bs t ts, loadedBack lib [unimplModel] = m :: ms ∧ m.blocks = b :: bs ∧
        b.bt.points = t :: ts ∧ picsFind b t.id = some
      { pt := { id := t!"A", offset := 0, type := .int16, len := 1, sf := some (t!"A_SF"), rw := true }, addr := 40004,
        sf := some (.point 0 (t!"A_SF")), impl := false, base := none, vsf := some (.int (-2)) } :=
      ⟨_, _, _, _, _, _, rfl, rfl, rfl, rfl⟩
    rw [h1]
    refine write_fails h2 h3 h4 ?_
    show (match lib.pow10 (-2) with | .ok f => mulBase none f | .error e => .error e) = _
    rw [hp]; rfl

/-! ### The hypotheses can be met -/

/-- A model with values: A = -42 (scale factor -2), V = 5 in the first and 7 in the second repeating block, W = 9 (scale
factor -1) in the second. -/
def fullModel : MdlObj :=
  withVal (withVal (withVal (withVal (withVal exModel 0 (t!"A_SF") (some (.int (-2))) none) 0 (t!"A") (some (.int (-42))) (some (.int (-2))))
    1 (t!"V") (some (.int 5)) (some (.int (-2)))) 2 (t!"V") (some (.int 7)) (some (.int (-2)))) 2 (t!"W") (some (.int 9)) (some (.int (-1)))

theorem fullModel_loaded : LoadedModel (fun _ => .ok exType) fullModel :=
  loadedModel_withVal (loadedModel_withVal (loadedModel_withVal (loadedModel_withVal (loadedModel_withVal exModel_loadedModel _ _ _ _) _ _ _ _)
    _ _ _ _) _ _ _ _) _ _ _ _

def checkFirst (m : MdlObj) : Bool :=
  match m.blocks with
  | _ :: b1 :: bs => bs.all fun b => (b.pts ++ b.sfs).all fun p => p.base.isSome ||
      (b1.pts ++ b1.sfs).all fun p1 => !decide (p1.pt.id = p.pt.id) || p1.base.isNone
  | _ => true

theorem firstLeast_check (m : MdlObj) (h : checkFirst m = true) : FirstLeast m := by
  intro b1 hb1 k b hb p hp hn p1 hp1 hid
  unfold checkFirst at h
  match hm : m.blocks, hb1, hb, h with
  | x :: y :: bs, hb1, hb, h =>
    have e : y = b1 := by simpa using hb1
    subst e
    rw [List.getElem?_cons_succ, List.getElem?_cons_succ] at hb
    simp only [List.all_eq_true] at h
    have h1 := h b (List.mem_of_getElem? hb) p hp
    rw [hn] at h1
    have h2 : ((y.pts ++ y.sfs).all fun p1 => !decide (p1.pt.id = p.pt.id) || p1.base.isNone) = true := h1
    rw [List.all_eq_true] at h2
    have h3 := h2 p1 hp1
    rw [decide_eq_true hid] at h3
    simpa using h3

example : ∃ e ms', deviceToPics exactLib false [fullModel] = .ok e ∧
    deviceFromPics exactLib (fun _ => .ok exType) e = (ms', .ok ()) ∧ List.Forall₂ SameModel [fullModel] ms' ∧
    List.Forall₂ (fun m n => List.Forall₂ (fun b c => List.Forall₂ (fun p q => p.base ≠ none → getValue exactLib q = getValue exactLib p)
      b.pts c.pts) m.blocks n.blocks) [fullModel] ms' := by
  have hv : ∀ m ∈ [fullModel], LoadedModel (fun _ => .ok exType) m ∧
      (∀ mt, (Except.ok exType : Py ModelType) = .ok mt → DefOK mt) ∧ ValuesOK exactLib m ∧ FirstLeast m := by
    intro m hm
    rw [List.mem_singleton] at hm
    subst hm
    refine ⟨fullModel_loaded, fun mt hmt => ?_, valuesOK_check _ (by decide +kernel), firstLeast_check _ (by decide +kernel)⟩
    cases hmt; exact exType_defOK
  have hr : ∀ m ∈ [fullModel], ReadScales m := by
    intro m hm
    rw [List.mem_singleton] at hm
    subst hm
    exact readScales_check _ (by decide +kernel)
  have hc : ∀ b ∈ fullModel.blocks, ∀ p ∈ b.pts ++ b.sfs, checkCan p = true := by decide +kernel
  obtain ⟨e, he⟩ := C41_written exactLib_ok false [fullModel] (by
    intro m hm
    rw [List.mem_singleton] at hm
    subst hm
    exact fun b hb p hp => canScale_check p (hc b hb p hp))
  obtain ⟨ms', h1, h2, _⟩ := C41_roundtrip_partial _ _ e hv he
  obtain ⟨ms'', h3, h4⟩ := C41_values_partial _ _ e hv hr he
  rw [h1] at h3
  cases h3
  exact ⟨e, ms', he, h1, h2, h4⟩

/-- The hypotheses of `C41_exact_partial` and `C41_single`. -/
example : ∃ e e1 ms' ms1, deviceToPics exactLib false [leakModel] = .ok e ∧ deviceToPics exactLib true [leakModel] = .ok e1 ∧
    deviceFromPics exactLib (fun _ => .ok exType) e = (ms', .ok ()) ∧ List.Forall₂ ExactModel [leakModel] ms' ∧
    deviceFromPics exactLib (fun _ => .ok exType) e1 = (ms1, .ok ()) ∧ List.Forall₂ SameFirst [leakModel] ms1 := by
  have hv : ∀ m ∈ [leakModel], LoadedModel (fun _ => .ok exType) m ∧
      (∀ mt, (Except.ok exType : Py ModelType) = .ok mt → DefOK mt) ∧ ValuesOK exactLib m := by
    intro m hm
    rw [List.mem_singleton] at hm
    subst hm
    refine ⟨leakModel_loaded, fun mt hmt => ?_, valuesOK_check _ (by decide +kernel)⟩
    cases hmt; exact exType_defOK
  have hc : ∀ b ∈ leakModel.blocks, ∀ p ∈ b.pts ++ b.sfs, checkCan p = true := by decide +kernel
  have hw : ∀ single, ∃ e, deviceToPics exactLib single [leakModel] = .ok e := fun single =>
    C41_written exactLib_ok single [leakModel] (by
      intro m hm
      rw [List.mem_singleton] at hm
      subst hm
      exact fun b hb p hp => canScale_check p (hc b hb p hp))
  obtain ⟨e, he⟩ := hw false
  obtain ⟨e1, he1⟩ := hw true
  obtain ⟨ms', h1, h2⟩ := C41_exact_partial _ _ e hv he
  obtain ⟨ms1, h3, h4, _⟩ := C41_single _ _ e1 hv he1
  exact ⟨e, e1, ms', ms1, he, he1, h1, h2, h3, h4⟩

/-- A document that cannot be loaded. -/
example : (deviceFromPicsFile exactLib (fun _ => .ok exType)
    (.mk "sunSpecPics" [] none [.mk "device" [] none [.mk "model" [("id", t!"x"), ("len", t!"7")] none []]])).2 = .error .sunSpecError := by
  decide +kernel

end Verif
