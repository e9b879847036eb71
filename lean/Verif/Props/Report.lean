import Verif.Lemmas.IntText
import Verif.Spec.Script
import Verif.Lemmas.Hex
import Verif.Lemmas.PicsBlock
import Verif.Lemmas.Session
import Verif.Props.Script
import Verif.Props.Scan

/-!
# C66: the report of suns.py
-/

namespace Verif
open Spec

theorem pyInt_index {k : Nat} (hk : 0 < k) : pyInt 10 (if k < 10 then '0' :: natDec k else natDec k) = some (k : Int) := by
  by_cases h : k < 10
  · rw [if_pos h]
    have : ∀ k : Fin 10, pyInt 10 ('0' :: natDec k.val) = some (k.val : Int) := by decide +kernel
    exact this ⟨k, h⟩
  · rw [if_neg h]
    have := pyInt_intDec 10 (.inr rfl) (k : Int)
    unfold intDec at this
    rw [if_neg (by omega), Int.natAbs_natCast] at this
    exact this

theorem reportLabel_shows (k : Nat) (t : PointType) : LabelText k t (reportLabel k t) := by
  refine ⟨reportIndex k, ?_, ?_, ?_⟩
  · unfold reportLabel textTrue
    cases t.label with
    | none => simp
    | some l => cases l <;> simp
  · rintro rfl; rfl
  · intro hk
    refine ⟨_, ?_, (pyInt10_iff _ _).1 (pyInt_index hk)⟩
    unfold reportIndex
    rw [if_pos hk]

theorem intDec_strip (i : Int) : rstripNul (intDec i) = intDec i :=
  rstripNul_self fun hl => intDec_not_nul i _ (List.mem_of_getLast? hl) rfl

theorem reportValue_shows (lib : FloatLib) (t : PT) (v : UVal) (hv : v ≠ .none)
    (hb : t = .bitfield16 ∨ t = .bitfield32 → v = .none ∨ ∃ i : Int, 0 ≤ i ∧ v = .int i) :
    ∃ s, reportValue lib t v = .ok s ∧ ValueText lib t v s := by
  unfold reportValue
  by_cases h1 : t = .bitfield16
  · rw [if_pos h1]
    obtain ⟨i, hi, rfl⟩ := (hb (.inl h1)).resolve_left hv
    refine ⟨_, rfl, (pyInt_iff _ _).1 (pyInt_hexW 4 i hi), fun _ => ⟨_, rfl, hexW_length 4 i hi⟩, ?_⟩
    rw [h1]; intro h; cases h
  · rw [if_neg h1]
    by_cases h2 : t = .bitfield32
    · rw [if_pos h2]
      obtain ⟨i, hi, rfl⟩ := (hb (.inr h2)).resolve_left hv
      exact ⟨_, rfl, (pyInt_iff _ _).1 (pyInt_hexW 8 i hi), fun h => absurd h h1, fun _ => ⟨_, rfl, hexW_length 8 i hi⟩⟩
    · rw [if_neg h2]
      refine ⟨_, rfl, ?_⟩
      cases v with
      | none => exact absurd rfl hv
      | int i =>
        refine ⟨?_, fun h => absurd h h1, fun h => absurd h h2⟩
        refine (pyInt_iff _ _).1 ?_
        show pyInt 0 (rstripNul (intDec i)) = _
        rw [intDec_strip]
        exact pyInt_intDec 0 (.inl rfl) i
      | str x => exact rfl
      | flt f => exact rfl

theorem reportPoints_shows (lib : FloatLib) (b : BlockObj) (ps : List PointObj) (hr : ∀ p ∈ ps, ∃ v, getValue lib p = .ok v)
    (hb : ∀ p ∈ ps, p.pt.type = .bitfield16 ∨ p.pt.type = .bitfield32 → ∀ v, getValue lib p = .ok v → v = .none ∨ ∃ i : Int, 0 ≤ i ∧ v = .int i) :
    (reportPoints lib b.index ps).2 = .ok () ∧
    List.Forall₂ (LineShows lib) (ps.filterMap fun p =>
      match getValue lib p with
      | .ok .none => none
      | .ok v => some (b, p, v)
      | .error _ => none) (reportPoints lib b.index ps).1 := by
  induction ps with
  | nil => exact ⟨rfl, .nil⟩
  | cons p ps ih =>
    obtain ⟨i1, i2⟩ := ih (fun q hq => hr q (by simp [hq])) (fun q hq => hb q (by simp [hq]))
    obtain ⟨v, hv⟩ := hr p (by simp)
    rw [List.filterMap_cons]
    rw [reportPoints, hv]
    by_cases hn : v = .none
    · subst hn
      exact ⟨i1, i2⟩
    · obtain ⟨s, s1, s2⟩ := reportValue_shows lib p.pt.type v hn (fun h => hb p (by simp) h v hv)
      have hl : reportLine lib b.index p.pt v = .ok (padRight 40 (reportLabel b.index p.pt) ++ t!" " ++ padLeft 20 s ++ t!" " ++ padRight 10 (p.pt.units.getD [])) := by
        unfold reportLine
        rw [s1]
      have hline : LineShows lib (b, p, v) (padRight 40 (reportLabel b.index p.pt) ++ t!" " ++ padLeft 20 s ++ t!" " ++ padRight 10 (p.pt.units.getD [])) := by
        refine ⟨reportLabel b.index p.pt, s, ?_, reportLabel_shows _ _, s2⟩
        simp [padRight, padLeft]
      cases v with
      | none => exact absurd rfl hn
      | int i => simp only [hl]; exact ⟨i1, .cons hline i2⟩
      | str i => simp only [hl]; exact ⟨i1, .cons hline i2⟩
      | flt i => simp only [hl]; exact ⟨i1, .cons hline i2⟩

theorem forall₂_append {α β : Type} {R : α → β → Prop} {a c : List α} {b d : List β} (h : List.Forall₂ R a b) (h' : List.Forall₂ R c d) :
    List.Forall₂ R (a ++ c) (b ++ d) := by
  induction h with
  | nil => exact h'
  | cons h1 _ ih => exact .cons h1 ih

theorem reportBlocks_shows (lib : FloatLib) (bs : List BlockObj) (hr : ∀ b ∈ bs, ∀ p ∈ b.pts, ∃ v, getValue lib p = .ok v)
    (hb : ∀ b ∈ bs, ∀ p ∈ b.pts, p.pt.type = .bitfield16 ∨ p.pt.type = .bitfield32 → ∀ v, getValue lib p = .ok v → v = .none ∨ ∃ i : Int, 0 ≤ i ∧ v = .int i) :
    (reportBlocks lib bs).2 = .ok () ∧
    List.Forall₂ (LineShows lib) (bs.flatMap fun b => b.pts.filterMap fun p =>
      match getValue lib p with
      | .ok .none => none
      | .ok v => some (b, p, v)
      | .error _ => none) (reportBlocks lib bs).1 := by
  induction bs with
  | nil => exact ⟨rfl, .nil⟩
  | cons b bs ih =>
    obtain ⟨i1, i2⟩ := ih (fun q hq => hr q (by simp [hq])) (fun q hq => hb q (by simp [hq]))
    obtain ⟨p1, p2⟩ := reportPoints_shows lib b b.pts (hr b (by simp)) (hb b (by simp))
    rw [List.flatMap_cons, reportBlocks, p1]
    exact ⟨i1, forall₂_append p2 i2⟩

theorem reportHead_shows (m : MdlObj) (mt : ModelType) (h : m.mtype = some mt) :
    reportHead m.id mt.label = t!"\nmodel: " ++ (match m.mtype.bind (·.label) with | some (c :: l) => c :: l ++ t!" " | _ => []) ++ t!"(" ++ intDec m.id ++ t!")\n" := by
  rw [h]
  unfold reportHead textTrue
  simp only [Option.bind_some]
  cases mt.label with
  | none => simp
  | some l => cases l <;> simp

/-- C66 for models of known types: the report has one section for each model, in order, and in it one line for each implemented point. -/
theorem C66_report_partial (lib : FloatLib) (ms : List MdlObj) (hd : ∀ m ∈ ms, m.mtype ≠ none) (hr : ∀ m ∈ ms, Readable lib m) (hb : ∀ m ∈ ms, BitValues lib m) :
    ∃ secs : List (List Text), report lib ms = (secs.flatten, .ok ()) ∧ List.Forall₂ (ModelShows lib) ms secs := by
  induction ms with
  | nil => exact ⟨[], rfl, .nil⟩
  | cons m ms ih =>
    obtain ⟨secs, h1, h2⟩ := ih (fun x hx => hd x (by simp [hx])) (fun x hx => hr x (by simp [hx])) (fun x hx => hb x (by simp [hx]))
    obtain ⟨mt, hmt⟩ := Option.ne_none_iff_exists'.1 (hd m (by simp))
    obtain ⟨b1, b2⟩ := reportBlocks_shows lib m.blocks (hr m (by simp)) (hb m (by simp))
    refine ⟨(reportHead m.id mt.label :: (reportBlocks lib m.blocks).1) :: secs, ?_, .cons ⟨_, ?_, b2⟩ h2⟩
    · rw [report, hmt]
      simp only [b1]
      rw [h1]
      simp
    · rw [reportHead_shows m mt hmt]
      rfl

/-- A model of unknown type ends the report: nothing is shown of the models after it. -/
theorem C66_unknown (lib : FloatLib) (ms : List MdlObj) (m : MdlObj) (rest : List MdlObj) (hm : m.mtype = none)
    (hd : ∀ m ∈ ms, m.mtype ≠ none) (hr : ∀ m ∈ ms, Readable lib m) (hb : ∀ m ∈ ms, BitValues lib m) :
    ∃ secs : List (List Text), report lib (ms ++ m :: rest) = (secs.flatten, .error .attributeError) ∧ List.Forall₂ (ModelShows lib) ms secs := by
  induction ms with
  | nil =>
    refine ⟨[], ?_, .nil⟩
    rw [List.nil_append, report, hm]
    rfl
  | cons m ms ih =>
    obtain ⟨secs, h1, h2⟩ := ih (fun x hx => hd x (by simp [hx])) (fun x hx => hr x (by simp [hx])) (fun x hx => hb x (by simp [hx]))
    obtain ⟨mt, hmt⟩ := Option.ne_none_iff_exists'.1 (hd m (by simp))
    obtain ⟨b1, b2⟩ := reportBlocks_shows lib m.blocks (hr m (by simp)) (hb m (by simp))
    refine ⟨(reportHead m.id mt.label :: (reportBlocks lib m.blocks).1) :: secs, ?_, .cons ⟨_, ?_, b2⟩ h2⟩
    · rw [List.cons_append, report, hmt]
      simp only [b1]
      rw [h1]
      simp
    · rw [reportHead_shows m mt hmt]
      rfl

/-! ### Bit fields of a device that has been read -/

/-- A bit field without scale factor has no value or a natural number. -/
def BitOK (p : PointObj) : Prop :=
  (p.pt.type = .bitfield16 ∨ p.pt.type = .bitfield32) → p.sf = none ∧ p.vsf = none ∧ (p.base = none ∨ ∃ i : Int, 0 ≤ i ∧ p.base = some (.int i))

theorem unpackU_nonneg {n : Nat} {d : Bytes} {i : Int} (h : unpackU n d = .ok i) : 0 ≤ i := by
  unfold unpackU at h
  split at h
  · cases h; omega
  · cases h

theorem bitfield_fromData {t : PT} (ht : t = .bitfield16 ∨ t = .bitfield32) {d : Bytes} {v : Option Val} (h : t.fromData d = .ok v) :
    ∃ i : Int, 0 ≤ i ∧ v = some (.int i) := by
  have key : ∀ n, (unpackU n d).map (fun i => some (Val.int i)) = .ok v → ∃ i : Int, 0 ≤ i ∧ v = some (.int i) := by
    intro n h
    cases hu : unpackU n d with
    | error e => rw [hu] at h; cases h
    | ok i =>
      rw [hu] at h
      exact ⟨i, unpackU_nonneg hu, (Except.ok.inj h).symm⟩
  rcases ht with rfl | rfl
  · exact key 2 h
  · exact key 4 h

theorem readPoint_bits {maddr : Int} {data : Bytes} {bs : List BlockObj} {p p' : PointObj} (h : readPoint maddr data bs p = .ok p') (hp : BitOK p) : BitOK p' := by
  unfold readPoint at h
  split at h
  · cases h
  · rename_i v hv
    split at h
    · split at h
      · rename_i ref hs
        have := (Except.ok.inj h).symm; subst this
        intro ht
        obtain ⟨h1, -⟩ := hp ht
        rw [hs] at h1; cases h1
      · have := (Except.ok.inj h).symm; subst this
        intro ht
        obtain ⟨h1, h2, -⟩ := hp ht
        exact ⟨h1, h2, .inr (bitfield_fromData ht hv)⟩
    · have := (Except.ok.inj h).symm; subst this
      intro ht
      exact ⟨(hp ht).1, rfl, .inl rfl⟩

theorem readPts_bits (maddr : Int) (data : Bytes) (bs : List BlockObj) (ps : List PointObj) (h : ∀ p ∈ ps, BitOK p) :
    ∀ p ∈ (readPts maddr data bs ps).1, BitOK p := by
  induction ps with
  | nil => exact h
  | cons p ps ih =>
    rw [readPts]
    split
    · exact h
    · rename_i p' hp'
      intro q hq
      rcases List.mem_cons.1 hq with rfl | hq
      · exact readPoint_bits hp' (h p (by simp))
      · exact ih (fun q hq => h q (by simp [hq])) q hq

theorem readBlocksLoop_bits (maddr : Int) (data : Bytes) (rest : List BlockObj) : ∀ done : List BlockObj, (∀ b ∈ done, ∀ p ∈ b.pts, BitOK p) →
    (∀ b ∈ rest, ∀ p ∈ b.pts, BitOK p) → ∀ b ∈ (readBlocksLoop maddr data done rest).1, ∀ p ∈ b.pts, BitOK p := by
  induction rest with
  | nil => intro done hd _; exact hd
  | cons b rest ih =>
    intro done hd hr
    have hb := hr b (by simp)
    have hrest := fun x hx => hr x (List.mem_cons_of_mem b hx)
    have hcons : ∀ (b' : BlockObj), (∀ p ∈ b'.pts, BitOK p) → ∀ x ∈ done ++ b' :: rest, ∀ p ∈ x.pts, BitOK p := by
      intro b' hb' x hx
      rcases List.mem_append.1 hx with hx | hx
      · exact hd x hx
      · rcases List.mem_cons.1 hx with rfl | hx
        · exact hb'
        · exact hrest x hx
    rw [readBlocksLoop]
    split
    · exact hcons _ hb
    · rename_i sfs u heq0
      have hp := readPts_bits maddr data (done ++ { b with sfs := sfs } :: rest) b.pts hb
      split
      · rename_i pts e heq
        rw [heq] at hp
        exact hcons _ hp
      · rename_i pts heq
        rw [heq] at hp
        refine ih _ ?_ hrest
        intro x hx
        rcases List.mem_append.1 hx with hx | hx
        · exact hd x hx
        · rw [List.mem_singleton] at hx
          subst hx
          exact hp

theorem readPoints_bits {σ} (dev : MbDev σ) (s : σ) (m : MdlObj) (h : ∀ b ∈ m.blocks, ∀ p ∈ b.pts, BitOK p) :
    ∀ b ∈ (readPoints dev s m).2.1.blocks, ∀ p ∈ b.pts, BitOK p := by
  unfold readPoints
  split
  · exact h
  · split
    · exact h
    · unfold readApply
      simp only []
      split
      · exact h
      · split
        · exact h
        · split
          · exact h
          · exact readBlocksLoop_bits _ _ _ [] (by simp) h

theorem readModels_bits {σ} (dev : MbDev σ) (ms : List MdlObj) : ∀ s, (∀ m ∈ ms, m.mtype ≠ none ∧ ∀ b ∈ m.blocks, ∀ p ∈ b.pts, BitOK p) →
    ∀ m ∈ (readModels dev ms s).2.1, m.mtype ≠ none ∧ ∀ b ∈ m.blocks, ∀ p ∈ b.pts, BitOK p := by
  induction ms with
  | nil => intro s h; exact h
  | cons m ms ih =>
    intro s h
    have hm := h m (by simp)
    have h1 := readPoints_bits dev s m hm.2
    have h2 : (readPoints dev s m).2.1.mtype = m.mtype := by
      have := readPoints_bare dev s m
      exact (congrArg MdlObj.mtype this :)
    rw [readModels]
    split
    · rename_i s1 m1 e heq
      rw [heq] at h1 h2
      intro x hx
      rcases List.mem_cons.1 hx with rfl | hx
      · exact ⟨by rw [h2]; exact hm.1, h1⟩
      · exact h x (by simp [hx])
    · rename_i s1 m1 u heq
      rw [heq] at h1 h2
      intro x hx
      rcases List.mem_cons.1 hx with rfl | hx
      · exact ⟨by rw [h2]; exact hm.1, h1⟩
      · exact ih s1 (fun x hx => h x (by simp [hx])) x hx

theorem bitValues_of {lib : FloatLib} {m : MdlObj} (h : ∀ b ∈ m.blocks, ∀ p ∈ b.pts, BitOK p) : BitValues lib m := by
  intro b hb p hp ht v hv
  obtain ⟨-, h2, h3⟩ := h b hb p hp ht
  unfold getValue at hv
  rw [h2] at hv
  have hv := Except.ok.inj hv
  rcases h3 with h3 | ⟨i, hi, h3⟩ <;> rw [h3] at hv
  · exact .inl hv.symm
  · exact .inr ⟨i, hi, hv.symm⟩

/-- C66 after `read()` of a device whose models have just been created, have known types and no scaled bit fields: whatever the device has
answered, the report shows the implemented points, if their values can be computed. -/
theorem C66_read_partial {σ} (lib : FloatLib) (dev : MbDev σ) (s : σ) (ms : List MdlObj) (hd : ∀ m ∈ ms, m.mtype ≠ none)
    (hf : ∀ m ∈ ms, ∀ b ∈ m.blocks, ∀ p ∈ b.pts, p.base = none ∧ p.vsf = none)
    (hb : ∀ m ∈ ms, ∀ b ∈ m.blocks, ∀ p ∈ b.pts, (p.pt.type = .bitfield16 ∨ p.pt.type = .bitfield32) → p.sf = none)
    (hr : ∀ m ∈ (readModels dev ms s).2.1, Readable lib m) :
    ∃ secs : List (List Text), report lib (readModels dev ms s).2.1 = (secs.flatten, .ok ()) ∧
      List.Forall₂ (ModelShows lib) (readModels dev ms s).2.1 secs := by
  have h := readModels_bits dev ms s fun m hm => ⟨hd m hm, fun b hb' p hp ht =>
    ⟨hb m hm b hb' p hp ht, (hf m hm b hb' p hp).2, .inl (hf m hm b hb' p hp).1⟩⟩
  exact C66_report_partial lib _ (fun m hm => (h m hm).1) hr (fun m hm => bitValues_of (h m hm).2)

/-- C66, full statement: the report shows all models. -/
def C66_full : Prop :=
  ∀ (lib : FloatLib) (ms : List MdlObj), (∀ m ∈ ms, Readable lib m) → (∀ m ∈ ms, BitValues lib m) →
    ∃ secs : List (List Text), report lib ms = (secs.flatten, .ok ()) ∧ List.Forall₂ (ModelShows lib) ms secs

/-- C66 is violated: a device with a model of unknown type. -/
theorem C66_violated : ¬ C66_full := by
  intro h
  obtain ⟨secs, h1, -⟩ := h exactLib [mdlNew 64900 40070 10] (by intro m hm b hb; simp only [List.mem_singleton] at hm; subst hm; cases hb)
    (by intro m hm b hb; simp only [List.mem_singleton] at hm; subst hm; cases hb)
  have : (report exactLib [mdlNew 64900 40070 10]).2 = .error .attributeError := by decide +kernel
  rw [h1] at this
  cases this

/-- A definition with a bit field and a repeating block. -/
def evtType : ModelType where
  id := 901
  len := 3
  name := t!"events"
  label := some (t!"Events")
  fixed := ⟨false, .str (t!"3"), t!"fixed", [
    { id := t!"Evt", offset := 0, type := .bitfield32, len := 2, label := some (t!"Event") },
    { id := t!"St", offset := 2, type := .enum16, len := 1 }]⟩
  rep := some ⟨true, .str (t!"1"), t!"repeating", [{ id := t!"T", offset := 0, type := .int16, len := 1, units := some (t!"C"), label := some (t!"Temp") }]⟩

/-- The model at 40002 with two repetitions. -/
def evtModel : MdlObj := (mdlLoad (.ok evtType) (mdlNew 901 40002 5)).1

/-- A device in which the registers of the model are `00000012 ffff ff38 002a`. -/
def evtDev : MbDev Unit where
  read _ _ _ := ((), .ok (some [0, 0, 0, 0x12, 0xff, 0xff, 0xff, 0x38, 0, 42]))
  write _ _ _ := ((), .ok ())

/-- Non-vacuity: the model has the properties that are assumed, and this is its report. -/
example : ∃ secs : List (List Text), report exactLib (readModels evtDev [evtModel] ()).2.1 = (secs.flatten, .ok ()) ∧
    List.Forall₂ (ModelShows exactLib) (readModels evtDev [evtModel] ()).2.1 secs := by
  refine C66_read_partial exactLib evtDev () [evtModel] (by decide +kernel) (by decide +kernel) (by decide +kernel) ?_
  have hv : ∀ m ∈ (readModels evtDev [evtModel] ()).2.1, ∀ b ∈ m.blocks, ∀ p ∈ b.pts, p.vsf = none := by decide +kernel
  intro m hm b hb p hp
  refine ⟨baseVal p.base, ?_⟩
  unfold getValue
  rw [hv m hm b hb p hp]
  rfl

example : (readModels evtDev [evtModel] ()).2.2 = .ok () ∧ report exactLib (readModels evtDev [evtModel] ()).2.1 =
    ([t!"\nmodel: Events (901)\n",
      t!"      Event (Evt):                                 0x00000012           ",
      t!"   01:Temp (T):                                          -200 C         ",
      t!"   02:Temp (T):                                            42 C         "], .ok ()) := by decide +kernel

/-- Non-vacuity: a model of unknown type between two others. -/
example : ∃ secs : List (List Text), report exactLib ([evtModel] ++ mdlNew 64900 40070 10 :: [evtModel]) = (secs.flatten, .error .attributeError) ∧
    List.Forall₂ (ModelShows exactLib) [evtModel] secs := by
  have hv : ∀ b ∈ evtModel.blocks, ∀ p ∈ b.pts, p.vsf = none ∧ p.base = none := by decide +kernel
  refine C66_unknown exactLib [evtModel] _ [evtModel] rfl (by decide +kernel) ?_ ?_
  · intro m hm b hb p hp
    rw [List.mem_singleton] at hm; subst hm
    refine ⟨baseVal p.base, ?_⟩
    unfold getValue
    rw [(hv b hb p hp).1]
    rfl
  · intro m hm b hb p hp _ v hg
    rw [List.mem_singleton] at hm; subst hm
    unfold getValue at hg
    rw [(hv b hb p hp).1, (hv b hb p hp).2] at hg
    exact .inl (Except.ok.inj hg).symm

end Verif
