import Verif.Lemmas.ClientMarks
import Verif.Props.ClientRead

/-!
# C35-C37: writing models
-/

namespace Verif
open Spec

/-! ## C35 -/

theorem flatMap_pts_sublist (bs : List BlockObj) :
    (bs.flatMap (·.pts)).Sublist (bs.flatMap fun b => b.pts ++ b.sfs) := by
  induction bs with
  | nil => exact .refl _
  | cons b bs ih =>
    simp only [List.flatMap_cons]
    exact List.Sublist.append (List.sublist_append_left _ _) ih

/-- C35: writing a model changes exactly the registers of the points modified since the last write, to the encodings
of their values, whatever subset of points is modified. Assumptions: the points do not share registers, each value
is encoded to as many registers as the point has, the registers exist, and the device accepts writes of up to as many
registers as are modified in a block (`wr`). -/
theorem C35_write_partial {σ} {dev : MbDev σ} {R : σ → RegMem → Prop} {wr : Nat → Prop} (hdev : IsMem dev R wr)
    (s : σ) (mem : RegMem) (hs : R s mem) (m : MdlObj) (hsep : Separate m)
    (hwr : ∀ b ∈ m.blocks, ∀ n, 0 < n → n ≤ dirtyLen b.pts → wr n)
    (hpts : ∀ b ∈ m.blocks, ∀ p ∈ b.pts, p.dirty → 0 < p.pt.len ∧ (∃ rs, Encoded p rs) ∧
      ∀ x, p.addr ≤ x → x < p.addr + p.pt.len → mem x ≠ none) :
    ∃ s' mem', writePoints dev s m = (s', cleanModel m, .ok ()) ∧ R s' mem' ∧
      (∀ b ∈ m.blocks, ∀ p ∈ b.pts, p.dirty → ∃ rs, Encoded p rs ∧ memRegs mem' p.addr p.pt.len.toNat = some rs) ∧
      ∀ x, (∀ b ∈ m.blocks, ∀ p ∈ b.pts, p.dirty → ¬ (p.addr ≤ x ∧ x < p.addr + p.pt.len)) → mem' x = mem x := by
  obtain ⟨s', mem', h1, h2, h3⟩ := wpBlocks_mem hdev m.blocks s mem hs hwr hpts
  obtain ⟨g1, g2⟩ := dirtyStored_spec _ mem mem' h3 (List.Pairwise.sublist (flatMap_pts_sublist _) hsep)
  refine ⟨s', mem', ?_, h2, ?_, ?_⟩
  · unfold writePoints
    rw [h1]
    rfl
  · intro b hb p hp hd
    exact g1 p (List.mem_flatMap.2 ⟨b, hb, hp⟩) hd
  · intro x hx
    apply g2
    intro p hp hd
    obtain ⟨b, hb, hpb⟩ := List.mem_flatMap.1 hp
    exact hx b hb p hpb hd

/-- Every value that can be encoded is encoded to as many registers as the point has, except in strings of less than 8
registers (C05). -/
theorem encoded_of_toData (p : PointObj) (hl : LenOK p.pt) (hs : p.pt.type = .string → 8 ≤ p.pt.len) (d : Bytes)
    (h : p.pt.type.toData p.base (p.pt.len * 2).toNat = .ok d) : ∃ rs, Encoded p rs ∧ d = regBytes rs := by
  have hp := lenOK_pos hl
  have e : (p.pt.len * 2).toNat = 2 * p.pt.len.toNat := by omega
  have hlen : d.length = 2 * p.pt.len.toNat := by
    rw [e] at h
    refine C05_exact_size_partial p.pt.type p.pt.len.toNat ?_ (fun hx => by have := hs hx; omega) p.base d h
    intro n hn
    unfold LenOK at hl
    rw [hn] at hl
    dsimp only at hl
    omega
  obtain ⟨rs, rfl⟩ := exists_regs d (by omega)
  refine ⟨rs, ⟨h, ?_⟩, rfl⟩
  rw [regBytes_length] at hlen
  omega

/-- C35, full statement (for mapped devices): as `C35_write_partial`, for all points whose values can be encoded. -/
def C35_full : Prop :=
  ∀ (base : Int) (bs : List Blk) (mm : MbMap) (m : MdlObj), MapOK mm base bs → ModelOK m → Separate m →
    (∀ b ∈ m.blocks, ∀ p ∈ b.pts, p.dirty → (∃ d, p.pt.type.toData p.base (p.pt.len * 2).toNat = .ok d) ∧
      ∀ x, p.addr ≤ x → x < p.addr + p.pt.len → mapMem base bs x ≠ none) →
    ∀ mm' m' bs', writePoints mapDev mm m = (mm', m', .ok ()) → MapOK mm' base bs' →
      ∀ x, (∀ b ∈ m.blocks, ∀ p ∈ b.pts, p.dirty → ¬ (p.addr ≤ x ∧ x < p.addr + p.pt.len)) → mapMem base bs' x = mapMem base bs x

/-- A definition with two short strings and an integer. -/
def strType : ModelType where
  id := 903
  len := 5
  name := t!"strings"
  fixed := ⟨false, .str (t!"5"), t!"fixed", [
    { id := t!"S", offset := 0, type := .string, len := 2, rw := true },
    { id := t!"T", offset := 2, type := .string, len := 2, rw := true },
    { id := t!"N", offset := 4, type := .uint16, len := 1 }]⟩
  rep := none

/-- The model, with both strings set. -/
def strModel : MdlObj :=
  let m := (mdlLoad (.ok strType) (mdlNew 903 0 5)).1
  { m with blocks := m.blocks.map fun b => { b with pts := b.pts.map fun p =>
      if p.pt.type = .string then { p with base := some (.str (t!"ab")), dirty := true } else p } }

/-- A map with the five registers of the model, all 0x0707. -/
def strMap : MbMap := { newMap with base := .int 0, regs := [⟨.int 0, .int 5, some (List.replicate 10 7), (t!"rw")⟩] }

theorem strMap_ok : MapOK strMap 0 [⟨0, List.replicate 5 (7, 7), t!"rw"⟩] :=
  ⟨by decide +kernel, by decide +kernel, by simp [Gapped]⟩

/-- The map after writing the model. -/
def strMap' : MbMap := { newMap with base := .int 0, regs := [⟨.int 0, .int 5, some [0x61, 0x62, 0, 0, 0, 0x61, 0x62, 0, 0, 0], (t!"rw")⟩] }

theorem strMap'_ok : MapOK strMap' 0 [⟨0, [(0x61, 0x62), (0, 0), (0, 0x61), (0x62, 0), (0, 0)], t!"rw"⟩] :=
  ⟨by decide +kernel, by decide +kernel, by simp [Gapped]⟩

theorem strModel_written : writePoints mapDev strMap strModel = (strMap', (writePoints mapDev strMap strModel).2.1, .ok ()) :=
  Prod.ext (by decide +kernel) (Prod.ext rfl (by decide +kernel))

/-- The points of the model. -/
theorem strModel_pts : strModel.blocks.map (fun b => (b.pts.map fun p => (p.addr, p.pt.len, p.dirty), b.sfs)) =
    [([(0, 2, true), (2, 2, true), (4, 1, false)], [])] := by decide +kernel

instance (p : PointObj) : Decidable (∃ d, p.pt.type.toData p.base (p.pt.len * 2).toNat = .ok d) :=
  match h : p.pt.type.toData p.base (p.pt.len * 2).toNat with
  | .ok d => .isTrue ⟨d, rfl⟩
  | .error _ => .isFalse (by rintro ⟨d, hd⟩; simp at hd)

theorem strModel_ok : ModelOK strModel := by
  have h0 : ∀ b ∈ strModel.blocks, b.sfs = [] ∧ ∀ p ∈ b.pts, (0 ≤ p.addr ∧ p.addr + p.pt.len ≤ 5) ∧ LenOK p.pt ∧ p.sf = none := by decide +kernel
  have h1 : strModel.addr = 0 ∧ strModel.len = 5 := by decide +kernel
  refine ⟨by decide +kernel, ?_, ?_, ?_⟩
  · intro b hb p hp
    obtain ⟨e1, e2⟩ := h0 b hb
    rw [e1] at hp
    have := (e2 p (by simpa using hp)).1
    rw [h1.1, h1.2]
    omega
  · intro b hb p hp
    obtain ⟨e1, e2⟩ := h0 b hb
    rw [e1] at hp
    exact (e2 p (by simpa using hp)).2.1
  · intro i b hb p hp blk id hsf
    have := (h0 b (List.mem_of_getElem? hb)).2 p hp
    rw [this.2.2] at hsf
    cases hsf

/-- C35 is violated: a string of less than 8 registers is encoded with one byte too many. Writing two adjacent ones
garbles the second and overwrites the register after it. -/
theorem C35_violated : ¬ C35_full := by
  intro h
  have hp : ∀ b ∈ strModel.blocks, ∀ p ∈ b.pts, p.dirty → (∃ d, p.pt.type.toData p.base (p.pt.len * 2).toNat = .ok d) ∧ 0 ≤ p.addr ∧ p.addr + p.pt.len ≤ 4 := by
    decide +kernel
  have hex : ∀ x, 0 ≤ x → x < 4 → mapMem 0 [⟨0, List.replicate 5 (7, 7), t!"rw"⟩] x ≠ none := by
    intro x h1 h2
    have : x = 0 ∨ x = 1 ∨ x = 2 ∨ x = 3 := by omega
    rcases this with rfl | rfl | rfl | rfl <;> decide +kernel
  have hsep : Separate strModel := by unfold Separate; decide +kernel
  have := h 0 _ strMap strModel strMap_ok strModel_ok hsep (fun b hb p hpp hd =>
      ⟨(hp b hb p hpp hd).1, fun x h1 h2 => by have := (hp b hb p hpp hd).2; exact hex x (by omega) (by omega)⟩)
    strMap' _ _ strModel_written strMap'_ok 4 (fun b hb p hpp hd => by have := (hp b hb p hpp hd).2; omega)
  revert this
  decide +kernel

/-! ## C36 -/

/-- C36, full statement, for any device (whose accepted writes are recorded by `logDev`) and any model: after a normal
return no point is marked as modified and every point that was has been written; after an exception every point that
was marked is still marked or has been written. -/
def C36_full : Prop :=
  ∀ (σ : Type) (dev : MbDev σ) (s : σ) (m : MdlObj), ModelOK m → Separate m →
    ∀ s' m' r, writePoints (logDev dev) (s, []) m = (s', m', r) →
    ∀ (i j : Nat) (b b' : BlockObj) (p p' : PointObj), m.blocks[i]? = some b → m'.blocks[i]? = some b' →
      b.pts[j]? = some p → b'.pts[j]? = some p' →
      (r = .ok () → p'.dirty = false ∧ (p.dirty = true → Accepted s'.2 p)) ∧
      (r ≠ .ok () → p.dirty = true → p'.dirty = true ∨ Accepted s'.2 p)

theorem hpts_of_len {m : MdlObj} (hm : ∀ b ∈ m.blocks, ∀ p ∈ b.pts, p.dirty → LenOK p.pt ∧ (p.pt.type = .string → 8 ≤ p.pt.len)) :
    ∀ b ∈ m.blocks, ∀ p ∈ b.pts, p.dirty → ∀ d, p.pt.type.toData p.base (p.pt.len * 2).toNat = .ok d → ∃ rs, Encoded p rs := by
  intro b hb p hp hd d h
  obtain ⟨rs, h1, _⟩ := encoded_of_toData p (hm b hb p hp hd).1 (hm b hb p hp hd).2 d h
  exact ⟨rs, h1⟩

/-- C36, normal return: after `write_points` returns no point is marked as modified, nothing else has changed, and the
value of every point that was marked has been written to its own registers by a request the device accepted - whatever
the device does. -/
theorem C36_returns_partial {σ} (dev : MbDev σ) (s : σ) (m : MdlObj)
    (hm : ∀ b ∈ m.blocks, ∀ p ∈ b.pts, p.dirty → LenOK p.pt ∧ (p.pt.type = .string → 8 ≤ p.pt.len))
    (s' : σ × List (Int × Bytes)) (m' : MdlObj) (h : writePoints (logDev dev) (s, []) m = (s', m', .ok ())) :
    m' = cleanModel m ∧ ∀ b ∈ m.blocks, ∀ p ∈ b.pts, p.dirty → Accepted s'.2 p := by
  obtain ⟨s2, bs2, r, l, i, k, h1, h2, h3, h4, h5⟩ := wpBlocks_any dev m.blocks (s, []) (hpts_of_len hm)
  unfold writePoints at h
  rw [h1] at h
  dsimp only at h
  cases h
  have hi := h4 rfl
  constructor
  · unfold cleanModel
    congr 1
    apply List.ext_getElem?
    intro j
    by_cases hj : j < m.blocks.length
    · have e1 : m.blocks[j]? = some m.blocks[j] := List.getElem?_eq_getElem hj
      have e2 : bs2[j]? = some (bs2[j]'(by omega)) := List.getElem?_eq_getElem (by omega)
      have e3 := ((h5 j _ _ e1 e2).1 (by omega)).1
      rw [e2, List.getElem?_map, e1, e3]
      rfl
    · rw [List.getElem?_eq_none (by omega), List.getElem?_map, List.getElem?_eq_none (by omega)]
      rfl
  · intro b hb p hp hd
    obtain ⟨j, hj⟩ := List.getElem?_of_mem hb
    have hlt : j < m.blocks.length := (List.getElem?_eq_some_iff.1 hj).1
    have e2 : bs2[j]? = some (bs2[j]'(by omega)) := List.getElem?_eq_getElem (by omega)
    exact ((h5 j _ _ hj e2).1 (by omega)).2 p hp hd

/-- C36, exception: the points of the blocks before the one being written (number `i`) have been written; the marks of
the points of the blocks after it, and of the points of block `i` after the one being written (number `k`), are
unchanged. Missing: the points of block `i` before number `k` that were merged into the failed request have lost their
marks (`C36_violated`). -/
theorem C36_raises_partial {σ} (dev : MbDev σ) (s : σ) (m : MdlObj)
    (hm : ∀ b ∈ m.blocks, ∀ p ∈ b.pts, p.dirty → LenOK p.pt ∧ (p.pt.type = .string → 8 ≤ p.pt.len))
    (s' : σ × List (Int × Bytes)) (m' : MdlObj) (e : Exc) (h : writePoints (logDev dev) (s, []) m = (s', m', .error e)) :
    ∃ i k, ∀ (i' j : Nat) (b b' : BlockObj) (p p' : PointObj), m.blocks[i']? = some b → m'.blocks[i']? = some b' →
      b.pts[j]? = some p → b'.pts[j]? = some p' → p.dirty →
      (i' < i → Accepted s'.2 p) ∧ (i < i' ∨ i' = i ∧ k ≤ j → p' = p) := by
  obtain ⟨s2, bs2, r, l, i, k, h1, h2, h3, h4, h5⟩ := wpBlocks_any dev m.blocks (s, []) (hpts_of_len hm)
  unfold writePoints at h
  rw [h1] at h
  dsimp only at h
  cases h
  refine ⟨i, k, ?_⟩
  intro i' j b b' p p' hb hb' hp hp' hd
  obtain ⟨g1, g2, g3⟩ := h5 i' b b' hb hb'
  refine ⟨fun hlt => (g1 hlt).2 p (List.mem_of_getElem? hp) hd, ?_⟩
  rintro (hlt | ⟨rfl, hk⟩)
  · rw [g3 hlt, hp] at hp'
    exact (Option.some.inj hp').symm
  · rw [g2 rfl] at hp'
    dsimp only at hp'
    by_cases hkl : k ≤ b.pts.length
    · rw [List.getElem?_append_right (by simp; omega)] at hp'
      rw [List.length_map, List.length_take, Nat.min_eq_left hkl, List.getElem?_drop, show k + (j - k) = j by omega, hp] at hp'
      exact (Option.some.inj hp').symm
    · have : j < b.pts.length := (List.getElem?_eq_some_iff.1 hp).1
      omega

/-- A device that does not answer. -/
def deadDev : MbDev Unit where
  read _ _ _ := ((), .error .modbusClientTimeout)
  write _ _ _ := ((), .error .modbusClientTimeout)

/-- The model with its points (scale factors excepted) changed by `f`. -/
def mapPts (f : PointObj → PointObj) (m : MdlObj) : MdlObj :=
  { m with blocks := m.blocks.map fun b => { b with pts := b.pts.map f } }

theorem mapPts_ok {m : MdlObj} (f : PointObj → PointObj) (hf : ∀ p, (f p).addr = p.addr ∧ (f p).pt = p.pt ∧ (f p).sf = p.sf)
    (h : ModelOK m) : ModelOK (mapPts f m) := by
  have key : ∀ b ∈ (mapPts f m).blocks, ∃ b0 ∈ m.blocks, b.sfs = b0.sfs ∧ ∀ p, p ∈ b.pts ∨ p ∈ b.sfs → ∃ p0, (p0 ∈ b0.pts ∨ p0 ∈ b0.sfs) ∧
      p.addr = p0.addr ∧ p.pt = p0.pt := by
    intro b hb
    obtain ⟨b0, hb0, rfl⟩ := List.mem_map.1 hb
    refine ⟨b0, hb0, rfl, ?_⟩
    intro p hp
    rcases hp with hp | hp
    · obtain ⟨p0, hp0, rfl⟩ := List.mem_map.1 hp
      exact ⟨p0, .inl hp0, (hf p0).1, (hf p0).2.1⟩
    · exact ⟨p, .inr hp, rfl, rfl⟩
  refine ⟨h.mtype, ?_, ?_, ?_⟩
  · intro b hb p hp
    obtain ⟨b0, hb0, _, h1⟩ := key b hb
    obtain ⟨p0, hp0, e1, e2⟩ := h1 p hp
    rw [e1, e2]
    exact h.inside b0 hb0 p0 hp0
  · intro b hb p hp
    obtain ⟨b0, hb0, _, h1⟩ := key b hb
    obtain ⟨p0, hp0, e1, e2⟩ := h1 p hp
    rw [e2]
    exact h.len b0 hb0 p0 hp0
  · intro i b hb p hp blk id hsf
    unfold mapPts at hb
    rw [List.getElem?_map] at hb
    cases hb0 : m.blocks[i]? with
    | none => rw [hb0] at hb; cases hb
    | some b0 =>
      rw [hb0] at hb
      cases hb
      obtain ⟨p0, hp0, rfl⟩ := List.mem_map.1 hp
      rw [(hf p0).2.2] at hsf
      obtain ⟨g1, b', g2, g3⟩ := h.refs i b0 hb0 p0 hp0 blk id hsf
      refine ⟨g1, { b' with pts := b'.pts.map f }, ?_, g3⟩
      unfold mapPts
      rw [List.getElem?_map, g2]
      rfl

theorem mapPts_separate {m : MdlObj} (f : PointObj → PointObj) (hf : ∀ p, (f p).addr = p.addr ∧ (f p).pt = p.pt ∧ (f p).sf = p.sf)
    (h : Separate m) : Separate (mapPts f m) := by
  have key : ∀ bs : List BlockObj, ((bs.map fun b => { b with pts := b.pts.map f }).flatMap fun b => b.pts ++ b.sfs).map (fun p => (p.addr, p.pt.len)) =
      (bs.flatMap fun b => b.pts ++ b.sfs).map (fun p => (p.addr, p.pt.len)) := by
    intro bs
    induction bs with
    | nil => rfl
    | cons b bs ih =>
      simp only [List.map_cons, List.flatMap_cons, List.map_append, ih, List.map_map]
      congr 2
      apply List.map_congr_left
      intro p _
      simp only [Function.comp, (hf p).1, (hf p).2.1]
  unfold Separate at h ⊢
  have h2 : ((m.blocks.flatMap fun b => b.pts ++ b.sfs).map (fun p => (p.addr, p.pt.len))).Pairwise
      fun (x y : Int × Int) => x.1 + x.2 ≤ y.1 ∨ y.1 + y.2 ≤ x.1 := List.pairwise_map.2 h
  rw [← key m.blocks] at h2
  exact List.pairwise_map.1 h2

/-- `exModel`, with a value assigned to every point. -/
def markedModel : MdlObj := mapPts (fun p => { p with base := some (.int 5), dirty := true }) exModel

theorem exModel_separate : Separate exModel := by unfold Separate; decide +kernel
theorem markedModel_ok : ModelOK markedModel := mapPts_ok _ (fun _ => ⟨rfl, rfl, rfl⟩) exModel_ok
theorem markedModel_separate : Separate markedModel := mapPts_separate _ (fun _ => ⟨rfl, rfl, rfl⟩) exModel_separate

theorem markedModel_fails : (writePoints (logDev deadDev) ((), []) markedModel).2.2 = .error .sunSpecClientError ∧
    (writePoints (logDev deadDev) ((), []) markedModel).1.2 = [] ∧
    (writePoints (logDev deadDev) ((), []) markedModel).2.1.blocks.head?.bind (fun b => b.pts.head?.map (·.dirty)) = some false ∧
    markedModel.blocks.head?.bind (fun b => b.pts.head?.map (·.dirty)) = some true := by
  decide +kernel

/-- C36 is violated: the marks are cleared before the request is sent, so if the device does not answer, the marks of
the points in the request are lost, although nothing has been written. -/
theorem C36_violated : ¬ C36_full := by
  intro h
  obtain ⟨h1, h2, h3, h4⟩ := markedModel_fails
  generalize hX : writePoints (logDev deadDev) ((), []) markedModel = X at h1 h2 h3
  obtain ⟨s', m', r⟩ := X
  dsimp only at h1 h2 h3
  have hh := h Unit deadDev () markedModel markedModel_ok markedModel_separate s' m' r hX 0 0
  rw [h1, h2] at hh
  generalize m'.blocks = B' at h3 hh
  generalize markedModel.blocks = B at h4 hh
  cases B with
  | nil => simp at h4
  | cons b B =>
    cases B' with
    | nil => simp at h3
    | cons b' B' =>
      simp only [List.head?_cons, Option.bind_some, Option.map_eq_some_iff] at h3 h4
      obtain ⟨p, e1, e2⟩ := h4
      obtain ⟨p', e1', e2'⟩ := h3
      have := (hh b b' p p' rfl rfl (by rw [← List.head?_eq_getElem?]; exact e1) (by rw [← List.head?_eq_getElem?]; exact e1')).2 (by simp) e2
      rcases this with h | ⟨w, hw, _⟩
      · rw [e2'] at h; cases h
      · cases hw

/-- Non-vacuity of `C36_returns_partial`: a write that is accepted; and of `C36_raises_partial`: one that is not. -/
example : ∀ b ∈ markedModel.blocks, ∀ p ∈ b.pts, p.dirty → LenOK p.pt ∧ (p.pt.type = .string → 8 ≤ p.pt.len) := by decide +kernel
example : (writePoints (logDev mapDev) (exMap, []) markedModel).2.2 = .ok () := by decide +kernel
example : ∃ i k, ∀ (i' j : Nat) (b b' : BlockObj) (p p' : PointObj), markedModel.blocks[i']? = some b →
      (writePoints (logDev deadDev) ((), []) markedModel).2.1.blocks[i']? = some b' →
      b.pts[j]? = some p → b'.pts[j]? = some p' → p.dirty →
      (i' < i → Accepted (writePoints (logDev deadDev) ((), []) markedModel).1.2 p) ∧ (i < i' ∨ i' = i ∧ k ≤ j → p' = p) :=
  C36_raises_partial deadDev () markedModel (by decide +kernel) _ _ .sunSpecClientError (Prod.ext rfl (Prod.ext rfl markedModel_fails.1))

/-- C36, single points (`ClientPoint.write`), any device: after an exception the point is unchanged, its mark included;
after a normal return it is no longer marked and its value has been written to its registers. -/
theorem C36_point {σ} (dev : MbDev σ) (s : σ) (p p' : PointObj) (hl : LenOK p.pt) (hs : p.pt.type = .string → 8 ≤ p.pt.len)
    (s' : σ × List (Int × Bytes)) (r : Py Unit) (h : writePoint (logDev dev) (s, []) p = (s', p', r)) :
    (r = .ok () → p' = clean p ∧ ∃ rs, Encoded p rs ∧ s'.2 = [(p.addr, regBytes rs)]) ∧ (r ≠ .ok () → p' = p ∧ s'.2 = []) := by
  unfold writePoint at h
  cases ht : p.pt.type.toData p.base (p.pt.len * 2).toNat with
  | error e => rw [ht] at h; cases h; exact ⟨by simp, fun _ => ⟨rfl, rfl⟩⟩
  | ok d =>
    rw [ht] at h
    dsimp only at h
    obtain ⟨rs, h1, rfl⟩ := encoded_of_toData p hl hs d ht
    rcases cdWrite_log dev (s, []) p.addr (regBytes rs) with ⟨s2, hw⟩ | ⟨s2, e, hw⟩
    · rw [hw] at h
      cases h
      exact ⟨fun _ => ⟨rfl, rs, h1, rfl⟩, by simp⟩
    · rw [hw] at h
      cases h
      exact ⟨by simp, fun _ => ⟨rfl, rfl⟩⟩

/-- Scale factor points are never written by `write_points`, marked or not: they are not looked at. -/
theorem C36_scale_points_ignored {σ} (dev : MbDev σ) (s : σ) (m : MdlObj) (sfs : Nat → List PointObj) :
    ∃ bs, writePoints dev s m = ((writePoints dev s m).1, { m with blocks := bs }, (writePoints dev s m).2.2) ∧
      writePoints dev s { m with blocks := m.blocks.mapIdx fun i b => { b with sfs := sfs i } } =
        ((writePoints dev s m).1, { m with blocks := bs.mapIdx fun i b => { b with sfs := sfs i } }, (writePoints dev s m).2.2) := by
  have key : ∀ (bs : List BlockObj) (sfs : Nat → List PointObj) (s : σ),
      wpBlocks dev (bs.mapIdx fun i b => { b with sfs := sfs i }) s =
        ((wpBlocks dev bs s).1, (wpBlocks dev bs s).2.1.mapIdx fun i b => { b with sfs := sfs i }, (wpBlocks dev bs s).2.2) := by
    intro bs
    induction bs with
    | nil => intro sfs s; rfl
    | cons b bs ih =>
      intro sfs s
      rw [List.mapIdx_cons]
      unfold wpBlocks
      dsimp only
      rcases hp : wpPoints dev b.pts { s := s } with ⟨pts, acc, r⟩
      cases r with
      | error e => simp
      | ok u =>
        dsimp only
        rcases hf : wpFlush dev acc with ⟨s', r⟩
        cases r with
        | error e => simp
        | ok u =>
          dsimp only
          rw [ih]
          simp
  refine ⟨(wpBlocks dev m.blocks s).2.1, rfl, ?_⟩
  unfold writePoints
  dsimp only
  rw [key]

end Verif
