import Verif.Lemmas.LoadTotal

/-!
# C28-C31: loading model definitions
-/

namespace Verif
open Spec

/-! ## C28 Layout -/

/-- C28: whenever loading a model succeeds, its blocks are the fixed block followed by `n` repeating blocks, each
directly after the one before and each with the points of its type at the block's address plus their offsets; and
the blocks fill the reported length exactly (a definition without repeating block may leave registers over). A
reported length of 0 stands for the length of the definition. The fuel is arbitrary. -/
theorem C28_layout (fuel : Nat) (mt : ModelType) (id addr len : Int) (m : MdlObj)
    (h : loadWith fuel (.ok mt) (mdlNew id addr len) = (m, .ok ())) :
    ∃ (L F : Int), L = (if len = 0 then mt.len else len) ∧ mt.fixed.len.toInt = .ok F ∧
      m.id = id ∧ m.addr = addr ∧ m.len = L ∧
      (mt.rep = none → fixedLen id L F ≤ L ∧ Layout mt addr (fixedLen id L F) 0 0 m.blocks) ∧
      (∀ rb, mt.rep = some rb → ∃ (R : Int) (n : Nat), rb.len.toInt = .ok R ∧ fixedLen id L F + n * R = L ∧
        Layout mt addr (fixedLen id L F) R n m.blocks) := by
  obtain ⟨F, R, n, hl⟩ := loadWith_ok fuel mt id addr len m h
  have hpts : ∀ b ∈ m.blocks, HasPoints b := by
    intro b hb
    obtain ⟨i, hi⟩ := List.getElem?_of_mem hb
    rw [hl.blocks] at hi
    cases i with
    | zero => simp at hi; rw [← hi]; exact mkBlock_hasPoints ..
    | succ i =>
      rw [List.getElem?_cons_succ] at hi
      cases hr : mt.rep with
      | none => rw [hr] at hi; simp at hi
      | some rb =>
        rw [hr] at hi
        dsimp only at hi
        rw [repBlocks_get _ _ _ _ _ _ _ _ hi]
        exact mkBlock_hasPoints ..
  refine ⟨effLen mt len, F, rfl, hl.flen, hl.hid, hl.haddr, hl.hlen, ?_, ?_⟩
  · intro hr
    rcases hl.fits with ⟨_, hn, hf⟩ | ⟨hr', _⟩
    · refine ⟨hf, ?_, ?_, ?_, hpts⟩
      · rw [hl.blocks, hr]; rfl
      · intro b hb
        rw [hl.blocks] at hb
        simp at hb
        rw [← hb]
        exact ⟨rfl, rfl, rfl, rfl⟩
      · intro i b hb
        rw [hl.blocks, hr] at hb
        simp at hb
    · exact absurd hr hr'
  · intro rb hr
    rcases hl.fits with ⟨hr', _⟩ | ⟨_, hf⟩
    · rw [hr] at hr'; cases hr'
    · refine ⟨R, n, hl.rlen rb hr, hf.symm, ?_, ?_, ?_, hpts⟩
      · rw [hl.blocks, hr]; simp [repBlocks_length]
      · intro b hb
        rw [hl.blocks] at hb
        simp at hb
        rw [← hb]
        exact ⟨rfl, rfl, rfl, rfl⟩
      · intro i b hb
        rw [hl.blocks, hr, List.getElem?_cons_succ] at hb
        dsimp only at hb
        rw [repBlocks_get _ _ _ _ _ _ _ _ hb]
        exact ⟨hr, rfl, rfl, by show 1 + i = i + 1; omega⟩

/-- C28: a definition (whose lengths are numbers and whose scale factors can be resolved) is loaded exactly if the
reported length fits it; otherwise (too short, or ending inside a repeating block) `SunSpecError` is raised. -/
theorem C28_accepted (mt : ModelType) (id addr len F L : Int) (hsf : SfOK mt) (hF : mt.fixed.len.toInt = .ok F)
    (hL : L = if len = 0 then mt.len else len) :
    (mt.rep = none →
      (fixedLen id L F ≤ L → (mdlLoad (.ok mt) (mdlNew id addr len)).2 = .ok ()) ∧
      (L < fixedLen id L F → (mdlLoad (.ok mt) (mdlNew id addr len)).2 = .error .sunSpecError)) ∧
    (∀ rb R, mt.rep = some rb → rb.len.toInt = .ok R → 1 ≤ R →
      ((∃ n : Nat, L = fixedLen id L F + n * R) → (mdlLoad (.ok mt) (mdlNew id addr len)).2 = .ok ()) ∧
      ((¬ ∃ n : Nat, L = fixedLen id L F + n * R) →
        (mdlLoad (.ok mt) (mdlNew id addr len)).2 = .error .sunSpecError)) := by
  have hfu : (effLen mt len - F).toNat + 2 ≤ loadFuel (.ok mt) (mdlNew id addr len) := by
    unfold loadFuel
    dsimp only
    rw [hF]
    exact Nat.le_refl _
  have h := loadWith_outcome (loadFuel (.ok mt) (mdlNew id addr len)) mt id addr len F hsf hF hfu
  have hL' : L = effLen mt len := hL
  subst hL'
  refine ⟨fun hr => ⟨fun hf => ?_, fun hf => ?_⟩, h.2⟩
  · have := h.1 hr; rw [if_pos hf] at this; exact this
  · have := h.1 hr; rw [if_neg (by omega)] at this; exact this

/-- An unknown model (its definition cannot be obtained) is not loaded and has no blocks. -/
theorem C28_unknown (fuel : Nat) (e : Exc) (m : MdlObj) :
    (loadWith fuel (.error e) m).2 = .error e ∧ (loadWith fuel (.error e) m).1.blocks = m.blocks := ⟨rfl, rfl⟩

/-- A definition with a fixed block of 3 registers (point, pad, scale factor) and repeating blocks of 2 registers. -/
def exType : ModelType where
  id := 900
  len := 3
  name := t!"example"
  fixed := ⟨false, .str (t!"3"), t!"fixed", [
    { id := t!"A", offset := 0, type := .int16, len := 1, sf := some (t!"A_SF"), rw := true },
    { id := t!"Pad1", offset := 1, type := .pad, len := 1 },
    { id := t!"A_SF", offset := 2, type := .sunssf, len := 1 }]⟩
  rep := some ⟨true, .str (t!"2"), t!"repeating", [
    { id := t!"V", offset := 0, type := .uint16, len := 1, sf := some (t!"A_SF"), rw := true },
    { id := t!"W", offset := 1, type := .uint16, len := 1, sf := some (t!"-1"), rw := true }]⟩

theorem exType_sf : SfOK exType := by
  constructor
  · decide
  · intro rb hrb
    have : rb = (exType.rep.get rfl) := by simp [exType] at hrb ⊢; exact hrb.symm
    subst this
    intro t ht i
    have ht' : t = { id := t!"V", offset := 0, type := .uint16, len := 1, sf := some (t!"A_SF"), rw := true } ∨
        t = { id := t!"W", offset := 1, type := .uint16, len := 1, sf := some (t!"-1"), rw := true } := by
      simp [exType, dataPoints] at ht
      exact ht
    rcases ht' with rfl | rfl
    · have h1 : pyInt 10 (t!"A_SF") = none := by decide
      unfold sfTarget
      dsimp only
      rw [h1]
      dsimp only
      rw [if_neg (by decide), if_pos ⟨by omega, by decide⟩]
      simp
    · have h1 : pyInt 10 (t!"-1") = some (-1) := by decide
      unfold sfTarget
      dsimp only
      rw [h1]
      simp

/-- Non-vacuity: with 7 registers the example has two repeating blocks. -/
example : (mdlLoad (.ok exType) (mdlNew 900 40002 7)).2 = .ok () :=
  ((C28_accepted exType 900 40002 7 3 7 exType_sf (by decide) (by decide)).2 _ 2 rfl (by decide) (by decide)).1
    ⟨2, by decide⟩

example : (mdlLoad (.ok exType) (mdlNew 900 40002 7)).1.blocks.map (fun b => (b.addr, b.len, b.index)) =
    [(40002, 3, 0), (40005, 2, 1), (40007, 2, 2)] := by decide +kernel

/-- With 8 registers it is refused. -/
example : (mdlLoad (.ok exType) (mdlNew 900 40002 8)).2 = .error .sunSpecError :=
  ((C28_accepted exType 900 40002 8 3 8 exType_sf (by decide) (by decide)).2 _ 2 rfl (by decide) (by decide)).2
    (by rintro ⟨n, h⟩; have : fixedLen 900 8 3 = 3 := by decide
        omega)

/-! ## C29 Termination -/

/-- The full statement of C29: for every definition, loading terminates: with enough fuel the result is not `diverge`. -/
def C29_full : Prop := ∀ (mt : ModelType) (m : MdlObj), ∃ fuel, (loadWith fuel (.ok mt) m).2 ≠ .error .diverge

/-- C29 for definitions whose repeating block (if any) has at least one register: `load` terminates on every model
object, and more fuel does not change the result. -/
theorem C29_terminates_partial (mt : Py ModelType) (m : MdlObj)
    (hrep : ∀ t rb R, mt = .ok t → t.rep = some rb → rb.len.toInt = .ok R → 1 ≤ R) (hmt : mt ≠ .error .diverge) :
    (mdlLoad mt m).2 ≠ .error .diverge ∧ ∀ fuel, loadFuel mt m ≤ fuel → loadWith fuel mt m = mdlLoad mt m := by
  unfold mdlLoad
  cases mt with
  | error e =>
    refine ⟨?_, fun _ _ => rfl⟩
    intro h
    exact hmt (by simpa [loadWith] using h)
  | ok mt =>
    cases hF : mt.fixed.len.toInt with
    | error e =>
      have hr : ∀ fuel, (loadWith fuel (.ok mt) m).2 = .error e := by
        intro fuel; unfold loadWith; dsimp only; rw [hF]
      have hr2 : ∀ fuel fuel', loadWith fuel (.ok mt) m = loadWith fuel' (.ok mt) m := by
        intro fuel fuel'; unfold loadWith; dsimp only; rw [hF]
      refine ⟨?_, fun fuel _ => hr2 _ _⟩
      rw [hr]
      intro h
      have := NumText.toInt_no_diverge mt.fixed.len
      rw [hF] at this
      exact this (by simpa using h)
    | ok F =>
      have hfu : loadFuel (.ok mt) m = (effLen mt m.len - F).toNat + 2 := by
        unfold loadFuel; dsimp only; rw [hF]; rfl
      generalize hL : effLen mt m.len = L at hfu
      have hlf := fun fuel => loadLoop_fuel mt.rep (m.addr + L) (fun rb R h1 h2 => hrep mt rb R rfl h1 h2) fuel 0 mt.fixed m.addr
        (fixedLen m.id L F) m.addr { m with readBlocks := m.readBlocks ++ [m.addr], mtype := some mt, len := L }
      have hFl : (fixedLen m.id L F = F) ∨ (fixedLen m.id L F = L) := by
        unfold fixedLen
        by_cases h : m.id = 1 ∧ L = 65
        · rw [if_pos h]; exact .inr h.2.symm
        · rw [if_neg h]; exact .inl rfl
      have hun : ∀ fuel, loadWith fuel (.ok mt) m =
          match loadLoop mt.rep (m.addr + L) fuel 0 mt.fixed m.addr (fixedLen m.id L F) m.addr { m with readBlocks := m.readBlocks ++ [m.addr], mtype := some mt, len := L } with
          | (m2, .error e) => (m2, .error e)
          | (m2, .ok _) => ({ m2 with exposed := true }, .ok ()) := by
        intro fuel
        unfold loadWith
        dsimp only
        rw [hF]
        dsimp only
        rw [← fixedLen_eq, ← hL]
        rfl
      have hlf' := hlf (loadFuel (.ok mt) m) (by rw [hfu]; omega)
      constructor
      · rw [hun]
        generalize loadLoop mt.rep (m.addr + L) (loadFuel (.ok mt) m) 0 mt.fixed m.addr (fixedLen m.id L F) m.addr { m with readBlocks := m.readBlocks ++ [m.addr], mtype := some mt, len := L } = x at hlf'
        obtain ⟨m2, r⟩ := x
        cases r with
        | ok u => simp
        | error e => exact hlf'.1
      · intro fuel hf
        rw [hun, hun, hlf'.2 fuel hf]

/-- C29 is violated: a definition whose repeating block has length 0 (or less) makes `load` loop for ever (growing the
block list) whenever the device reports more registers than the fixed block has. -/
theorem C29_violated_general (mt : ModelType) (rb : BlockType) (id addr len F R : Int) (hsf : SfOK mt)
    (hF : mt.fixed.len.toInt = .ok F) (hrep : mt.rep = some rb) (hR : rb.len.toInt = .ok R) (hR0 : R ≤ 0)
    (hlen : len ≠ 0) (hF2 : fixedLen id len F < len) (fuel : Nat) :
    (loadWith fuel (.ok mt) (mdlNew id addr len)).2 = .error .diverge := by
  rw [loadWith_first fuel mt id addr len F hF]
  have hL : effLen mt len = len := if_neg hlen
  rw [hL]
  dsimp only
  generalize hm1 : ({ mdlNew id addr len with readBlocks := [addr], mtype := some mt, len := len } : MdlObj) = m1
  have hbl : m1.blocks = [] := by rw [← hm1]; rfl
  cases fuel with
  | zero => rfl
  | succ fuel =>
    have hst := loadLoop_step mt.fixed addr mt.rep (addr + len) fuel 0 mt.fixed addr (fixedLen id len F) addr m1 (.inl ⟨hbl, rfl, rfl⟩)
    rw [hst.2.2 (by omega) hsf.1, hrep]
    dsimp only
    rw [hR]
    dsimp only
    rw [if_neg (by omega)]
    have hone' : addBlocks m1 [mkBlock mt.fixed mt.fixed addr (fixedLen id len F) 0] addr =
            { m1 with blocks := m1.blocks ++ [mkBlock mt.fixed mt.fixed addr (fixedLen id len F) 0], readBlocks := m1.readBlocks ++ (loadPoints addr mt.fixed.points addr).reads } := addBlocks_one m1 (mkBlock mt.fixed mt.fixed addr (fixedLen id len F) 0) addr
    rw [← hone']
    have hfirst : FirstSfs mt.fixed addr (addBlocks m1 [mkBlock mt.fixed mt.fixed addr (fixedLen id len F) 0] addr) :=
      ⟨_, [], by simp [addBlocks, hbl]; rfl, rfl⟩
    have := loadLoop_diverges hR hR0 (hsf.2 rb hrep) fuel 0 (addr + fixedLen id len F) (loadPoints addr mt.fixed.points addr).lastRead _ hfirst (by omega : _ < addr + len)
    generalize loadLoop (some rb) (addr + len) fuel (0 + 1) rb (addr + fixedLen id len F) R (loadPoints addr mt.fixed.points addr).lastRead (addBlocks m1 [mkBlock mt.fixed mt.fixed addr (fixedLen id len F) 0] addr) = x at this
    obtain ⟨m2, r⟩ := x
    dsimp only at this
    subst this
    rfl

/-- A definition with an empty repeating block. -/
def zeroRep : ModelType where
  id := 901
  len := 1
  name := t!"zero"
  fixed := ⟨false, .str (t!"1"), t!"fixed", [{ id := t!"A", offset := 0, type := .int16, len := 1 }]⟩
  rep := some ⟨true, .str (t!"0"), t!"repeating", []⟩

theorem zeroRep_diverges (fuel : Nat) : (loadWith fuel (.ok zeroRep) (mdlNew 901 40002 2)).2 = .error .diverge :=
  C29_violated_general zeroRep ⟨true, .str (t!"0"), t!"repeating", []⟩ 901 40002 2 1 0
    ⟨by decide, by intro rb h t ht; simp [zeroRep] at h; subst h; simp [dataPoints] at ht⟩
    (by decide) rfl (by decide) (by decide) (by decide) (by decide) fuel

/-- C29, as stated, is false. -/
theorem C29_violated : ¬ C29_full := by
  intro h
  obtain ⟨fuel, hf⟩ := h zeroRep (mdlNew 901 40002 2)
  exact hf (zeroRep_diverges fuel)

/-- Non-vacuity of `C29_terminates_partial`. -/
example : (mdlLoad (.ok exType) (mdlNew 900 40002 70000)).2 ≠ .error .diverge :=
  (C29_terminates_partial (.ok exType) (mdlNew 900 40002 70000) (by
    intro t rb R ht hr hR
    cases ht
    have : rb = (exType.rep.get rfl) := by simp [exType] at hr ⊢; exact hr.symm
    subst this
    have h2 : (exType.rep.get rfl).len.toInt = .ok 2 := by decide
    rw [h2] at hR
    cases hR; decide) (by simp)).1

/-! ## C30 Scale factors -/

/-- C30: in a loaded model every point has the scale factor that the definition says: the constant; else the scale
factor point of that name in its own block; else the one in the fixed block. A reference is to a scale factor point
that the model has. -/
theorem C30_resolved (fuel : Nat) (mt : ModelType) (id addr len : Int) (m : MdlObj)
    (h : loadWith fuel (.ok mt) (mdlNew id addr len) = (m, .ok ())) (b : BlockObj) (hb : b ∈ m.blocks)
    (p : PointObj) (hp : p ∈ b.pts) :
    sfTarget mt.fixed b.bt b.index p.pt = some p.sf ∧
    ∀ blk sid, p.sf = some (.point blk sid) → ∃ b' q, m.blocks[blk]? = some b' ∧ q ∈ b'.sfs ∧ q.pt.id = sid := by
  obtain ⟨F, R, n, hl⟩ := loadWith_ok fuel mt id addr len m h
  have hkey : ∃ a bl i, b = mkBlock mt.fixed b.bt a bl i ∧ m.blocks[i]? = some b ∧ (∀ t ∈ dataPoints b.bt, sfTarget mt.fixed b.bt i t ≠ none) := by
    obtain ⟨i, hi⟩ := List.getElem?_of_mem hb
    have hi' := hi
    rw [hl.blocks] at hi
    cases i with
    | zero =>
      simp at hi
      have hbt : b.bt = mt.fixed := by rw [← hi]; rfl
      rw [hbt]
      exact ⟨_, _, 0, hi.symm, hi', hl.sf0⟩
    | succ i =>
      rw [List.getElem?_cons_succ] at hi
      cases hr : mt.rep with
      | none => rw [hr] at hi; simp at hi
      | some rb =>
        rw [hr] at hi
        dsimp only at hi
        have hb' := repBlocks_get _ _ _ _ _ _ _ _ hi
        have hlt : i < n := by
          have := (List.getElem?_eq_some_iff.1 hi).1
          rwa [repBlocks_length] at this
        have hbt : b.bt = rb := by rw [hb']; rfl
        rw [hbt]
        exact ⟨_, _, i + 1, by rw [Nat.add_comm i 1]; exact hb', hi', hl.sf1 rb hr i hlt⟩
  obtain ⟨a, bl, i, hbe, hbi, hsf⟩ := hkey
  have hidx : b.index = i := by rw [hbe]; rfl
  rw [hbe] at hp
  simp only [mkBlock] at hp
  obtain ⟨t, ht, rfl⟩ := List.mem_map.1 hp
  have hne := hsf t ht
  have h1 : sfTarget mt.fixed b.bt b.index t = some ((sfTarget mt.fixed b.bt i t).getD none) := by
    rw [hidx]
    cases hx : sfTarget mt.fixed b.bt i t with
    | none => exact absurd hx hne
    | some r => rfl
  refine ⟨h1, ?_⟩
  intro blk sid hsid
  have h2 : sfTarget mt.fixed b.bt i t = some (some (.point blk sid)) := by
    rw [hidx] at h1; rw [h1]; exact congrArg some hsid
  have hsfs : b.sfs = (sfPoints b.bt).map (mkPoint a none) := by rw [hbe]; rfl
  have h0 : m.blocks[0]? = some (mkBlock mt.fixed mt.fixed addr (fixedLen id (effLen mt len) F) 0) := by
    rw [hl.blocks]; rfl
  unfold sfTarget at h2
  cases hs : t.sf with
  | none => rw [hs] at h2; simp at h2
  | some s =>
    rw [hs] at h2
    dsimp only at h2
    cases hi : pyInt 10 s with
    | some v => rw [hi] at h2; simp at h2
    | none =>
      rw [hi] at h2
      dsimp only at h2
      by_cases c1 : s ∈ (sfPoints b.bt).map (·.id)
      · rw [if_pos c1] at h2
        simp only [Option.some.injEq, SfRef.point.injEq] at h2
        obtain ⟨rfl, rfl⟩ := h2
        obtain ⟨t', ht', rfl⟩ := List.mem_map.1 c1
        exact ⟨b, mkPoint a none t', hbi, by rw [hsfs]; exact List.mem_map_of_mem ht', rfl⟩
      · rw [if_neg c1] at h2
        by_cases c2 : 0 < i ∧ s ∈ (sfPoints mt.fixed).map (·.id)
        · rw [if_pos c2] at h2
          simp only [Option.some.injEq, SfRef.point.injEq] at h2
          obtain ⟨rfl, rfl⟩ := h2
          obtain ⟨t', ht', rfl⟩ := List.mem_map.1 c2.2
          refine ⟨_, mkPoint addr none t', h0, ?_, rfl⟩
          show mkPoint addr none t' ∈ (sfPoints mt.fixed).map (mkPoint addr none)
          exact List.mem_map_of_mem ht'
        · rw [if_neg c2] at h2; simp at h2

/-- C30: a point of the fixed block whose scale factor cannot be found makes loading fail (with a `TypeError`: the
message is formatted wrongly). -/
theorem C30_unresolved (mt : ModelType) (id addr len F : Int) (fuel : Nat) (hF : mt.fixed.len.toInt = .ok F)
    (hfit : fixedLen id (if len = 0 then mt.len else len) F ≤ (if len = 0 then mt.len else len))
    (t : PointType) (ht : t ∈ dataPoints mt.fixed) (hn : sfTarget mt.fixed mt.fixed 0 t = none) :
    (loadWith (fuel + 1) (.ok mt) (mdlNew id addr len)).2 = .error .typeError := by
  rw [loadWith_first (fuel + 1) mt id addr len F hF]
  change fixedLen id (effLen mt len) F ≤ effLen mt len at hfit
  dsimp only
  generalize hm1 : ({ mdlNew id addr len with readBlocks := [addr], mtype := some mt, len := effLen mt len } : MdlObj) = m1
  have hbl : m1.blocks = [] := by rw [← hm1]; rfl
  have hst := (loadLoop_step mt.fixed addr mt.rep (addr + effLen mt len) fuel 0 mt.fixed addr (fixedLen id (effLen mt len) F) addr m1 (.inl ⟨hbl, rfl, rfl⟩)).2.1 (by omega) ⟨t, ht, hn⟩
  generalize loadLoop mt.rep (addr + effLen mt len) (fuel + 1) 0 mt.fixed addr (fixedLen id (effLen mt len) F) addr m1 = x at hst
  obtain ⟨m2, r⟩ := x
  dsimp only at hst
  subst hst
  rfl

/-- C30: a point of any block whose scale factor cannot be found: loading does not succeed. -/
theorem C30_unresolved_repeating (mt : ModelType) (id addr len : Int) (fuel : Nat) (m : MdlObj) (rb : BlockType)
    (hrep : mt.rep = some rb) (t : PointType) (ht : t ∈ dataPoints rb) (hn : ∀ i, sfTarget mt.fixed rb (i + 1) t = none)
    (h : loadWith fuel (.ok mt) (mdlNew id addr len) = (m, .ok ())) : m.blocks.length = 1 := by
  obtain ⟨F, R, n, hl⟩ := loadWith_ok fuel mt id addr len m h
  cases n with
  | zero => rw [hl.blocks, hrep]; rfl
  | succ n => exact absurd (hn 0) (hl.sf1 rb hrep 0 (by omega) t ht)

/-- Non-vacuity: the example's points refer to the fixed block's scale factor and to the constant -1. -/
example : (mdlLoad (.ok exType) (mdlNew 900 40002 7)).1.blocks.map (fun b => b.pts.map (·.sf)) =
    [[some (.point 0 (t!"A_SF"))], [some (.point 0 (t!"A_SF")), some (.const (-1))],
     [some (.point 0 (t!"A_SF")), some (.const (-1))]] := by decide +kernel

/-! ## C31 Reads -/

/-- C31: the reads of a loaded model are consecutive and cover exactly its registers. -/
theorem C31_cover (fuel : Nat) (mt : ModelType) (id addr len : Int) (m : MdlObj)
    (h : loadWith fuel (.ok mt) (mdlNew id addr len) = (m, .ok ())) : Tiles addr (addr + m.len) (readPlan m) := by
  obtain ⟨F, R, n, hl⟩ := loadWith_ok fuel mt id addr len m h
  unfold readPlan
  by_cases h1 : m.readBlocks.length = 1
  · rw [if_pos h1, hl.haddr]
    exact ⟨rfl, rfl⟩
  · rw [if_neg h1, hl.reads, hl.haddr]
    exact readPlanLoop_tiles _ _ _

theorem spansOf_mem {a : Int} {ps : List PointType} {x : Int × Int} (h : x ∈ spansOf a ps) :
    ∃ t ∈ ps, t.type ≠ .pad ∧ x = (a + t.offset, t.len) := by
  unfold spansOf at h
  obtain ⟨t, ht, rfl⟩ := List.mem_map.1 h
  have := List.mem_filter.1 ht
  exact ⟨t, this.1, by simpa using this.2, rfl⟩

theorem spansOf_pairwise {a bl : Int} {bt : BlockType} (h : BlockOrdered bt bl) :
    (spansOf a bt.points).Pairwise fun x y => x.1 + x.2 ≤ y.1 := by
  unfold spansOf
  rw [List.pairwise_map]
  refine h.order.imp ?_
  intro x y hxy
  dsimp only
  omega

/-- The points of repeating blocks lie in order inside the blocks. -/
theorem repBlocks_spans (bt0 rb : BlockType) (R : Int) (h : BlockOrdered rb R) (hR : 0 ≤ R) (n : Nat) : ∀ (B : Int) (i : Nat),
    (blockSpans (repBlocks bt0 rb R n B i)).Pairwise (fun x y => x.1 + x.2 ≤ y.1) ∧
    ∀ x ∈ blockSpans (repBlocks bt0 rb R n B i), B ≤ x.1 ∧ x.1 + x.2 ≤ B + n * R ∧ 1 ≤ x.2 ∧ x.2 ≤ 125 := by
  induction n with
  | zero => intro B i; exact ⟨.nil, by simp [repBlocks, blockSpans]⟩
  | succ n ih =>
    intro B i
    have e : blockSpans (repBlocks bt0 rb R (n + 1) B i) = spansOf B rb.points ++ blockSpans (repBlocks bt0 rb R n (B + R) (i + 1)) := rfl
    obtain ⟨i1, i2⟩ := ih (B + R) (i + 1)
    have hnR : (0 : Int) ≤ n * R := Int.mul_nonneg (by omega) hR
    have hb : ∀ x ∈ spansOf B rb.points, B ≤ x.1 ∧ x.1 + x.2 ≤ B + R ∧ 1 ≤ x.2 ∧ x.2 ≤ 125 := by
      intro x hx
      obtain ⟨t, ht, htp, rfl⟩ := spansOf_mem hx
      have h1 := h.inside t ht htp
      have h2 := h.size t ht htp
      dsimp only
      omega
    have e2 : ((n + 1 : Nat) : Int) * R = n * R + R := by push_cast; rw [Int.add_mul]; omega
    rw [e, e2]
    constructor
    · rw [List.pairwise_append]
      refine ⟨spansOf_pairwise h, i1, ?_⟩
      intro x hx y hy
      have := hb x hx
      have := i2 y hy
      omega
    · intro x hx
      rcases List.mem_append.1 hx with hx | hx
      · have := hb x hx; omega
      · have := i2 x hx; omega

theorem Loaded.spans {mt : ModelType} {id addr L F R : Int} {n : Nat} {m : MdlObj} (hl : Loaded mt id addr L F R n m)
    (hof : BlockOrdered mt.fixed (fixedLen id L F)) (hor : ∀ rb, mt.rep = some rb → BlockOrdered rb R ∧ 0 ≤ R)
    (hF0 : 0 ≤ fixedLen id L F) :
    (blockSpans m.blocks).Pairwise (fun x y => x.1 + x.2 ≤ y.1) ∧
    (∀ x ∈ blockSpans m.blocks, addr ≤ x.1 ∧ x.1 + x.2 ≤ addr + L ∧ 1 ≤ x.2 ∧ x.2 ≤ 125) ∧ 0 ≤ L := by
  have hb : ∀ x ∈ spansOf addr mt.fixed.points, addr ≤ x.1 ∧ x.1 + x.2 ≤ addr + fixedLen id L F ∧ 1 ≤ x.2 ∧ x.2 ≤ 125 := by
    intro x hx
    obtain ⟨t, ht, htp, rfl⟩ := spansOf_mem hx
    have h1 := hof.inside t ht htp
    have h2 := hof.size t ht htp
    dsimp only
    omega
  rw [hl.blocks]
  cases hr : mt.rep with
  | none =>
    dsimp only
    have e : blockSpans [mkBlock mt.fixed mt.fixed addr (fixedLen id L F) 0] = spansOf addr mt.fixed.points := by
      simp [blockSpans, mkBlock]
    rcases hl.fits with ⟨_, _, hf⟩ | ⟨hr', _⟩
    · rw [e]
      refine ⟨spansOf_pairwise hof, ?_, by omega⟩
      intro x hx
      have := hb x hx
      omega
    · exact absurd hr hr'
  | some rb =>
    dsimp only
    obtain ⟨ho, hR⟩ := hor rb hr
    rcases hl.fits with ⟨hr', _⟩ | ⟨_, hf⟩
    · rw [hr] at hr'; cases hr'
    · have hnR : (0 : Int) ≤ n * R := Int.mul_nonneg (by omega) hR
      obtain ⟨i1, i2⟩ := repBlocks_spans mt.fixed rb R ho hR n (addr + fixedLen id L F) 1
      have e : blockSpans (mkBlock mt.fixed mt.fixed addr (fixedLen id L F) 0 :: repBlocks mt.fixed rb R n (addr + fixedLen id L F) 1) =
        spansOf addr mt.fixed.points ++ blockSpans (repBlocks mt.fixed rb R n (addr + fixedLen id L F) 1) := rfl
      rw [e]
      refine ⟨?_, ?_, by omega⟩
      · rw [List.pairwise_append]
        refine ⟨spansOf_pairwise hof, i1, ?_⟩
        intro x hx y hy
        have := hb x hx
        have := i2 y hy
        omega
      · intro x hx
        rcases List.mem_append.1 hx with hx | hx
        · have := hb x hx; omega
        · have := i2 x hx; omega

theorem Loaded.point_span {mt : ModelType} {id addr L F R : Int} {n : Nat} {m : MdlObj} (hl : Loaded mt id addr L F R n m)
    (b : BlockObj) (hb : b ∈ m.blocks) (p : PointObj) (hp : p ∈ b.pts ∨ p ∈ b.sfs) : (p.addr, p.pt.len) ∈ blockSpans m.blocks := by
  refine List.mem_flatMap.2 ⟨b, hb, ?_⟩
  have hbe : ∃ a bl i, b = mkBlock mt.fixed b.bt a bl i := by
    obtain ⟨i, hi⟩ := List.getElem?_of_mem hb
    rw [hl.blocks] at hi
    cases i with
    | zero =>
      simp at hi
      have hbt : b.bt = mt.fixed := by rw [← hi]; rfl
      rw [hbt]
      exact ⟨_, _, 0, hi.symm⟩
    | succ i =>
      rw [List.getElem?_cons_succ] at hi
      cases hr : mt.rep with
      | none => rw [hr] at hi; simp at hi
      | some rb =>
        rw [hr] at hi
        dsimp only at hi
        have hb' := repBlocks_get _ _ _ _ _ _ _ _ hi
        have hbt : b.bt = rb := by rw [hb']; rfl
        rw [hbt]
        exact ⟨_, _, _, hb'⟩
  obtain ⟨a, bl, i, hbe⟩ := hbe
  have ha : b.addr = a := by rw [hbe]; rfl
  rw [ha]
  rw [hbe] at hp
  unfold spansOf
  rcases hp with hp | hp
  · simp only [mkBlock] at hp
    obtain ⟨t, ht, rfl⟩ := List.mem_map.1 hp
    have ht' := List.mem_filter.1 ht
    exact List.mem_map.2 ⟨t, List.mem_filter.2 ⟨ht'.1, by have := ht'.2; simp at this ⊢; exact this.1⟩, rfl⟩
  · simp only [mkBlock] at hp
    obtain ⟨t, ht, rfl⟩ := List.mem_map.1 hp
    have ht' := List.mem_filter.1 ht
    exact List.mem_map.2 ⟨t, List.mem_filter.2 ⟨ht'.1, by have := ht'.2; simp at this ⊢; rw [this]; decide⟩, rfl⟩

/-- C31: if the points of a definition lie in order in their blocks and have at most 125 registers, then each point of
the loaded model lies in the first 125 registers of one of the reads, that is (C09, C15) in its first Modbus request:
no point is split over two requests. -/
theorem C31_whole (fuel : Nat) (mt : ModelType) (id addr len : Int) (m : MdlObj)
    (h : loadWith fuel (.ok mt) (mdlNew id addr len) = (m, .ok ()))
    (hof : ∀ F, mt.fixed.len.toInt = .ok F → BlockOrdered mt.fixed (fixedLen id m.len F) ∧ 0 ≤ fixedLen id m.len F)
    (hor : ∀ rb R, mt.rep = some rb → rb.len.toInt = .ok R → BlockOrdered rb R ∧ 0 ≤ R) :
    (∀ c ∈ readPlan m, 0 ≤ c.2) ∧
    ∀ b ∈ m.blocks, ∀ p, p ∈ b.pts ∨ p ∈ b.sfs →
      ∃ c ∈ readPlan m, c.1 ≤ p.addr ∧ p.addr + p.pt.len ≤ c.1 + min c.2 125 := by
  obtain ⟨F, R, n, hl⟩ := loadWith_ok fuel mt id addr len m h
  have hlen := hl.hlen
  obtain ⟨ho, hF0⟩ := hof F hl.flen
  rw [hlen] at ho hF0
  obtain ⟨s1, s2, s3⟩ := hl.spans ho (fun rb hr => hor rb R hr (hl.rlen rb hr)) hF0
  have key := readPlan_whole (addr + effLen mt len) (blockSpans m.blocks) addr s1 s2 (by omega)
  have hplan : readPlan m = readPlanLoop (addr + effLen mt len) (addr :: readsOf (blockSpans m.blocks) addr) := by
    unfold readPlan
    by_cases h1 : m.readBlocks.length = 1
    · rw [if_pos h1, hl.haddr, hlen]
      have hnil : readsOf (blockSpans m.blocks) addr = [] := by
        rw [hl.reads] at h1
        simpa using h1
      rw [hnil, readPlanLoop]
      have : addr + effLen mt len - addr = effLen mt len := by omega
      rw [this]
    · rw [if_neg h1, ← hl.reads, hl.haddr, hlen]
  rw [hplan]
  refine ⟨key.2.1, ?_⟩
  intro b hb p hp
  obtain ⟨c, hc, h1, h2, h3⟩ := key.2.2 _ (hl.point_span b hb p hp)
  refine ⟨c, hc, h1, ?_⟩
  dsimp only at h2 h3
  omega

/-- A definition with a fixed block of 128 registers: a string of 100 registers, padding, a string of 20 and an
integer. -/
def bigType : ModelType where
  id := 902
  len := 128
  name := t!"big"
  fixed := ⟨false, .str (t!"128"), t!"fixed", [
    { id := t!"S", offset := 0, type := .string, len := 100 },
    { id := t!"Pad", offset := 100, type := .pad, len := 7 },
    { id := t!"T", offset := 107, type := .string, len := 20 },
    { id := t!"N", offset := 127, type := .uint16, len := 1 }]⟩
  rep := none

/-- Non-vacuity: two reads; the second begins with the second string. -/
example : readPlan (mdlLoad (.ok bigType) (mdlNew 902 40002 128)).1 = [(40002, 107), (40109, 21)] := by decide +kernel

example : BlockOrdered bigType.fixed 128 := ⟨by decide, by decide, by decide⟩

end Verif
