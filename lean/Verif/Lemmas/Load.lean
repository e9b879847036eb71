import Verif.Spec.Layout

/-!
# Lemmas about loading models
-/

namespace Verif
open Spec

theorem loadPoints_points (baddr : Int) (bt : BlockType) (lr : Int) :
    (loadPoints baddr bt.points lr).pts = (dataPoints bt).map (fun t => { pt := t, addr := baddr + t.offset }) ∧
    (loadPoints baddr bt.points lr).sfs = (sfPoints bt).map (fun t => { pt := t, addr := baddr + t.offset }) := by
  unfold dataPoints sfPoints
  generalize bt.points = ps
  induction ps generalizing lr with
  | nil => exact ⟨rfl, rfl⟩
  | cons p ps ih =>
    rw [loadPoints]
    by_cases hp : p.type = .pad
    · rw [if_pos hp]
      obtain ⟨i1, i2⟩ := ih lr
      rw [i1, i2]
      simp [hp]
    · rw [if_neg hp]
      dsimp only
      obtain ⟨i1, i2⟩ := ih (if decide (maxReadCount < baddr + p.offset + p.len - lr) = true then baddr + p.offset else lr)
      rw [i1, i2]
      by_cases hs : p.type = .sunssf
      · simp [hs]
      · simp [hs, hp]

theorem hasSf_iff (baddr : Int) (bt : BlockType) (s : Text) :
    hasSf ((sfPoints bt).map (fun t => { pt := t, addr := baddr + t.offset })) s = true ↔ s ∈ (sfPoints bt).map (·.id) := by
  unfold hasSf
  rw [List.any_eq_true]
  simp only [List.mem_map, decide_eq_true_eq]
  constructor
  · rintro ⟨x, ⟨a, ha, rfl⟩, h⟩; exact ⟨a, ha, h⟩
  · rintro ⟨a, ha, h⟩; exact ⟨_, ⟨a, ha, rfl⟩, h⟩

/-- A freshly loaded point. -/
def mkPoint (baddr : Int) (sf : Option SfRef) (t : PointType) : PointObj := { pt := t, addr := baddr + t.offset, sf := sf }

/-- A freshly loaded block, all of whose scale factors are resolved. -/
def mkBlock (bt0 bt : BlockType) (baddr blen : Int) (index : Nat) : BlockObj :=
  ⟨bt, baddr, blen, index, (dataPoints bt).map (fun t => mkPoint baddr ((sfTarget bt0 bt index t).getD none) t),
    (sfPoints bt).map (mkPoint baddr none)⟩

theorem resolveSf_spec (bt0 bt : BlockType) (index : Nat) (baddr a0 : Int) (t : PointType) :
    resolveSf index ((sfPoints bt).map (mkPoint baddr none)) ((sfPoints bt0).map (mkPoint a0 none)) (mkPoint baddr none t) =
      match sfTarget bt0 bt index t with
      | some r => .ok (mkPoint baddr r t)
      | none => .error .typeError := by
  unfold resolveSf sfTarget mkPoint
  dsimp only
  cases hs : t.sf with
  | none => rfl
  | some s =>
    dsimp only
    cases hi : pyInt 10 s with
    | some v => rfl
    | none =>
      dsimp only
      by_cases h1 : s ∈ (sfPoints bt).map (·.id)
      · rw [if_pos ((hasSf_iff baddr bt s).2 h1), if_pos h1]
      · rw [if_neg (fun h => h1 ((hasSf_iff baddr bt s).1 h)), if_neg h1]
        by_cases h2 : 0 < index ∧ s ∈ (sfPoints bt0).map (·.id)
        · have h3 : 0 < index ∧ hasSf ((sfPoints bt0).map (fun t => { pt := t, addr := a0 + t.offset })) s = true :=
            ⟨h2.1, (hasSf_iff a0 bt0 s).2 h2.2⟩
          rw [if_pos h3, if_pos h2]
        · have h3 : ¬ (0 < index ∧ hasSf ((sfPoints bt0).map (fun t => { pt := t, addr := a0 + t.offset })) s = true) :=
            fun h => h2 ⟨h.1, (hasSf_iff a0 bt0 s).1 h.2⟩
          rw [if_neg h3, if_neg h2]

theorem resolveSfs_spec (bt0 bt : BlockType) (index : Nat) (baddr a0 : Int) (ts : List PointType) :
    ((∀ t ∈ ts, sfTarget bt0 bt index t ≠ none) →
      resolveSfs index ((sfPoints bt).map (mkPoint baddr none)) ((sfPoints bt0).map (mkPoint a0 none)) (ts.map (mkPoint baddr none)) =
        (ts.map (fun t => mkPoint baddr ((sfTarget bt0 bt index t).getD none) t), .ok ())) ∧
    ((∃ t ∈ ts, sfTarget bt0 bt index t = none) →
      (resolveSfs index ((sfPoints bt).map (mkPoint baddr none)) ((sfPoints bt0).map (mkPoint a0 none)) (ts.map (mkPoint baddr none))).2 =
        .error .typeError) := by
  induction ts with
  | nil => exact ⟨fun _ => rfl, by simp⟩
  | cons t ts ih =>
    rw [List.map_cons, resolveSfs, resolveSf_spec]
    cases ht : sfTarget bt0 bt index t with
    | none => exact ⟨fun h => absurd ht (h t (by simp)), fun _ => rfl⟩
    | some r =>
      dsimp only
      constructor
      · intro h
        rw [ih.1 fun t' ht' => h t' (by simp [ht'])]
        simp [ht]
      · rintro ⟨t', ht', h'⟩
        rcases List.mem_cons.1 ht' with rfl | ht'
        · rw [ht] at h'; simp at h'
        · exact ih.2 ⟨t', ht', h'⟩

theorem mkBlock_hasPoints (bt0 bt : BlockType) (baddr blen : Int) (index : Nat) : HasPoints (mkBlock bt0 bt baddr blen index) := by
  unfold HasPoints mkBlock mkPoint
  simp [Function.comp_def]

/-- One step of the loop. -/
theorem loadLoop_step (bt0 : BlockType) (a0 : Int) (rep : Option BlockType) (endA : Int) (fuel index : Nat) (bt : BlockType)
    (baddr blen lr : Int) (m : MdlObj)
    (h0 : (m.blocks = [] ∧ bt = bt0 ∧ baddr = a0) ∨ (∃ b rest, m.blocks = b :: rest ∧ b.sfs = (sfPoints bt0).map (mkPoint a0 none))) :
    (endA < baddr + blen → loadLoop rep endA (fuel + 1) index bt baddr blen lr m = (m, .error .sunSpecError)) ∧
    (¬ endA < baddr + blen → (∃ t ∈ dataPoints bt, sfTarget bt0 bt index t = none) →
      (loadLoop rep endA (fuel + 1) index bt baddr blen lr m).2 = .error .typeError) ∧
    (¬ endA < baddr + blen → (∀ t ∈ dataPoints bt, sfTarget bt0 bt index t ≠ none) →
      loadLoop rep endA (fuel + 1) index bt baddr blen lr m =
        let m1 : MdlObj := { m with blocks := m.blocks ++ [mkBlock bt0 bt baddr blen index], readBlocks := m.readBlocks ++ (loadPoints baddr bt.points lr).reads }
        match rep with
        | none => (m1, .ok ())
        | some rb =>
          match rb.len.toInt with
          | .error e => (m1, .error e)
          | .ok rlen =>
            if endA = baddr + blen then (m1, .ok ())
            else loadLoop rep endA fuel (index + 1) rb (baddr + blen) rlen (loadPoints baddr bt.points lr).lastRead m1) := by
  have hp := loadPoints_points baddr bt lr
  have hs0 : firstSfs m.blocks (loadPoints baddr bt.points lr).sfs = (sfPoints bt0).map (mkPoint a0 none) := by
    rcases h0 with ⟨h1, rfl, rfl⟩ | ⟨b, rest, h1, h2⟩
    · rw [h1]; exact hp.2
    · rw [h1]; exact h2
  have hr := resolveSfs_spec bt0 bt index baddr a0 (dataPoints bt)
  have e1 : (dataPoints bt).map (mkPoint baddr none) = (loadPoints baddr bt.points lr).pts := hp.1.symm
  have e2 : (sfPoints bt).map (mkPoint baddr none) = (loadPoints baddr bt.points lr).sfs := hp.2.symm
  refine ⟨?_, ?_, ?_⟩
  · intro h
    rw [loadLoop, if_pos h]
  · intro h hx
    have := hr.2 hx
    rw [loadLoop, if_neg h]
    dsimp only
    rw [hs0, ← e1, ← e2, this]
  · intro h hx
    have := hr.1 hx
    rw [loadLoop, if_neg h]
    dsimp only
    rw [hs0, ← e1, ← e2, this]
    rfl

/-- The registers (address, length) of the points of a block type at an address, padding excepted, in the order of
the definition. -/
def spansOf (baddr : Int) (ps : List PointType) : List (Int × Int) :=
  (ps.filter fun p => p.type ≠ .pad).map fun p => (baddr + p.offset, p.len)

/-- The addresses at which a new read is started. -/
def readsOf : List (Int × Int) → Int → List Int
  | [], _ => []
  | (a, l) :: r, lr => if 125 < a + l - lr then a :: readsOf r a else readsOf r lr

theorem loadPoints_reads (baddr : Int) (ps : List PointType) (lr : Int) (rest : List (Int × Int)) :
    (loadPoints baddr ps lr).reads ++ readsOf rest (loadPoints baddr ps lr).lastRead = readsOf (spansOf baddr ps ++ rest) lr := by
  induction ps generalizing lr with
  | nil => rfl
  | cons p ps ih =>
    rw [loadPoints]
    by_cases hp : p.type = .pad
    · rw [if_pos hp, ih]
      simp [spansOf, hp]
    · rw [if_neg hp]
      have hsp : spansOf baddr (p :: ps) = (baddr + p.offset, p.len) :: spansOf baddr ps := by
        simp [spansOf, hp]
      rw [hsp, List.cons_append, readsOf]
      dsimp only
      unfold maxReadCount
      by_cases hc : 125 < baddr + p.offset + p.len - lr
      · have := ih (baddr + p.offset)
        simp only [hc, decide_true, if_true]
        rw [List.cons_append, this]
      · have := ih lr
        simp only [hc, decide_false, if_false, Bool.false_eq_true]
        rw [this]

/-- `k` repeating blocks from address `a`, numbered from `i`. -/
def repBlocks (bt0 rb : BlockType) (R : Int) : Nat → Int → Nat → List BlockObj
  | 0, _, _ => []
  | k + 1, a, i => mkBlock bt0 rb a R i :: repBlocks bt0 rb R k (a + R) (i + 1)

theorem repBlocks_length (bt0 rb : BlockType) (R : Int) (k : Nat) (a : Int) (i : Nat) : (repBlocks bt0 rb R k a i).length = k := by
  induction k generalizing a i with
  | zero => rfl
  | succ k ih => simp [repBlocks, ih]

theorem repBlocks_get (bt0 rb : BlockType) (R : Int) (k : Nat) (a : Int) (i j : Nat) (b : BlockObj)
    (h : (repBlocks bt0 rb R k a i)[j]? = some b) : b = mkBlock bt0 rb (a + j * R) R (i + j) := by
  induction k generalizing a i j with
  | zero => simp [repBlocks] at h
  | succ k ih =>
    cases j with
    | zero => simp [repBlocks] at h; simp [h]
    | succ j =>
      rw [repBlocks, List.getElem?_cons_succ] at h
      rw [ih _ _ _ h]
      have e1 : a + R + (j : Int) * R = a + ((j + 1 : Nat) : Int) * R := by push_cast; rw [Int.add_mul]; omega
      have e2 : i + 1 + j = i + (j + 1) := by omega
      rw [e1, e2]

/-- The registers of the points of a list of blocks. -/
def blockSpans (bs : List BlockObj) : List (Int × Int) := bs.flatMap fun b => spansOf b.addr b.bt.points

/-- The state after blocks have been added. -/
def addBlocks (m : MdlObj) (bs : List BlockObj) (lr : Int) : MdlObj :=
  { m with blocks := m.blocks ++ bs, readBlocks := m.readBlocks ++ readsOf (blockSpans bs) lr }

theorem addBlocks_one (m : MdlObj) (b : BlockObj) (lr : Int) :
    addBlocks m [b] lr = { m with blocks := m.blocks ++ [b], readBlocks := m.readBlocks ++ (loadPoints b.addr b.bt.points lr).reads } := by
  have h := loadPoints_reads b.addr b.bt.points lr []
  rw [List.append_nil] at h
  unfold addBlocks blockSpans
  simp only [List.flatMap_cons, List.flatMap_nil, List.append_nil]
  rw [← h]
  simp [readsOf]

theorem addBlocks_cons (m : MdlObj) (b : BlockObj) (bs : List BlockObj) (lr : Int) :
    addBlocks (addBlocks m [b] lr) bs (loadPoints b.addr b.bt.points lr).lastRead = addBlocks m (b :: bs) lr := by
  rw [addBlocks_one]
  unfold addBlocks
  have h := loadPoints_reads b.addr b.bt.points lr (blockSpans bs)
  have e : blockSpans (b :: bs) = spansOf b.addr b.bt.points ++ blockSpans bs := rfl
  rw [e, ← h]
  simp

/-- The first block's scale factor points. -/
def FirstSfs (bt0 : BlockType) (a0 : Int) (m : MdlObj) : Prop :=
  ∃ b rest, m.blocks = b :: rest ∧ b.sfs = (sfPoints bt0).map (mkPoint a0 none)

theorem FirstSfs.add {bt0 : BlockType} {a0 : Int} {m : MdlObj} (h : FirstSfs bt0 a0 m) (bs : List BlockObj) (lr : Int) :
    FirstSfs bt0 a0 (addBlocks m bs lr) := by
  obtain ⟨b, rest, h1, h2⟩ := h
  exact ⟨b, rest ++ bs, by simp [addBlocks, h1], h2⟩

/-- A repeating block step. -/
theorem loadLoop_rep_step {bt0 rb : BlockType} {a0 : Int} {endA R : Int} (hR : rb.len.toInt = .ok R) (fuel i : Nat) (B lr : Int) (m : MdlObj)
    (h0 : FirstSfs bt0 a0 m) (hsf : ∀ t ∈ dataPoints rb, sfTarget bt0 rb i t ≠ none) (hB : ¬ endA < B + R) :
    loadLoop (some rb) endA (fuel + 1) i rb B R lr m =
      if endA = B + R then (addBlocks m [mkBlock bt0 rb B R i] lr, .ok ())
      else loadLoop (some rb) endA fuel (i + 1) rb (B + R) R (loadPoints B rb.points lr).lastRead (addBlocks m [mkBlock bt0 rb B R i] lr) := by
  have h := (loadLoop_step bt0 a0 (some rb) endA fuel i rb B R lr m (.inr h0)).2.2 hB hsf
  rw [h]
  dsimp only
  rw [hR]
  dsimp only
  rw [addBlocks_one]
  rfl

theorem loadLoop_rep_fits {bt0 rb : BlockType} {a0 : Int} {endA R : Int} (hR : rb.len.toInt = .ok R) (hR1 : 1 ≤ R)
    (hsf : ∀ t ∈ dataPoints rb, ∀ i, sfTarget bt0 rb (i + 1) t ≠ none) (k : Nat) :
    ∀ (fuel i : Nat) (B lr : Int) (m : MdlObj), FirstSfs bt0 a0 m → k < fuel → endA = B + (k + 1) * R →
      loadLoop (some rb) endA fuel (i + 1) rb B R lr m = (addBlocks m (repBlocks bt0 rb R (k + 1) B (i + 1)) lr, .ok ()) := by
  induction k with
  | zero =>
    intro fuel i B lr m h0 hf he
    obtain ⟨fuel, rfl⟩ : ∃ f, fuel = f + 1 := ⟨fuel - 1, by omega⟩
    have he' : endA = B + R := by simpa using he
    rw [loadLoop_rep_step hR fuel (i + 1) B lr m h0 (fun t ht => hsf t ht i) (by omega), if_pos he']
    rfl
  | succ k ih =>
    intro fuel i B lr m h0 hf he
    obtain ⟨fuel, rfl⟩ : ∃ f, fuel = f + 1 := ⟨fuel - 1, by omega⟩
    have hk : (0 : Int) ≤ k * R := Int.mul_nonneg (by omega) (by omega)
    have he2 : ((k + 1 : Nat) + 1 : Int) * R = (k * R) + R + R := by
      push_cast; rw [Int.add_mul, Int.add_mul, Int.one_mul]
    have he3 : ((k : Int) + 1) * R = k * R + R := by rw [Int.add_mul, Int.one_mul]
    rw [he2] at he
    rw [loadLoop_rep_step hR fuel (i + 1) B lr m h0 (fun t ht => hsf t ht i) (by omega), if_neg (by omega)]
    rw [ih fuel (i + 1) (B + R) _ _ (h0.add _ _) (by omega) (by rw [he3]; omega)]
    exact congrArg (fun x => (x, (Except.ok () : Py Unit))) (addBlocks_cons m (mkBlock bt0 rb B R (i + 1)) _ lr)

/-- The repeating blocks do not fit: an error. -/
theorem loadLoop_rep_unfit {bt0 rb : BlockType} {a0 : Int} {endA R : Int} (hR : rb.len.toInt = .ok R) (hR1 : 1 ≤ R)
    (hsf : ∀ t ∈ dataPoints rb, ∀ i, sfTarget bt0 rb (i + 1) t ≠ none) (fuel : Nat) :
    ∀ (i : Nat) (B lr : Int) (m : MdlObj), FirstSfs bt0 a0 m → (endA - B - R).toNat + 1 < fuel →
      (∀ k : Nat, endA ≠ B + (k + 1) * R) →
      (loadLoop (some rb) endA fuel (i + 1) rb B R lr m).2 = .error .sunSpecError := by
  induction fuel with
  | zero => intro i B lr m h0 hf; omega
  | succ fuel ih =>
    intro i B lr m h0 hf hn
    by_cases hB : endA < B + R
    · rw [(loadLoop_step bt0 a0 (some rb) endA fuel (i + 1) rb B R lr m (.inr h0)).1 hB]
    · have hne := hn 0
      rw [loadLoop_rep_step hR fuel (i + 1) B lr m h0 (fun t ht => hsf t ht i) hB, if_neg (by simpa using hne)]
      have hne' : endA ≠ B + R := by simpa using hne
      refine ih (i + 1) (B + R) _ _ (h0.add _ _) (by omega) ?_
      intro k hk
      refine hn (k + 1) ?_
      rw [hk]; push_cast
      rw [Int.add_mul, Int.add_mul, Int.add_mul]; omega

/-- A successful run of the loop over the repeating blocks, whatever the fuel and the definition. -/
theorem loadLoop_rep_ok {bt0 rb : BlockType} {a0 : Int} {endA R : Int} (hR : rb.len.toInt = .ok R) (fuel : Nat) :
    ∀ (i : Nat) (B lr : Int) (m m' : MdlObj), FirstSfs bt0 a0 m →
      loadLoop (some rb) endA fuel i rb B R lr m = (m', .ok ()) →
      ∃ k : Nat, endA = B + (k + 1) * R ∧ m' = addBlocks m (repBlocks bt0 rb R (k + 1) B i) lr ∧
        ∀ j, j < k + 1 → ∀ t ∈ dataPoints rb, sfTarget bt0 rb (i + j) t ≠ none := by
  induction fuel with
  | zero => intro i B lr m m' _ h; simp [loadLoop] at h
  | succ fuel ih =>
    intro i B lr m m' h0 h
    have hst := loadLoop_step bt0 a0 (some rb) endA fuel i rb B R lr m (.inr h0)
    by_cases hB : endA < B + R
    · rw [hst.1 hB] at h; simp at h
    · by_cases hsf : ∀ t ∈ dataPoints rb, sfTarget bt0 rb i t ≠ none
      · rw [loadLoop_rep_step hR fuel i B lr m h0 hsf hB] at h
        by_cases he : endA = B + R
        · rw [if_pos he] at h
          refine ⟨0, by simpa using he, ?_, ?_⟩
          · exact (Prod.ext_iff.1 h).1.symm
          · intro j hj t ht
            have : j = 0 := by omega
            subst this; exact hsf t ht
        · rw [if_neg he] at h
          obtain ⟨k, e1, e2, e3⟩ := ih (i + 1) (B + R) _ _ m' (h0.add _ _) h
          refine ⟨k + 1, ?_, ?_, ?_⟩
          · rw [e1]; push_cast
            rw [Int.add_mul, Int.add_mul, Int.add_mul]; omega
          · rw [e2]; exact addBlocks_cons m (mkBlock bt0 rb B R i) _ lr
          · intro j hj t ht
            cases j with
            | zero => exact hsf t ht
            | succ j =>
              have := e3 j (by omega) t ht
              rwa [show i + 1 + j = i + (j + 1) by omega] at this
      · have hx : ∃ t ∈ dataPoints rb, sfTarget bt0 rb i t = none := by
          apply Classical.byContradiction
          intro hc
          exact hsf fun t ht hn => hc ⟨t, ht, hn⟩
        have := hst.2.1 hB hx
        rw [h] at this; simp at this


/-- The number of registers of a model: what the device reports, else the definition's length. -/
def effLen (mt : ModelType) (len : Int) : Int := if len = 0 then mt.len else len

/-- What a successful load produces. -/
structure Loaded (mt : ModelType) (id addr L : Int) (F R : Int) (n : Nat) (m : MdlObj) : Prop where
  hid : m.id = id
  haddr : m.addr = addr
  hlen : m.len = L
  htype : m.mtype = some mt
  flen : mt.fixed.len.toInt = .ok F
  rlen : ∀ rb, mt.rep = some rb → rb.len.toInt = .ok R
  fits : (mt.rep = none ∧ n = 0 ∧ fixedLen id L F ≤ L) ∨ (mt.rep ≠ none ∧ L = fixedLen id L F + n * R)
  blocks : m.blocks = mkBlock mt.fixed mt.fixed addr (fixedLen id L F) 0 ::
    (match mt.rep with | none => [] | some rb => repBlocks mt.fixed rb R n (addr + fixedLen id L F) 1)
  reads : m.readBlocks = addr :: readsOf (blockSpans m.blocks) addr
  sf0 : ∀ t ∈ dataPoints mt.fixed, sfTarget mt.fixed mt.fixed 0 t ≠ none
  sf1 : ∀ rb, mt.rep = some rb → ∀ j, j < n → ∀ t ∈ dataPoints rb, sfTarget mt.fixed rb (j + 1) t ≠ none
  err : m.loadError = false
  exposed : m.exposed = true
  index : m.index = .int 1

theorem fixedLen_eq (id L F : Int) : (if id = 1 ∧ L = 65 then L else F) = fixedLen id L F := by
  unfold fixedLen
  by_cases h : id = 1 ∧ L = 65
  · rw [if_pos h, if_pos h]; exact h.2
  · rw [if_neg h, if_neg h]

/-- The loop as called by `load`, first iteration. -/
theorem loadWith_first (fuel : Nat) (mt : ModelType) (id addr len F : Int) (hF : mt.fixed.len.toInt = .ok F) :
    loadWith fuel (.ok mt) (mdlNew id addr len) =
      let m1 : MdlObj := { mdlNew id addr len with readBlocks := [addr], mtype := some mt, len := effLen mt len }
      match loadLoop mt.rep (addr + effLen mt len) fuel 0 mt.fixed addr (fixedLen id (effLen mt len) F) addr m1 with
      | (m2, .error e) => (m2, .error e)
      | (m2, .ok _) => ({ m2 with exposed := true }, .ok ()) := by
  unfold loadWith
  dsimp only
  rw [hF]
  dsimp only
  rw [← fixedLen_eq]
  rfl

theorem loadWith_ok (fuel : Nat) (mt : ModelType) (id addr len : Int) (m : MdlObj)
    (h : loadWith fuel (.ok mt) (mdlNew id addr len) = (m, .ok ())) :
    ∃ F R n, Loaded mt id addr (effLen mt len) F R n m := by
  cases hF : mt.fixed.len.toInt with
  | error e =>
    unfold loadWith at h
    dsimp only at h
    rw [hF] at h
    simp at h
  | ok F =>
    rw [loadWith_first fuel mt id addr len F hF] at h
    dsimp only at h
    generalize hm1 : ({ mdlNew id addr len with readBlocks := [addr], mtype := some mt, len := effLen mt len } : MdlObj) = m1 at h
    have hbl : m1.blocks = [] := by rw [← hm1]; rfl
    generalize hL : effLen mt len = L at h hm1
    cases fuel with
    | zero => simp [loadLoop] at h
    | succ fuel =>
      have hst := loadLoop_step mt.fixed addr mt.rep (addr + L) fuel 0 mt.fixed addr (fixedLen id L F) addr m1 (.inl ⟨hbl, rfl, rfl⟩)
      by_cases hB : addr + L < addr + fixedLen id L F
      · rw [hst.1 hB] at h; simp at h
      · by_cases hsf : ∀ t ∈ dataPoints mt.fixed, sfTarget mt.fixed mt.fixed 0 t ≠ none
        · rw [hst.2.2 hB hsf] at h
          dsimp only at h
          have hone := addBlocks_one m1 (mkBlock mt.fixed mt.fixed addr (fixedLen id L F) 0) addr
          have hone' : addBlocks m1 [mkBlock mt.fixed mt.fixed addr (fixedLen id L F) 0] addr =
            { m1 with blocks := m1.blocks ++ [mkBlock mt.fixed mt.fixed addr (fixedLen id L F) 0], readBlocks := m1.readBlocks ++ (loadPoints addr mt.fixed.points addr).reads } := hone
          rw [← hone'] at h
          have fin : ∀ bs, m1.blocks = [] → (addBlocks m1 bs addr).readBlocks = addr :: readsOf (blockSpans (addBlocks m1 bs addr).blocks) addr := by
            intro bs hb
            unfold addBlocks
            dsimp only
            rw [hb, ← hm1]; rfl
          cases hrep : mt.rep with
          | none =>
            rw [hrep] at h
            dsimp only at h
            have hm := (Prod.ext_iff.1 h).1
            dsimp only at hm
            refine ⟨F, 0, 0, ?_⟩
            refine ⟨by rw [← hm, ← hm1]; rfl, by rw [← hm, ← hm1]; rfl, by rw [← hm, ← hm1]; rfl, by rw [← hm, ← hm1]; rfl, hF, by simp [hrep], .inl ⟨hrep, rfl, by omega⟩, ?_, ?_, hsf, by simp [hrep], by rw [← hm, ← hm1]; rfl, by rw [← hm], by rw [← hm, ← hm1]; rfl⟩
            · rw [hrep, ← hm]; simp [addBlocks, hbl]
            · rw [← hm]; exact fin _ hbl
          | some rb =>
            rw [hrep] at h
            dsimp only at h
            cases hR : rb.len.toInt with
            | error e => rw [hR] at h; simp at h
            | ok R =>
              rw [hR] at h
              dsimp only at h
              have hfirst : FirstSfs mt.fixed addr (addBlocks m1 [mkBlock mt.fixed mt.fixed addr (fixedLen id L F) 0] addr) :=
                ⟨_, [], by simp [addBlocks, hbl]; rfl, rfl⟩
              by_cases he : addr + L = addr + fixedLen id L F
              · rw [if_pos he] at h
                dsimp only at h
                have hm := (Prod.ext_iff.1 h).1
                dsimp only at hm
                refine ⟨F, R, 0, ?_⟩
                refine ⟨by rw [← hm, ← hm1]; rfl, by rw [← hm, ← hm1]; rfl, by rw [← hm, ← hm1]; rfl, by rw [← hm, ← hm1]; rfl, hF, by intro rb' h'; rw [hrep] at h'; cases h'; exact hR, .inr ⟨by simp [hrep], by simp; omega⟩, ?_, ?_, hsf, by intro _ _ j hj; omega, by rw [← hm, ← hm1]; rfl, by rw [← hm], by rw [← hm, ← hm1]; rfl⟩
                · rw [hrep, ← hm]; simp [addBlocks, hbl, repBlocks]
                · rw [← hm]; exact fin _ hbl
              · rw [if_neg he] at h
                generalize hres : loadLoop (some rb) (addr + L) fuel (0 + 1) rb (addr + fixedLen id L F) R (loadPoints addr mt.fixed.points addr).lastRead (addBlocks m1 [mkBlock mt.fixed mt.fixed addr (fixedLen id L F) 0] addr) = res at h
                obtain ⟨m2, r⟩ := res
                cases r with
                | error e => simp at h
                | ok u =>
                  dsimp only at h
                  obtain ⟨k, e1, e2, e3⟩ := loadLoop_rep_ok hR fuel _ _ _ _ m2 hfirst hres
                  have e2' : m2 = addBlocks m1 (mkBlock mt.fixed mt.fixed addr (fixedLen id L F) 0 :: repBlocks mt.fixed rb R (k + 1) (addr + fixedLen id L F) 1) addr :=
                    e2.trans (addBlocks_cons m1 (mkBlock mt.fixed mt.fixed addr (fixedLen id L F) 0) _ addr)
                  have hm := (Prod.ext_iff.1 h).1
                  dsimp only at hm
                  rw [e2'] at hm
                  refine ⟨F, R, k + 1, ?_⟩
                  refine ⟨by rw [← hm, ← hm1]; rfl, by rw [← hm, ← hm1]; rfl, by rw [← hm, ← hm1]; rfl, by rw [← hm, ← hm1]; rfl, hF, by intro rb' h'; rw [hrep] at h'; cases h'; exact hR, .inr ⟨by simp [hrep], ?_⟩, ?_, ?_, hsf, ?_, by rw [← hm, ← hm1]; rfl, by rw [← hm], by rw [← hm, ← hm1]; rfl⟩
                  · push_cast; omega
                  · rw [hrep, ← hm]; simp [addBlocks, hbl]
                  · rw [← hm]; exact fin _ hbl
                  · intro rb' h' j hj t ht
                    rw [hrep] at h'; cases h'
                    have := e3 j hj t ht
                    rwa [show 0 + 1 + j = j + 1 by omega] at this
        · have hx : ∃ t ∈ dataPoints mt.fixed, sfTarget mt.fixed mt.fixed 0 t = none := by
            apply Classical.byContradiction
            intro hc
            exact hsf fun t ht hn => hc ⟨t, ht, hn⟩
          have := hst.2.1 hB hx
          generalize hres : loadLoop mt.rep (addr + L) (fuel + 1) 0 mt.fixed addr (fixedLen id L F) addr m1 = res at h this
          obtain ⟨m2, r⟩ := res
          dsimp only at this
          subst this
          simp at h

end Verif
