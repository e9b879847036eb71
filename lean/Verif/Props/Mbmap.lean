import Verif.Lemmas.Mbmap

/-!
# C23, C24: register maps behave like register memory
-/

namespace Verif
open Spec

theorem pairUp_regBytes (rs : List Reg) : pairUp (regBytes rs) = rs := by
  induction rs with
  | nil => rfl
  | cons r rs ih =>
    simp only [regBytes, List.flatMap_cons, List.cons_append, List.nil_append, pairUp] at *
    rw [ih]

theorem regBytes_pairUp (d : Bytes) (h : d.length % 2 = 0) : regBytes (pairUp d) = d := by
  obtain ⟨rs, rfl⟩ := exists_regs d h
  rw [pairUp_regBytes]

theorem memRegs_shift (mem : RegMem) (base a : Int) (n : Nat) :
    memRegs (fun x => mem (x - base)) a n = memRegs mem (a - base) n := by
  induction n generalizing a with
  | zero => rfl
  | succ n ih =>
    simp only [memRegs]
    rw [ih, show a + 1 - base = a - base + 1 by omega]

/-- C23, reading: on a map with base address and blocks, a read returns the registers at the address if they
all exist, and otherwise raises `ModbusMapError`; whatever the address and (non-negative) count. -/
theorem C23_read (m : MbMap) (base : Int) (bs : List Blk) (h : MapOK m base bs) (addr : Int) (n : Nat) :
    mapRead m addr n none =
      match memRegs (mapMem base bs) addr n with
      | some rs => .ok (regBytes rs)
      | none => .error .modbusMapError := by
  unfold mapRead mapMem
  rw [if_neg (by simp), h.base]
  dsimp only
  rw [h.regs, memRegs_shift]
  generalize addr - base = o
  rcases Nat.eq_zero_or_pos n with rfl | hn
  · rw [mapReadLoop_zero _ _ _ (by simp [Num.int])]
    simp [memRegs, regBytes]
  · cases hm : blkMem bs o with
    | none =>
      rw [mapReadLoop_none _ _ _ _ (blkMem_eq_none hm)]
      dsimp only
      rw [if_neg (by simp; omega)]
      obtain ⟨k, rfl⟩ : ∃ k, n = k + 1 := ⟨n - 1, by omega⟩
      rw [memRegs, hm]
    | some r =>
      obtain ⟨b, hb, ho⟩ : ∃ b ∈ bs, b.off ≤ o ∧ o < b.stop := by
        apply Classical.byContradiction
        intro hc
        rw [blkMem_none (fun b hb ho => hc ⟨b, hb, ho⟩)] at hm
        simp at hm
      obtain ⟨i, hi⟩ : ∃ i : Nat, o = b.off + i := ⟨(o - b.off).toNat, by omega⟩
      rw [mapReadLoop_some bs h.gapped o n hn b hb ho]
      subst hi
      simp only [Blk.stop] at ho
      rw [memRegs_blk h.gapped hb n i (by omega) (by omega)]
      have e : (b.off + (i : Int) - b.off).toNat = i := by omega
      rw [e, List.nil_append]
      dsimp only
      rw [regBytes_length, List.length_take, List.length_drop]
      by_cases hf : i + n ≤ b.regs.length
      · rw [if_pos (by omega), if_pos hf]
      · rw [if_neg (by omega), if_neg hf]

/-- C23: a negative count is refused. -/
theorem C23_read_negative (m : MbMap) (base : Int) (bs : List Blk) (h : MapOK m base bs) (addr n : Int)
    (hn : n < 0) : mapRead m addr n none = .error .modbusMapError := by
  unfold mapRead
  rw [if_neg (by simp), h.base]
  dsimp only
  rw [mapReadLoop_zero _ _ _ (by simp only [Num.int]; omega)]
  dsimp only
  rw [if_neg (by simp; omega)]

theorem memStore_shift (mem : RegMem) (base a : Int) (rs : List Reg) :
    memStore (fun x => mem (x - base)) a rs =
      ((fun x => (memStore mem (a - base) rs).1 (x - base)), (memStore mem (a - base) rs).2) := by
  induction rs generalizing mem a with
  | nil => rfl
  | cons r rs ih =>
    simp only [memStore]
    cases mem (a - base) with
    | none => rfl
    | some x =>
      dsimp only
      have e : memSet (fun x => mem (x - base)) a r = fun x => memSet mem (a - base) r (x - base) := by
        funext x
        simp only [memSet]
        by_cases hx : x = a
        · rw [if_pos hx, if_pos (by omega)]
        · rw [if_neg hx, if_neg (by omega)]
      rw [e, ih, show a + 1 - base = a - base + 1 by omega]

/-- C23, writing: a write stores the registers one after the other until a register does not exist; it returns
normally exactly if all of them exist, and raises `ModbusMapError` otherwise. No block is moved, so the same
holds for the next access. -/
theorem C23_write (m : MbMap) (base : Int) (bs : List Blk) (h : MapOK m base bs) (addr : Int) (rs : List Reg) :
    ∃ m' bs', mapWrite m addr (regBytes rs) =
        (m', if (memStore (mapMem base bs) addr rs).2 then .ok () else .error .modbusMapError) ∧
      MapOK m' base bs' ∧ mapMem base bs' = (memStore (mapMem base bs) addr rs).1 ∧
      bs'.map (fun b => (b.off, b.regs.length, b.access)) = bs.map (fun b => (b.off, b.regs.length, b.access)) := by
  unfold mapWrite mapMem
  rw [if_neg (by rw [regBytes_length]; omega), h.base, memStore_shift]
  dsimp only
  rw [h.regs]
  generalize addr - base = o
  refine ⟨{ m with regs := (blkStore bs o rs).map Blk.toRegs }, blkStore bs o rs, ?_, ?_, ?_, blkStore_shape _ _ _⟩
  · rcases Nat.eq_zero_or_pos rs.length with hn | hn
    · have : rs = [] := List.eq_nil_of_length_eq_zero hn
      subst this
      rw [mapWriteLoop_zero _ _ _ _ (by simp [Num.half, regBytes])]
      have : blkStore bs o [] = bs := by
        clear h
        induction bs with
        | nil => rfl
        | cons b bs ih =>
          rw [blkStore, ih]
          by_cases hb : b.off ≤ o ∧ o < b.stop
          · rw [if_pos hb]; simp [Blk.store]
          · rw [if_neg hb]
      rw [this]
      simp [Num.half, regBytes, memStore]
    · cases hm : blkMem bs o with
      | none =>
        rw [mapWriteLoop_none _ _ _ _ _ (blkMem_eq_none hm), blkStore_none (blkMem_eq_none hm)]
        dsimp only
        rw [if_pos (by simp only [Num.half, regBytes_length]; omega)]
        obtain ⟨r, rs', rfl⟩ : ∃ r rs', rs = r :: rs' := by
          cases rs with
          | nil => simp at hn
          | cons r rs => exact ⟨r, rs, rfl⟩
        simp [memStore, hm]
      | some r =>
        obtain ⟨b, hb, ho⟩ : ∃ b ∈ bs, b.off ≤ o ∧ o < b.stop := by
          apply Classical.byContradiction
          intro hc
          rw [blkMem_none (fun b hb ho => hc ⟨b, hb, ho⟩)] at hm
          simp at hm
        obtain ⟨rem, h1, h2⟩ := mapWriteLoop_some bs h.gapped o rs hn b hb ho
        rw [h1]
        dsimp only
        have hst := memStore_eq (blkMem bs) o rs (min rs.length (b.stop - o).toNat) (by omega)
          (by
            intro i hi
            rw [blkMem_mem h.gapped hb (by omega)]
            simp only [Blk.stop] at ho hi
            rw [List.getElem?_eq_getElem (by omega)]; simp)
          (by
            by_cases hl : rs.length ≤ (b.stop - o).toNat
            · left; omega
            · right
              rw [show o + ((min rs.length (b.stop - o).toNat : Nat) : Int) = b.stop by omega]
              exact blkMem_stop h.gapped hb (by omega))
        rw [hst]
        dsimp only
        by_cases hl : b.stop < o + rs.length
        · rw [if_pos (h2.2 hl), if_neg]
          simp only [decide_eq_true_eq]; omega
        · rw [if_neg (fun hh => hl (h2.1 hh)), if_pos]
          simp only [decide_eq_true_eq]; omega
  · exact ⟨h.base, rfl, blkStore_gapped h.gapped o rs⟩
  · funext x
    generalize x - base = a
    cases hm : blkMem bs o with
    | none =>
      rw [blkStore_none (blkMem_eq_none hm)]
      rw [memStore_eq (blkMem bs) o rs 0 (by omega) (by omega) (by right; simpa using hm)]
      dsimp only
      rw [if_neg (by omega)]
    | some r =>
      obtain ⟨b, hb, ho⟩ : ∃ b ∈ bs, b.off ≤ o ∧ o < b.stop := by
        apply Classical.byContradiction
        intro hc
        rw [blkMem_none (fun b hb ho => hc ⟨b, hb, ho⟩)] at hm
        simp at hm
      rw [blkMem_store h.gapped hb ho]
      rw [memStore_eq (blkMem bs) o rs (min rs.length (b.stop - o).toNat) (by omega)
          (by
            intro i hi
            rw [blkMem_mem h.gapped hb (by omega)]
            simp only [Blk.stop] at ho hi
            rw [List.getElem?_eq_getElem (by omega)]; simp)
          (by
            by_cases hl : rs.length ≤ (b.stop - o).toNat
            · left; omega
            · right
              rw [show o + ((min rs.length (b.stop - o).toNat : Nat) : Int) = b.stop by omega]
              exact blkMem_stop h.gapped hb (by omega))]
      dsimp only
      by_cases hc : o ≤ a ∧ a < o + rs.length ∧ a < b.stop
      · rw [if_pos hc, if_pos (by omega)]
      · rw [if_neg hc, if_neg (by omega)]

/-- C23: data of odd length is refused and nothing changes, on any map. -/
theorem C23_write_odd (m : MbMap) (addr : Int) (d : Bytes) (h : d.length % 2 = 1) :
    mapWrite m addr d = (m, .error .modbusMapError) := by
  unfold mapWrite
  rw [if_pos (by omega)]

/-- C23: over every history of reads and writes a map gives the results of the register memory. -/
theorem C23_history (m : MbMap) (base : Int) (bs : List Blk) (h : MapOK m base bs) (ops : List MapOp) :
    (mapRun m ops).2 = (memRun (mapMem base bs) ops).2 ∧
    ∃ bs', MapOK (mapRun m ops).1 base bs' ∧ mapMem base bs' = (memRun (mapMem base bs) ops).1 := by
  induction ops generalizing m bs with
  | nil => exact ⟨rfl, bs, h, rfl⟩
  | cons o os ih =>
    have step : ∃ m' bs', mapStep m o = (m', (memStep (mapMem base bs) o).2) ∧ MapOK m' base bs' ∧
        mapMem base bs' = (memStep (mapMem base bs) o).1 := by
      cases o with
      | read a n =>
        refine ⟨m, bs, ?_, h, ?_⟩
        · simp only [mapStep, memStep]
          by_cases hn : n < 0
          · rw [if_pos hn, C23_read_negative m base bs h a n hn]
          · rw [if_neg hn]
            obtain ⟨k, rfl⟩ : ∃ k : Nat, n = k := ⟨n.toNat, by omega⟩
            rw [C23_read m base bs h a k, Int.toNat_natCast]
            cases memRegs (mapMem base bs) a k <;> rfl
        · simp only [memStep]
          split
          · rfl
          · split <;> rfl
      | write a d =>
        by_cases hd : d.length % 2 = 0
        · obtain ⟨rs, rfl⟩ := exists_regs d hd
          obtain ⟨m', bs', h1, h2, h3, _⟩ := C23_write m base bs h a rs
          refine ⟨m', bs', ?_, h2, ?_⟩
          · have hd' : ¬ (regBytes rs).length % 2 ≠ 0 := by omega
            simp only [mapStep, memStep, h1]
            rw [if_neg hd', pairUp_regBytes]
            rcases memStore (mapMem base bs) a rs with ⟨mm, bb⟩
            cases bb <;> rfl
          · simp only [memStep]
            rw [if_neg (by omega), pairUp_regBytes, h3]
            rcases memStore (mapMem base bs) a rs with ⟨mm, bb⟩
            cases bb <;> rfl
        · refine ⟨m, bs, ?_, h, ?_⟩
          · simp only [mapStep, memStep, C23_write_odd m a d (by omega)]
            rw [if_pos (by omega)]
          · simp only [memStep]
            rw [if_pos (by omega)]
    obtain ⟨m', bs', h1, h2, h3⟩ := step
    obtain ⟨i1, i2⟩ := ih m' bs' h2
    simp only [mapRun, memRun, h1]
    rw [h3] at i1 i2
    exact ⟨by rw [i1], i2⟩

/-- A fresh map. -/
def newMap : MbMap := ⟨3, .int 40000, none, none, none, none, []⟩

/-- A map with two blocks, built with `regs_add`. -/
def twoBlocks : MbMap := (regsAdd (regsAdd (regsAdd newMap none (some 0) 2 (t!"rw")).1 none (some 2) 1 (t!"rw")).1
  (some 40010) none 2 (t!"rw")).1

/-- Non-vacuity: `twoBlocks` is regular (two calls of `regs_add` made one block of three registers). -/
theorem twoBlocks_ok : MapOK twoBlocks 40000
    [⟨0, [(0, 0), (0, 0), (0, 0)], t!"rw"⟩, ⟨10, [(0, 0), (0, 0)], t!"rw"⟩] :=
  ⟨by decide +kernel, by decide +kernel, by simp [Gapped, Blk.stop]⟩

/-- Non-vacuity: a history on it. -/
example : (mapRun twoBlocks [.write 40001 [1, 2, 3, 4], .read 40000 3, .read 40000 4, .write 40011 [9, 8, 7, 6],
    .read 40010 2, .write 40005 [1, 1], .write 40000 [1]]).2 =
    [.ok [], .ok [0, 0, 1, 2, 3, 4], .error .modbusMapError, .error .modbusMapError, .ok [0, 0, 9, 8],
     .error .modbusMapError, .error .modbusMapError] := by decide +kernel

/-- C24, full statement: a write that raises leaves the map as it was. -/
def C24_full : Prop :=
  ∀ (m : MbMap) (base : Int) (bs : List Blk) (addr : Int) (d : Bytes), MapOK m base bs →
    ∀ m' e, mapWrite m addr d = (m', .error e) → m' = m

/-- C24 is violated: a write that runs over the end of a block raises `ModbusMapError` but has changed the
registers up to there. -/
theorem C24_violated : ¬ C24_full := by
  intro h
  have h1 := h twoBlocks 40000 _ 40011 [9, 8, 7, 6] twoBlocks_ok (mapWrite twoBlocks 40011 [9, 8, 7, 6]).1
    .modbusMapError
  have h2 : (mapWrite twoBlocks 40011 [9, 8, 7, 6]).2 = .error .modbusMapError := by decide +kernel
  have h3 := h1 (Prod.ext rfl h2)
  have h4 : (mapWrite twoBlocks 40011 [9, 8, 7, 6]).1 ≠ twoBlocks := by decide +kernel
  exact h4 h3

/-- C24, the part that holds: if a write raises and its first register does not exist, the map is unchanged. -/
theorem C24_unchanged_partial (m : MbMap) (base : Int) (bs : List Blk) (h : MapOK m base bs) (addr : Int) (d : Bytes)
    (hfirst : mapMem base bs addr = none) (m' : MbMap) (e : Exc) (hw : mapWrite m addr d = (m', .error e)) :
    m' = m ∧ e = .modbusMapError := by
  unfold mapWrite at hw
  by_cases hd : d.length % 2 ≠ 0
  · rw [if_pos hd] at hw
    simp only [Prod.mk.injEq, Except.error.injEq] at hw
    exact ⟨hw.1.symm, hw.2.symm⟩
  · rw [if_neg hd, h.base] at hw
    dsimp only at hw
    rw [h.regs, mapWriteLoop_none _ _ _ _ _ (blkMem_eq_none hfirst)] at hw
    dsimp only at hw
    rw [← h.regs] at hw
    simp only [Prod.mk.injEq] at hw
    refine ⟨hw.1.symm, ?_⟩
    have := hw.2
    by_cases hq : 0 < (Num.half d.length).q
    · rw [if_pos hq] at this; simpa using this.symm
    · rw [if_neg hq] at this; simp at this

/-- C24, what a failed write changes: nothing outside the addressed registers, and the addressed registers before
the first one that does not exist hold the new data. In particular no register appears or disappears. -/
theorem C24_damage_partial (m : MbMap) (base : Int) (bs : List Blk) (h : MapOK m base bs) (addr : Int) (rs : List Reg)
    (m' : MbMap) (e : Exc) (hw : mapWrite m addr (regBytes rs) = (m', .error e)) :
    e = .modbusMapError ∧
    ∃ bs' j, j < rs.length ∧ MapOK m' base bs' ∧ mapMem base bs (addr + j) = none ∧
      ∀ a, mapMem base bs' a = if addr ≤ a ∧ a < addr + j then rs[(a - addr).toNat]? else mapMem base bs a := by
  obtain ⟨m1, bs', h1, h2, h3, _⟩ := C23_write m base bs h addr rs
  rw [hw] at h1
  simp only [Prod.mk.injEq] at h1
  obtain ⟨rfl, he⟩ := h1
  have key : ∀ (rs : List Reg) (mem : RegMem) (a : Int), ∃ j, j ≤ rs.length ∧
      (∀ i : Nat, i < j → mem (a + i) ≠ none) ∧ (j = rs.length ∨ mem (a + j) = none) := by
    intro rs
    induction rs with
    | nil => intro mem a; exact ⟨0, by simp, by omega, Or.inl rfl⟩
    | cons r rs ih =>
      intro mem a
      cases hm : mem a with
      | none => exact ⟨0, by simp, by omega, Or.inr (by simpa using hm)⟩
      | some x =>
        obtain ⟨j, j1, j2, j3⟩ := ih mem (a + 1)
        refine ⟨j + 1, by simpa using j1, ?_, ?_⟩
        · intro i hi
          cases i with
          | zero => simp [hm]
          | succ i =>
            have := j2 i (by omega)
            rwa [show a + ((i + 1 : Nat) : Int) = a + 1 + i by omega]
        · rcases j3 with j3 | j3
          · left; simpa using j3
          · right; rwa [show a + ((j + 1 : Nat) : Int) = a + 1 + j by omega]
  obtain ⟨j, j1, j2, j3⟩ := key rs (mapMem base bs) addr
  have hst := memStore_eq (mapMem base bs) addr rs j j1 j2 j3
  rw [hst] at he h3
  dsimp only at he h3
  by_cases hj : j = rs.length
  · rw [if_pos (by simpa using hj)] at he; simp at he
  · rw [if_neg (by simpa using hj)] at he
    refine ⟨by simpa using he, bs', j, by omega, h2, ?_, fun a => by rw [h3]⟩
    rcases j3 with j3 | j3
    · exact absurd j3 hj
    · exact j3

/-- Non-vacuity of the hypotheses of `C24_damage_partial`. -/
example : (mapWrite twoBlocks 40011 (regBytes [(9, 8), (7, 6)])).2 = .error .modbusMapError := by decide +kernel

/-- A float syntax for the examples: no float is accepted. -/
def noFloats : FloatText := ⟨fun _ => .error .valueError, fun _ => .error .valueError⟩

/-- A map document with one hexadecimal element without `len`. -/
def hexDoc : Elem := .mk "mbmap" [] none [.mk "regs" [] (some (t!"53756e53")) []]

/-- C23 is violated by maps that are not regular: the registers of a hexadecimal element without a length, or of
a hex file, cannot be read up to the end (in Python 3 their count is a float, and a slice with a float bound is
a `TypeError`). -/
theorem C23_violated_float_count :
    (fromXml noFloats newMap hexDoc).2 = .ok () ∧
    mapRead (fromXml noFloats newMap hexDoc).1 40000 1 none = .ok [0x53, 0x75] ∧
    mapRead (fromXml noFloats newMap hexDoc).1 40000 2 none = .error .typeError ∧
    (fromHex newMap [t!"53", t!"75"]).2 = .ok () ∧
    mapRead (fromHex newMap [t!"53", t!"75"]).1 40000 1 none = .error .typeError := by decide +kernel

end Verif
