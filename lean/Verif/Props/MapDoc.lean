import Verif.Lemmas.MapDoc
import Verif.Lemmas.Text
import Verif.Props.Mbmap

/-!
# C25, C26, C27: map documents and comparison
-/

namespace Verif
open Spec

/-- The base address in a map document. -/
def docBase (root : Elem) : Option Int :=
  match root.get "addr" with
  | none => some 40000
  | some s => pyInt 10 s

/-- C25, full statement: in every map loaded from a document, the registers of every element with an offset are
found at the offset. -/
def C25_full : Prop :=
  ∀ (F : FloatText) (root : Elem) (m : MbMap) (e : Elem) (s : Text) (base o : Int) (rs : List Reg),
    fromXml F newMap root = (m, .ok ()) → docBase root = some base →
    e ∈ root.findall "regs" → e.get "offset" = some s → pyInt 10 s = some o → ElemHolds F e rs →
    mapRead m (base + o) rs.length none = .ok (regBytes rs)

/-- Two elements: `len` of the first one is shorter than its text. -/
def overfullDoc : Elem := .mk "mbmap" [] none
  [.mk "regs" [("offset", t!"0"), ("len", t!"1")] (some (t!"00010002")) [],
   .mk "regs" [("offset", t!"1"), ("type", t!"u16")] (some (t!"7")) []]

/-- C25 is violated: a hexadecimal element with more data than its length is accepted, and the elements after it
are displaced: the register at offset 1 should be 7 but is 2. -/
theorem C25_violated : ¬ C25_full := by
  intro h
  have hok : (fromXml noFloats newMap overfullDoc).2 = .ok () := by decide +kernel
  have h1 := h noFloats overfullDoc (fromXml noFloats newMap overfullDoc).1
    (.mk "regs" [("offset", t!"1"), ("type", t!"u16")] (some (t!"7")) []) (t!"1") 40000 1 [(0, 7)]
    (Prod.ext rfl hok) (by decide +kernel) (by simp [Elem.findall, overfullDoc, Elem.children, Elem.tag])
    (by decide +kernel) (by decide +kernel)
    (by
      refine ⟨0, by decide +kernel, Or.inl ⟨⟨2, false⟩, 7, by decide +kernel, by decide +kernel, ?_⟩⟩
      unfold IntFmt.Encodes
      decide +kernel)
  have h2 : mapRead (fromXml noFloats newMap overfullDoc).1 40001 1 none = .ok [0, 2] := by decide +kernel
  have h3 := h1.symm.trans h2
  simp [regBytes] at h3

theorem placedMem_none {ps : List (Int × List Reg)} {a : Int}
    (h : ¬ ∃ p ∈ ps, p.1 ≤ a ∧ a < p.1 + p.2.length) : placedMem ps a = none := by
  induction ps with
  | nil => rfl
  | cons p ps ih =>
    obtain ⟨o, rs⟩ := p
    rw [placedMem, if_neg]
    · exact ih fun ⟨q, hq, hq2⟩ => h ⟨q, by simp [hq], hq2⟩
    · exact fun hh => h ⟨(o, rs), by simp, hh⟩

theorem place_ge (ls : List (Option Int × List Reg)) (nx : Int) (qs : List (Int × List Reg))
    (hq : place nx ls = some qs) : ∀ q ∈ qs, nx ≤ q.1 := by
  induction ls generalizing nx qs with
  | nil => simp only [place, Option.some.injEq] at hq; subst hq; simp
  | cons l ls ih =>
    obtain ⟨o', rs'⟩ := l
    rw [place] at hq
    by_cases hh : o'.getD nx < nx
    · rw [if_pos hh] at hq; simp at hq
    · rw [if_neg hh] at hq
      cases hp2 : place (o'.getD nx + rs'.length) ls with
      | none => rw [hp2] at hq; simp at hq
      | some qs' =>
        rw [hp2] at hq
        simp only [Option.some.injEq] at hq
        subst hq
        intro q hq
        rcases List.mem_cons.1 hq with rfl | hq
        · dsimp only; omega
        · have := ih _ _ hp2 q hq; omega

theorem placedMem_mem (ls : List (Option Int × List Reg)) (nx : Int) (ps : List (Int × List Reg))
    (hps : place nx ls = some ps) (p : Int × List Reg) (hp : p ∈ ps) (i : Nat) (hi : i < p.2.length) :
    placedMem ps (p.1 + i) = p.2[i]? := by
  induction ls generalizing nx ps with
  | nil => simp only [place, Option.some.injEq] at hps; subst hps; simp at hp
  | cons l ls ih =>
    obtain ⟨o, rs⟩ := l
    rw [place] at hps
    by_cases hh : o.getD nx < nx
    · rw [if_pos hh] at hps; simp at hps
    · rw [if_neg hh] at hps
      cases hp2 : place (o.getD nx + rs.length) ls with
      | none => rw [hp2] at hps; simp at hps
      | some qs =>
        rw [hp2] at hps
        simp only [Option.some.injEq] at hps
        subst hps
        rw [placedMem]
        rcases List.mem_cons.1 hp with rfl | hp
        · dsimp only at hi ⊢
          rw [if_pos (by omega)]
          congr 1; omega
        · have := place_ge ls _ qs hp2 p hp
          rw [if_neg (by omega)]
          exact ih _ _ hp2 hp

theorem memRegs_of_get (mem : RegMem) (a : Int) (rs : List Reg) (h : ∀ i : Nat, i < rs.length → mem (a + i) = rs[i]?) :
    memRegs mem a rs.length = some rs := by
  induction rs generalizing a with
  | nil => rfl
  | cons r rs ih =>
    have h0 := h 0 (by simp)
    simp only [Int.natCast_zero, Int.add_zero, List.getElem?_cons_zero] at h0
    rw [List.length_cons, memRegs, h0, ih (a + 1)]
    intro i hi
    have := h (i + 1) (by simpa using hi)
    rw [show a + 1 + (i : Int) = a + ((i + 1 : Nat) : Int) by omega, this]
    simp

/-- C25, the part that holds: in a document all of whose elements describe registers (in particular no
hexadecimal element without length or longer than it), if the elements can be placed in ascending order without
overlap the load succeeds, the blocks are ascending with gaps between them, each register is where the placement
says and there are no others, and each element reads back; if not, the load raises `ModbusMapError`. -/
theorem C25_load_partial (F : FloatText) (m : MbMap) (hm : m.regs = []) (root : Elem) (base : Int)
    (hbase : docBase root = some base)
    (hfunc : root.get "func" = none ∨ root.get "func" = some (t!"holding") ∨ root.get "func" = some (t!"input"))
    (ls : List (Option Int × List Reg)) (hd : DocHolds F (root.findall "regs") ls) :
    (∀ ps, place 0 ls = some ps → ∃ m' bs, fromXml F m root = (m', .ok ()) ∧ MapOK m' base bs ∧
      (∀ a, mapMem base bs a = placedMem ps (a - base)) ∧
      m'.func = (if root.get "func" = some (t!"input") then 4 else 3) ∧
      ∀ p ∈ ps, mapRead m' (base + p.1) p.2.length none = .ok (regBytes p.2)) ∧
    (place 0 ls = none → (fromXml F m root).2 = .error .modbusMapError) := by
  have hfv : funcValue ((root.get "func").getD (t!"holding")) =
      some (if root.get "func" = some (t!"input") then 4 else 3) := by
    rcases hfunc with h | h | h <;> rw [h] <;> decide
  unfold fromXml
  rw [hfv, hm]
  dsimp only
  obtain ⟨h1, h2⟩ := fromXmlLoop_spec F (root.findall "regs") ls hd [] (by simp [Gapped])
  have he : endOf [] = 0 := rfl
  rw [he] at h1 h2
  simp only [List.map_nil] at h1 h2
  constructor
  · intro ps hps
    obtain ⟨bs, i1, i2, i3⟩ := h1 ps hps
    rw [i1]
    dsimp only
    have hmem : ∀ a, blkMem bs a = placedMem ps a := by
      intro a
      rw [i3 a]
      by_cases hx : ∃ p ∈ ps, p.1 ≤ a ∧ a < p.1 + p.2.length
      · rw [if_pos hx]
      · rw [if_neg hx, placedMem_none hx]; rfl
    refine ⟨_, bs, rfl, ⟨?_, rfl, i2⟩, fun a => hmem _, rfl, ?_⟩
    · dsimp only
      unfold docBase at hbase
      cases hx : root.get "addr" with
      | none => rw [hx] at hbase; simp only [Option.some.injEq] at hbase; rw [hbase.symm]; rfl
      | some s => rw [hx] at hbase; dsimp only at hbase; simp only [BaseAddr.toInt, hbase]
    · intro p hp
      have hok : ∀ (mm : MbMap), MapOK mm base bs → mapRead mm (base + p.1) p.2.length none = .ok (regBytes p.2) := by
        intro mm hmm
        rw [C23_read mm base bs hmm, memRegs_of_get]
        intro i hi
        unfold mapMem
        rw [hmem, show base + p.1 + (i : Int) - base = p.1 + i by omega]
        exact placedMem_mem ls 0 ps hps p hp i hi
      apply hok
      refine ⟨?_, rfl, i2⟩
      dsimp only
      unfold docBase at hbase
      cases hx : root.get "addr" with
      | none => rw [hx] at hbase; simp only [Option.some.injEq] at hbase; rw [hbase.symm]; rfl
      | some s => rw [hx] at hbase; dsimp only at hbase; simp only [BaseAddr.toInt, hbase]
  · intro hp
    exact h2 hp

/-- A document with elements of several types, one of them without an offset. -/
def sampleDoc : Elem := .mk "mbmap" [("addr", t!"0"), ("func", t!"input")] none
  [.mk "regs" [("len", t!"2")] (some (t!"5375 6e53")) [],
   .mk "regs" [("type", t!"s16")] (some (t!"-2")) [],
   .mk "regs" [("offset", t!"10"), ("type", t!"string"), ("len", t!"2")] (some (t!"abc")) [],
   .mk "regs" [("offset", t!"12"), ("type", t!"u32")] (some (t!"0x10001")) []]

/-- The registers of the elements of `sampleDoc`. -/
def sampleElems : List (Option Int × List Reg) :=
  [(none, [(0x53, 0x75), (0x6e, 0x53)]), (none, [(0xff, 0xfe)]), (some 10, [(97, 98), (99, 0)]),
   (some 12, [(0, 1), (0, 1)])]

/-- Non-vacuity: `sampleDoc` describes registers that can be placed. -/
theorem sampleDoc_holds : DocHolds noFloats (sampleDoc.findall "regs") sampleElems ∧
    place 0 sampleElems = some [(0, [(0x53, 0x75), (0x6e, 0x53)]), (2, [(0xff, 0xfe)]), (10, [(97, 98), (99, 0)]),
      (12, [(0, 1), (0, 1)])] := by
  refine ⟨?_, by decide +kernel⟩
  refine ⟨⟨2, by decide +kernel, ?_⟩, rfl, ⟨0, by decide +kernel, ?_⟩, rfl,
    ⟨2, by decide +kernel, ?_⟩, ?_, ⟨0, by decide +kernel, ?_⟩, ?_, trivial⟩
  · refine Or.inr (Or.inr (Or.inr (Or.inr ⟨[0x53, 0x75, 0x6e, 0x53], by decide +kernel, by decide, ?_, by decide,
      by decide, by decide +kernel⟩)))
    exact .cons (x := 5) (y := 3) (by decide) (by decide) (.cons (x := 7) (y := 5) (by decide) (by decide)
      (.cons (x := 6) (y := 14) (by decide) (by decide) (.cons (x := 5) (y := 3) (by decide) (by decide) .nil)))
  · exact Or.inl ⟨⟨2, true⟩, -2, by decide +kernel, by decide +kernel, by unfold IntFmt.Encodes; decide +kernel⟩
  · exact Or.inr (Or.inr (Or.inr (Or.inl ⟨by decide +kernel, by decide, by decide +kernel, by decide +kernel⟩)))
  · exact ⟨10, by decide +kernel, by decide +kernel⟩
  · exact Or.inl ⟨⟨4, false⟩, 65537, by decide +kernel, by decide +kernel, by unfold IntFmt.Encodes; decide +kernel⟩
  · exact ⟨12, by decide +kernel, by decide +kernel⟩

/-- Non-vacuity: and so it reads back. -/
example : mapRead (fromXml noFloats newMap sampleDoc).1 10 4 (some 4) = .ok [97, 98, 99, 0, 0, 1, 0, 1] := by
  decide +kernel

/-- Non-vacuity of the refusal: overlapping elements cannot be placed. -/
example : place 0 [(some 0, [(0, 1), (0, 2)]), (some 1, [(0, 3)])] = none := by decide +kernel

/-- C25, `regs_add`: on a regular map with an int base address, new registers (all zero) at an offset from the end
of the last block on are added, everything else stays; at a smaller offset, or at an address below the base,
`ModbusMapError` is raised and the map is unchanged. -/
theorem C25_regs_add (m : MbMap) (base : Int) (bs : List Blk) (h : MapOK m base bs) (hb : m.base = .int base)
    (addr offset : Option Int) (o : Int) (ho : (addr = some (base + o)) ∨ (addr = none ∧ offset = some o))
    (count : Nat) (access : Text) :
    (endOf bs ≤ o ∧ 0 ≤ o → ∃ m' bs', regsAdd m addr offset count access = (m', .ok ()) ∧ MapOK m' base bs' ∧
      ∀ a, mapMem base bs' a = if base + o ≤ a ∧ a < base + o + count then some (0, 0) else mapMem base bs a) ∧
    (o < endOf bs ∨ o < 0 ∧ addr ≠ none → regsAdd m addr offset count access = (m, .error .modbusMapError)) := by
  have hzero : packStr (2 * count) [] = regBytes (List.replicate count (0#8, 0#8)) := by
    unfold packStr
    simp only [List.take_nil, List.nil_append, List.length_nil, Nat.sub_zero]
    induction count with
    | zero => rfl
    | succ n ih =>
      rw [List.replicate_succ, show 2 * (n + 1) = 2 * n + 1 + 1 by omega, List.replicate_succ, List.replicate_succ, ih]
      rfl
  have hadd := addRegs_blk bs o (List.replicate count (0#8, 0#8)) access
  rw [List.length_replicate] at hadd
  constructor
  · rintro ⟨h1, h2⟩
    refine ⟨{ m with regs := (blkAdd bs o (List.replicate count (0, 0)) access).map Blk.toRegs },
      blkAdd bs o (List.replicate count (0, 0)) access, ?_, ⟨h.base, rfl, blkAdd_gapped h.gapped _ _⟩, ?_⟩
    · unfold regsAdd
      rw [hb, h.regs, lastNext_blk]
      rcases ho with rfl | ⟨rfl, rfl⟩
      · dsimp only
        rw [if_neg (by omega), show base + o - base = o by omega]
        dsimp only
        rw [if_neg (by simp only [Num.int]; omega), if_neg (by omega), Int.toNat_natCast, hzero, hadd]
        rfl
      · dsimp only
        rw [if_neg (by simp only [Num.int]; omega), if_neg (by omega), Int.toNat_natCast, hzero, hadd]
        rfl
    · intro a
      unfold mapMem
      rw [blkAdd_mem h.gapped _ _ h1, List.length_replicate]
      by_cases hx : base + o ≤ a ∧ a < base + o + count
      · have hA : o ≤ a - base ∧ a - base < o + count := by omega
        rw [if_pos hx, if_pos hA, List.getElem?_replicate, if_pos (by omega)]
      · have hA : ¬ (o ≤ a - base ∧ a - base < o + count) := by omega
        rw [if_neg hx, if_neg hA]
  · intro hlt
    unfold regsAdd
    rw [hb, h.regs, lastNext_blk]
    rcases ho with rfl | ⟨rfl, rfl⟩
    · dsimp only
      by_cases hx : base + o < base
      · rw [if_pos hx]
      · rw [if_neg hx, show base + o - base = o by omega]
        dsimp only
        rw [if_pos (by simp only [Num.int]; omega)]
    · dsimp only
      rw [if_pos]
      rcases hlt with hlt | hlt
      · simp only [Num.int]; omega
      · simp at hlt

/-- Non-vacuity: `twoBlocks` was built this way; adding at offset 11 overlaps its last block. -/
example : regsAdd twoBlocks none (some 11) 1 (t!"rw") = (twoBlocks, .error .modbusMapError) := by decide +kernel

/-! ## C26 -/

/-- C26, full statement: every map that was loaded from a document answers every read after writing it to a
document and loading that as before. -/
def C26_full : Prop :=
  ∀ (F : FloatText) (root doc : Elem) (m m' : MbMap) (addr count : Int) (op : Option Nat),
    fromXml F newMap root = (m, .ok ()) → toXml m false = .ok doc → (fromXml F newMap doc).1 = m' →
    mapRead m' addr count op = mapRead m addr count op

/-- C26 is violated: the length of a hexadecimal element without `len` is written as `"2.0"`, which cannot be
loaded. -/
theorem C26_violated : ¬ C26_full := by
  intro h
  have h0 : (fromXml noFloats newMap hexDoc).2 = .ok () := by decide +kernel
  have hd : toXml (fromXml noFloats newMap hexDoc).1 false = .ok (.mk "mbmap" [("addr", t!"40000"),
      ("func", t!"holding")] none [.mk "regs" [("offset", t!"0"), ("len", t!"2.0")] (some (t!"53756e53")) []]) := by
    rfl
  have h1 := h noFloats hexDoc _ (fromXml noFloats newMap hexDoc).1 _ 40000 1 none (Prod.ext rfl h0) hd rfl
  have h2 : mapRead (fromXml noFloats newMap hexDoc).1 40000 1 none = .ok [0x53, 0x75] := by decide +kernel
  have h3 : mapRead (fromXml noFloats newMap (.mk "mbmap" [("addr", t!"40000"),
      ("func", t!"holding")] none [.mk "regs" [("offset", t!"0"), ("len", t!"2.0")] (some (t!"53756e53")) []])).1
      40000 1 none = .error .modbusMapError := by decide +kernel
  rw [h2, h3] at h1
  simp at h1

theorem hexText_hex2L (d : Bytes) : HexText (d.flatMap hex2L) d := by
  have hb : ∀ b : Byte, hexNibble (hexDigitL (b.toNat / 16)) = some (b.toNat / 16) ∧
      hexNibble (hexDigitL (b.toNat % 16)) = some (b.toNat % 16) := by decide +kernel
  induction d with
  | nil => exact .nil
  | cons b d ih =>
    have := HexText.cons (hb b).1 (hb b).2 ih
    have e : BitVec.ofNat 8 (16 * (b.toNat / 16) + b.toNat % 16) = b := by
      rw [Nat.div_add_mod]; simp
    rw [e] at this
    exact this

theorem hex2L_noSpace (d : Bytes) : (d.flatMap hex2L).filter (· != ' ') = d.flatMap hex2L := by
  have hb : ∀ b : Byte, ∀ c ∈ hex2L b, (c != ' ') = true := by decide +kernel
  rw [List.filter_eq_self]
  intro c hc
  obtain ⟨b, _, hc⟩ := List.mem_flatMap.1 hc
  exact hb b c hc

theorem elemTxt_flatMap (tag : String) (at' : List (String × Text)) (d : Bytes) :
    elemTxt (.mk tag at' (some (d.flatMap hex2L)) []) [] = d.flatMap hex2L := by
  cases d <;> rfl

/-- The element of a block. -/
def blkElem (b : Blk) : Elem :=
  .mk "regs" [("offset", intDec b.off), ("len", intDec b.regs.length)] (some ((regBytes b.regs).flatMap hex2L)) []

theorem blkElem_holds (F : FloatText) (b : Blk) (h : b.regs ≠ []) : ElemHolds F (blkElem b) b.regs := by
  have hl : 0 < b.regs.length := List.length_pos_iff.2 h
  refine ⟨b.regs.length, ?_, ?_⟩
  · exact (pyInt10_iff _ _).1 (pyInt_intDec 10 (by simp) _)
  · refine Or.inr (Or.inr (Or.inr (Or.inr ⟨regBytes b.regs, rfl, by omega, ?_, ?_, ?_, ?_⟩)))
    · unfold blkElem
      rw [elemTxt_flatMap, hex2L_noSpace]
      exact hexText_hex2L _
    · rw [regBytes_length]; omega
    · rw [regBytes_length]; omega
    · rw [regBytes_length]; simp

theorem regsListToXml_blks (bs : List Blk) : regsListToXml false (bs.map Blk.toRegs) = .ok (bs.map blkElem) := by
  induction bs with
  | nil => rfl
  | cons b bs ih =>
    rw [List.map_cons, regsListToXml, ih]
    have : regsToXml b.toRegs false = .ok (blkElem b) := by
      simp only [regsToXml, Blk.toRegs, blkElem, Num.str, toInt_int]
      simp only [Num.int, Bool.false_eq_true, if_false]
    rw [this]
    rfl

theorem docHolds_blks (F : FloatText) (bs : List Blk) (hne : ∀ b ∈ bs, b.regs ≠ []) :
    DocHolds F (bs.map blkElem) (bs.map fun b => (some b.off, b.regs)) := by
  induction bs with
  | nil => trivial
  | cons b bs ih =>
    refine ⟨blkElem_holds F b (hne b (by simp)), ?_, ih fun c hc => hne c (by simp [hc])⟩
    exact ⟨b.off, (pyInt10_iff _ _).1 (pyInt_intDec 10 (by simp) _), rfl⟩

theorem place_blks (bs : List Blk) (nx : Int) (hg : Gapped bs) (hnx : ∀ b ∈ bs, nx ≤ b.off) :
    place nx (bs.map fun b => (some b.off, b.regs)) = some (bs.map fun b => (b.off, b.regs)) := by
  induction bs generalizing nx with
  | nil => rfl
  | cons b bs ih =>
    have h0 := hnx b (by simp)
    obtain ⟨g1, g2⟩ := List.pairwise_cons.1 hg
    rw [List.map_cons, place, Option.getD_some, if_neg (by omega), ih _ g2]
    · rfl
    · intro c hc
      have := g1 c hc
      simp only [Blk.stop] at this
      omega

theorem placedMem_blks (bs : List Blk) (a : Int) : placedMem (bs.map fun b => (b.off, b.regs)) a = blkMem bs a := by
  induction bs with
  | nil => rfl
  | cons b bs ih => rw [List.map_cons, placedMem, blkMem, ih]; rfl

theorem findall_blks (bs : List Blk) : (bs.map blkElem).filter (fun c => c.tag == "regs") = bs.map blkElem := by
  rw [List.filter_eq_self]
  intro c hc
  obtain ⟨b, _, rfl⟩ := List.mem_map.1 hc
  rfl

theorem mapRead_op (m : MbMap) (addr count : Int) (op : Option Nat) :
    mapRead m addr count op =
      if op ≠ none ∧ op ≠ some 0 ∧ op ≠ some m.func then .error .modbusMapError else mapRead m addr count none := by
  unfold mapRead
  by_cases h : op ≠ none ∧ op ≠ some 0 ∧ op ≠ some m.func
  · rw [if_pos h, if_pos h]
  · rw [if_neg h, if_neg h, if_neg (by simp)]

/-- C23, the function: a read for another function (input or holding registers) than that of the map raises
`ModbusMapError`; for the same function, or function 0 or None, it is an ordinary read. -/
theorem C23_function (m : MbMap) (addr count : Int) (op : Nat) (hop : op ≠ 0) :
    (op ≠ m.func → mapRead m addr count (some op) = .error .modbusMapError) ∧
    (op = m.func → mapRead m addr count (some op) = mapRead m addr count none) := by
  rw [mapRead_op]
  constructor
  · intro h; rw [if_pos (by simp [h, hop])]
  · intro h; rw [if_neg (by simp [h])]

/-- Two regular maps with the same base address, function and registers answer every read alike. -/
theorem mapRead_congr (m m' : MbMap) (base : Int) (bs bs' : List Blk) (h : MapOK m base bs) (h' : MapOK m' base bs')
    (hf : m.func = m'.func) (hm : mapMem base bs = mapMem base bs') (addr count : Int) (op : Option Nat) :
    mapRead m addr count op = mapRead m' addr count op := by
  rw [mapRead_op m, mapRead_op m', hf]
  congr 1
  by_cases hc : count < 0
  · rw [C23_read_negative m base bs h _ _ hc, C23_read_negative m' base bs' h' _ _ hc]
  · obtain ⟨n, rfl⟩ : ∃ n : Nat, count = n := ⟨count.toNat, by omega⟩
    rw [C23_read m base bs h, C23_read m' base bs' h', hm]

/-- C26, the part that holds: a regular map (integer counts, no empty blocks, no negative offsets) written to a
document and loaded again, over whatever fresh map, is a regular map that answers every read as before. -/
theorem C26_roundtrip_partial (F : FloatText) (m fresh : MbMap) (hfresh : fresh.regs = []) (base : Int) (bs : List Blk)
    (h : MapOK m base bs) (hf : m.func = 3 ∨ m.func = 4) (hne : ∀ b ∈ bs, b.regs ≠ []) (h0 : ∀ b ∈ bs, 0 ≤ b.off) :
    ∃ doc m', toXml m false = .ok doc ∧ fromXml F fresh doc = (m', .ok ()) ∧
      (∃ bs', MapOK m' base bs' ∧ mapMem base bs' = mapMem base bs) ∧
      (m'.ns, m'.lid, m'.mapid, m'.time) = (m.ns, m.lid, m.mapid, m.time) ∧
      ∀ addr count op, mapRead m' addr count op = mapRead m addr count op := by
  have hx := regsListToXml_blks bs
  obtain ⟨doc, hdoc⟩ : ∃ d, d = Elem.mk "mbmap" ([("addr", m.base.text), ("func", funcName m.func)] ++ optAttr "ns" m.ns ++
      optAttr "lid" m.lid ++ optAttr "mapid" m.mapid ++ optAttr "time" m.time) none (bs.map blkElem) := ⟨_, rfl⟩
  have ht : toXml m false = .ok doc := by
    unfold toXml
    rw [h.regs, hx, hdoc]
  have hbase : docBase doc = some base := by
    have hg : doc.get "addr" = some m.base.text := by rw [hdoc]; rfl
    unfold docBase
    rw [hg]
    dsimp only
    have hb := h.base
    cases hmb : m.base with
    | int i =>
      rw [hmb] at hb
      simp only [BaseAddr.toInt, Except.ok.injEq] at hb
      subst hb
      exact pyInt_intDec 10 (by simp) _
    | str s =>
      rw [hmb] at hb
      simp only [BaseAddr.toInt] at hb
      show pyInt 10 s = some base
      cases hp : pyInt 10 s with
      | none => rw [hp] at hb; simp at hb
      | some v => rw [hp] at hb; simpa using hb
  have hfget : doc.get "func" = some (funcName m.func) := by rw [hdoc]; rfl
  have hfn : doc.get "func" = none ∨ doc.get "func" = some (t!"holding") ∨ doc.get "func" = some (t!"input") := by
    rw [hfget]
    rcases hf with hf | hf <;> rw [hf] <;> decide
  have hfa : doc.findall "regs" = bs.map blkElem := by
    rw [hdoc]
    exact findall_blks bs
  have hd := docHolds_blks F bs hne
  rw [← hfa] at hd
  obtain ⟨l1, _⟩ := C25_load_partial F fresh hfresh doc base hbase hfn _ hd
  obtain ⟨m', bs', i1, i2, i3, i4, _⟩ := l1 _ (place_blks bs 0 h.gapped h0)
  have hmem : mapMem base bs' = mapMem base bs := by
    funext a
    rw [i3 a, placedMem_blks]
    rfl
  have hfunc : m'.func = m.func := by
    rw [i4, hfget]
    rcases hf with hf | hf <;> rw [hf] <;> decide
  refine ⟨doc, m', ht, i1, ⟨bs', i2, hmem⟩, ?_, ?_⟩
  · have : m' = (fromXml F fresh doc).1 := by rw [i1]
    have e1 : m'.ns = doc.get "ns" ∧ m'.lid = doc.get "lid" ∧ m'.mapid = doc.get "mapid" ∧ m'.time = doc.get "time" := by
      rw [this]
      unfold fromXml
      split
      · rename_i hv
        have := congrArg Prod.snd i1
        unfold fromXml at this
        rw [hv] at this
        simp at this
      · exact ⟨rfl, rfl, rfl, rfl⟩
    rw [e1.1, e1.2.1, e1.2.2.1, e1.2.2.2, hdoc]
    rcases m.ns with _ | ns <;> rcases m.lid with _ | lid <;> rcases m.mapid with _ | mp <;> rcases m.time with _ | tm <;> rfl
  · intro addr count op
    exact mapRead_congr m' m base bs' bs i2 h hfunc hmem addr count op

/-- Non-vacuity: `twoBlocks` satisfies the hypotheses. -/
example : (∀ b ∈ ([⟨0, [(0, 0), (0, 0), (0, 0)], t!"rw"⟩, ⟨10, [(0, 0), (0, 0)], t!"rw"⟩] : List Blk), b.regs ≠ []) ∧
    twoBlocks.func = 3 := ⟨by simp, by decide +kernel⟩

/-! ## C27 -/

/-- Two maps agree: the same base address (as a number), function, and blocks. -/
def MapsAgree (a b : MbMap) : Prop :=
  a.base.toInt = b.base.toInt ∧ a.func = b.func ∧
  a.regs.map (fun r => (r.offset.q, r.count.q, r.data, r.access)) =
    b.regs.map (fun r => (r.offset.q, r.count.q, r.data, r.access))

/-- C27, full statement: for maps loaded from documents or built, `not_equal` returns False exactly if they agree. -/
def C27_full : Prop :=
  ∀ (F : FloatText) (d1 d2 : Elem) (m1 m2 : MbMap), fromXml F newMap d1 = (m1, .ok ()) →
    fromXml F newMap d2 = (m2, .ok ()) → (mapNotEqual m1 m2 = .ok false ↔ MapsAgree m1 m2)

/-- One element with the given text and length 1. -/
def oneElem (s : Text) : Elem := .mk "mbmap" [] none [.mk "regs" [("len", t!"1")] (some s) []]

/-- C27 is violated: if the data of the first map is a prefix of the data of the second one, they are reported
equal. -/
theorem C27_violated : ¬ C27_full := by
  intro h
  have h1 : (fromXml noFloats newMap (oneElem (t!"0001"))).2 = .ok () := by decide +kernel
  have h2 : (fromXml noFloats newMap (oneElem (t!"00010002"))).2 = .ok () := by decide +kernel
  have h3 := (h noFloats _ _ _ _ (Prod.ext rfl h1) (Prod.ext rfl h2)).1 (by decide +kernel)
  obtain ⟨_, _, h3⟩ := h3
  revert h3
  decide +kernel

/-- C27 is violated: the comparison is not symmetric (the other way round the same comparison raises an
`IndexError`), and a map that was written to a document and loaded again is reported to differ, because its base
address is a text. -/
theorem C27_violated_symmetry :
    mapNotEqual (fromXml noFloats newMap (oneElem (t!"0001"))).1 (fromXml noFloats newMap (oneElem (t!"00010002"))).1
      = .ok false ∧
    mapNotEqual (fromXml noFloats newMap (oneElem (t!"00010002"))).1 (fromXml noFloats newMap (oneElem (t!"0001"))).1
      = .error .indexError ∧
    (∃ doc, toXml newMap false = .ok doc ∧ mapNotEqual newMap (fromXml noFloats newMap doc).1 = .ok true) :=
  ⟨by decide +kernel, by decide +kernel, _, rfl, by decide +kernel⟩

theorem dataDiffers_eq {a b : Bytes} (h : a.length = b.length) : dataDiffers a b = .ok (decide (a ≠ b)) := by
  induction a generalizing b with
  | nil =>
    cases b with
    | nil => rfl
    | cons y b => simp at h
  | cons x a ih =>
    cases b with
    | nil => simp at h
    | cons y b =>
      rw [dataDiffers]
      by_cases hxy : x = y
      · rw [if_neg (by simpa using hxy), ih (by simpa using h)]
        simp [hxy]
      · rw [if_pos (by simpa using hxy)]
        simp [hxy]

theorem regsNotEqual_blk (a b : Blk) :
    regsNotEqual a.toRegs b.toRegs = .ok (decide (a.toRegs ≠ b.toRegs)) := by
  unfold regsNotEqual
  by_cases h1 : a.off = b.off
  · rw [if_neg (by simp [Blk.toRegs, h1])]
    by_cases h2 : a.regs.length = b.regs.length
    · rw [if_neg (by simp [Blk.toRegs, h2])]
      simp only [Blk.toRegs]
      rw [dataDiffers_eq (by rw [regBytes_length, regBytes_length, h2])]
      by_cases h3 : regBytes a.regs = regBytes b.regs
      · by_cases h4 : a.access = b.access <;> simp [h3, h1, h2, h4]
      · simp [h3]
    · rw [if_pos]
      · simp only [Blk.toRegs, Num.int]
        simp only [ne_eq, Regs.mk.injEq, Num.mk.injEq, Except.ok.injEq, true_eq_decide_iff, not_and]
        intro _ hh
        omega
      · simp only [Blk.toRegs, Num.int]; omega
  · rw [if_pos]
    · simp only [Blk.toRegs, Num.int]
      simp only [ne_eq, Regs.mk.injEq, Num.mk.injEq, Except.ok.injEq, true_eq_decide_iff, not_and]
      intro hh
      omega
    · simp only [Blk.toRegs, Num.int]; omega

theorem regsListNotEqual_blks (as bs : List Blk) (h : as.length = bs.length) :
    regsListNotEqual (as.map Blk.toRegs) (bs.map Blk.toRegs) =
      .ok (decide (as.map Blk.toRegs ≠ bs.map Blk.toRegs)) := by
  induction as generalizing bs with
  | nil =>
    cases bs with
    | nil => rfl
    | cons b bs => simp at h
  | cons a as ih =>
    cases bs with
    | nil => simp at h
    | cons b bs =>
      rw [List.map_cons, List.map_cons, regsListNotEqual, regsNotEqual_blk]
      by_cases hx : a.toRegs = b.toRegs
      · rw [ih bs (by simpa using h)]
        simp [hx]
      · simp [hx]

theorem blks_map_eq (as bs : List Blk) : as.map Blk.toRegs = bs.map Blk.toRegs ↔
    as.map (fun b => (b.off, b.regs, b.access)) = bs.map (fun b => (b.off, b.regs, b.access)) := by
  induction as generalizing bs with
  | nil => cases bs <;> simp
  | cons a as ih =>
    cases bs with
    | nil => simp
    | cons b bs =>
      rw [List.map_cons, List.map_cons, List.map_cons, List.map_cons, List.cons.injEq, List.cons.injEq, ih]
      refine and_congr ?_ Iff.rfl
      simp only [Blk.toRegs, Regs.mk.injEq, Prod.mk.injEq, Num.int, Num.mk.injEq, true_and, Option.some.injEq]
      constructor
      · rintro ⟨h1, _, h3, h4⟩
        exact ⟨by omega, regBytes_inj h3, h4⟩
      · rintro ⟨h1, h2, h3⟩
        rw [h1, h2, h3]
        exact ⟨rfl, rfl, rfl, rfl⟩

theorem mapNotEqual_blks (m m' : MbMap) (base base' : Int) (bs bs' : List Blk) (h : MapOK m base bs)
    (h' : MapOK m' base' bs') : mapNotEqual m m' =
      .ok (decide (¬ (m.base = m'.base ∧ m.func = m'.func ∧ bs.map Blk.toRegs = bs'.map Blk.toRegs))) := by
  unfold mapNotEqual
  by_cases h1 : m.base = m'.base
  · by_cases h2 : m.func = m'.func
    · by_cases h3 : bs.length = bs'.length
      · rw [if_neg (by simpa using h1), if_neg (by simpa using h2), h.regs, h'.regs, if_neg (by simpa using h3),
          regsListNotEqual_blks bs bs' h3]
        simp [h1, h2]
      · rw [if_neg (by simpa using h1), if_neg (by simpa using h2), h.regs, h'.regs, if_pos (by simpa using h3)]
        have : ¬ bs.map Blk.toRegs = bs'.map Blk.toRegs := fun hh => h3 (by simpa using congrArg List.length hh)
        simp [this]
    · rw [if_neg (by simpa using h1), if_pos h2]; simp [h2]
  · rw [if_pos h1]; simp [h1]

/-- C27, the part that holds: two regular maps whose base addresses are both ints or both texts are compared
exactly: no exception, and False exactly if they have the same base address, function, and blocks with the same
offset, registers and access. Since the right-hand side is symmetric, so is the comparison. -/
theorem C27_exact_partial (m m' : MbMap) (base base' : Int) (bs bs' : List Blk) (h : MapOK m base bs)
    (h' : MapOK m' base' bs') :
    (mapNotEqual m m' = .ok false ∨ mapNotEqual m m' = .ok true) ∧
    (mapNotEqual m m' = .ok false ↔ m.base = m'.base ∧ m.func = m'.func ∧
      bs.map (fun b => (b.off, b.regs, b.access)) = bs'.map (fun b => (b.off, b.regs, b.access))) ∧
    mapNotEqual m m' = mapNotEqual m' m := by
  rw [mapNotEqual_blks m m' base base' bs bs' h h', mapNotEqual_blks m' m base' base bs' bs h' h]
  refine ⟨?_, ?_, ?_⟩
  · by_cases hx : (m.base = m'.base ∧ m.func = m'.func ∧ bs.map Blk.toRegs = bs'.map Blk.toRegs) <;> simp [hx]
  · rw [← blks_map_eq]
    simp
  · congr 1
    simp only [eq_comm]

/-- Non-vacuity: two different regular maps. -/
example : mapNotEqual twoBlocks (mapWrite twoBlocks 40000 [0, 1]).1 = .ok true ∧
    mapNotEqual twoBlocks (mapWrite twoBlocks 40000 [0, 0]).1 = .ok false := by decide +kernel

end Verif
