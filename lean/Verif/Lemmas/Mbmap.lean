import Verif.Spec.Mbmap

/-!
# Lemmas about register maps
-/

namespace Verif
open Spec

theorem regBytes_length (rs : List Reg) : (regBytes rs).length = 2 * rs.length := by
  induction rs with
  | nil => rfl
  | cons r rs ih => simp only [regBytes, List.flatMap_cons, List.length_append, List.length_cons, List.length_nil] at *; omega

theorem regBytes_append (a b : List Reg) : regBytes (a ++ b) = regBytes a ++ regBytes b := by
  simp [regBytes]

theorem regBytes_take (rs : List Reg) (n : Nat) : regBytes (rs.take n) = (regBytes rs).take (2 * n) := by
  induction rs generalizing n with
  | nil => simp [regBytes]
  | cons r rs ih =>
    cases n with
    | zero => simp [regBytes]
    | succ n =>
      have := ih n
      simp only [regBytes] at this
      simp only [regBytes, List.take_succ_cons, List.flatMap_cons, this]
      rw [show 2 * (n + 1) = 2 * n + 1 + 1 by omega]
      simp

theorem regBytes_drop (rs : List Reg) (n : Nat) : regBytes (rs.drop n) = (regBytes rs).drop (2 * n) := by
  induction rs generalizing n with
  | nil => simp [regBytes]
  | cons r rs ih =>
    cases n with
    | zero => simp [regBytes]
    | succ n =>
      have := ih n
      simp only [regBytes] at this
      simp only [regBytes, List.drop_succ_cons, List.flatMap_cons, this]
      rw [show 2 * (n + 1) = 2 * n + 1 + 1 by omega]
      simp

/-- Even data consists of registers. -/
theorem exists_regs (d : Bytes) (h : d.length % 2 = 0) : ∃ rs, d = regBytes rs := by
  match d, h with
  | [], _ => exact ⟨[], rfl⟩
  | [_], h => simp at h
  | a :: b :: d, h =>
    obtain ⟨rs, hrs⟩ := exists_regs d (by simp only [List.length_cons] at h; omega)
    exact ⟨(a, b) :: rs, by rw [hrs]; rfl⟩

theorem regBytes_inj {a b : List Reg} (h : regBytes a = regBytes b) : a = b := by
  induction a generalizing b with
  | nil =>
    cases b with
    | nil => rfl
    | cons r b => simp [regBytes] at h
  | cons r a ih =>
    cases b with
    | nil => simp [regBytes] at h
    | cons s b =>
      simp only [regBytes, List.flatMap_cons, List.cons_append, List.nil_append, List.cons.injEq] at h
      obtain ⟨h1, h2, h3⟩ := h
      rw [ih h3, Prod.ext h1 h2]

theorem toInt_int (i : Int) : (Num.int i).toInt = i := by
  simp only [Num.int, Num.toInt]
  exact Int.mul_tdiv_cancel_left i (by decide)

theorem pySlice_nat {α} (d : List α) (a b : Nat) : pySlice d (a : Int) (b : Int) = (d.take b).drop a := by
  unfold pySlice pyIdx
  rw [if_neg (by omega), if_neg (by omega)]
  simp only [Int.toNat_natCast]
  rw [Nat.min_comm d.length b, ← List.take_eq_take_min]
  by_cases h : a ≤ d.length
  · rw [Nat.min_eq_right h]
  · rw [Nat.min_eq_left (by omega)]
    rw [List.drop_eq_nil_of_le (by simp only [List.length_take]; omega),
      List.drop_eq_nil_of_le (by simp only [List.length_take]; omega)]

/-- Reading inside a block. -/
theorem regsRead_blk (b : Blk) (i n : Nat) (hn : 0 < n) (hi : i + n ≤ b.regs.length) :
    regsRead b.toRegs (.int (b.off + i)) (.int n) = .ok (some (regBytes ((b.regs.drop i).take n))) := by
  unfold regsRead
  have h1 : b.toRegs.offset.q ≤ (Num.int (b.off + i)).q ∧
      (Num.int (b.off + i)).q < (b.toRegs.offset.add b.toRegs.count).q := by
    simp only [Blk.toRegs, Num.int, Num.add]; omega
  have h2 : ¬ (b.toRegs.offset.add b.toRegs.count).q < ((Num.int (b.off + i)).add (Num.int n)).q := by
    simp only [Blk.toRegs, Num.int, Num.add]; omega
  have h3 : 0 < (Num.int n).q := by simp only [Num.int]; omega
  rw [if_pos h1]
  dsimp only
  rw [if_neg h2, if_pos h3]
  have e1 : ((Num.int (b.off + i)).sub b.toRegs.offset).dbl = Num.int ((2 * i : Nat) : Int) := by
    simp only [Blk.toRegs, Num.int, Num.sub, Num.dbl, Bool.or_false, Num.mk.injEq, true_and]; omega
  have e2 : (Num.int ((2 * i : Nat) : Int)).add (Num.int (n : Int)).dbl = Num.int ((2 * (i + n) : Nat) : Int) := by
    simp only [Num.int, Num.add, Num.dbl, Bool.or_false, Num.mk.injEq, true_and]; omega
  have e3 : ∀ k : Int, (Num.int k).index = .ok k := by
    intro k; unfold Num.index; rw [toInt_int]; rfl
  rw [e1, e2]
  unfold numSlice
  rw [e3, e3]
  have e4 : b.toRegs.data = some (regBytes b.regs) := rfl
  rw [e4]
  dsimp only
  rw [pySlice_nat, ← regBytes_take, ← regBytes_drop, List.drop_take,
    show i + n - i = n by omega]
  rfl

theorem blkMem_none {bs : List Blk} {o : Int} (h : ∀ b ∈ bs, ¬ (b.off ≤ o ∧ o < b.stop)) : blkMem bs o = none := by
  induction bs with
  | nil => rfl
  | cons b bs ih =>
    rw [blkMem, if_neg (h b (by simp))]
    exact ih fun x hx => h x (by simp [hx])

theorem blkMem_eq_none {bs : List Blk} {o : Int} (h : blkMem bs o = none) : ∀ b ∈ bs, ¬ (b.off ≤ o ∧ o < b.stop) := by
  induction bs with
  | nil => simp
  | cons b bs ih =>
    rw [blkMem] at h
    by_cases hb : b.off ≤ o ∧ o < b.stop
    · rw [if_pos hb] at h
      rw [List.getElem?_eq_none_iff] at h
      simp only [Blk.stop] at hb; omega
    · rw [if_neg hb] at h
      intro x hx
      rcases List.mem_cons.1 hx with rfl | hx
      · exact hb
      · exact ih h x hx

theorem blk_in_range (b : Blk) (o : Int) :
    (b.toRegs.offset.q ≤ (Num.int o).q ∧ (Num.int o).q < (b.toRegs.offset.add b.toRegs.count).q) ↔
      (b.off ≤ o ∧ o < b.stop) := by
  simp only [Blk.toRegs, Num.int, Num.add, Blk.stop]; omega

/-- Reading where there is no register. -/
theorem mapReadLoop_none (bs : List Blk) (o : Int) (rem : Num) (acc : Bytes)
    (h : ∀ b ∈ bs, ¬ (b.off ≤ o ∧ o < b.stop)) :
    mapReadLoop (bs.map Blk.toRegs) (.int o) rem acc = .ok acc := by
  induction bs with
  | nil => rfl
  | cons b bs ih =>
    rw [List.map_cons, mapReadLoop]
    by_cases hr : 0 < rem.q
    · rw [if_pos hr, if_neg]
      · exact ih fun x hx => h x (by simp [hx])
      · rw [blk_in_range]; exact h b (by simp)
    · rw [if_neg hr]

theorem mapReadLoop_zero (rs : List Regs) (o rem : Num) (h : ¬ 0 < rem.q) (acc : Bytes) :
    mapReadLoop rs o rem acc = .ok acc := by
  cases rs with
  | nil => rfl
  | cons r rs => rw [mapReadLoop, if_neg h]

/-- Reading from inside a block returns the registers up to the end of the block. -/
theorem mapReadLoop_some (bs : List Blk) (hg : Gapped bs) (o : Int) (n : Nat) (hn : 0 < n) (b : Blk)
    (hb : b ∈ bs) (ho : b.off ≤ o ∧ o < b.stop) (acc : Bytes) :
    mapReadLoop (bs.map Blk.toRegs) (.int o) (.int n) acc =
      .ok (acc ++ regBytes ((b.regs.drop (o - b.off).toNat).take n)) := by
  induction bs with
  | nil => simp at hb
  | cons c bs ih =>
    obtain ⟨hg1, hg2⟩ := List.pairwise_cons.1 hg
    rw [List.map_cons, mapReadLoop, if_pos (by simp only [Num.int]; omega)]
    by_cases hc : c.off ≤ o ∧ o < c.stop
    · have hbc : b = c := by
        rcases List.mem_cons.1 hb with h | h
        · exact h
        · have := hg1 b h; omega
      subst hbc
      rw [if_pos ((blk_in_range b o).2 hc)]
      obtain ⟨i, hi⟩ : ∃ i : Nat, o = b.off + i := ⟨(o - b.off).toNat, by omega⟩
      subst hi
      simp only [Blk.stop] at ho hc
      have hrc : (if (Num.int (n : Int)).q < ((b.toRegs.offset.add b.toRegs.count).sub (Num.int (b.off + i))).q
          then Num.int (n : Int) else (b.toRegs.offset.add b.toRegs.count).sub (Num.int (b.off + i))) =
          Num.int ((min n (b.regs.length - i) : Nat) : Int) := by
        have e : (b.toRegs.offset.add b.toRegs.count).sub (Num.int (b.off + i)) =
            Num.int ((b.regs.length - i : Nat) : Int) := by
          simp only [Blk.toRegs, Num.int, Num.sub, Num.add, Bool.or_false, Num.mk.injEq, true_and]; omega
        rw [e]
        by_cases h : n < b.regs.length - i
        · rw [if_pos (by simp only [Num.int]; omega), Nat.min_eq_left (by omega)]
        · rw [if_neg (by simp only [Num.int]; omega), Nat.min_eq_right (by omega)]
      dsimp only
      rw [hrc, regsRead_blk b i _ (by omega) (by omega)]
      dsimp only
      have e5 : (b.off + (i : Int) - b.off).toNat = i := by omega
      rw [e5]
      have e6 : (b.regs.drop i).take (min n (b.regs.length - i)) = (b.regs.drop i).take n := by
        rw [Nat.min_comm]
        have := List.take_eq_take_min (l := b.regs.drop i) (i := n)
        rw [List.length_drop, Nat.min_comm] at this
        exact this.symm
      rw [e6]
      by_cases h : n ≤ b.regs.length - i
      · apply mapReadLoop_zero
        simp only [Num.int, Num.sub]; omega
      · have e7 : (Num.int (b.off + i)).add (Num.int ((min n (b.regs.length - i) : Nat) : Int)) = .int b.stop := by
          simp only [Blk.stop, Num.int, Num.add, Bool.or_false, Num.mk.injEq, true_and]; omega
        rw [e7]
        apply mapReadLoop_none
        intro x hx
        have := hg1 x hx
        omega
    · rw [if_neg (fun h => hc ((blk_in_range c o).1 h))]
      apply ih hg2
      rcases List.mem_cons.1 hb with h | h
      · exact absurd (h ▸ ho) hc
      · exact h

theorem blkMem_mem {bs : List Blk} (hg : Gapped bs) {b : Blk} (hb : b ∈ bs) {o : Int} (ho : b.off ≤ o ∧ o < b.stop) :
    blkMem bs o = b.regs[(o - b.off).toNat]? := by
  induction bs with
  | nil => simp at hb
  | cons c bs ih =>
    obtain ⟨hg1, hg2⟩ := List.pairwise_cons.1 hg
    rw [blkMem]
    by_cases hc : c.off ≤ o ∧ o < c.stop
    · rw [if_pos hc]
      rcases List.mem_cons.1 hb with h | h
      · rw [h]
      · have := hg1 b h; omega
    · rw [if_neg hc]
      rcases List.mem_cons.1 hb with h | h
      · exact absurd (h ▸ ho) hc
      · exact ih hg2 h

/-- After the end of a block there is a gap. -/
theorem blkMem_stop {bs : List Blk} (hg : Gapped bs) {b : Blk} (hb : b ∈ bs) (hne : b.off < b.stop) : blkMem bs b.stop = none := by
  apply blkMem_none
  intro x hx
  induction bs with
  | nil => simp at hb
  | cons c bs ih =>
    obtain ⟨hg1, hg2⟩ := List.pairwise_cons.1 hg
    rcases List.mem_cons.1 hb with h | h
    · subst h
      rcases List.mem_cons.1 hx with h' | h'
      · subst h'; omega
      · have := hg1 x h'; omega
    · rcases List.mem_cons.1 hx with h' | h'
      · subst h'
        have := hg1 b h; omega
      · exact ih hg2 h h'

/-- The registers from inside a block, according to the memory specification. -/
theorem memRegs_blk {bs : List Blk} (hg : Gapped bs) {b : Blk} (hb : b ∈ bs) (n i : Nat) (hi : i ≤ b.regs.length)
    (hlen : 0 < b.regs.length) :
    memRegs (blkMem bs) (b.off + i) n =
      if i + n ≤ b.regs.length then some ((b.regs.drop i).take n) else none := by
  induction n generalizing i with
  | zero => rw [if_pos (by omega)]; simp [memRegs]
  | succ n ih =>
    rw [memRegs]
    by_cases h : i < b.regs.length
    · rw [blkMem_mem hg hb (by simp only [Blk.stop]; omega)]
      have e : (b.off + (i : Int) - b.off).toNat = i := by omega
      rw [e, List.getElem?_eq_getElem h]
      have ih' := ih (i + 1) (by omega)
      rw [show b.off + ((i + 1 : Nat) : Int) = b.off + i + 1 by omega] at ih'
      rw [ih']
      by_cases h2 : i + 1 + n ≤ b.regs.length
      · rw [if_pos h2, if_pos (by omega)]
        simp only
        rw [List.drop_eq_getElem_cons h, List.take_succ_cons]
      · rw [if_neg h2, if_neg (by omega)]
    · have : b.off + (i : Int) = b.stop := by simp only [Blk.stop]; omega
      rw [this, blkMem_stop hg hb (by simp only [Blk.stop]; omega), if_neg (by omega)]

/-- Store registers into a block from register `i` on, as far as they fit. -/
def Blk.store (b : Blk) (i : Nat) (rs : List Reg) : Blk :=
  { b with regs := b.regs.take i ++ rs.take (b.regs.length - i) ++ b.regs.drop (i + rs.length) }

/-- Store registers into the block that contains offset `o`. -/
def blkStore : List Blk → Int → List Reg → List Blk
  | [], _, _ => []
  | b :: bs, o, rs =>
    if b.off ≤ o ∧ o < b.stop then b.store (o - b.off).toNat rs :: bs else b :: blkStore bs o rs

theorem Blk.store_length (b : Blk) (i : Nat) (rs : List Reg) (hi : i ≤ b.regs.length) :
    (b.store i rs).regs.length = b.regs.length := by
  simp only [Blk.store, List.length_append, List.length_take, List.length_drop]; omega

theorem Blk.store_stop (b : Blk) (i : Nat) (rs : List Reg) (hi : i ≤ b.regs.length) :
    (b.store i rs).stop = b.stop := by
  simp only [Blk.stop, b.store_length i rs hi]; rfl

theorem Blk.store_get (b : Blk) (i : Nat) (rs : List Reg) (hi : i ≤ b.regs.length) (k : Nat)
    (hk : k < b.regs.length) :
    (b.store i rs).regs[k]? = if i ≤ k ∧ k < i + rs.length then rs[k - i]? else b.regs[k]? := by
  simp only [Blk.store]
  by_cases h1 : k < i
  · rw [if_neg (by omega), List.getElem?_append_left (by simp only [List.length_append, List.length_take]; omega),
      List.getElem?_append_left (by simp only [List.length_take]; omega), List.getElem?_take_of_lt h1]
  · by_cases h2 : k < i + rs.length
    · rw [if_pos ⟨by omega, h2⟩,
        List.getElem?_append_left (by simp only [List.length_append, List.length_take]; omega),
        List.getElem?_append_right (by simp only [List.length_take]; omega),
        List.length_take, Nat.min_eq_left hi, List.getElem?_take_of_lt (by omega)]
    · rw [if_neg (by omega), List.getElem?_append_right (by simp only [List.length_append, List.length_take]; omega),
        List.getElem?_drop]
      congr 1
      simp only [List.length_append, List.length_take]; omega

/-- Writing inside a block. -/
theorem regsWrite_blk (b : Blk) (i : Nat) (rs : List Reg) (hi : i + rs.length ≤ b.regs.length) :
    regsWrite b.toRegs (.int (b.off + i)) (regBytes rs) = .ok (b.store i rs).toRegs := by
  unfold regsWrite
  have h1 : b.toRegs.offset.q ≤ (Num.int (b.off + i)).q ∧
      ((Num.int (b.off + i)).add (.half (regBytes rs).length)).q ≤ (b.toRegs.offset.add b.toRegs.count).q := by
    simp only [Blk.toRegs, Num.int, Num.add, Num.half, regBytes_length]; omega
  rw [if_pos h1]
  have e1 : ((Num.int (b.off + i)).sub b.toRegs.offset).dbl = Num.int ((2 * i : Nat) : Int) := by
    simp only [Blk.toRegs, Num.int, Num.sub, Num.dbl, Bool.or_false, Num.mk.injEq, true_and]; omega
  have e3 : ∀ k : Int, (Num.int k).index = .ok k := by
    intro k; unfold Num.index; rw [toInt_int]; rfl
  have e4 : b.toRegs.data = some (regBytes b.regs) := rfl
  have e5 : ((Num.int ((2 * i : Nat) : Int)).add (Num.half (regBytes rs).length).dbl).toInt =
      ((2 * (i + rs.length) : Nat) : Int) := by
    simp only [Num.int, Num.add, Num.half, Num.dbl, Num.toInt, regBytes_length]
    rw [show (4 * ((2 * i : Nat) : Int) + 2 * (2 * ((2 * rs.length : Nat) : Int))) =
      4 * ((2 * (i + rs.length) : Nat) : Int) by omega]
    exact Int.mul_tdiv_cancel_left _ (by decide)
  rw [e1, e3, e4, e5]
  dsimp only
  have s1 : pySlice (regBytes b.regs) 0 ((2 * i : Nat) : Int) = regBytes (b.regs.take i) := by
    have := pySlice_nat (regBytes b.regs) 0 (2 * i)
    simp only [Int.natCast_zero] at this
    rw [this, regBytes_take]; rfl
  have s2 : pySlice (regBytes b.regs) ((2 * (i + rs.length) : Nat) : Int) ((regBytes b.regs).length : Int) =
      regBytes (b.regs.drop (i + rs.length)) := by
    rw [pySlice_nat, List.take_length, regBytes_drop]
  rw [s1, s2, ← regBytes_append, ← regBytes_append]
  have hl := b.store_length i rs (by omega)
  have ht : rs.take (b.regs.length - i) = rs := List.take_of_length_le (by omega)
  simp only [Blk.toRegs, Blk.store, ht] at *
  rw [hl]

/-- Writing where there is no register. -/
theorem mapWriteLoop_none (bs : List Blk) (o : Int) (rem dof : Num) (d : Bytes)
    (h : ∀ b ∈ bs, ¬ (b.off ≤ o ∧ o < b.stop)) :
    mapWriteLoop (bs.map Blk.toRegs) (.int o) rem dof d = (bs.map Blk.toRegs, .ok rem) := by
  induction bs with
  | nil => rfl
  | cons b bs ih =>
    rw [List.map_cons, mapWriteLoop]
    by_cases hr : 0 < rem.q
    · rw [if_pos hr, if_neg]
      · rw [ih fun x hx => h x (by simp [hx])]
      · rw [blk_in_range]; exact h b (by simp)
    · rw [if_neg hr]

theorem mapWriteLoop_zero (rs : List Regs) (o rem dof : Num) (h : ¬ 0 < rem.q) (d : Bytes) :
    mapWriteLoop rs o rem dof d = (rs, .ok rem) := by
  cases rs with
  | nil => rfl
  | cons r rs => rw [mapWriteLoop, if_neg h]

/-- Writing from inside a block stores the data up to the end of the block. -/
theorem mapWriteLoop_some (bs : List Blk) (hg : Gapped bs) (o : Int) (rs : List Reg) (hn : 0 < rs.length) (b : Blk)
    (hb : b ∈ bs) (ho : b.off ≤ o ∧ o < b.stop) :
    ∃ rem : Num, mapWriteLoop (bs.map Blk.toRegs) (.int o) (.half (regBytes rs).length) (.int 0) (regBytes rs) =
      ((blkStore bs o rs).map Blk.toRegs, .ok rem) ∧ (0 < rem.q ↔ b.stop < o + rs.length) := by
  induction bs with
  | nil => simp at hb
  | cons c bs ih =>
    obtain ⟨hg1, hg2⟩ := List.pairwise_cons.1 hg
    rw [List.map_cons, mapWriteLoop, if_pos (by simp only [Num.half, regBytes_length]; omega), blkStore]
    by_cases hc : c.off ≤ o ∧ o < c.stop
    · have hbc : b = c := by
        rcases List.mem_cons.1 hb with h | h
        · exact h
        · have := hg1 b h; omega
      subst hbc
      rw [if_pos ((blk_in_range b o).2 hc), if_pos hc]
      obtain ⟨i, hi⟩ : ∃ i : Nat, o = b.off + i := ⟨(o - b.off).toNat, by omega⟩
      subst hi
      simp only [Blk.stop] at ho hc
      have e0 : (b.toRegs.offset.add b.toRegs.count).sub (Num.int (b.off + i)) =
          Num.int ((b.regs.length - i : Nat) : Int) := by
        simp only [Blk.toRegs, Num.int, Num.sub, Num.add, Bool.or_false, Num.mk.injEq, true_and]; omega
      rw [e0]
      have e5 : (b.off + (i : Int) - b.off).toNat = i := by omega
      rw [e5]
      -- the count that is written
      obtain ⟨wc, hwc, hq⟩ : ∃ wc : Num, (if (Num.half (regBytes rs).length).q < (Num.int ((b.regs.length - i : Nat) : Int)).q
          then Num.half (regBytes rs).length else Num.int ((b.regs.length - i : Nat) : Int)) = wc ∧
          wc.q = 4 * ((min rs.length (b.regs.length - i) : Nat) : Int) := by
        refine ⟨_, rfl, ?_⟩
        by_cases h : rs.length < b.regs.length - i
        · rw [if_pos (by simp only [Num.half, Num.int, regBytes_length]; omega)]
          simp only [Num.half, regBytes_length]; omega
        · rw [if_neg (by simp only [Num.half, Num.int, regBytes_length]; omega)]
          simp only [Num.int]; omega
      dsimp only
      have hwc2 : b.regs.length - i < rs.length → wc = Num.int ((b.regs.length - i : Nat) : Int) := by
        intro h
        rw [← hwc, if_neg (by simp only [Num.half, Num.int, regBytes_length]; omega)]
      rw [hwc]
      clear hwc
      have e6 : ((Num.int 0).add wc.dbl).toInt = ((2 * min rs.length (b.regs.length - i) : Nat) : Int) := by
        simp only [Num.int, Num.add, Num.dbl, Num.toInt, hq]
        rw [show (4 * (0 : Int) + 2 * (4 * ((min rs.length (b.regs.length - i) : Nat) : Int))) =
          4 * ((2 * min rs.length (b.regs.length - i) : Nat) : Int) by omega]
        exact Int.mul_tdiv_cancel_left _ (by decide)
      have e7 : numSlice (some (regBytes rs)) (Num.int 0) (.int ((Num.int 0).add wc.dbl).toInt) =
          .ok (regBytes (rs.take (b.regs.length - i))) := by
        rw [e6]
        unfold numSlice
        have e3 : ∀ k : Int, (Num.int k).index = .ok k := by
          intro k; unfold Num.index; rw [toInt_int]; rfl
        rw [e3, e3]
        dsimp only
        have := pySlice_nat (regBytes rs) 0 (2 * min rs.length (b.regs.length - i))
        simp only [Int.natCast_zero, List.drop_zero] at this
        rw [this, ← regBytes_take, Nat.min_comm]
        rw [← List.take_eq_take_min]
      rw [e7]
      dsimp only
      rw [regsWrite_blk b i _ (by simp only [List.length_take]; omega)]
      have e8 : b.store i (rs.take (b.regs.length - i)) = b.store i rs := by
        simp only [Blk.store, List.take_take, Nat.min_self, List.length_take]
        by_cases h : rs.length ≤ b.regs.length - i
        · rw [Nat.min_eq_right h]
        · rw [Nat.min_eq_left (by omega), List.drop_eq_nil_of_le (by omega), List.drop_eq_nil_of_le (by omega)]
      rw [e8]
      by_cases h : rs.length ≤ b.regs.length - i
      · dsimp only
        rw [mapWriteLoop_zero _ _ _ _ (by simp only [Num.sub, Num.half, regBytes_length, hq]; omega)]
        refine ⟨_, rfl, ?_⟩
        simp only [Num.sub, Num.half, regBytes_length, hq, Blk.stop]; omega
      · dsimp only
        have := hwc2 (by omega)
        have e9 : (Num.int (b.off + i)).add wc = .int b.stop := by
          rw [this]
          simp only [Blk.stop, Num.int, Num.add, Bool.or_false, Num.mk.injEq, true_and]; omega
        rw [e9, mapWriteLoop_none]
        · refine ⟨_, rfl, ?_⟩
          simp only [Num.sub, Num.half, regBytes_length, hq, Blk.stop]; omega
        · intro x hx
          have := hg1 x hx
          omega
    · rw [if_neg (fun h => hc ((blk_in_range c o).1 h)), if_neg hc]
      have hb' : b ∈ bs := by
        rcases List.mem_cons.1 hb with h | h
        · exact absurd (h ▸ ho) hc
        · exact h
      obtain ⟨rem, h1, h2⟩ := ih hg2 hb'
      rw [h1]
      exact ⟨rem, rfl, h2⟩

theorem blkStore_none {bs : List Blk} {o : Int} (h : ∀ b ∈ bs, ¬ (b.off ≤ o ∧ o < b.stop)) (rs : List Reg) :
    blkStore bs o rs = bs := by
  induction bs with
  | nil => rfl
  | cons b bs ih =>
    rw [blkStore, if_neg (h b (by simp)), ih fun x hx => h x (by simp [hx])]

theorem store_index_le {b : Blk} {o : Int} (h : b.off ≤ o ∧ o < b.stop) : (o - b.off).toNat ≤ b.regs.length := by
  simp only [Blk.stop] at h; omega

/-- Storing does not move blocks. -/
theorem blkStore_shape (bs : List Blk) (o : Int) (rs : List Reg) :
    (blkStore bs o rs).map (fun b => (b.off, b.regs.length, b.access)) =
      bs.map fun b => (b.off, b.regs.length, b.access) := by
  induction bs with
  | nil => rfl
  | cons b bs ih =>
    rw [blkStore]
    by_cases h : b.off ≤ o ∧ o < b.stop
    · rw [if_pos h, List.map_cons, List.map_cons, b.store_length _ _ (store_index_le h)]; rfl
    · rw [if_neg h, List.map_cons, List.map_cons, ih]

theorem gapped_shape {as bs : List Blk}
    (h : as.map (fun b => (b.off, b.regs.length, b.access)) = bs.map fun b => (b.off, b.regs.length, b.access))
    (hg : Gapped bs) : Gapped as := by
  have key : ∀ l : List Blk, Gapped l ↔
      (l.map fun b => (b.off, b.regs.length, b.access)).Pairwise fun a b => a.1 + (a.2.1 : Int) < b.1 := by
    intro l
    rw [List.pairwise_map]; rfl
  rw [key, h, ← key]
  exact hg

theorem blkStore_gapped {bs : List Blk} (hg : Gapped bs) (o : Int) (rs : List Reg) : Gapped (blkStore bs o rs) :=
  gapped_shape (blkStore_shape bs o rs) hg

/-- What a store does to the memory. -/
theorem blkMem_store {bs : List Blk} (hg : Gapped bs) {b : Blk} (hb : b ∈ bs) {o : Int} (ho : b.off ≤ o ∧ o < b.stop)
    (rs : List Reg) (a : Int) :
    blkMem (blkStore bs o rs) a =
      if o ≤ a ∧ a < o + rs.length ∧ a < b.stop then rs[(a - o).toNat]? else blkMem bs a := by
  induction bs with
  | nil => simp at hb
  | cons c bs ih =>
    obtain ⟨hg1, hg2⟩ := List.pairwise_cons.1 hg
    rw [blkStore]
    by_cases hc : c.off ≤ o ∧ o < c.stop
    · have hbc : b = c := by
        rcases List.mem_cons.1 hb with h | h
        · exact h
        · have := hg1 b h; omega
      subst hbc
      rw [if_pos hc, blkMem, b.store_stop _ _ (store_index_le hc), blkMem]
      have eo : (b.store (o - b.off).toNat rs).off = b.off := rfl
      rw [eo]
      by_cases ha : b.off ≤ a ∧ a < b.stop
      · rw [if_pos ha, if_pos ha, b.store_get _ _ (store_index_le hc) _ (by simp only [Blk.stop] at ha; omega)]
        by_cases h : o ≤ a ∧ a < o + rs.length
        · rw [if_pos (by omega), if_pos (by omega)]
          congr 1; omega
        · rw [if_neg (by omega), if_neg (by omega)]
      · rw [if_neg ha, if_neg ha, if_neg (by omega)]
    · rw [if_neg hc, blkMem, blkMem]
      have hb' : b ∈ bs := by
        rcases List.mem_cons.1 hb with h | h
        · exact absurd (h ▸ ho) hc
        · exact h
      have := hg1 b hb'
      by_cases ha : c.off ≤ a ∧ a < c.stop
      · rw [if_pos ha, if_pos ha, if_neg (by omega)]
      · rw [if_neg ha, if_neg ha]
        exact ih hg2 hb'

/-- `memStore` in closed form: `j` registers are stored. -/
theorem memStore_eq (mem : RegMem) (o : Int) (rs : List Reg) (j : Nat) (hj : j ≤ rs.length)
    (hdef : ∀ i : Nat, i < j → mem (o + i) ≠ none) (hend : j = rs.length ∨ mem (o + j) = none) :
    memStore mem o rs =
      (fun a => if o ≤ a ∧ a < o + j then rs[(a - o).toNat]? else mem a, decide (j = rs.length)) := by
  induction rs generalizing mem o j with
  | nil =>
    have : j = 0 := by simpa using hj
    subst this
    simp only [memStore]
    refine Prod.ext ?_ (by simp)
    funext a
    dsimp only
    rw [if_neg (by omega)]
  | cons r rs ih =>
    rw [memStore]
    cases j with
    | zero =>
      have hz : mem o = none := by
        rcases hend with h | h
        · simp at h
        · simpa using h
      rw [hz]
      refine Prod.ext ?_ (by simp)
      funext a
      dsimp only
      rw [if_neg (by omega)]
    | succ j =>
      have h0 := hdef 0 (by omega)
      simp only [Int.natCast_zero, Int.add_zero] at h0
      obtain ⟨x, hx⟩ := Option.ne_none_iff_exists'.1 h0
      rw [hx]
      dsimp only
      rw [ih (memSet mem o r) (o + 1) j (by simpa using hj)]
      · refine Prod.ext ?_ (by simp)
        funext a
        dsimp only [memSet]
        by_cases ha : a = o
        · subst ha
          rw [if_neg (by omega), if_pos rfl, if_pos (by omega)]
          simp
        · rw [if_neg ha]
          by_cases hb : o + 1 ≤ a ∧ a < o + 1 + j
          · rw [if_pos hb, if_pos (by omega)]
            rw [show (a - o).toNat = (a - (o + 1)).toNat + 1 by omega, List.getElem?_cons_succ]
          · rw [if_neg hb, if_neg (by omega)]
      · intro i hi
        simp only [memSet]
        rw [if_neg (by omega)]
        have := hdef (i + 1) (by omega)
        rwa [show o + ((i + 1 : Nat) : Int) = o + 1 + i by omega] at this
      · rcases hend with h | h
        · left; simpa using h
        · right
          simp only [memSet]
          rw [if_neg (by omega)]
          rwa [show o + ((j + 1 : Nat) : Int) = o + 1 + j by omega] at h

end Verif
