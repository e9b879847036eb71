import Verif.Model.Crc
import Verif.Spec.Crc

/-! CRC lemmas: the table step is eight shifts, linearity, injectivity, bursts. -/

namespace Verif
open Verif.Spec

theorem crcShift_xor (a b : BitVec 16) : crcShift (a ^^^ b) = crcShift a ^^^ crcShift b := by
  unfold crcShift
  simp only [BitVec.getLsbD_xor, BitVec.ushiftRight_xor_distrib]
  cases a.getLsbD 0 <;> cases b.getLsbD 0 <;>
    simp only [Bool.bne_true, Bool.bne_false, Bool.not_false,
      Bool.not_true, Bool.false_eq_true, if_true, if_false]
  · rw [BitVec.xor_assoc]
  · rw [BitVec.xor_assoc, BitVec.xor_assoc, BitVec.xor_comm (b >>> 1)]
  · have : a >>> 1 ^^^ 0xa001#16 ^^^ (b >>> 1 ^^^ 0xa001#16) =
      a >>> 1 ^^^ (b >>> 1 ^^^ (0xa001#16 ^^^ 0xa001#16)) := by
      simp only [BitVec.xor_assoc]; congr 1
      rw [← BitVec.xor_assoc, BitVec.xor_comm 0xa001#16, BitVec.xor_assoc]
    have h2 := this.symm
    rw [BitVec.xor_self, BitVec.xor_zero] at h2
    exact h2

theorem crcShifts_xor (n : Nat) (a b : BitVec 16) :
    crcShifts n (a ^^^ b) = crcShifts n a ^^^ crcShifts n b := by
  induction n generalizing a b with
  | zero => rfl
  | succ n ih => simp only [crcShifts, crcShift_xor, ih]

theorem crcShifts_add (m n : Nat) (s : BitVec 16) :
    crcShifts (m + n) s = crcShifts n (crcShifts m s) := by
  induction m generalizing s with
  | zero => simp [crcShifts]
  | succ m ih => rw [Nat.succ_add]; simp only [crcShifts, ih]

theorem crcShift_eq_zero {s : BitVec 16} (h : crcShift s = 0) : s = 0 := by
  unfold crcShift at h
  split at h
  · exfalso
    have h2 : s >>> 1 = 0xa001#16 := by
      have := congrArg (· ^^^ 0xa001#16) h
      simpa [BitVec.xor_assoc] using this
    have h3 := congrArg BitVec.toNat h2
    simp only [BitVec.toNat_ushiftRight, BitVec.toNat_ofNat] at h3
    have := s.isLt
    omega
  · rename_i hl
    have h3 := congrArg BitVec.toNat h
    simp only [BitVec.toNat_ushiftRight, Nat.shiftRight_succ, Nat.shiftRight_zero] at h3
    have h4 : s.toNat % 2 = 0 := by
      have : s.toNat.testBit 0 = false := by simpa [BitVec.getLsbD] using hl
      rw [Nat.testBit_zero] at this
      simp at this; omega
    apply BitVec.eq_of_toNat_eq
    simp at h3 ⊢; omega

theorem crcShifts_eq_zero {n : Nat} {s : BitVec 16} (h : crcShifts n s = 0) : s = 0 := by
  induction n generalizing s with
  | zero => exact h
  | succ n ih => exact crcShift_eq_zero (ih h)

theorem crcShifts_zero (n : Nat) : crcShifts n 0 = 0 := by
  induction n with
  | zero => rfl
  | succ n ih => simp only [crcShifts]; rw [show crcShift 0 = 0 by decide, ih]

/-! ### the table -/

theorem crcTable_lo : ∀ n, n < 256 → crcTable (BitVec.ofNat 16 n) = crcShifts 8 (BitVec.ofNat 16 n) := by
  decide +kernel

theorem crcShifts_hi : ∀ n, n < 256 → crcShifts 8 (BitVec.ofNat 16 (n * 256)) = BitVec.ofNat 16 n := by
  decide +kernel

theorem and_ff (x : BitVec 16) : x &&& 0xff#16 = BitVec.ofNat 16 (x.toNat % 256) := by
  apply BitVec.eq_of_toNat_eq
  have := x.isLt
  have h : x.toNat &&& 255 = x.toNat % 256 := Nat.and_two_pow_sub_one_eq_mod x.toNat 8
  simp only [BitVec.toNat_and, BitVec.toNat_ofNat]
  rw [show (255 % 2 ^ 16) = 255 by decide, h]; omega

theorem split_hi_lo (x : BitVec 16) :
    x = BitVec.ofNat 16 (x.toNat / 256 * 256) ^^^ BitVec.ofNat 16 (x.toNat % 256) := by
  have hx := x.isLt
  apply BitVec.eq_of_toNat_eq
  simp only [BitVec.toNat_xor, BitVec.toNat_ofNat]
  rw [Nat.mod_eq_of_lt (show x.toNat / 256 * 256 < 2 ^ 16 by omega),
    Nat.mod_eq_of_lt (show x.toNat % 256 < 2 ^ 16 by omega)]
  apply Nat.eq_of_testBit_eq
  intro i
  rw [Nat.testBit_xor, show (256 : Nat) = 2 ^ 8 by decide, Nat.testBit_mul_two_pow,
    Nat.testBit_mod_two_pow, Nat.testBit_div_two_pow]
  by_cases h : 8 ≤ i
  · have : ¬ i < 8 := by omega
    simp [h, this]
  · have : i < 8 := by omega
    simp [h, this]

theorem table_step (crc : BitVec 16) (a : Byte) :
    ((crc >>> 8) &&& 0xff#16) ^^^ crcTable ((crc ^^^ a.setWidth 16) &&& 0xff#16) =
      crcShifts 8 (crc ^^^ a.setWidth 16) := by
  generalize hx : crc ^^^ a.setWidth 16 = x
  have hhi : (crc >>> 8) &&& 0xff#16 = BitVec.ofNat 16 (x.toNat / 256) := by
    rw [and_ff]
    congr 1
    rw [← hx]
    simp only [BitVec.toNat_ushiftRight, BitVec.toNat_xor, BitVec.toNat_setWidth]
    have h1 := crc.isLt
    have h2 := a.isLt
    rw [Nat.mod_eq_of_lt (show a.toNat < 2 ^ 16 by omega), show (256 : Nat) = 2 ^ 8 by decide,
      Nat.shiftRight_eq_div_pow, Nat.mod_eq_of_lt (by omega)]
    have : (crc.toNat ^^^ a.toNat) >>> 8 = crc.toNat >>> 8 ^^^ a.toNat >>> 8 :=
      Nat.shiftRight_xor_distrib
    rw [← Nat.shiftRight_eq_div_pow, ← Nat.shiftRight_eq_div_pow, this]
    have : a.toNat >>> 8 = 0 := by rw [Nat.shiftRight_eq_div_pow]; omega
    rw [this, Nat.xor_zero]
  have hxlt := x.isLt
  rw [hhi, and_ff, crcTable_lo _ (by omega)]
  conv => rhs; rw [split_hi_lo x]
  rw [crcShifts_xor, crcShifts_hi _ (by omega)]

theorem crcLoop_eq (crc : BitVec 16) (d : Bytes) :
    crcLoop crc d = d.foldl (fun s b => crcShifts 8 (s ^^^ b.setWidth 16)) crc := by
  induction d generalizing crc with
  | nil => rfl
  | cons a r ih =>
    simp only [crcLoop, List.foldl_cons, ih]
    rw [← table_step crc a]
    rfl

theorem swap_toNat (c : BitVec 16) :
    (((c <<< 8) &&& 0xff00#16) ||| ((c >>> 8) &&& 0x00ff#16)).toNat =
      (c.toNat % 256) * 256 + c.toNat / 256 := by
  have hc := c.isLt
  have h1 : ((c >>> 8) &&& 0x00ff#16).toNat = c.toNat / 256 := by
    rw [and_ff]; simp only [BitVec.toNat_ofNat, BitVec.toNat_ushiftRight, Nat.shiftRight_eq_div_pow]
    omega
  have h2 : (c <<< 8) &&& 0xff00#16 = c <<< 8 := by
    apply BitVec.eq_of_getLsbD_eq
    intro i hi
    have : ∀ i, i < 16 → (8 ≤ i → (0xff00#16).getLsbD i = true) := by decide
    simp only [BitVec.getLsbD_and, BitVec.getLsbD_shiftLeft]
    by_cases h8 : i < 8
    · simp [h8]
    · rw [this i hi (by omega)]; simp
  have h3 : (c <<< 8).toNat = (c.toNat % 256) * 2 ^ 8 := by
    simp only [BitVec.toNat_shiftLeft, Nat.shiftLeft_eq]; omega
  rw [BitVec.toNat_or, h2, h1, h3, Nat.or_comm,
    Nat.or_comm, Nat.mul_comm, ← Nat.two_pow_add_eq_or_of_lt (show c.toNat / 256 < 2 ^ 8 by omega)]

theorem computeCRC_toNat (d : Bytes) :
    (computeCRC d).toNat = ((modbusCRC d).toNat % 256) * 256 + (modbusCRC d).toNat / 256 := by
  have : crcLoop 0xffff d = modbusCRC d := crcLoop_eq _ _
  rw [computeCRC, this]; exact swap_toNat _

theorem crcBytes_toNat (d : Bytes) : crcBytes d =
    [BitVec.ofNat 8 ((modbusCRC d).toNat % 256), BitVec.ofNat 8 ((modbusCRC d).toNat / 256)] := by
  have := (modbusCRC d).isLt
  simp only [crcBytes, List.cons.injEq, and_true]
  constructor <;> apply BitVec.eq_of_toNat_eq <;>
    simp only [BitVec.toNat_setWidth, BitVec.toNat_ofNat, BitVec.toNat_ushiftRight,
      Nat.shiftRight_eq_div_pow] <;> omega

theorem crcField_eq (d : Bytes) : crcField d = crcBytes d := by
  have h := (modbusCRC d).isLt
  rw [crcField, computeCRC_toNat, crcBytes_toNat]
  generalize (modbusCRC d).toNat = c at h
  have hlt : c / 256 < 256 := by omega
  simp only [beEnc, List.cons.injEq, and_true]
  constructor
  · rw [show (c % 256 * 256 + c / 256) / 256 ^ 1 = c % 256 by omega]
  · apply BitVec.eq_of_toNat_eq; simp only [BitVec.toNat_ofNat]; omega

theorem packCRC (d : Bytes) : packU 2 (computeCRC d).toNat = .ok (crcField d) := by
  have h := (computeCRC d).isLt
  rw [packU, if_pos (by omega), Int.toNat_natCast]; rfl

/-- The frame check of the model is validity. -/
theorem frameCrcOk_iff (f : Bytes) : frameCrcOk f = true ↔ ValidFrame f := by
  constructor
  · intro h
    unfold frameCrcOk at h
    split at h
    · rename_i lo hi rest heq
      refine ⟨rest.reverse, ?_⟩
      have hf : f = rest.reverse ++ [hi, lo] := by
        rw [← List.reverse_reverse f, heq]; simp
      rw [hf]
      congr 1
      simp only [checkCRC, beq_iff_eq, computeCRC_toNat] at h
      rw [crcBytes_toNat]
      have h1 := lo.isLt
      have h2 := hi.isLt
      have h3 := (modbusCRC rest.reverse).isLt
      generalize (modbusCRC rest.reverse).toNat = c at *
      have e1 : c / 256 = lo.toNat := by omega
      have e2 : c % 256 = hi.toNat := by omega
      simp only [List.cons.injEq, and_true, e1, e2]
      constructor <;> apply BitVec.eq_of_toNat_eq <;> simp only [BitVec.toNat_ofNat] <;> omega
    · simp at h
  · rintro ⟨p, rfl⟩
    rw [crcBytes_toNat]
    unfold frameCrcOk
    simp only [List.reverse_append, List.reverse_cons, List.reverse_nil, List.nil_append,
      List.cons_append, List.reverse_reverse, checkCRC, beq_iff_eq, computeCRC_toNat,
      BitVec.toNat_ofNat]
    have h3 := (modbusCRC p).isLt
    omega

/-! ### bits -/

/-- Register after shifting in one message bit. -/
def bitStep (s : BitVec 16) (b : Bool) : BitVec 16 := crcShift (s ^^^ (if b then 1 else 0))

/-- Register after a bit string. -/
def bitRun (s : BitVec 16) (w : List Bool) : BitVec 16 := w.foldl bitStep s

theorem bitStep_xor (s t : BitVec 16) (a b : Bool) :
    bitStep (s ^^^ t) (a ^^ b) = bitStep s a ^^^ bitStep t b := by
  unfold bitStep
  rw [← crcShift_xor]
  congr 1
  have : (if (a ^^ b) = true then (1 : BitVec 16) else 0) =
      (if a = true then 1 else 0) ^^^ (if b = true then 1 else 0) := by
    cases a <;> cases b <;> decide
  rw [this]
  simp only [BitVec.xor_assoc]; congr 1
  rw [← BitVec.xor_assoc t, BitVec.xor_comm t, BitVec.xor_assoc]

theorem bitRun_xor (s t : BitVec 16) (v w : List Bool) (h : v.length = w.length) :
    bitRun (s ^^^ t) (List.zipWith (· ^^ ·) v w) = bitRun s v ^^^ bitRun t w := by
  induction v generalizing s t w with
  | nil => cases w with
    | nil => rfl
    | cons _ _ => simp at h
  | cons a v ih => cases w with
    | nil => simp at h
    | cons b w =>
      simp only [List.zipWith_cons_cons, bitRun, List.foldl_cons, bitStep_xor]
      exact ih _ _ _ (by simpa using h)

theorem bitRun_append (s : BitVec 16) (v w : List Bool) :
    bitRun s (v ++ w) = bitRun (bitRun s v) w := by simp [bitRun]

theorem bitRun_false (s : BitVec 16) (n : Nat) : bitRun s (List.replicate n false) = crcShifts n s := by
  induction n generalizing s with
  | zero => rfl
  | succ n ih =>
    rw [List.replicate_succ]
    show bitRun (bitStep s false) _ = _
    rw [ih]; simp [bitStep, crcShifts]

/-- The number whose least significant bit is the first element. -/
def bitsNat : List Bool → Nat
  | [] => 0
  | b :: r => (if b then 1 else 0) + 2 * bitsNat r

theorem bitsNat_lt (w : List Bool) : bitsNat w < 2 ^ w.length := by
  induction w with
  | nil => simp [bitsNat]
  | cons b r ih =>
    simp only [bitsNat, List.length_cons, Nat.pow_succ]
    split <;> omega

theorem crcShift_double (n : Nat) (h : n < 2 ^ 15) :
    crcShift (BitVec.ofNat 16 (2 * n)) = BitVec.ofNat 16 n := by
  unfold crcShift
  have : (BitVec.ofNat 16 (2 * n)).getLsbD 0 = false := by
    simp [BitVec.getLsbD, BitVec.toNat_ofNat, Nat.testBit_zero]
  rw [this]
  simp only [Bool.false_eq_true, if_false]
  apply BitVec.eq_of_toNat_eq
  simp only [BitVec.toNat_ushiftRight, BitVec.toNat_ofNat, Nat.shiftRight_succ, Nat.shiftRight_zero]
  omega

theorem xor_bit_double (b : Bool) (n : Nat) (h : n < 2 ^ 15) :
    BitVec.ofNat 16 ((if b then 1 else 0) + 2 * n) =
      (if b then 1 else 0) ^^^ BitVec.ofNat 16 (2 * n) := by
  cases b
  · simp
  · simp only [if_true]
    apply BitVec.eq_of_toNat_eq
    simp only [BitVec.toNat_xor, BitVec.toNat_ofNat]
    rw [Nat.mod_eq_of_lt (show 2 * n < 2 ^ 16 by omega), Nat.mod_eq_of_lt (show 1 + 2 * n < 2 ^ 16 by omega)]
    show _ = 1 ^^^ 2 * n
    apply Nat.eq_of_testBit_eq
    intro i
    cases i with
    | zero => simp [Nat.testBit_zero]
    | succ i =>
      rw [Nat.testBit_xor, Nat.testBit_succ, Nat.testBit_succ, Nat.testBit_succ]
      rw [show (1 + 2 * n) / 2 = n by omega, show 2 * n / 2 = n by omega]
      simp

/-- Feeding at most 16 bits is xoring them into the register and shifting. -/
theorem bitRun_word (s : BitVec 16) (w : List Bool) (h : w.length ≤ 16) :
    bitRun s w = crcShifts w.length (s ^^^ BitVec.ofNat 16 (bitsNat w)) := by
  induction w generalizing s with
  | nil => simp [bitRun, crcShifts, bitsNat]
  | cons b r ih =>
    have hr : r.length ≤ 15 := by simpa using h
    have hlt : bitsNat r < 2 ^ 15 :=
      Nat.lt_of_lt_of_le (bitsNat_lt r) (Nat.pow_le_pow_right (by decide) hr)
    show bitRun (bitStep s b) r = _
    rw [ih _ (by omega)]
    simp only [List.length_cons, crcShifts, bitsNat]
    congr 1
    rw [xor_bit_double _ _ hlt, ← BitVec.xor_assoc, crcShift_xor, crcShift_double _ hlt]
    rfl

theorem bitsNat_wireBitsOf : ∀ n, n < 256 → bitsNat (wireBitsOf (BitVec.ofNat 8 n)) = n := by
  decide +kernel

theorem byte_run (s : BitVec 16) (b : Byte) :
    bitRun s (wireBitsOf b) = crcShifts 8 (s ^^^ b.setWidth 16) := by
  rw [bitRun_word _ _ (by simp [wireBitsOf])]
  have hb := b.isLt
  have := bitsNat_wireBitsOf b.toNat hb
  rw [BitVec.ofNat_toNat, BitVec.setWidth_eq] at this
  rw [this]
  simp only [wireBitsOf, List.length_map, List.length_range]
  congr 2
  apply BitVec.eq_of_toNat_eq; simp

theorem bytes_run (s : BitVec 16) (d : Bytes) :
    bitRun s (wireBits d) = d.foldl (fun s b => crcShifts 8 (s ^^^ b.setWidth 16)) s := by
  induction d generalizing s with
  | nil => rfl
  | cons b r ih =>
    simp only [wireBits, List.flatMap_cons, bitRun_append, List.foldl_cons, byte_run]
    exact ih _

theorem wireBits_append (a b : Bytes) : wireBits (a ++ b) = wireBits a ++ wireBits b := by
  simp [wireBits]

@[simp] theorem wireBits_length (d : Bytes) : (wireBits d).length = 8 * d.length := by
  induction d with
  | nil => rfl
  | cons b r ih =>
    simp only [wireBits, List.flatMap_cons, List.length_append, List.length_cons]
    rw [wireBits] at ih
    rw [ih]; simp [wireBitsOf]; omega

theorem bitsNat_append (v w : List Bool) : bitsNat (v ++ w) = bitsNat v + 2 ^ v.length * bitsNat w := by
  induction v with
  | nil => simp [bitsNat]
  | cons b r ih =>
    simp only [List.cons_append, bitsNat, ih, List.length_cons, Nat.pow_succ]
    rw [Nat.mul_comm (2 ^ r.length) 2, Nat.mul_assoc, Nat.mul_add]; omega

/-- The residue test: a frame of at least two bytes is valid iff the register is 0 after all of
it. -/
theorem valid_iff_residue (f : Bytes) (h : 2 ≤ f.length) :
    ValidFrame f ↔ bitRun 0xffff (wireBits f) = 0 := by
  -- split off the last two bytes
  obtain ⟨p, x, y, rfl⟩ : ∃ p x y, f = p ++ [x, y] := by
    refine ⟨f.take (f.length - 2), ?_⟩
    have hl : (f.drop (f.length - 2)).length = 2 := by simp; omega
    match hd : f.drop (f.length - 2), hl with
    | [x, y], _ => exact ⟨x, y, by rw [← hd, List.take_append_drop]⟩
  have hx := x.isLt
  have hy := y.isLt
  have hword : bitRun 0xffff (wireBits (p ++ [x, y])) =
      crcShifts 16 (modbusCRC p ^^^ BitVec.ofNat 16 (x.toNat + 256 * y.toNat)) := by
    rw [wireBits_append, bitRun_append, bytes_run _ p]
    show bitRun (modbusCRC p) _ = _
    rw [bitRun_word _ _ (by simp)]
    have e : wireBits [x, y] = wireBitsOf x ++ wireBitsOf y := by simp [wireBits]
    have bx := bitsNat_wireBitsOf x.toNat hx
    have byy := bitsNat_wireBitsOf y.toNat hy
    rw [BitVec.ofNat_toNat, BitVec.setWidth_eq] at bx byy
    rw [e, bitsNat_append, bx, byy]
    simp [wireBitsOf]
  rw [hword]
  have hvalid : ValidFrame (p ++ [x, y]) ↔ [x, y] = crcBytes p := by
    constructor
    · rintro ⟨q, hq⟩
      have hl : p.length = q.length := by
        have := congrArg List.length hq
        simp [crcBytes] at this; omega
      obtain ⟨rfl, h2⟩ := List.append_inj hq hl
      exact h2
    · intro h; exact ⟨p, by rw [h]⟩
  rw [hvalid, crcBytes_toNat]
  have hc := (modbusCRC p).isLt
  constructor
  · intro h
    simp only [List.cons.injEq, and_true] at h
    have h1 := congrArg BitVec.toNat h.1
    have h2 := congrArg BitVec.toNat h.2
    simp only [BitVec.toNat_ofNat] at h1 h2
    have : BitVec.ofNat 16 (x.toNat + 256 * y.toNat) = modbusCRC p := by
      apply BitVec.eq_of_toNat_eq; simp only [BitVec.toNat_ofNat]; omega
    rw [this]; simp only [BitVec.xor_self]; exact crcShifts_zero _
  · intro h
    have h0 := crcShifts_eq_zero h
    have : modbusCRC p = BitVec.ofNat 16 (x.toNat + 256 * y.toNat) := by
      have := congrArg (· ^^^ BitVec.ofNat 16 (x.toNat + 256 * y.toNat)) h0
      simpa [BitVec.xor_assoc] using this
    have h3 := congrArg BitVec.toNat this
    simp only [BitVec.toNat_ofNat] at h3
    simp only [List.cons.injEq, and_true]
    constructor <;> apply BitVec.eq_of_toNat_eq <;> simp only [BitVec.toNat_ofNat] <;> omega

end Verif

namespace Verif
open Verif.Spec

/-! ### error patterns -/

theorem error_run {f g : Bytes} (h : f.length = g.length) :
    bitRun 0 (List.zipWith (· ^^ ·) (wireBits f) (wireBits g)) =
      bitRun 0xffff (wireBits f) ^^^ bitRun 0xffff (wireBits g) := by
  rw [← bitRun_xor _ _ _ _ (by simp [h]), BitVec.xor_self]
  rfl

theorem bitsNat_eq_zero {w : List Bool} (h : bitsNat w = 0) : ∀ b ∈ w, b = false := by
  induction w with
  | nil => simp
  | cons b r ih =>
    simp only [bitsNat] at h
    intro c hc
    cases b
    · rcases List.mem_cons.1 hc with rfl | hc
      · rfl
      · exact ih (by simp at h; omega) c hc
    · simp only [if_true] at h; omega

/-- A non-zero error pattern confined to 16 consecutive bits leaves a non-zero residue. -/
theorem burst_residue (e : List Bool) (s : Nat)
    (hb : ∀ i, e[i]? = some true → s ≤ i ∧ i < s + 16) (hz : bitRun 0 e = 0) :
    ∀ b ∈ e, b = false := by
  have h1 : e = e.take s ++ ((e.drop s).take 16 ++ e.drop (s + 16)) := by
    conv => lhs; rw [← List.take_append_drop s e]
    congr 1
    conv => lhs; rw [← List.take_append_drop 16 (e.drop s)]
    rw [List.drop_drop]
  have hf1 : e.take s = List.replicate (e.take s).length false := by
    rw [List.eq_replicate_iff]
    refine ⟨rfl, fun b hb' => ?_⟩
    obtain ⟨i, hi, rfl⟩ := List.mem_iff_getElem.1 hb'
    have hlen : i < s ∧ i < e.length := by simp at hi; omega
    rw [List.getElem_take]
    cases hv : e[i] with
    | false => rfl
    | true =>
      have := hb i (by rw [List.getElem?_eq_getElem hlen.2, hv])
      omega
  have hf2 : e.drop (s + 16) = List.replicate (e.drop (s + 16)).length false := by
    rw [List.eq_replicate_iff]
    refine ⟨rfl, fun b hb' => ?_⟩
    obtain ⟨i, hi, rfl⟩ := List.mem_iff_getElem.1 hb'
    have hlen : s + 16 + i < e.length := by simp at hi; omega
    rw [List.getElem_drop]
    cases hv : e[s + 16 + i] with
    | false => rfl
    | true =>
      have := hb (s + 16 + i) (by rw [List.getElem?_eq_getElem hlen, hv])
      omega
  rw [h1, bitRun_append, bitRun_append, hf1, bitRun_false, crcShifts_zero, hf2, bitRun_false,
    bitRun_word _ _ (by simp; omega), ← crcShifts_add] at hz
  have h0 : 0#16 ^^^ BitVec.ofNat 16 (bitsNat ((e.drop s).take 16)) = 0#16 := crcShifts_eq_zero hz
  rw [BitVec.zero_xor] at h0
  have hlt : bitsNat ((e.drop s).take 16) < 2 ^ 16 :=
    Nat.lt_of_lt_of_le (bitsNat_lt _) (Nat.pow_le_pow_right (by decide) (by simp; omega))
  have hn : bitsNat ((e.drop s).take 16) = 0 := by
    have := congrArg BitVec.toNat h0
    simp only [BitVec.toNat_ofNat] at this
    rw [Nat.mod_eq_of_lt hlt] at this
    simpa using this
  have hw := bitsNat_eq_zero hn
  intro b hbm
  rw [h1, List.mem_append, List.mem_append] at hbm
  rcases hbm with hbm | hbm | hbm
  · rw [hf1] at hbm; exact (List.mem_replicate.1 hbm).2
  · exact hw b hbm
  · rw [hf2] at hbm; exact (List.mem_replicate.1 hbm).2

/-- Parity of a register. -/
def parity (s : BitVec 16) : Bool := (List.range 16).foldl (fun p i => p ^^ s.getLsbD i) false

theorem parity_eq (s : BitVec 16) : parity s =
    (s.getLsbD 0 ^^ s.getLsbD 1 ^^ s.getLsbD 2 ^^ s.getLsbD 3 ^^ s.getLsbD 4 ^^ s.getLsbD 5 ^^
     s.getLsbD 6 ^^ s.getLsbD 7 ^^ s.getLsbD 8 ^^ s.getLsbD 9 ^^ s.getLsbD 10 ^^ s.getLsbD 11 ^^
     s.getLsbD 12 ^^ s.getLsbD 13 ^^ s.getLsbD 14 ^^ s.getLsbD 15) := by
  simp [parity, List.range_succ, List.range_zero]

theorem parity_xor (s t : BitVec 16) : parity (s ^^^ t) = (parity s ^^ parity t) := by
  simp only [parity]
  suffices h : ∀ (l : List Nat) (p q : Bool),
      l.foldl (fun p i => p ^^ (s ^^^ t).getLsbD i) (p ^^ q) =
      (l.foldl (fun p i => p ^^ s.getLsbD i) p ^^ l.foldl (fun p i => p ^^ t.getLsbD i) q) by
    simpa using h (List.range 16) false false
  intro l
  induction l with
  | nil => intro p q; rfl
  | cons i l ih =>
    intro p q
    simp only [List.foldl_cons]
    rw [← ih, BitVec.getLsbD_xor]
    congr 1
    cases p <;> cases q <;> cases s.getLsbD i <;> cases t.getLsbD i <;> rfl

theorem parity_shiftRight (s : BitVec 16) : parity (s >>> 1) = (s.getLsbD 0 ^^ parity s) := by
  simp only [parity_eq, BitVec.getLsbD_ushiftRight]
  rw [show s.getLsbD (1 + 15) = false from BitVec.getLsbD_of_ge s _ (by decide)]
  simp only [Nat.reduceAdd]
  cases s.getLsbD 0 <;> simp

theorem parity_crcShift (s : BitVec 16) : parity (crcShift s) = parity s := by
  unfold crcShift
  split
  · rename_i h
    rw [parity_xor, parity_shiftRight, h]
    rw [show parity (0xa001 : BitVec 16) = true by decide]
    cases parity s <;> rfl
  · rename_i h
    rw [parity_shiftRight]
    simp only [Bool.not_eq_true] at h
    rw [h]; simp

theorem parity_bitRun (s : BitVec 16) (e : List Bool) :
    parity (bitRun s e) = (parity s ^^ (e.countP id % 2 == 1)) := by
  induction e generalizing s with
  | nil => simp [bitRun]
  | cons b r ih =>
    show parity (bitRun (bitStep s b) r) = _
    rw [ih, bitStep, parity_crcShift, parity_xor, List.countP_cons]
    cases b
    · have p0 : parity 0#16 = false := by decide
      simp [p0]
    · simp only [if_true, show parity (1 : BitVec 16) = true by decide, id]
      have : ((List.countP id r + 1) % 2 == 1) = !(List.countP id r % 2 == 1) := by
        rcases Nat.mod_two_eq_zero_or_one (List.countP id r) with h | h
        · have : (List.countP id r + 1) % 2 = 1 := by omega
          rw [h, this]; rfl
        · have : (List.countP id r + 1) % 2 = 0 := by omega
          rw [h, this]; rfl
      rw [this]
      cases parity s <;> cases (List.countP id r % 2 == 1) <;> rfl

theorem countP_zip_xor (v w : List Bool) :
    (v.zip w).countP (fun p => p.1 != p.2) = (List.zipWith (· ^^ ·) v w).countP id := by
  induction v generalizing w with
  | nil => simp
  | cons a v ih => cases w with
    | nil => simp
    | cons b w =>
      simp only [List.zip_cons_cons, List.zipWith_cons_cons, List.countP_cons, ih]
      cases a <;> cases b <;> simp

/-- Search for a return of the register to 1. -/
def noReturn : Nat → BitVec 16 → Bool
  | 0, _ => true
  | n + 1, s => if crcShift s = 1 then false else noReturn n (crcShift s)

theorem noReturn_spec {n : Nat} {s : BitVec 16} (h : noReturn n s = true) :
    ∀ k, 1 ≤ k → k ≤ n → crcShifts k s ≠ 1 := by
  induction n generalizing s with
  | zero => intro k h1 h2; omega
  | succ n ih =>
    simp only [noReturn] at h
    split at h
    · simp at h
    · rename_i hne
      intro k h1 h2
      obtain ⟨k, rfl⟩ : ∃ j, k = j + 1 := ⟨k - 1, by omega⟩
      simp only [crcShifts]
      cases k with
      | zero => exact hne
      | succ k => exact ih h (k + 1) (by omega) (by omega)

theorem noReturn_2048 : noReturn 2048 1 = true := by decide +kernel

/-- A list with exactly two `true`s. -/
theorem two_true {e : List Bool} (h : e.countP id = 2) : ∃ a k c,
    e = List.replicate a false ++ true :: (List.replicate k false ++ true :: List.replicate c false) := by
  have split1 : ∀ (e : List Bool) (n : Nat), e.countP id = n + 1 → ∃ a r,
      e = List.replicate a false ++ true :: r ∧ r.countP id = n := by
    intro e
    induction e with
    | nil => intro n h; simp at h
    | cons b e ih =>
      intro n h
      cases b with
      | true => exact ⟨0, e, rfl, by simp at h; exact h⟩
      | false =>
        obtain ⟨a, r, h1, h2⟩ := ih n (by simpa [List.countP_cons] using h)
        exact ⟨a + 1, r, by rw [h1]; rfl, h2⟩
  obtain ⟨a, r, h1, h2⟩ := split1 e 1 h
  obtain ⟨k, r', h3, h4⟩ := split1 r 0 h2
  refine ⟨a, k, r'.length, ?_⟩
  have : r' = List.replicate r'.length false := by
    rw [List.eq_replicate_iff]
    refine ⟨rfl, fun b hb => ?_⟩
    rw [List.countP_eq_zero] at h4
    simpa using h4 b hb
  rw [h1, h3]
  rw [← this]

end Verif
