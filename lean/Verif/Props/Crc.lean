import Verif.Lemmas.Crc

/-!
# C07, C08: CRC
-/

namespace Verif
open Verif.Spec

/-! ## C07 The CRC is the Modbus CRC-16 -/

/-- C07: the two bytes the client appends to a request (`struct.pack('>H', computeCRC(req))`,
modbus/client.py:231, 349) are the Modbus CRC-16 of the request, low byte first; packing never
fails. -/
theorem C07_appended_crc (d : Bytes) :
    packU 2 (computeCRC d).toNat = .ok (crcField d) ∧ crcField d = crcBytes d :=
  ⟨packCRC d, crcField_eq d⟩

/-- C07: a received frame passes the CRC test iff it is some payload followed by the Modbus CRC-16
of that payload, low byte first. -/
theorem C07_check_iff_valid (f : Bytes) : frameCrcOk f = true ↔ ValidFrame f := frameCrcOk_iff f

/-- The request of the Modbus specification's example: 02 07 has CRC 0x1241, sent as 41 12. -/
example : crcBytes [0x02, 0x07] = [0x41, 0x12] ∧ frameCrcOk [0x02, 0x07, 0x41, 0x12] = true := by
  decide +kernel

/-! ## C08 Detected errors -/

/-- C08: if a valid frame is altered only within 16 consecutive bits (in transmission order), the
altered frame fails the CRC test. -/
theorem C08_burst_detected (f g : Bytes) (hlen : f.length = g.length) (hf : frameCrcOk f = true)
    (hne : f ≠ g) (start : Nat)
    (hburst : ∀ i, (wireBits f)[i]? ≠ (wireBits g)[i]? → start ≤ i ∧ i < start + 16) :
    frameCrcOk g = false := by
  have h2 : 2 ≤ f.length := by
    obtain ⟨p, rfl⟩ := (frameCrcOk_iff f).1 hf
    simp [crcBytes]
  cases hg : frameCrcOk g with
  | false => rfl
  | true =>
    exfalso
    have r1 := (valid_iff_residue f h2).1 ((frameCrcOk_iff f).1 hf)
    have r2 := (valid_iff_residue g (by omega)).1 ((frameCrcOk_iff g).1 hg)
    have he := error_run hlen
    rw [r1, r2] at he
    have hz := burst_residue _ start (fun i hi => hburst i (fun heq => by
      rw [List.getElem?_zipWith, heq] at hi
      cases hw : (wireBits g)[i]? with
      | none => rw [hw] at hi; simp at hi
      | some b => rw [hw] at hi; simp at hi)) he
    apply hne
    have hbits : wireBits f = wireBits g := by
      apply List.ext_getElem (by simp [hlen])
      intro i h1 h2
      have := hz ((List.zipWith (· ^^ ·) (wireBits f) (wireBits g))[i]'(by simp at *; omega))
        (List.getElem_mem _)
      rw [List.getElem_zipWith] at this
      generalize (wireBits f)[i] = x at *
      generalize (wireBits g)[i] = y at *
      revert this; cases x <;> cases y <;> simp
    -- equal bits, equal bytes
    clear he r1 r2 hz hburst hf hg hne h2
    induction f generalizing g with
    | nil => cases g with
      | nil => rfl
      | cons _ _ => simp at hlen
    | cons a f ih => cases g with
      | nil => simp at hlen
      | cons b g =>
        have e1 : wireBitsOf a ++ wireBits f = wireBitsOf b ++ wireBits g := by
          simpa [wireBits] using hbits
        obtain ⟨e2, e3⟩ := List.append_inj e1 (by simp [wireBitsOf])
        have ha := bitsNat_wireBitsOf a.toNat a.isLt
        have hb := bitsNat_wireBitsOf b.toNat b.isLt
        rw [BitVec.ofNat_toNat, BitVec.setWidth_eq] at ha hb
        have : a = b := BitVec.eq_of_toNat_eq (by rw [← ha, ← hb, e2])
        rw [this, ih g (by simpa using hlen) e3]

/-- C08 for one altered byte, at any position. -/
theorem C08_byte_error_detected (p q : Bytes) (a b : Byte) (hab : a ≠ b)
    (hf : frameCrcOk (p ++ a :: q) = true) : frameCrcOk (p ++ b :: q) = false := by
  refine C08_burst_detected _ _ (by simp) hf (by simpa using hab) (8 * p.length) ?_
  intro i hi
  have e : ∀ x, wireBits (p ++ x :: q) = wireBits p ++ (wireBitsOf x ++ wireBits q) := by
    intro x; simp [wireBits]
  rw [e, e] at hi
  have hlx : ∀ x, (wireBitsOf x).length = 8 := by intro x; simp [wireBitsOf]
  by_cases h1 : i < 8 * p.length
  · exact absurd (by rw [List.getElem?_append_left (by simpa using h1),
      List.getElem?_append_left (by simpa using h1)]) hi
  · by_cases h2 : i < 8 * p.length + 8
    · omega
    · exfalso
      apply hi
      have key : ∀ x, (wireBits p ++ (wireBitsOf x ++ wireBits q))[i]? =
          (wireBits q)[i - 8 * p.length - 8]? := by
        intro x
        rw [List.getElem?_append_right (by simp; omega),
          List.getElem?_append_right (by rw [hlx]; simp; omega), hlx, wireBits_length]
      rw [key, key]

/-- C08 for an odd number of flipped bits, anywhere in the frame. -/
theorem C08_odd_errors_detected (f g : Bytes) (hlen : f.length = g.length)
    (hf : frameCrcOk f = true) (hodd : bitErrors f g % 2 = 1) : frameCrcOk g = false := by
  have h2 : 2 ≤ f.length := by
    obtain ⟨p, rfl⟩ := (frameCrcOk_iff f).1 hf
    simp [crcBytes]
  cases hg : frameCrcOk g with
  | false => rfl
  | true =>
    exfalso
    have r1 := (valid_iff_residue f h2).1 ((frameCrcOk_iff f).1 hf)
    have r2 := (valid_iff_residue g (by omega)).1 ((frameCrcOk_iff g).1 hg)
    have he := error_run hlen
    rw [r1, r2] at he
    have hp := congrArg parity he
    rw [parity_bitRun, ← countP_zip_xor] at hp
    rw [bitErrors] at hodd
    rw [hodd] at hp
    exact absurd hp (by decide)

/-- C08: in a frame of at most 256 bytes (the largest Modbus RTU frame) every error of one, two or
three bits, wherever they are, is detected. -/
theorem C08_three_bit_errors_detected (f g : Bytes) (hlen : f.length = g.length)
    (hmax : f.length ≤ 256) (hf : frameCrcOk f = true) (h1 : 1 ≤ bitErrors f g)
    (h3 : bitErrors f g ≤ 3) : frameCrcOk g = false := by
  by_cases hodd : bitErrors f g % 2 = 1
  · exact C08_odd_errors_detected f g hlen hf hodd
  · have h2e : bitErrors f g = 2 := by omega
    have h2 : 2 ≤ f.length := by
      obtain ⟨p, rfl⟩ := (frameCrcOk_iff f).1 hf
      simp [crcBytes]
    cases hg : frameCrcOk g with
    | false => rfl
    | true =>
      exfalso
      have r1 := (valid_iff_residue f h2).1 ((frameCrcOk_iff f).1 hf)
      have r2 := (valid_iff_residue g (by omega)).1 ((frameCrcOk_iff g).1 hg)
      have he := error_run hlen
      rw [r1, r2] at he
      rw [bitErrors, countP_zip_xor] at h2e
      obtain ⟨a, k, c, heq⟩ := two_true h2e
      have hl := congrArg List.length heq
      simp at hl
      rw [heq, bitRun_append, bitRun_false, crcShifts_zero] at he
      have e1 : bitRun 0 (true :: (List.replicate k false ++ true :: List.replicate c false)) =
          crcShifts c (crcShift (crcShifts (k + 1) 1 ^^^ 1)) := by
        show bitRun (bitStep 0 true) _ = _
        rw [bitRun_append, bitRun_false]
        show bitRun (bitStep _ true) _ = _
        rw [bitRun_false]
        rfl
      rw [e1] at he
      have h0 := crcShift_eq_zero (crcShifts_eq_zero he)
      have h4 : crcShifts (k + 1) 1 = 1 := by
        have := congrArg (· ^^^ (1 : BitVec 16)) h0
        simpa [BitVec.xor_assoc] using this
      exact noReturn_spec noReturn_2048 (k + 1) (by omega) (by omega) h4

/-- A valid frame and an altered one meeting the hypotheses of the theorems above. -/
example : frameCrcOk [0x02, 0x07, 0x41, 0x12] = true ∧ frameCrcOk [0x02, 0x06, 0x41, 0x12] = false ∧
    bitErrors [0x02, 0x07, 0x41, 0x12] [0x02, 0x06, 0x41, 0x12] = 1 := by decide +kernel

end Verif
