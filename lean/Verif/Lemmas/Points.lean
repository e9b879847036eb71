import Verif.Lemmas.Codec
import Verif.Spec.Formats

/-! Lemmas about the point codecs. -/

namespace Verif
open Verif.Spec

theorem bigEndian_foldl (d : Bytes) (a : Nat) :
    d.foldl (fun acc b => acc * 256 + b.toNat) a = a * 256 ^ d.length + beDec d := by
  induction d generalizing a with
  | nil => simp [beDec]
  | cons b bs ih =>
    simp only [List.foldl_cons, ih, beDec, List.length_cons, Nat.pow_succ, Nat.add_mul]
    rw [Nat.mul_assoc, Nat.mul_comm 256]; omega

theorem bigEndian_eq (d : Bytes) : bigEndian d = beDec d := by
  simp [bigEndian, bigEndian_foldl]

/-- Generic packing in a format, the common shape of the integer branches of `PT.toData`. -/
def packF (f : IntFmt) (v : Int) : Py Bytes := if f.signed then packS f.bytes v else packU f.bytes v
/-- Generic unpacking in a format. -/
def unpackF (f : IntFmt) (d : Bytes) : Py Int :=
  if f.signed then unpackS f.bytes d else unpackU f.bytes d

theorem toData_int {t : PT} {f : IntFmt} (h : codecFmt t = some f) (v : Int) (n : Nat) :
    t.toData (some (.int v)) n = packF f v := by
  cases t <;> simp [codecFmt, intFmt] at h <;> subst h <;> simp [PT.toData, packF]

theorem fromData_int {t : PT} {f : IntFmt} (h : codecFmt t = some f) (d : Bytes) :
    t.fromData d = (unpackF f d).map fun i => some (.int i) := by
  cases t <;> simp [codecFmt, intFmt] at h <;> subst h <;> simp [PT.fromData, unpackF]

theorem codecFmt_bytes {t : PT} {f : IntFmt} (h : codecFmt t = some f) :
    f.bytes = 2 ∨ f.bytes = 4 ∨ f.bytes = 8 := by
  cases t <;> simp [codecFmt, intFmt] at h <;> subst h <;> simp

theorem packF_ok_iff {f : IntFmt} (hb : f.bytes = 2 ∨ f.bytes = 4 ∨ f.bytes = 8) (v : Int) :
    (∃ d, packF f v = .ok d) ↔ f.lo ≤ v ∧ v ≤ f.hi := by
  obtain ⟨k, s⟩ := f
  simp only at hb
  rcases hb with rfl | rfl | rfl <;> cases s <;>
    simp only [packF, packS, packU, IntFmt.lo, IntFmt.hi, Bool.false_eq_true, if_false, if_true] <;>
    constructor
  all_goals first
    | (rintro ⟨d, hd⟩; split at hd
       · omega
       · simp at hd)
    | (intro h; rw [if_pos (by omega)]; exact ⟨_, rfl⟩)

theorem packF_err {f : IntFmt} {v : Int} {e : Exc} (h : packF f v = .error e) : e = .structError := by
  unfold packF packS packU at h
  split at h <;> split at h <;> simp at h <;> exact h.symm

theorem packF_unpackF {f : IntFmt} (hb : f.bytes = 2 ∨ f.bytes = 4 ∨ f.bytes = 8) {v : Int}
    {d : Bytes} (h : packF f v = .ok d) : unpackF f d = .ok v := by
  unfold packF at h; unfold unpackF
  split
  · rename_i hs; rw [if_pos hs] at h; exact packS_unpackS (by omega) h
  · rename_i hs; rw [if_neg hs] at h; exact packU_unpackU h

theorem unpackF_packF {f : IntFmt} (hb : f.bytes = 2 ∨ f.bytes = 4 ∨ f.bytes = 8) {v : Int}
    {d : Bytes} (h : unpackF f d = .ok v) : packF f v = .ok d := by
  unfold unpackF at h; unfold packF
  split
  · rename_i hs; rw [if_pos hs] at h; exact unpackS_packS (by omega) h
  · rename_i hs; rw [if_neg hs] at h; exact unpackU_packU h

theorem packF_encodes {f : IntFmt} (hb : f.bytes = 2 ∨ f.bytes = 4 ∨ f.bytes = 8) {v : Int}
    {d : Bytes} (h : packF f v = .ok d) : f.Encodes v d := by
  have hr := (packF_ok_iff hb v).1 ⟨d, h⟩
  refine ⟨?_, hr.1, hr.2, ?_⟩
  · unfold packF at h; split at h
    · exact packS_length h
    · exact packU_length h
  · rw [bigEndian_eq]
    obtain ⟨k, s⟩ := f
    simp only at hb
    rcases hb with rfl | rfl | rfl <;> cases s <;>
      simp only [packF, packS, packU, IntFmt.lo, IntFmt.hi, Bool.false_eq_true, if_false,
        if_true] at h hr <;>
      (rw [if_pos (by omega)] at h; simp only [Except.ok.injEq] at h; subst h
       rw [beDec_beEnc _ _ (by omega)]; dsimp only; omega)

theorem unpackF_length {f : IntFmt} {d : Bytes} :
    (d.length = f.bytes → ∃ v, unpackF f d = .ok v) ∧
    (d.length ≠ f.bytes → unpackF f d = .error .structError) := by
  unfold unpackF unpackS unpackU
  constructor
  · intro h; simp only [h, if_true]; split <;> exact ⟨_, rfl⟩
  · intro h; simp [h]

theorem Encodes_unique {f : IntFmt} (hb : f.bytes = 2 ∨ f.bytes = 4 ∨ f.bytes = 8) {v w : Int}
    {d : Bytes} (h : f.Encodes v d) (h' : f.Encodes w d) : v = w := by
  obtain ⟨_, h1, h2, h3⟩ := h
  obtain ⟨_, h1', h2', h3'⟩ := h'
  obtain ⟨k, s⟩ := f
  simp only at hb
  rcases hb with rfl | rfl | rfl <;> cases s <;>
    simp only [IntFmt.lo, IntFmt.hi, Bool.false_eq_true, if_false, if_true] at * <;> omega

theorem Encodes_inj {f : IntFmt} {v : Int} {d d' : Bytes} (h : f.Encodes v d)
    (h' : f.Encodes v d') : d = d' := by
  obtain ⟨hl, _, _, h3⟩ := h
  obtain ⟨hl', _, _, h3'⟩ := h'
  rw [bigEndian_eq] at h3 h3'
  exact beDec_inj (by omega) (by omega)

/-! ### strings -/

theorem latin1Enc_ok {s : List Char} {d : Bytes} (h : latin1Enc s = .ok d) :
    latin1Dec d = s ∧ d.length = s.length := by
  unfold latin1Enc at h
  split at h
  · rename_i ha
    simp only [Except.ok.injEq] at h
    subst h
    simp only [latin1Dec, List.map_map, List.length_map, and_true]
    rw [List.all_eq_true] at ha
    conv => rhs; rw [← List.map_id s]
    apply List.map_congr_left
    intro c hc
    have := ha c hc
    simp only [decide_eq_true_eq] at this
    simp only [Function.comp, BitVec.toNat_ofNat, id]
    rw [Nat.mod_eq_of_lt (by omega)]
    exact Char.ofNat_toNat c
  · simp at h

theorem latin1_char (b : Byte) : (Char.ofNat b.toNat).toNat = b.toNat := by
  have hb := b.isLt
  have hv : Nat.isValidChar b.toNat := by left; omega
  rw [Char.ofNat, dif_pos hv]
  simp [Char.ofNatAux, Char.toNat]

theorem latin1Enc_dec (d : Bytes) : latin1Enc (latin1Dec d) = .ok d := by
  unfold latin1Enc
  rw [if_pos]
  · simp only [latin1Dec, List.map_map, Except.ok.injEq]
    conv => rhs; rw [← List.map_id d]
    apply List.map_congr_left
    intro b _
    simp only [Function.comp, latin1_char, id]
    simp
  · rw [List.all_eq_true]
    intro c hc
    simp only [latin1Dec, List.mem_map] at hc
    obtain ⟨b, _, rfl⟩ := hc
    rw [latin1_char]; have := b.isLt; simp; omega

theorem latin1_zero_iff (b : Byte) : Char.ofNat b.toNat = Char.ofNat 0 ↔ b = 0 := by
  constructor
  · intro h
    have h2 : (Char.ofNat b.toNat).toNat = (Char.ofNat 0).toNat := by rw [h]
    rw [latin1_char] at h2
    apply BitVec.eq_of_toNat_eq
    simpa using h2
  · rintro rfl; rfl

theorem rstripNul_append (s : List Char) (n : Nat)
    (h : ∀ hne : s ≠ [], s.getLast hne ≠ Char.ofNat 0) :
    rstripNul (s ++ List.replicate n (Char.ofNat 0)) = s := by
  unfold rstripNul
  rw [List.reverse_append, List.reverse_replicate]
  have : ∀ m, List.dropWhile (fun x => x == Char.ofNat 0)
      (List.replicate m (Char.ofNat 0) ++ s.reverse) = s.reverse := by
    intro m
    induction m with
    | zero =>
      simp only [List.replicate_zero, List.nil_append]
      cases hs : s.reverse with
      | nil => rfl
      | cons c r =>
        have hne : s ≠ [] := by intro h0; simp [h0] at hs
        have : s.getLast hne = c := by
          rw [List.getLast_eq_head_reverse]; simp [hs]
        have hc := h hne
        rw [this] at hc
        rw [List.dropWhile_cons_of_neg]; simpa using hc
    | succ m ih =>
      rw [List.replicate_succ, List.cons_append, List.dropWhile_cons_of_pos (by simp), ih]
  rw [this, List.reverse_reverse]

/-- Every list splits into a part not ending in `0` and padding. -/
theorem split_nul (d : Bytes) : ∃ (t : Bytes) (n : Nat), d = t ++ List.replicate n 0 ∧
    ∀ h : t ≠ [], t.getLast h ≠ 0 := by
  induction h : d.length using Nat.strongRecOn generalizing d with
  | _ k ih =>
    by_cases hd : d = []
    · exact ⟨[], 0, by simp [hd], by simp⟩
    · by_cases hl : d.getLast hd = 0
      · have hlen : d.dropLast.length < k := by
          rw [← h, List.length_dropLast]
          have := List.length_pos_iff.2 hd; omega
        obtain ⟨t, n, h1, h2⟩ := ih _ hlen d.dropLast rfl
        refine ⟨t, n + 1, ?_, h2⟩
        rw [List.replicate_succ', ← List.append_assoc, ← h1]
        conv => lhs; rw [← List.dropLast_concat_getLast hd, hl]
      · exact ⟨d, 0, by simp, fun _ => hl⟩

theorem latin1Dec_append (a b : Bytes) : latin1Dec (a ++ b) = latin1Dec a ++ latin1Dec b := by
  simp [latin1Dec]

theorem latin1Dec_replicate (n : Nat) :
    latin1Dec (List.replicate n 0) = List.replicate n (Char.ofNat 0) := by
  simp [latin1Dec]

theorem latin1Dec_getLast {t : Bytes} (h : ∀ h : t ≠ [], t.getLast h ≠ 0)
    (hne : latin1Dec t ≠ []) : (latin1Dec t).getLast hne ≠ Char.ofNat 0 := by
  have ht : t ≠ [] := by intro h0; simp [h0, latin1Dec] at hne
  have := h ht
  simp only [latin1Dec, List.getLast_map]
  rw [Ne, latin1_zero_iff]; exact this

/-- `data_to_str` on text whose first byte is not NUL. -/
theorem dataToStr_append {t : Bytes} {n : Nat} (ht : t ≠ [])
    (h : ∀ h : t ≠ [], t.getLast h ≠ 0) :
    dataToStr (t ++ List.replicate n 0) = latin1Dec t := by
  obtain ⟨b, t', rfl⟩ := List.exists_cons_of_ne_nil ht
  unfold dataToStr
  rw [latin1Dec_append, latin1Dec_replicate]
  have hc : latin1Dec (b :: t') = Char.ofNat b.toNat :: latin1Dec t' := rfl
  rw [hc, List.cons_append]
  have key : rstripNul (latin1Dec t' ++ List.replicate n (Char.ofNat 0)) = latin1Dec t' := by
    apply rstripNul_append
    intro hne
    apply latin1Dec_getLast _ hne
    intro h'
    have := h ht
    rwa [List.getLast_cons h'] at this
  split
  · rename_i c c' rest heq
    rw [List.cons.injEq] at heq
    rw [← heq.1, ← heq.2, key]
  · rename_i hno
    cases hx : latin1Dec t' ++ List.replicate n (Char.ofNat 0) with
    | nil =>
      have := List.append_eq_nil_iff.1 hx
      rw [this.1]
    | cons c' r => exact absurd (by rw [hx]) (hno _ c' r)

end Verif

namespace Verif
open Verif.Spec

/-! ### hexadecimal text -/

theorem hexVal_hexDigit : ∀ n, n < 16 → hexVal (hexDigit n) = some n := by decide +kernel

theorem hexDigit_ne_colon : ∀ n, n < 16 → hexDigit n ≠ ':' := by decide +kernel

theorem hex2_eq_hexByte (b : Byte) : hex2 b = hexByte b := by
  have h1 : ∀ n, n < 16 → hexDigit n = "0123456789ABCDEF".toList.getD n ' ' := by decide +kernel
  have hb := b.isLt
  simp only [hex2, hexByte]
  rw [h1 _ (by omega), h1 _ (by omega)]

theorem b16decode_flatMap (d : Bytes) : b16decode (d.flatMap hex2) = .ok d := by
  induction d with
  | nil => rfl
  | cons b bs ih =>
    have hb := b.isLt
    simp only [List.flatMap_cons, hex2, List.cons_append, List.nil_append, b16decode]
    rw [hexVal_hexDigit _ (by omega), hexVal_hexDigit _ (by omega)]
    simp only [ih]
    congr 2
    apply BitVec.eq_of_toNat_eq
    simp only [BitVec.toNat_ofNat]; omega

theorem dropColons_append (a b : List Char) : dropColons (a ++ b) = dropColons a ++ dropColons b := by
  simp [dropColons]

theorem dropColons_colon : dropColons [':'] = [] := by decide

theorem dropColons_hex2 (b : Byte) : dropColons (hex2 b) = hex2 b := by
  have hb := b.isLt
  unfold dropColons
  rw [List.filter_eq_self]
  intro c hc
  simp only [hex2, List.mem_cons, List.not_mem_nil, or_false] at hc
  rcases hc with rfl | rfl
  · simpa using hexDigit_ne_colon _ (by omega)
  · simpa using hexDigit_ne_colon _ (by omega)

theorem dropColons_flatMap (d : Bytes) : dropColons (d.flatMap hex2) = d.flatMap hex2 := by
  induction d with
  | nil => rfl
  | cons b bs ih => rw [List.flatMap_cons, dropColons_append, ih, dropColons_hex2]

theorem dropColons_joinColon (l : List Byte) :
    dropColons (joinColon (l.map hex2)) = l.flatMap hex2 := by
  induction l with
  | nil => rfl
  | cons b bs ih =>
    cases bs with
    | nil => simp [joinColon, dropColons_hex2]
    | cons c cs =>
      simp only [List.map_cons, joinColon, dropColons_append, dropColons_colon, dropColons_hex2,
        List.flatMap_cons, List.append_nil]
      rw [List.map_cons, List.flatMap_cons] at ih
      rw [ih]

theorem flatMap_split4 (d : Bytes) :
    (d.take 4).flatMap hex2 ++ (((d.drop 4).take 4).flatMap hex2 ++
      (((d.drop 8).take 4).flatMap hex2 ++ ((d.drop 12).take 4).flatMap hex2)) =
    (d.take 16).flatMap hex2 := by
  simp only [← List.flatMap_append]
  congr 1
  have e1 : (d.drop 8).take 4 ++ (d.drop 12).take 4 = (d.drop 8).take 8 := by
    rw [show d.drop 12 = (d.drop 8).drop 4 by rw [List.drop_drop]]
    rw [← List.take_add]
  have e2 : (d.drop 4).take 4 ++ (d.drop 8).take 8 = (d.drop 4).take 12 := by
    rw [show d.drop 8 = (d.drop 4).drop 4 by rw [List.drop_drop]]
    rw [← List.take_add]
  rw [e1, e2, ← List.take_add]

theorem ipv6_roundtrip {d : Bytes} {s : List Char} (h : dataToIpv6 d = some s) :
    ipv6ToData s (some 16) = .ok d := by
  unfold dataToIpv6 at h
  split at h
  · rename_i hd
    simp only [Option.some.injEq] at h
    subst h
    unfold ipv6ToData
    simp only [dropColons_append, dropColons_colon, dropColons_flatMap, List.nil_append,
      List.append_assoc]
    rw [flatMap_split4, b16decode_flatMap]
    simp only [Option.getD_some, packStr, List.take_take]
    have h16 : d.take 16 = d := by rw [List.take_of_length_le]; omega
    simp only [Nat.min_self, h16, hd.2, Nat.sub_self, List.replicate_zero, List.append_nil]
  · simp at h

theorem eui48_roundtrip {d : Bytes} {s : List Char} (h : dataToEui48 d = some s) :
    eui48ToData s = .ok ([0, 0] ++ d.drop 2) := by
  unfold dataToEui48 at h
  split at h
  · simp only [Option.some.injEq] at h
    subst h
    unfold eui48ToData
    rw [dropColons_joinColon, b16decode_flatMap]
    rfl
  · simp at h

theorem joinColon_eq (l : List (List Char)) : joinColon l = List.intercalate [':'] l := by
  induction l with
  | nil => rfl
  | cons x xs ih =>
    cases xs with
    | nil => simp [joinColon, List.intercalate]
    | cons y ys =>
      simp only [joinColon, ih]
      simp [List.intercalate, List.intersperse]

/-- Floats are encoded to four bytes. -/
theorem floatToData_length {v : Option Val} {d : Bytes} (h : floatToData v = .ok d) : d.length = 4 := by
  have key : ∀ r : Py (BitVec 32), (r.map fun b => beEnc 4 b.toNat) = .ok d → d.length = 4 := by
    intro r hr
    cases r with
    | error e => simp [Except.map] at hr
    | ok b => simp only [Except.map, Except.ok.injEq] at hr; subst hr; simp
  unfold floatToData at h
  split at h
  · simp only [Except.ok.injEq] at h; subst h; simp
  · exact key _ h
  · split at h
    · exact key _ h
    · simp at h
  · simp at h

theorem float_toData (v : Option Val) (n : Nat) : PT.float32.toData v n = floatToData v := by
  cases v with
  | none => rfl
  | some v => cases v <;> rfl

theorem float_readValue {d : Bytes} {v : Val} (hl : d.length = 4) (h : PT.float32.readValue d = .ok (some v)) :
    v = .flt (BitVec.ofNat 32 (beDec d)) ∧ f32IsNaN (BitVec.ofNat 32 (beDec d)) = false := by
  unfold PT.readValue at h
  simp only [PT.fromData, dataToFloat, hl, if_true] at h
  cases hnan : f32IsNaN (BitVec.ofNat 32 (beDec d)) with
  | true => simp [hnan, Except.map, PT.isImpl] at h
  | false =>
    simp only [hnan, Except.map, PT.isImpl, Option.map_some, Bool.not_false, if_true, Bool.false_eq_true, if_false] at h
    exact ⟨(Option.some.inj (Except.ok.inj h)).symm, rfl⟩

theorem float_readback {d : Bytes} {v : Val} (hl : d.length = 4) (h : PT.float32.readValue d = .ok (some v)) :
    floatToData (some v) = .ok d := by
  obtain ⟨rfl, _⟩ := float_readValue hl h
  have hlt := beDec_lt d
  rw [hl] at hlt
  have e : (BitVec.ofNat 32 (beDec d)).toNat = beDec d := by
    rw [BitVec.toNat_ofNat]
    omega
  show Except.ok (beEnc 4 (BitVec.ofNat 32 (beDec d)).toNat) = _
  rw [e]
  have := beEnc_beDec d
  rw [hl] at this
  rw [this]

end Verif
