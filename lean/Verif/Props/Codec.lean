import Verif.Lemmas.Points

/-!
# C01-C06: point codecs
-/

namespace Verif
open Verif.Spec

/-! ## C01 Integer register codec round-trip -/

/-- C01: every integer in the range of the type's codec is encoded as its big-endian two's
complement bytes, and decoding them gives the integer back. -/
theorem C01_encode_decode (t : PT) (f : IntFmt) (hf : codecFmt t = some f) (v : Int)
    (hlo : f.lo ≤ v) (hhi : v ≤ f.hi) (blen : Nat) :
    ∃ d, t.toData (some (.int v)) blen = .ok d ∧ f.Encodes v d ∧
      t.fromData d = .ok (some (.int v)) := by
  have hb := codecFmt_bytes hf
  obtain ⟨d, hd⟩ := (packF_ok_iff hb v).2 ⟨hlo, hhi⟩
  refine ⟨d, by rw [toData_int hf, hd], packF_encodes hb hd, ?_⟩
  rw [fromData_int hf, packF_unpackF hb hd]; rfl

/-- C01: every byte string of the type's size decodes to an integer of the type's range which the
bytes represent, and encoding it gives the same bytes back. -/
theorem C01_decode_encode (t : PT) (f : IntFmt) (hf : codecFmt t = some f) (d : Bytes)
    (hd : d.length = f.bytes) (blen : Nat) :
    ∃ v, t.fromData d = .ok (some (.int v)) ∧ f.Encodes v d ∧
      t.toData (some (.int v)) blen = .ok d := by
  have hb := codecFmt_bytes hf
  obtain ⟨v, hv⟩ := (unpackF_length (f := f) (d := d)).1 hd
  have hp := unpackF_packF hb hv
  exact ⟨v, by rw [fromData_int hf, hv]; rfl, packF_encodes hb hp, by rw [toData_int hf, hp]⟩

/-- C01: a byte string of any other size is rejected. -/
theorem C01_wrong_size (t : PT) (f : IntFmt) (hf : codecFmt t = some f) (d : Bytes)
    (hd : d.length ≠ f.bytes) : t.fromData d = .error .structError := by
  rw [fromData_int hf, (unpackF_length (f := f) (d := d)).2 hd]; rfl

/-- The bytes representing an integer, and the integer represented by bytes, are unique: the
specification `Encodes` used in C01 determines both directions. -/
theorem C01_spec_determines (f : IntFmt) (hb : f.bytes = 2 ∨ f.bytes = 4 ∨ f.bytes = 8)
    (v w : Int) (d e : Bytes) (h : f.Encodes v d) :
    (f.Encodes w d → v = w) ∧ (f.Encodes v e → d = e) :=
  ⟨fun h' => Encodes_unique hb h h', fun h' => Encodes_inj h h'⟩

example : codecFmt .int32 = some ⟨4, true⟩ ∧ (IntFmt.mk 4 true).lo ≤ -2 ∧ -2 ≤ (IntFmt.mk 4 true).hi ∧
    PT.toData .int32 (some (.int (-2))) 4 = .ok [0xff, 0xff, 0xff, 0xfe] := by decide
example : codecFmt .uint16 = some ⟨2, false⟩ ∧ ([0x12, 0x34] : Bytes).length = 2 ∧
    PT.fromData .uint16 [0x12, 0x34] = .ok (some (.int 0x1234)) := by decide
example : ([0x12] : Bytes).length ≠ (IntFmt.mk 2 false).bytes := by decide

/-! ## C02 Out-of-range integers are refused -/

/-- C02: an integer outside the range is refused with `struct.error`. -/
theorem C02_out_of_range_refused (t : PT) (f : IntFmt) (hf : codecFmt t = some f) (v : Int)
    (hv : v < f.lo ∨ f.hi < v) (blen : Nat) :
    t.toData (some (.int v)) blen = .error .structError := by
  rw [toData_int hf]
  cases h : packF f v with
  | error e => rw [packF_err h]
  | ok d => have := (packF_ok_iff (codecFmt_bytes hf) v).1 ⟨d, h⟩; omega

/-- C02: whatever integer is encoded, the resulting registers denote that very integer (nothing is
wrapped, truncated or saturated). -/
theorem C02_never_wrapped (t : PT) (f : IntFmt) (hf : codecFmt t = some f) (v : Int) (blen : Nat)
    (d : Bytes) (h : t.toData (some (.int v)) blen = .ok d) : f.Encodes v d := by
  rw [toData_int hf] at h; exact packF_encodes (codecFmt_bytes hf) h

example : codecFmt .int16 = some ⟨2, true⟩ ∧ (IntFmt.mk 2 true).hi < (32768 : Int) := by decide
example : PT.toData .int16 (some (.int 32767)) 2 = .ok [0x7f, 0xff] := by decide

/-! ## C03 Unimplemented sentinels -/

/-- C03, full statement: on the registers of a point of type `t`, a read gives None exactly for the
"not implemented" pattern, and otherwise the value the registers denote. -/
def C03_full : Prop := ∀ (t : PT) (d : Bytes), (∀ n, typeRegs t = some n → d.length = 2 * n) →
  (Unimpl t d → t.readValue d = .ok none) ∧
  (¬ Unimpl t d → ∃ v, t.readValue d = .ok (some v) ∧ Denotes t d v)

theorem readValue_int {t : PT} {f : IntFmt} (hf : codecFmt t = some f) {d : Bytes}
    (hd : d.length = f.bytes) : ∃ v, f.Encodes v d ∧
      t.readValue d = .ok (if t.isImpl (some (.int v)) then some (.int v) else none) := by
  obtain ⟨v, h1, h2, _⟩ := C01_decode_encode t f hf d hd 0
  exact ⟨v, h2, by simp [PT.readValue, h1]⟩

theorem beDec_zero_iff (d : Bytes) : (∀ b ∈ d, b = 0) ↔ beDec d = 0 := by
  induction d with
  | nil => simp [beDec]
  | cons b bs ih =>
    have hp : 0 < 256 ^ bs.length := Nat.pow_pos (by decide)
    simp only [List.mem_cons, forall_eq_or_imp, ih, beDec, Nat.add_eq_zero_iff, Nat.mul_eq_zero]
    constructor
    · rintro ⟨rfl, h⟩; exact ⟨Or.inl rfl, h⟩
    · rintro ⟨h | h, h'⟩
      · exact ⟨BitVec.eq_of_toNat_eq (by simpa using h), h'⟩
      · omega

/-- Helper: an integer type whose sentinel is the integer `u`, encoded by `p`. -/
theorem sentinel_int {t : PT} {f : IntFmt} (hc : codecFmt t = some f) (hi : intFmt t = some f)
    {u : Int} (himpl : ∀ w, t.isImpl (some (.int w)) = (some (Val.int w) != some (Val.int u))) {d : Bytes}
    (hd : d.length = f.bytes) (hu : Unimpl t d ↔ (beDec d : Int) = u % 2 ^ (8 * f.bytes))
    (hur : f.lo ≤ u ∧ u ≤ f.hi) :
    (Unimpl t d → t.readValue d = .ok none) ∧
    (¬ Unimpl t d → ∃ v, t.readValue d = .ok (some v) ∧ Denotes t d v) := by
  obtain ⟨v, hv, hr⟩ := readValue_int hc hd
  have hiff : Unimpl t d ↔ v = u := by
    rw [hu]
    constructor
    · intro h
      exact Encodes_unique (codecFmt_bytes hc) hv ⟨hd, hur.1, hur.2, by rw [bigEndian_eq]; exact h⟩
    · rintro rfl; rw [← bigEndian_eq]; exact hv.2.2.2
  rw [hr, himpl, hiff]
  constructor
  · rintro rfl; simp
  · intro h
    refine ⟨.int v, ?_, ?_⟩
    · simp [h]
    · simp only [Denotes, hi]; exact ⟨v, rfl, hv⟩

theorem eq_iff_beDec {d e : Bytes} (h : d.length = e.length) : d = e ↔ beDec d = beDec e :=
  ⟨fun h => by rw [h], beDec_inj h⟩

theorem f32IsNaN_iff (n : Nat) (h : n < 2 ^ 32) :
    f32IsNaN (BitVec.ofNat 32 n) = true ↔ 255 * 2 ^ 23 < n % 2 ^ 31 := by
  simp only [f32IsNaN, BitVec.toNat_ofNat, Bool.and_eq_true, beq_iff_eq, bne_iff_ne]
  omega

/-- C03 for every type except `uint64` and `acc64` (see `C03_violated`). -/
theorem C03_sentinels_partial (t : PT) (ht : t ≠ .uint64 ∧ t ≠ .acc64) (d : Bytes)
    (hd : ∀ n, typeRegs t = some n → d.length = 2 * n) :
    (Unimpl t d → t.readValue d = .ok none) ∧
    (¬ Unimpl t d → ∃ v, t.readValue d = .ok (some v) ∧ Denotes t d v) := by
  cases t
  case uint64 => exact absurd rfl ht.1
  case acc64 => exact absurd rfl ht.2
  case string =>
    cases d with
    | nil => exact ⟨fun _ => by rfl, fun h => absurd (Or.inl rfl) h⟩
    | cons b r =>
      constructor
      · rintro (h | ⟨r', h⟩)
        · simp at h
        · simp only [List.cons.injEq] at h
          obtain ⟨rfl, rfl⟩ := h
          simp only [PT.readValue, PT.fromData]
          have : ∃ s, dataToStr (0 :: r) = Char.ofNat 0 :: s := by
            unfold dataToStr
            cases r with
            | nil => exact ⟨_, rfl⟩
            | cons c r => exact ⟨_, rfl⟩
          obtain ⟨s, hs⟩ := this
          rw [hs]; simp [PT.isImpl]
      · intro h
        have hb : b ≠ 0 := by rintro rfl; exact h (Or.inr ⟨r, rfl⟩)
        obtain ⟨txt, n, h1, h2⟩ := split_nul (b :: r)
        have ht : txt ≠ [] := by
          rintro rfl
          cases n with
          | zero => simp at h1
          | succ n => simp [List.replicate_succ] at h1; exact hb h1.1
        refine ⟨.str (latin1Dec txt), ?_, txt, n, h1, h2, rfl⟩
        simp only [PT.readValue, PT.fromData, h1, dataToStr_append ht h2]
        rw [if_pos]
        obtain ⟨b', t', rfl⟩ := List.exists_cons_of_ne_nil ht
        have : b' = b := by simp at h1; exact h1.1.symm
        subst this
        simp only [PT.isImpl, latin1Dec, List.map_cons]
        simpa [latin1_zero_iff] using hb
  case float32 =>
    have hl := hd 2 rfl
    have hlt := beDec_lt d
    rw [hl] at hlt
    have hiff := f32IsNaN_iff (beDec d) (by omega)
    simp only [Unimpl, bigEndian_eq, PT.readValue, PT.fromData, dataToFloat, hl, if_true]
    rw [← hiff]
    constructor
    · intro h; simp [h, Except.map, PT.isImpl]
    · intro h
      refine ⟨.flt (BitVec.ofNat 32 (beDec d)), ?_, _, rfl, ?_⟩
      · simp [h, Except.map, PT.isImpl]
      · rw [bigEndian_eq, BitVec.toNat_ofNat]; omega
  case ipv6addr =>
    have hl : d.length = 16 := hd 8 rfl
    simp only [Unimpl, PT.readValue, PT.fromData, dataToIpv6, hl, and_true]
    have hany : (d.any (· != 0)) = true ↔ ¬ ∀ b ∈ d, b = 0 := by
      rw [List.any_eq_true]; simp
    constructor
    · intro h
      have hn : ¬ (d.any (· != 0)) = true := fun h' => hany.1 h' h
      simp only [if_neg hn, Option.map_none]
      simp [PT.isImpl]
    · intro h
      rw [if_pos (hany.2 h)]
      refine ⟨_, ?_, d.take 4, (d.drop 4).take 4, (d.drop 8).take 4, (d.drop 12).take 4, ?_, ?_, ?_,
        ?_, ?_, rfl⟩
      · simp only [Option.map_some]
        obtain ⟨b, r, rfl⟩ : ∃ b r, d = b :: r := by
          cases d with
          | nil => simp at hl
          | cons b r => exact ⟨b, r, rfl⟩
        have hne : hexDigit (b.toNat / 16) ≠ Char.ofNat 0 := by
          have : ∀ n, n < 16 → hexDigit n ≠ Char.ofNat 0 := by decide +kernel
          exact this _ (by have := b.isLt; omega)
        rw [if_pos]
        · congr 3
          have hx : hex2 = hexByte := funext hex2_eq_hexByte
          simp [List.intercalate, List.intersperse, hx]
        · simp only [List.take_succ_cons, List.flatMap_cons, hex2, List.cons_append, PT.isImpl]
          simpa using hne
      · rw [List.append_assoc, List.append_assoc]
        have e1 : (d.drop 8).take 4 ++ (d.drop 12).take 4 = (d.drop 8).take 8 := by
          rw [show d.drop 12 = (d.drop 8).drop 4 by rw [List.drop_drop], ← List.take_add]
        have e2 : (d.drop 4).take 4 ++ (d.drop 8).take 8 = (d.drop 4).take 12 := by
          rw [show d.drop 8 = (d.drop 4).drop 4 by rw [List.drop_drop], ← List.take_add]
        rw [e1, e2, ← List.take_add, List.take_of_length_le (by omega)]
      all_goals simp; try omega
  case eui48 =>
    have hl : d.length = 8 := hd 4 rfl
    have hany : (d.any (· != 0)) = true ↔ ¬ ∀ b ∈ d, b = 0 := by
      rw [List.any_eq_true]; simp
    obtain ⟨x, y, m, rfl⟩ : ∃ x y m, d = x :: y :: m := by
      match d, hl with
      | x :: y :: m, _ => exact ⟨x, y, m, rfl⟩
    have hm : m.length = 6 := by simpa using hl
    simp only [Unimpl, PT.readValue, PT.fromData, dataToEui48, hl, and_true]
    have hff : joinColon (m.map hex2) = "FF:FF:FF:FF:FF:FF".toList ↔
        m = [0xff, 0xff, 0xff, 0xff, 0xff, 0xff] := by
      constructor
      · intro h
        have h2 : dropColons (joinColon (m.map hex2)) = dropColons "FF:FF:FF:FF:FF:FF".toList := by
          rw [h]
        rw [dropColons_joinColon] at h2
        have h3 : b16decode (m.flatMap hex2) = b16decode (dropColons "FF:FF:FF:FF:FF:FF".toList) := by
          rw [h2]
        rw [b16decode_flatMap] at h3
        have h4 : b16decode (dropColons "FF:FF:FF:FF:FF:FF".toList) =
            .ok [0xff, 0xff, 0xff, 0xff, 0xff, 0xff] := by decide +kernel
        rw [h4] at h3
        simpa using h3
      · rintro rfl; decide +kernel
    have hpat : (∃ x' y', x :: y :: m = [x', y', 0xff, 0xff, 0xff, 0xff, 0xff, 0xff]) ↔
        m = [0xff, 0xff, 0xff, 0xff, 0xff, 0xff] := by
      constructor
      · rintro ⟨x', y', h⟩; simp only [List.cons.injEq] at h; simpa using h.2.2
      · rintro rfl; exact ⟨x, y, rfl⟩
    rw [hpat]
    by_cases hz : ∀ b ∈ x :: y :: m, b = 0
    · refine ⟨fun _ => ?_, fun h => absurd (Or.inl hz) h⟩
      have hn : ¬ ((x :: y :: m).any (· != 0)) = true := fun h' => hany.1 h' hz
      simp only [if_neg hn, Option.map_none]
      simp [PT.isImpl]
    · rw [if_pos (hany.2 hz)]
      constructor
      · rintro (h | h)
        · exact absurd h hz
        · simp only [List.drop_succ_cons, List.drop_zero, Option.map_some, PT.isImpl, hff.2 h]
          simp
      · intro h
        have hm' : ¬ m = [0xff, 0xff, 0xff, 0xff, 0xff, 0xff] := fun h' => h (Or.inr h')
        refine ⟨.str (joinColon (m.map hex2)), ?_, x, y, m, rfl, hm, ?_⟩
        · simp only [List.drop_succ_cons, List.drop_zero, Option.map_some, PT.isImpl]
          rw [if_pos]
          have := mt hff.1 hm'
          simpa using this
        · rw [joinColon_eq]
          have hx : hex2 = hexByte := funext hex2_eq_hexByte
          rw [hx]
  all_goals
    first
    | have hl : d.length = 2 := hd 1 rfl
    | have hl : d.length = 4 := hd 2 rfl
    | have hl : d.length = 8 := hd 4 rfl
    first
    | refine sentinel_int (u := -32768) rfl rfl (fun w => rfl) hl ?_ (by decide)
    | refine sentinel_int (u := 0xffff) rfl rfl (fun w => rfl) hl ?_ (by decide)
    | refine sentinel_int (u := -2147483648) rfl rfl (fun w => rfl) hl ?_ (by decide)
    | refine sentinel_int (u := 0xffffffff) rfl rfl (fun w => rfl) hl ?_ (by decide)
    | refine sentinel_int (u := -9223372036854775808) rfl rfl (fun w => rfl) hl ?_ (by decide)
    | refine sentinel_int (u := 0) rfl rfl (fun w => rfl) hl ?_ (by decide)
    simp only [Unimpl]
    first
    | rw [beDec_zero_iff]; omega
    | rw [eq_iff_beDec (by simpa using hl)]; simp [beDec]; omega

/-- C03 for the 64 bit unsigned types, as far as it holds: contents below 2^63. -/
theorem C03_u64_partial (t : PT) (ht : t = .uint64 ∨ t = .acc64) (d : Bytes) (hd : d.length = 8)
    (hlt : bigEndian d < 2 ^ 63) :
    (Unimpl t d → t.readValue d = .ok none) ∧
    (¬ Unimpl t d → ∃ v, t.readValue d = .ok (some v) ∧ Denotes t d v) := by
  have hf : codecFmt t = some ⟨8, true⟩ := by rcases ht with rfl | rfl <;> rfl
  have hf' : intFmt t = some ⟨8, false⟩ := by rcases ht with rfl | rfl <;> rfl
  obtain ⟨v, ⟨_, h1, h2, h3⟩, hr⟩ := readValue_int hf hd
  simp only [IntFmt.lo, IntFmt.hi, if_true] at h1 h2
  dsimp only at h3
  have hv : v = bigEndian d := by omega
  have hden : Denotes t d (.int v) := by
    simp only [Denotes, hf']
    refine ⟨v, rfl, hd, ?_, ?_, ?_⟩ <;> simp only [IntFmt.lo, IntFmt.hi, Bool.false_eq_true, if_false] <;>
      omega
  rw [hr]
  rcases ht with rfl | rfl
  · have himpl : PT.uint64.isImpl (some (.int v)) = true := by
      simp only [PT.isImpl, bne_iff_ne, ne_eq, Option.some.injEq, Val.int.injEq]; omega
    refine ⟨fun h => ?_, fun _ => ⟨_, by rw [if_pos himpl], hden⟩⟩
    simp only [Unimpl] at h; subst h
    exact absurd hlt (by decide)
  · simp only [Unimpl, beDec_zero_iff, PT.isImpl]
    rw [← bigEndian_eq]
    constructor
    · intro h; rw [hv, h]; rfl
    · intro h
      refine ⟨_, ?_, hden⟩
      have hv0 : v ≠ 0 := by omega
      simp [hv0]

/-- C03 is violated: `uint64` is decoded as a signed number (suns.py:185), so the unimplemented
pattern reads as the number -1. -/
theorem C03_violated : ¬ C03_full := by
  intro h
  have := (h .uint64 [0xff, 0xff, 0xff, 0xff, 0xff, 0xff, 0xff, 0xff] (by decide)).1 rfl
  exact absurd this (by decide)

/-- The concrete deviation: an unimplemented `uint64` is read as the value -1. -/
theorem C03_uint64_unimpl_reads_minus_one :
    PT.uint64.readValue [0xff, 0xff, 0xff, 0xff, 0xff, 0xff, 0xff, 0xff] = .ok (some (.int (-1))) := by
  decide +kernel

/-- The concrete deviation: an `acc64` of 2^63 is read as the negative number -2^63. -/
theorem C03_acc64_high_reads_negative :
    PT.acc64.readValue [0x80, 0, 0, 0, 0, 0, 0, 0] = .ok (some (.int (-9223372036854775808))) := by
  decide +kernel

example : PT.readValue .int16 [0x80, 0] = .ok none ∧
    PT.readValue .string [0x41, 0x42, 0, 0] = .ok (some (.str ['A', 'B'])) ∧
    PT.readValue .float32 [0x7f, 0xc0, 0, 0] = .ok none ∧
    PT.readValue .eui48 [0, 0, 1, 2, 3, 4, 5, 0xab] = .ok (some (.str "01:02:03:04:05:AB".toList)) := by
  decide +kernel
example : bigEndian [0x7f, 0, 0, 0, 0, 0, 0, 1] < 2 ^ 63 ∧ ¬ Unimpl .uint64 [0x7f, 0, 0, 0, 0, 0, 0, 1] := by
  unfold Unimpl; decide

/-! ## C04 String point round-trip -/

/-- A string has a latin-1 encoding: all characters up to U+00FF. -/
def IsLatin1 (s : List Char) : Prop := ∀ c ∈ s, c.toNat < 256

theorem latin1Enc_of {s : List Char} (h : IsLatin1 s) : ∃ b, latin1Enc s = .ok b := by
  unfold latin1Enc
  rw [if_pos]
  · exact ⟨_, rfl⟩
  · rw [List.all_eq_true]; intro c hc; simpa using h c hc

/-- C04, full statement for a string point of `n` bytes: a latin-1 text that neither is empty nor
starts nor ends with NUL reads back as itself if it fits, else as its first `n` characters
(minus NULs this leaves at the end), and the encoding has `n` bytes. -/
def C04_full_for (n : Nat) : Prop := ∀ s : List Char, IsLatin1 s →
  (∀ h : s ≠ [], s.head h ≠ Char.ofNat 0 ∧ s.getLast h ≠ Char.ofNat 0) → s ≠ [] →
  ∃ d, PT.string.toData (some (.str s)) n = .ok d ∧ d.length = n ∧
    (s.length ≤ n → PT.string.readValue d = .ok (some (.str s))) ∧
    (n < s.length → d = (s.take n).map fun c => BitVec.ofNat 8 c.toNat)

/-- Reading text padded with NULs. -/
theorem readValue_padded {b : Bytes} {s : List Char} (hb : latin1Enc s = .ok b) (hne : s ≠ [])
    (h1 : s.head hne ≠ Char.ofNat 0) (h2 : s.getLast hne ≠ Char.ofNat 0) (m : Nat) :
    PT.string.readValue (b ++ List.replicate m 0) = .ok (some (.str s)) := by
  obtain ⟨hd, hl⟩ := latin1Enc_ok hb
  have hbne : b ≠ [] := by
    rintro rfl; simp at hl; exact hne (List.length_eq_zero_iff.1 hl.symm)
  have hlast : ∀ h : b ≠ [], b.getLast h ≠ 0 := by
    intro h h0
    subst hd
    simp only [latin1Dec, List.getLast_map] at h2
    exact h2 ((latin1_zero_iff _).2 h0)
  simp only [PT.readValue, PT.fromData, dataToStr_append hbne hlast, hd]
  rw [if_pos]
  obtain ⟨c, r, rfl⟩ := List.exists_cons_of_ne_nil hne
  simpa [PT.isImpl] using h1

/-- C04 for string points of at least 8 registers (see `C04_violated`). -/
theorem C04_string_roundtrip_partial (n : Nat) (hn : 16 ≤ n) : C04_full_for n := by
  intro s hs hends hne
  obtain ⟨b, hb⟩ := latin1Enc_of hs
  obtain ⟨hd, hl⟩ := latin1Enc_ok hb
  have hd0 : PT.string.toData (some (.str s)) n = .ok (packStr n b) := by
    simp only [PT.toData, strToData, Option.getD_some, hb]
    rw [if_neg (by omega)]
  refine ⟨_, hd0, packStr_length _ _, ?_, ?_⟩
  · intro hle
    obtain ⟨h1, h2⟩ := hends hne
    rw [packStr, List.take_of_length_le (by omega)]
    exact readValue_padded hb hne h1 h2 _
  · intro hlt
    rw [packStr, show n - b.length = 0 by omega]
    simp only [List.replicate_zero, List.append_nil]
    unfold latin1Enc at hb
    split at hb
    · simp only [Except.ok.injEq] at hb
      rw [← hb, List.map_take]
    · simp at hb

/-- C04 for shorter string points: the text still decodes, but the encoding is one byte too long. -/
theorem C04_short_partial (n : Nat) (hn : n < 16) (s : List Char) (hs : IsLatin1 s) (hne : s ≠ [])
    (h1 : s.head hne ≠ Char.ofNat 0) (h2 : s.getLast hne ≠ Char.ofNat 0) (hle : s.length ≤ n) :
    ∃ d, PT.string.toData (some (.str s)) n = .ok d ∧ d.length = n + 1 ∧
      PT.string.readValue d = .ok (some (.str s)) := by
  obtain ⟨b, hb⟩ := latin1Enc_of hs
  obtain ⟨hd, hl⟩ := latin1Enc_ok hb
  refine ⟨packStr (n + 1) (b ++ [0#8]), ?_, packStr_length _ _, ?_⟩
  · simp only [PT.toData, strToData, Option.getD_some, hb]
    rw [if_pos hn]
  · rw [packStr, List.take_of_length_le (by simp; omega), List.append_assoc]
    have : ([0#8] : Bytes) ++ List.replicate (n + 1 - (b ++ [0#8]).length) 0#8 =
        List.replicate (n + 1 - (b ++ [0#8]).length + 1) 0 := by
      rw [List.replicate_succ]; rfl
    rw [this]
    exact readValue_padded hb hne h1 h2 _

/-- C04 is violated for string points of fewer than 8 registers: `str_to_data` appends a byte
(util.py:148-150), so no such point is ever encoded with its own size. -/
theorem C04_violated (n : Nat) (hn : n < 16) : ¬ C04_full_for n := by
  intro h
  obtain ⟨d, h1, h2, _⟩ := h ['a'] (by unfold IsLatin1; decide) (by decide) (by decide)
  have : PT.string.toData (some (.str ['a'])) n = .ok (packStr (n + 1) ([0x61#8] ++ [0#8])) := by
    have hb : latin1Enc ['a'] = .ok [0x61#8] := by decide
    simp only [PT.toData, strToData, Option.getD_some, hb]
    rw [if_pos hn]
  rw [this] at h1
  simp only [Except.ok.injEq] at h1
  subst h1
  rw [packStr_length] at h2
  omega

/-- Text that is not latin-1 is refused, never altered. -/
theorem C04_non_latin1_refused (s : List Char) (h : ¬ IsLatin1 s) (n : Nat) :
    PT.string.toData (some (.str s)) n = .error .unicodeError := by
  have : latin1Enc s = .error .unicodeError := by
    unfold latin1Enc
    rw [if_neg]
    intro ha
    rw [List.all_eq_true] at ha
    exact h fun c hc => by simpa using ha c hc
  simp only [PT.toData, strToData, this]

example : IsLatin1 "Inverter".toList ∧ "Inverter".toList ≠ [] ∧
    PT.string.toData (some (.str "Inverter".toList)) 16 =
      .ok [0x49, 0x6e, 0x76, 0x65, 0x72, 0x74, 0x65, 0x72, 0, 0, 0, 0, 0, 0, 0, 0] := by
  unfold IsLatin1; decide +kernel

/-! ## C05 Encoded data exactly fills the point's registers -/

/-- C05, full statement: a point of type `t` occupying `regs` registers is always encoded to
`2 * regs` bytes. -/
def C05_full : Prop := ∀ (t : PT) (regs : Nat), (∀ n, typeRegs t = some n → regs = n) →
  ∀ v d, t.toData v (2 * regs) = .ok d → d.length = 2 * regs

/-- C05 except for string points of fewer than 8 registers. -/
theorem C05_exact_size_partial (t : PT) (regs : Nat) (hr : ∀ n, typeRegs t = some n → regs = n)
    (hs : t = .string → 8 ≤ regs) (v : Option Val) (d : Bytes)
    (h : t.toData v (2 * regs) = .ok d) : d.length = 2 * regs := by
  by_cases hfl : t = .float32
  · subst hfl
    have := hr 2 rfl; subst this
    exact floatToData_length h
  match v with
  | none => cases t <;> first | exact absurd rfl hfl | simp [PT.toData] at h
  | some (.int i) =>
    cases hf : codecFmt t with
    | none => cases t <;> simp [codecFmt, intFmt] at hf <;> first | exact absurd rfl hfl | simp [PT.toData] at h
    | some f =>
      have he := C02_never_wrapped t f hf i _ d h
      rw [he.1]
      cases t <;> simp [codecFmt, intFmt] at hf <;> subst hf <;>
        first
        | (have := hr 1 rfl; subst this; rfl)
        | (have := hr 2 rfl; subst this; rfl)
        | (have := hr 4 rfl; subst this; rfl)
  | some (.flt b) => cases t <;> first | exact absurd rfl hfl | simp [PT.toData] at h
  | some (.dbl b) => cases t <;> first | exact absurd rfl hfl | simp [PT.toData] at h
  | some (.str s) =>
    cases t
    case ipv6addr =>
      simp only [PT.toData] at h
      unfold ipv6ToData at h
      split at h
      · simp at h
      · simp only [Except.ok.injEq] at h; subst h; simp
    case string =>
      simp only [PT.toData] at h
      unfold strToData at h
      have := hs rfl
      split at h
      · simp at h
      · rw [if_neg (by simp; omega)] at h
        simp only [Except.ok.injEq] at h; subst h; simp
    all_goals first | exact absurd rfl hfl | simp [PT.toData] at h

/-- C05 is violated: a string point of 4 registers is encoded to 9 bytes. -/
theorem C05_violated : ¬ C05_full := by
  intro h
  have := h .string 4 (by simp [typeRegs]) (some (.str ['a'])) [0x61, 0, 0, 0, 0, 0, 0, 0, 0] (by decide)
  exact absurd this (by decide)

/-- No value of an `eui48` point can be written at all: the encoder takes one argument but is
called with two (util.py:153, core/client.py:427). -/
theorem C05_eui48_never_encodes (v : Option Val) (n : Nat) :
    PT.eui48.toData v n = .error .typeError := by
  cases v <;> rfl

example : PT.toData .string (some (.str "abc".toList)) (2 * 8) =
    .ok [0x61, 0x62, 0x63, 0, 0, 0, 0, 0, 0, 0, 0, 0, 0, 0, 0, 0] := by decide +kernel

/-! ## C06 IPv6 and EUI-48 text round-trip -/

/-- C06: decoding the registers of an ipv6addr point and encoding the text gives the same
registers, for every address that is not all zero. -/
theorem C06_ipv6_roundtrip (d : Bytes) (hd : d.length = 16) (hnz : ¬ ∀ b ∈ d, b = 0) :
    ∃ s, PT.ipv6addr.readValue d = .ok (some (.str s)) ∧
      PT.ipv6addr.toData (some (.str s)) 16 = .ok d := by
  obtain ⟨v, hv, _, _, _, _, _, _, _, _, _, hs⟩ :=
    (C03_sentinels_partial .ipv6addr (by decide) d (by rintro n ⟨⟩; exact hd)).2 hnz
  refine ⟨_, by rw [hv, hs], ?_⟩
  simp only [PT.toData]
  apply ipv6_roundtrip
  simp only [PT.readValue, PT.fromData, Except.ok.injEq] at hv
  split at hv
  · rw [hs] at hv
    cases hd : dataToIpv6 d with
    | none => rw [hd] at hv; simp at hv
    | some x => rw [hd] at hv; simpa only [Option.map_some, Option.some.injEq, Val.str.injEq] using hv
  · simp at hv

/-- C06 for `eui48_to_data` itself (the function, called with one argument): the text of a
hardware address encodes to the registers it was decoded from. -/
theorem C06_eui48_roundtrip (m : Bytes) (hm : m.length = 6) (hnz : ¬ ∀ b ∈ m, b = 0) :
    ∃ s, PT.eui48.fromData (0 :: 0 :: m) = .ok (some (.str s)) ∧
      eui48ToData s = .ok (0 :: 0 :: m) := by
  have hany : ((0 :: 0 :: m).any (· != (0 : Byte))) = true := by
    rw [List.any_eq_true]
    simp only [Classical.not_forall] at hnz
    obtain ⟨b, hb, h0⟩ := hnz
    exact ⟨b, by simp [hb], by simpa using h0⟩
  have hdec : dataToEui48 (0 :: 0 :: m) = some (joinColon (m.map hex2)) := by
    unfold dataToEui48
    rw [if_pos ⟨hany, by simp [hm]⟩]; rfl
  refine ⟨_, by simp only [PT.fromData, hdec]; rfl, ?_⟩
  rw [eui48_roundtrip hdec]; rfl

example : ([0x20, 1, 0x0d, 0xb8, 0, 0, 0, 0, 0, 0, 0, 0, 0, 0, 0, 1] : Bytes).length = 16 ∧
    PT.ipv6addr.readValue [0x20, 1, 0x0d, 0xb8, 0, 0, 0, 0, 0, 0, 0, 0, 0, 0, 0, 1] =
      .ok (some (.str "20010DB8:00000000:00000000:00000001".toList)) := by decide +kernel

end Verif
