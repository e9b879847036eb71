import Verif.Lemmas.RtuWrite

/-! Lemmas: RTU client against a conforming slave; error propagation; fragmentation. -/

namespace Verif
open Verif.Spec

/-- One read exchange with a conforming slave. -/
theorem conform_read {σ} {slave : Slave σ} {abs : σ → Mem} {sid : Byte}
    (hc : ConformsRtu slave abs sid) (s : σ) (op : Byte) {a q : Nat} (ha : a < 65536) (hq : q < 65536) :
    abs (slave s (rtuFrame sid (readPdu op a q))).1 = abs s ∧
    readOutcome ((slave s (rtuFrame sid (readPdu op a q))).2.map received) =
      if op = 3 ∨ op = 4 then
        if q < 1 ∨ 125 < q then .error (.modbusClientException 3)
        else if 65536 < a + q then .error (.modbusClientException 2)
        else .ok (memRead (abs s) a q)
      else if op = 16 then .error (.modbusClientException 3)
      else .error (.modbusClientException 1) := by
  obtain ⟨h1, chunks, h2, h3⟩ := hc s (rtuFrame sid (readPdu op a q))
  rw [serveRtu_frame] at h1 h3
  simp only [Option.getD_some] at h3
  rw [h2, Option.map_some, h3, h1]
  by_cases hop : op = 3 ∨ op = 4
  · rw [if_pos hop, serve_read _ _ hop ha hq]
    refine ⟨rfl, ?_⟩
    have h8 : ¬ (op ||| 0x80) &&& 0x80 = 0 := by rcases hop with rfl | rfl <;> decide
    have h8' : op &&& 0x80 = 0 := by rcases hop with rfl | rfl <;> decide
    dsimp only
    split
    · have := readOutcome_exception sid _ 3 h8 (by decide) []
      simpa using this
    · split
      · have := readOutcome_exception sid _ 2 h8 (by decide) []
        simpa using this
      · have := readOutcome_reply sid op (memRead (abs s) a q) h8' (by rw [memRead_length]; omega)
        rw [memRead_length] at this
        exact this
  · rw [if_neg hop]
    have h8 : ¬ (op ||| 0x80) &&& 0x80 = 0 := by
      have : ∀ op : Byte, ¬ (op ||| 0x80) &&& 0x80 = 0 := by decide +kernel
      exact this op
    by_cases h16 : op = 16
    · have e : serve (abs s) (readPdu op a q) = (abs s, [op ||| 0x80, 3]) := by
        unfold serve readPdu
        subst h16
        simp [field16]
      rw [e, if_pos h16]
      exact ⟨rfl, by simpa using readOutcome_exception sid _ 3 h8 (by decide) []⟩
    · have e : serve (abs s) (readPdu op a q) = (abs s, [op ||| 0x80, 1]) := by
        unfold serve readPdu
        simp only [if_neg hop, if_neg h16]
      rw [e, if_neg h16]
      exact ⟨rfl, by simpa using readOutcome_exception sid _ 1 h8 (by decide) []⟩

/-- One write exchange with a conforming slave. -/
theorem conform_write {σ} {slave : Slave σ} {abs : σ → Mem} {sid : Byte}
    (hc : ConformsRtu slave abs sid) (s : σ) {a : Nat} {d : Bytes} (ha : a < 65536)
    (hd : d.length < 256) :
    (abs (slave s (rtuFrame sid (writePdu a d))).1,
      writeOutcome sid.toNat a (d.length / 2 : Nat)
        ((slave s (rtuFrame sid (writePdu a d))).2.map received)) =
      if d.length / 2 < 1 ∨ 123 < d.length / 2 ∨ d.length % 2 = 1 then
        (abs s, .error (.modbusClientException 3))
      else if 65536 < a + d.length / 2 then (abs s, .error (.modbusClientException 2))
      else (memWrite (abs s) a d, .ok ()) := by
  obtain ⟨h1, chunks, h2, h3⟩ := hc s (rtuFrame sid (writePdu a d))
  rw [serveRtu_frame] at h1 h3
  simp only [Option.getD_some] at h3
  rw [h2, Option.map_some, h3, h1, serve_write _ ha hd]
  have h8 : ¬ (0x90 : Byte) &&& 0x80 = 0 := by decide
  split
  · have := writeOutcome_exception sid.toNat a (d.length / 2 : Nat) sid 0x90 3 h8 (by decide) []
    simpa using this
  · split
    · have := writeOutcome_exception sid.toNat a (d.length / 2 : Nat) sid 0x90 2 h8 (by decide) []
      simpa using this
    · have := writeOutcome_echo sid.toNat ⟨by omega, by have := sid.isLt; omega⟩ a ⟨by omega, by omega⟩
        (d.length / 2) (by omega)
      simp only [Int.toNat_natCast, BitVec.ofNat_toNat, BitVec.setWidth_eq] at this
      rw [this]

theorem ofNat_sid (sid : Byte) : BitVec.ofNat 8 ((sid.toNat : Int)).toNat = sid := by simp

/-- Reading from a conforming slave: the outcome of the loop. -/
theorem rtuReadF_conform {σ} {slave : Slave σ} {abs : σ → Mem} {sid : Byte}
    (hc : ConformsRtu slave abs sid) (op : Byte) (hop : op = 3 ∨ op = 4) (maxCount : Nat)
    (hm : 0 < maxCount) (fuel a count : Nat) (resp : Bytes) (l : Line σ) (hf : count < fuel)
    (hq : maxCount ≤ 125 ∨ count ≤ 125) (ha : a + count ≤ 65536) :
    ∃ l', rtuReadF slave sid.toNat op.toNat maxCount fuel a count resp l =
        (l', .ok (some (resp ++ memRead (abs l.dev) a count))) ∧ abs l'.dev = abs l.dev := by
  induction fuel generalizing a count resp l with
  | zero => omega
  | succ fuel ih =>
    rw [rtuReadF]
    by_cases hcz : count > 0
    · rw [if_pos hcz]
      simp only
      generalize hqq : (if count > maxCount then maxCount else count) = q
      have hq1 : q ≤ count ∧ 1 ≤ q ∧ q ≤ 125 := by split at hqq <;> omega
      have hr : (0 ≤ (sid.toNat : Int) ∧ (sid.toNat : Int) < 256) ∧
          (0 ≤ (op.toNat : Int) ∧ (op.toNat : Int) < 256) ∧ (0 ≤ (a : Int) ∧ (a : Int) < 65536) ∧
          (0 ≤ (q : Int) ∧ (q : Int) < 65536) := by
        have := sid.isLt; have := op.isLt; omega
      rw [rtuRead1_eq, if_pos hr]
      simp only [Int.toNat_natCast, BitVec.ofNat_toNat, BitVec.setWidth_eq]
      obtain ⟨h1, h2⟩ := conform_read hc l.dev op (a := a) (q := q) (by omega) (by omega)
      rw [if_pos hop, if_neg (by omega), if_neg (by omega)] at h2
      rw [h2]
      simp only [memRead_length]
      rw [if_pos (by omega)]
      obtain ⟨l', h3, h4⟩ := ih (a + q) (count - q) (resp ++ memRead (abs l.dev) a q)
        ⟨(slave l.dev (rtuFrame sid (readPdu op a q))).1,
          l.sent ++ [rtuFrame sid (readPdu op a q)]⟩ (by omega) (by omega) (by omega)
      refine ⟨l', ?_, by rw [h4]; exact h1⟩
      rw [Int.natCast_add] at h3
      rw [h3]
      dsimp only
      rw [h1, List.append_assoc, ← memRead_add, show q + (count - q) = count by omega]
    · rw [if_neg hcz]
      have : count = 0 := by omega
      subst this
      exact ⟨l, by simp [memRead], rfl⟩

/-- Reading from a conforming slave never returns anything but its registers. -/
theorem rtuReadF_sound {σ} {slave : Slave σ} {abs : σ → Mem} {sid : Byte}
    (hc : ConformsRtu slave abs sid) (op : Int) (maxCount : Nat)
    (fuel : Nat) (a : Int) (count : Nat) (resp : Bytes) (l l' : Line σ) (r : Option Bytes)
    (h : rtuReadF slave sid.toNat op maxCount fuel a count resp l = (l', .ok r)) :
    r = some (resp ++ memRead (abs l.dev) a.toNat count) := by
  induction fuel generalizing a count resp l with
  | zero => simp [rtuReadF] at h
  | succ fuel ih =>
    rw [rtuReadF] at h
    by_cases hcz : count > 0
    · rw [if_pos hcz] at h
      simp only at h
      generalize hqq : (if count > maxCount then maxCount else count) = q at h
      have hq1 : q ≤ count := by split at hqq <;> omega
      rw [rtuRead1_eq] at h
      by_cases hr : (0 ≤ (sid.toNat : Int) ∧ (sid.toNat : Int) < 256) ∧ (0 ≤ op ∧ op < 256) ∧ (0 ≤ a ∧ a < 65536) ∧
          (0 ≤ (q : Int) ∧ (q : Int) < 65536)
      · rw [if_pos hr] at h
        simp only [Int.toNat_natCast, BitVec.ofNat_toNat, BitVec.setWidth_eq] at h
        obtain ⟨h1, h2⟩ := conform_read hc l.dev (BitVec.ofNat 8 op.toNat) (a := a.toNat) (q := q)
          (by omega) (by omega)
        split at h2
        · split at h2
          · rw [h2] at h; simp at h
          · split at h2
            · rw [h2] at h; simp at h
            · rw [h2] at h
              simp only [memRead_length] at h
              rw [if_pos (by omega)] at h
              have := ih _ _ _ _ h
              rw [this]
              dsimp only
              rw [h1, List.append_assoc, show (a + (q : Int)).toNat = a.toNat + q by omega,
                ← memRead_add, show q + (count - q) = count by omega]
        · split at h2 <;> (rw [h2] at h; simp at h)
      · rw [if_neg hr] at h
        simp at h
    · rw [if_neg hcz] at h
      have : count = 0 := by omega
      subst this
      simp only [Prod.mk.injEq, Except.ok.injEq] at h
      rw [← h.2]; simp [memRead]

/-- Writing to a conforming slave: the outcome of the loop. -/
theorem rtuWriteF_conform {σ} {slave : Slave σ} {abs : σ → Mem} {sid : Byte}
    (hc : ConformsRtu slave abs sid) (maxCount : Nat) (hm : 0 < maxCount) (fuel a : Nat)
    (data : Bytes) (l : Line σ) (hf : data.length < fuel)
    (hq : maxCount ≤ 123 ∨ data.length ≤ 246) (heven : data.length % 2 = 0)
    (ha : a + data.length / 2 ≤ 65536) :
    ∃ l', rtuWriteF slave sid.toNat maxCount fuel a data l = (l', .ok ()) ∧
      abs l'.dev = memWrite (abs l.dev) a data := by
  induction fuel generalizing a data l with
  | zero => omega
  | succ fuel ih =>
    rw [rtuWriteF]
    by_cases hcz : data.length > 0
    · rw [if_pos hcz]
      simp only
      generalize hqq : (if data.length > 2 * maxCount then 2 * maxCount else data.length) = n
      have hq1 : n ≤ data.length ∧ 2 ≤ n ∧ n ≤ 246 ∧ n % 2 = 0 ∧
          (n < data.length → n = 2 * maxCount) := by split at hqq <;> omega
      have hnl : (data.take n).length = n := by simp; omega
      have hr : (0 ≤ (sid.toNat : Int) ∧ (sid.toNat : Int) < 256) ∧ (0 ≤ (a : Int) ∧ (a : Int) < 65536) ∧
          (data.take n).length < 256 := by
        have := sid.isLt; omega
      rw [rtuWrite1_eq, if_pos hr]
      simp only [Int.toNat_natCast, BitVec.ofNat_toNat, BitVec.setWidth_eq]
      have h := conform_write hc l.dev (a := a) (d := data.take n) (by omega) (by omega)
      rw [if_neg (by omega), if_neg (by omega), Prod.mk.injEq] at h
      obtain ⟨h1, h2⟩ := h
      rw [h2]
      simp only
      generalize slave l.dev (rtuFrame sid (writePdu a (data.take n))) = sr at *
      by_cases hlast : n = data.length
      · have hnil : data.drop n = [] := by simp; omega
        rw [hnil]
        cases fuel with
        | zero => omega
        | succ fuel =>
          rw [rtuWriteF, if_neg (by simp)]
          refine ⟨_, rfl, ?_⟩
          dsimp only
          rw [h1, List.take_of_length_le (by omega)]
      · have hn2 := hq1.2.2.2.2 (by omega)
        have hdl : (data.drop n).length = data.length - n := by simp
        obtain ⟨l', h3, h4⟩ := ih (a + maxCount) (data.drop n)
          ⟨sr.1, l.sent ++ [rtuFrame sid (writePdu a (data.take n))]⟩ (by omega) (by omega)
          (by omega) (by omega)
        rw [Int.natCast_add] at h3
        refine ⟨l', h3, ?_⟩
        rw [h4]
        dsimp only
        rw [h1, show a + maxCount = a + (data.take n).length / 2 by omega,
          memWrite_append _ _ _ _ (by omega), List.take_append_drop]
    · rw [if_neg hcz]
      have : data = [] := List.length_eq_zero_iff.1 (by omega)
      subst this
      exact ⟨l, rfl, by rw [memWrite_nil]⟩

/-- Whatever the outcome, only a prefix of the data is stored by a conforming slave; all of it if
the write returns. -/
theorem rtuWriteF_prefix {σ} {slave : Slave σ} {abs : σ → Mem} {sid : Byte}
    (hc : ConformsRtu slave abs sid) (maxCount : Nat) (fuel : Nat) (a : Int)
    (data : Bytes) (l l' : Line σ) (res : Py Unit)
    (h : rtuWriteF slave sid.toNat maxCount fuel a data l = (l', res)) :
    ∃ k, k ≤ data.length ∧ k % 2 = 0 ∧ abs l'.dev = memWrite (abs l.dev) a.toNat (data.take k) ∧
      (res = .ok () → k = data.length) := by
  induction fuel generalizing a data l with
  | zero =>
    simp only [rtuWriteF, Prod.mk.injEq] at h
    obtain ⟨rfl, rfl⟩ := h
    exact ⟨0, by omega, rfl, by rw [List.take_zero, memWrite_nil], by simp⟩
  | succ fuel ih =>
    rw [rtuWriteF] at h
    by_cases hcz : data.length > 0
    · rw [if_pos hcz] at h
      simp only at h
      generalize hqq : (if data.length > 2 * maxCount then 2 * maxCount else data.length) = n at h
      have hq1 : n ≤ data.length ∧ (n < data.length → n = 2 * maxCount) := by split at hqq <;> omega
      have hnl : (data.take n).length = n := by simp; omega
      rw [rtuWrite1_eq] at h
      by_cases hr : (0 ≤ (sid.toNat : Int) ∧ (sid.toNat : Int) < 256) ∧ (0 ≤ a ∧ a < 65536) ∧ (data.take n).length < 256
      · rw [if_pos hr] at h
        simp only [Int.toNat_natCast, BitVec.ofNat_toNat, BitVec.setWidth_eq] at h
        have hw := conform_write hc l.dev (a := a.toNat) (d := data.take n) (by omega) (by omega)
        rw [Int.toNat_of_nonneg hr.2.1.1] at hw
        generalize hsr : slave l.dev (rtuFrame sid (writePdu a.toNat (data.take n))) = sr at *
        generalize hwo : writeOutcome (sid.toNat : Int) a ((data.take n).length / 2 : Nat)
          (Option.map received sr.2) = wo at *
        have herr : ∀ e, wo = .error e → abs sr.1 = abs l.dev := by
          intro e he
          split at hw
          · exact (Prod.mk.inj hw).1
          · split at hw
            · exact (Prod.mk.inj hw).1
            · rw [he] at hw; simp at hw
        cases wo with
        | error e =>
          simp only [Prod.mk.injEq] at h
          obtain ⟨rfl, rfl⟩ := h
          exact ⟨0, by omega, rfl, by rw [List.take_zero, memWrite_nil]; exact herr e rfl, by simp⟩
        | ok u =>
          simp only at h
          split at hw
          · simp at hw
          · rename_i hb1
            split at hw
            · simp at hw
            · obtain ⟨h1, _⟩ := Prod.mk.inj hw
              obtain ⟨k, hk1, hk2, hk3, hk4⟩ := ih _ _ _ h
              have hdl : (data.drop n).length = data.length - n := by simp
              refine ⟨n + k, by omega, by omega, ?_, fun hres => by have := hk4 hres; omega⟩
              rw [hk3]
              dsimp only
              rw [h1]
              by_cases hlt : n < data.length
              · rw [show (a + (maxCount : Int)).toNat = a.toNat + (data.take n).length / 2 by omega,
                  memWrite_append _ _ _ _ (by omega)]
                congr 1
                rw [List.take_add]
              · have h0 : data.drop n = [] := by simp; omega
                rw [h0, List.take_nil, memWrite_nil, List.take_of_length_le (by omega),
                  List.take_of_length_le (by omega)]
      · rw [if_neg hr] at h
        simp only [Prod.mk.injEq] at h
        obtain ⟨rfl, rfl⟩ := h
        exact ⟨0, by omega, rfl, by rw [List.take_zero, memWrite_nil], by simp⟩
    · rw [if_neg hcz] at h
      simp only [Prod.mk.injEq] at h
      obtain ⟨rfl, rfl⟩ := h
      exact ⟨0, by omega, rfl, by rw [List.take_zero, memWrite_nil], fun _ => by omega⟩

/-! ### Errors surface -/

theorem rtuReadF_surfaces {σ} (slave : Slave σ) (sid op : Int) (maxCount : Nat) (fuel : Nat)
    (addr : Int) (count : Nat) (resp : Bytes) (l l' : Line σ) (res : Py (Option Bytes))
    (h : rtuReadF slave sid op maxCount fuel addr count resp l = (l', res)) :
    ∃ new, l'.sent = l.sent ++ new ∧
      ∀ rep ∈ exchange slave l.dev new, ∀ e, readOutcome rep = .error e → res = .error e := by
  induction fuel generalizing addr count resp l with
  | zero =>
    simp only [rtuReadF, Prod.mk.injEq] at h
    obtain ⟨rfl, rfl⟩ := h
    exact ⟨[], by simp, by simp [exchange]⟩
  | succ fuel ih =>
    rw [rtuReadF] at h
    by_cases hcz : count > 0
    · rw [if_pos hcz] at h
      simp only at h
      generalize hqq : (if count > maxCount then maxCount else count) = q at h
      rw [rtuRead1_eq] at h
      by_cases hr : (0 ≤ sid ∧ sid < 256) ∧ (0 ≤ op ∧ op < 256) ∧ (0 ≤ addr ∧ addr < 65536) ∧
          (0 ≤ (q : Int) ∧ (q : Int) < 65536)
      · rw [if_pos hr] at h
        simp only [Int.toNat_natCast] at h
        generalize rtuFrame (BitVec.ofNat 8 sid.toNat)
          (readPdu (BitVec.ofNat 8 op.toNat) addr.toNat q) = req at h
        generalize hrep : Option.map received (slave l.dev req).2 = rep at h
        cases hread : readOutcome rep with
        | error e =>
          rw [hread] at h
          simp only [Prod.mk.injEq] at h
          obtain ⟨rfl, rfl⟩ := h
          refine ⟨[req], rfl, ?_⟩
          simp only [exchange, List.mem_singleton, hrep]
          rintro _ rfl e' he'
          rw [hread] at he'; simpa using he'
        | ok data =>
          rw [hread] at h
          simp only at h
          split at h
          · obtain ⟨new, h1, h2⟩ := ih _ _ _ _ h
            refine ⟨req :: new, by rw [h1]; simp, ?_⟩
            simp only [exchange, List.mem_cons, hrep]
            rintro _ (rfl | hm) e' he'
            · rw [hread] at he'; simp at he'
            · exact h2 _ hm _ he'
          · simp only [Prod.mk.injEq] at h
            obtain ⟨rfl, rfl⟩ := h
            refine ⟨[req], rfl, ?_⟩
            simp only [exchange, List.mem_singleton, hrep]
            rintro _ rfl e' he'
            rw [hread] at he'; simp at he'
      · rw [if_neg hr] at h
        simp only [Prod.mk.injEq] at h
        obtain ⟨rfl, rfl⟩ := h
        exact ⟨[], by simp, by simp [exchange]⟩
    · rw [if_neg hcz] at h
      simp only [Prod.mk.injEq] at h
      obtain ⟨rfl, rfl⟩ := h
      exact ⟨[], by simp, by simp [exchange]⟩

/-- The errors of a write that do not depend on the request. -/
theorem rtuWriteF_surfaces {σ} (slave : Slave σ) (sid : Int) (maxCount : Nat) (fuel : Nat)
    (addr : Int) (data : Bytes) (l l' : Line σ) (res : Py Unit)
    (h : rtuWriteF slave sid maxCount fuel addr data l = (l', res)) :
    ∃ new, l'.sent = l.sent ++ new ∧
      ∀ rep ∈ exchange slave l.dev new, ∀ e, (∀ a n, writeOutcome sid a n rep = .error e) →
        res = .error e := by
  induction fuel generalizing addr data l with
  | zero =>
    simp only [rtuWriteF, Prod.mk.injEq] at h
    obtain ⟨rfl, rfl⟩ := h
    exact ⟨[], by simp, by simp [exchange]⟩
  | succ fuel ih =>
    rw [rtuWriteF] at h
    by_cases hcz : data.length > 0
    · rw [if_pos hcz] at h
      simp only at h
      generalize hqq : (if data.length > 2 * maxCount then 2 * maxCount else data.length) = n at h
      rw [rtuWrite1_eq] at h
      by_cases hr : (0 ≤ sid ∧ sid < 256) ∧ (0 ≤ addr ∧ addr < 65536) ∧ (data.take n).length < 256
      · rw [if_pos hr] at h
        simp only at h
        generalize rtuFrame (BitVec.ofNat 8 sid.toNat) (writePdu addr.toNat (data.take n)) = req at h
        generalize hrep : Option.map received (slave l.dev req).2 = rep at h
        cases hread : writeOutcome sid addr ((data.take n).length / 2 : Nat) rep with
        | error e =>
          rw [hread] at h
          simp only [Prod.mk.injEq] at h
          obtain ⟨rfl, rfl⟩ := h
          refine ⟨[req], rfl, ?_⟩
          simp only [exchange, List.mem_singleton, hrep]
          rintro _ rfl e' he'
          rw [he'] at hread; rw [hread]
        | ok u =>
          rw [hread] at h
          simp only at h
          obtain ⟨new, h1, h2⟩ := ih _ _ _ h
          refine ⟨req :: new, by rw [h1]; simp, ?_⟩
          simp only [exchange, List.mem_cons, hrep]
          rintro _ (rfl | hm) e' he'
          · rw [he'] at hread; simp at hread
          · exact h2 _ hm _ he'
      · rw [if_neg hr] at h
        simp only [Prod.mk.injEq] at h
        obtain ⟨rfl, rfl⟩ := h
        exact ⟨[], by simp, by simp [exchange]⟩
    · rw [if_neg hcz] at h
      simp only [Prod.mk.injEq] at h
      obtain ⟨rfl, rfl⟩ := h
      exact ⟨[], by simp, by simp [exchange]⟩

/-- A reply that ends before the length announced in its header. -/
theorem recvFlat_truncated (total : Bytes → Int) (b : Bytes)
    (h : b.length < 5 ∨ (b.getD 1 0 &&& 0x80 = 0 ∧ (b.length : Int) < total (b.take 5))) :
    recvFlat total b = .error .modbusClientTimeout := by
  unfold recvFlat
  by_cases h5 : b.length < 5
  · rw [if_pos h5]
  · rcases h with h | ⟨h1, h2⟩
    · exact absurd h h5
    · rw [if_neg h5, if_pos h1, if_pos h2]

/-! ### Fragmentation -/

theorem rtuReadF_frag {σ} (s1 s2 : Slave σ)
    (h : ∀ s r, (s1 s r).1 = (s2 s r).1 ∧ (s1 s r).2.map received = (s2 s r).2.map received)
    (sid op : Int) (maxCount fuel : Nat) (addr : Int) (count : Nat) (resp : Bytes) (l : Line σ) :
    rtuReadF s1 sid op maxCount fuel addr count resp l =
      rtuReadF s2 sid op maxCount fuel addr count resp l := by
  induction fuel generalizing addr count resp l with
  | zero => rfl
  | succ fuel ih =>
    rw [rtuReadF, rtuReadF]
    have : ∀ q : Int, rtuRead1 s1 l sid op addr q = rtuRead1 s2 l sid op addr q := by
      intro q
      rw [rtuRead1_eq, rtuRead1_eq]
      simp only [(h _ _).1, (h _ _).2]
    simp only [this, ih]

theorem rtuWriteF_frag {σ} (s1 s2 : Slave σ)
    (h : ∀ s r, (s1 s r).1 = (s2 s r).1 ∧ (s1 s r).2.map received = (s2 s r).2.map received)
    (sid : Int) (maxCount fuel : Nat) (addr : Int) (data : Bytes) (l : Line σ) :
    rtuWriteF s1 sid maxCount fuel addr data l = rtuWriteF s2 sid maxCount fuel addr data l := by
  induction fuel generalizing addr data l with
  | zero => rfl
  | succ fuel ih =>
    rw [rtuWriteF, rtuWriteF]
    have : ∀ d, rtuWrite1 s1 l sid addr d = rtuWrite1 s2 l sid addr d := by
      intro d
      rw [rtuWrite1_eq, rtuWrite1_eq]
      simp only [(h _ _).1, (h _ _).2]
    simp only [this, ih]

end Verif
