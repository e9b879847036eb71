import Verif.Lemmas.RtuConform

/-!
# C09 - C14: Modbus RTU client

`rtuRead slave l sid op addr count max` is `ModbusClientRTU.read(sid, addr, count, op=op,
max_count=max)` on a line whose slave behaves like `slave`; `rtuWrite` is `ModbusClientRTU.write`.
The slave is arbitrary unless a hypothesis restricts it.
-/

namespace Verif
open Verif.Spec

/-- The ideal slave conforms. -/
theorem idealSlave_conforms (sid : Byte) : ConformsRtu (idealSlave sid) id sid := by
  intro s req
  refine ⟨rfl, _, rfl, ?_⟩
  show received [(serveRtu sid s req).2.getD []] = (serveRtu sid s req).2.getD []
  by_cases h : (serveRtu sid s req).2.getD [] = []
  · rw [h]; rfl
  · rw [received_cons h]; simp [received]

/-- A slave that conforms and delivers every reply byte by byte. -/
def drippingSlave (sid : Byte) (m : Mem) (req : Bytes) : Mem × Option (List Bytes) :=
  ((serveRtu sid m req).1, some (((serveRtu sid m req).2.getD []).map fun b => [b]))

theorem drippingSlave_conforms (sid : Byte) : ConformsRtu (drippingSlave sid) id sid := by
  intro s req
  refine ⟨rfl, _, rfl, ?_⟩
  show received (((serveRtu sid s req).2.getD []).map fun b => [b]) = (serveRtu sid s req).2.getD []
  generalize (serveRtu sid s req).2.getD [] = r
  induction r with
  | nil => rfl
  | cons b r ih =>
    rw [List.map_cons, received_cons (by simp), ih]; rfl

/-- Register memory used in the examples: register `a` contains `a`. -/
def exMem : Mem := fun a => BitVec.ofNat 16 a

/-! ## C09 Requests are well-formed and partition the range -/

/-- C09: whatever the slave answers, a read sends exactly the frames `sid, op, address, quantity, CRC`
for a list of consecutive ranges starting at `addr` that stay within `count` registers, with
`1 ≤ quantity ≤ max_count`; if data is returned, the ranges cover all `count` registers. -/
theorem C09_requests {σ} (slave : Slave σ) (l l' : Line σ) (sid op addr : Int) (count max : Nat)
    (hmax : 0 < max) (res : Py (Option Bytes))
    (h : rtuRead slave l sid op addr count max = (l', res)) :
    ∃ ranges : List (Int × Nat),
      l'.sent = l.sent ++ ranges.map (fun r => rtuFrame (BitVec.ofNat 8 sid.toNat)
        (readPdu (BitVec.ofNat 8 op.toNat) r.1.toNat r.2)) ∧
      Consecutive addr ranges ∧
      (∀ r ∈ ranges, 1 ≤ r.2 ∧ r.2 ≤ max ∧ 0 ≤ r.1 ∧ r.1 < 65536 ∧ r.2 < 65536) ∧
      (ranges ≠ [] → (0 ≤ sid ∧ sid < 256) ∧ (0 ≤ op ∧ op < 256)) ∧
      covered ranges ≤ count ∧
      (∀ d, res = .ok (some d) → covered ranges = count) := by
  obtain ⟨rs, h1, h2, h3, h4, h5, h6⟩ := rtuReadF_spec slave sid op max _ addr count [] l l' res h
  refine ⟨rs, h1, h2, ?_, ?_, h5, fun d hd => (h6 d hd).1⟩
  · intro r hr
    obtain ⟨a, b, c, d, e⟩ := h3 r hr
    exact ⟨b hmax, a, c, d, e⟩
  · intro hne
    obtain ⟨a, b, c, d⟩ := h4 hne
    exact ⟨⟨a, b⟩, c, d⟩

/-- C09: the read ends: the number of requests is bounded by `count` (so the client cannot be made to
loop by any slave). -/
theorem C09_terminates {σ} (slave : Slave σ) (l : Line σ) (sid op addr : Int) (count max : Nat)
    (hmax : 0 < max) : (rtuRead slave l sid op addr count max).2 ≠ .error .diverge :=
  rtuReadF_no_diverge slave sid op max hmax (count + 1) addr count [] l (by omega)

/-- Five registers in requests of at most two: three frames, 2 + 2 + 1 registers. -/
example : (rtuRead (idealSlave 1) ⟨exMem, []⟩ 1 3 40000 5 2).1.sent =
    [rtuFrame 1 [3, 0x9c, 0x40, 0, 2], rtuFrame 1 [3, 0x9c, 0x42, 0, 2],
      rtuFrame 1 [3, 0x9c, 0x44, 0, 1]] := by decide +kernel

/-! ## C10 Fragmentation -/

/-- C10: if two slaves differ only in how their replies are fragmented (the bytes received before
the first timeout are the same), every read and every write has the same outcome with both. -/
theorem C10_fragmentation {σ} (s1 s2 : Slave σ)
    (h : ∀ s r, (s1 s r).1 = (s2 s r).1 ∧ (s1 s r).2.map received = (s2 s r).2.map received)
    (l : Line σ) (sid op addr : Int) (count max : Nat) (data : Bytes) :
    rtuRead s1 l sid op addr count max = rtuRead s2 l sid op addr count max ∧
    rtuWrite s1 l sid addr data max = rtuWrite s2 l sid addr data max :=
  ⟨rtuReadF_frag s1 s2 h .., rtuWriteF_frag s1 s2 h ..⟩

/-- The ideal slave and the dripping slave differ only in fragmentation. -/
example (sid : Byte) : ∀ s r, (idealSlave sid s r).1 = (drippingSlave sid s r).1 ∧
    (idealSlave sid s r).2.map received = (drippingSlave sid s r).2.map received := by
  intro s r
  refine ⟨rfl, ?_⟩
  obtain ⟨_, c1, h1, h2⟩ := idealSlave_conforms sid s r
  obtain ⟨_, c3, h3, h4⟩ := drippingSlave_conforms sid s r
  rw [h1, h3]; simp only [Option.map_some, h2, h4]

/-! ## C11 Reads return the slave's registers -/

/-- C11: from a conforming slave, a read of registers that exist returns exactly their contents
and leaves them unchanged. `max` is at most the Modbus limit 125 (or the whole read is). -/
theorem C11_read {σ} {slave : Slave σ} {abs : σ → Mem} {sid : Byte} (hc : ConformsRtu slave abs sid)
    (l : Line σ) (op : Byte) (hop : op = 3 ∨ op = 4) (addr count max : Nat) (hmax : 0 < max)
    (hlim : max ≤ 125 ∨ count ≤ 125) (hrange : addr + count ≤ 65536) :
    ∃ l', rtuRead slave l sid.toNat op.toNat addr count max =
        (l', .ok (some (memRead (abs l.dev) addr count))) ∧ abs l'.dev = abs l.dev := by
  have := rtuReadF_conform hc op hop max hmax (count + 1) addr count [] l (by omega) hlim hrange
  simpa [rtuRead] using this

/-- C11: whatever the arguments, a read from a conforming slave that returns anything returns
exactly the requested registers. -/
theorem C11_read_sound {σ} {slave : Slave σ} {abs : σ → Mem} {sid : Byte}
    (hc : ConformsRtu slave abs sid) (l l' : Line σ) (op addr : Int) (count max : Nat)
    (r : Option Bytes) (h : rtuRead slave l sid.toNat op addr count max = (l', .ok r)) :
    r = some (memRead (abs l.dev) addr.toNat count) := by
  have := rtuReadF_sound hc op max (count + 1) addr count [] l l' r h
  simpa using this

/-- Non-vacuity: reading 300 registers byte by byte in requests of 125. -/
example : ∃ l', rtuRead (drippingSlave 7) ⟨exMem, []⟩ 7 3 40000 300 125 =
    (l', .ok (some (memRead exMem 40000 300))) ∧ id l'.dev = exMem :=
  C11_read (drippingSlave_conforms 7) ⟨exMem, []⟩ 3 (Or.inl rfl) 40000 300 125 (by decide)
    (by decide) (by decide)

/-! ## C12 Error replies raise errors -/

theorem truncated_read {b : Bytes} (h : Truncated readLen b) :
    recvFlat readTotal b = .error .modbusClientTimeout := by
  refine recvFlat_truncated _ _ ?_
  by_cases h5 : b.length < 5
  · exact Or.inl h5
  · right
    rcases h with h | h
    · exact absurd h h5
    · unfold announced at h
      split at h
      · rename_i hb
        refine ⟨hb, ?_⟩
        unfold readTotal
        unfold readLen at h
        rw [getD_take _ _ _ _ (by omega)]; omega
      · omega

theorem truncated_write {b : Bytes} (h : Truncated writeLen b) :
    recvFlat writeTotal b = .error .modbusClientTimeout := by
  refine recvFlat_truncated _ _ ?_
  by_cases h5 : b.length < 5
  · exact Or.inl h5
  · right
    rcases h with h | h
    · exact absurd h h5
    · unfold announced at h
      split at h
      · rename_i hb
        refine ⟨hb, ?_⟩
        unfold writeTotal
        unfold writeLen at h
        omega
      · omega

theorem recvFlat_complete {normal : Bytes → Nat} {total : Bytes → Int} {b : Bytes}
    (h : ¬ Truncated normal b) (ht : 5 ≤ b.length → total (b.take 5) = (normal b : Nat)) :
    ∃ exc, recvFlat total b = .ok (b.take (announced normal b), exc) := by
  simp only [Truncated, not_or, Nat.not_lt] at h
  obtain ⟨h5, h6⟩ := h
  unfold recvFlat announced at *
  rw [if_neg (by omega), ht h5]
  split at h6
  · rename_i hb
    rw [if_pos hb, if_pos hb, if_neg (by omega)]
    exact ⟨none, by simp⟩
  · rename_i hb
    rw [if_neg hb, if_neg hb]
    exact ⟨_, rfl⟩

theorem badCrc_read {b : Bytes} (h : BadCrc readLen b) :
    readOutcome (some b) = .error .modbusClientError := by
  obtain ⟨exc, he⟩ := recvFlat_complete (total := readTotal) h.1
    (fun _ => by unfold readTotal readLen; rw [getD_take _ _ _ _ (by omega)]; omega)
  simp only [readOutcome, he, rtuReadReply]
  rw [if_pos]
  have := mt (frameCrcOk_iff _).1 h.2
  simpa using this

theorem badCrc_write {b : Bytes} (h : BadCrc writeLen b) (sid a n : Int) :
    writeOutcome sid a n (some b) = .error .modbusClientError := by
  obtain ⟨exc, he⟩ := recvFlat_complete (total := writeTotal) h.1 (fun _ => rfl)
  simp only [writeOutcome, he, rtuWriteReply]
  rw [if_pos]
  have := mt (frameCrcOk_iff _).1 h.2
  simpa using this

/-- C12 for reads: if in answer to any request of a read (whose requests are `new`) the line
delivers a truncated reply, a reply with a wrong CRC, or an exception reply, then the read raises a
timeout, a client error, or a Modbus exception with the same code. -/
theorem C12_read_errors {σ} (slave : Slave σ) (l l' : Line σ) (sid op addr : Int) (count max : Nat)
    (res : Py (Option Bytes)) (h : rtuRead slave l sid op addr count max = (l', res)) :
    ∃ new, l'.sent = l.sent ++ new ∧ ∀ b, some b ∈ exchange slave l.dev new →
      (Truncated readLen b → res = .error .modbusClientTimeout) ∧
      (BadCrc readLen b → res = .error .modbusClientError) ∧
      (∀ c, c ≠ 0 → IsException c b → res = .error (.modbusClientException c.toNat)) := by
  obtain ⟨new, h1, h2⟩ := rtuReadF_surfaces slave sid op max _ addr count [] l l' res h
  refine ⟨new, h1, fun b hb => ⟨fun ht => h2 _ hb _ ?_, fun hcrc => h2 _ hb _ (badCrc_read hcrc), ?_⟩⟩
  · simp only [readOutcome, truncated_read ht, rtuReadReply]
  · rintro c hc ⟨x, y, rest, hy, rfl⟩
    exact h2 _ hb _ (readOutcome_exception x y c hy hc rest)

/-- C12 for writes. -/
theorem C12_write_errors {σ} (slave : Slave σ) (l l' : Line σ) (sid addr : Int) (data : Bytes)
    (max : Nat) (res : Py Unit) (h : rtuWrite slave l sid addr data max = (l', res)) :
    ∃ new, l'.sent = l.sent ++ new ∧ ∀ b, some b ∈ exchange slave l.dev new →
      (Truncated writeLen b → res = .error .modbusClientTimeout) ∧
      (BadCrc writeLen b → res = .error .modbusClientError) ∧
      (∀ c, c ≠ 0 → IsException c b → res = .error (.modbusClientException c.toNat)) := by
  obtain ⟨new, h1, h2⟩ := rtuWriteF_surfaces slave sid max _ addr data l l' res h
  refine ⟨new, h1, fun b hb => ⟨fun ht => h2 _ hb _ ?_,
    fun hcrc => h2 _ hb _ (fun a n => badCrc_write hcrc sid a n), ?_⟩⟩
  · intro a n; simp only [writeOutcome, truncated_write ht, rtuWriteReply]
  · rintro c hc ⟨x, y, rest, hy, rfl⟩
    exact h2 _ hb _ (fun a n => writeOutcome_exception sid a n x y c hy hc rest)

/-- A slave that always replies with the bytes `b` (in one piece). -/
def constSlave (b : Bytes) : Slave Unit := fun s _ => (s, some [b])

/-- Non-vacuity: an exception reply with code 2, a frame cut after 6 bytes, a frame with one wrong
bit; each is received in answer to the request of a one-register read. -/
example :
    (rtuRead (constSlave (rtuFrame 1 [0x83, 2])) ⟨(), []⟩ 1 3 100 1 125).2 =
      .error (.modbusClientException 2) ∧
    (rtuRead (constSlave ((rtuFrame 1 [3, 2, 0x12, 0x34]).take 6)) ⟨(), []⟩ 1 3 100 1 125).2 =
      .error .modbusClientTimeout ∧
    (rtuRead (constSlave [1, 3, 2, 0x12, 0x35, 0xb5, 0x33]) ⟨(), []⟩ 1 3 100 1 125).2 =
      .error .modbusClientError ∧
    (rtuWrite (constSlave (rtuFrame 1 [0x90, 2])) ⟨(), []⟩ 1 100 [0, 1] 125).2 =
      .error (.modbusClientException 2) := by decide +kernel

example : IsException 2 (rtuFrame 1 [0x83, 2]) ∧
    Truncated readLen ((rtuFrame 1 [3, 2, 0x12, 0x34]).take 6) :=
  ⟨⟨1, 0x83, [], by decide, by simp⟩, by unfold Truncated announced readLen; decide +kernel⟩

/-! ## C13 A successful read has the requested size and comes from the addressed slave -/

/-- C13, full statement: a read returns only data, exactly `2 * count` bytes, assembled from replies
that carry the requested slave id and function and twice the requested quantity. -/
def C13_full_rtu : Prop :=
  ∀ (slave : Slave Unit) (sid op : Byte) (addr count max : Nat) (l' : Line Unit) (r : Option Bytes),
    rtuRead slave ⟨(), []⟩ sid.toNat op.toNat addr count max = (l', .ok r) →
    ∃ d, r = some d ∧ d.length = 2 * count ∧
      ∀ b, some b ∈ exchange slave () l'.sent → ∃ rest, b = sid :: op :: rest

theorem pair_of_snd {α β} {p : α × β} {b : β} (h : p.2 = b) : p = (p.1, b) := by rw [← h]

/-- C13 is violated (modbus/client.py:272-279 checks neither slave id, function nor byte count): a
reply by slave 9 with one register is returned as the result of reading two registers of slave 1. -/
theorem C13_rtu_violated : ¬ C13_full_rtu := by
  intro h
  obtain ⟨d, h1, h2, _⟩ := h (constSlave (rtuFrame 9 [3, 2, 0xab, 0xcd])) 1 3 100 2 125 _
    (some [0xab, 0xcd]) (pair_of_snd (by decide +kernel))
  simp only [Option.some.injEq] at h1
  subst h1
  simp at h2

/-- C13 is violated also by the reply of another slave with the right size. -/
theorem C13_rtu_violated_slave :
    (rtuRead (constSlave (rtuFrame 9 [4, 4, 1, 2, 3, 4])) ⟨(), []⟩ 1 3 100 2 125).2 =
      .ok (some [1, 2, 3, 4]) := by decide +kernel

/-- C13 is violated also in that a read can return without any data: an empty reply, or an
exception reply with code 0, makes `read` return `None`. -/
theorem C13_rtu_none :
    (rtuRead (constSlave (rtuFrame 1 [3, 0])) ⟨(), []⟩ 1 3 100 2 125).2 = .ok none ∧
    (rtuRead (constSlave (rtuFrame 1 [0x83, 0])) ⟨(), []⟩ 1 3 100 2 125).2 = .ok none := by
  decide +kernel

/-- C13, the part that holds: returned data is the concatenation of the payloads of CRC-valid
normal replies, one per request, in order; and if every such reply has the byte count asked for,
the data has `2 * count` bytes. -/
theorem C13_rtu_partial {σ} (slave : Slave σ) (l l' : Line σ) (sid op addr : Int) (count max : Nat)
    (d : Bytes) (h : rtuRead slave l sid op addr count max = (l', .ok (some d))) :
    ∃ (ranges : List (Int × Nat)) (payloads : List Bytes),
      Consecutive addr ranges ∧ covered ranges = count ∧
      l'.sent = l.sent ++ ranges.map (fun r => rtuFrame (BitVec.ofNat 8 sid.toNat)
        (readPdu (BitVec.ofNat 8 op.toNat) r.1.toNat r.2)) ∧
      d = payloads.flatten ∧ payloads.length = ranges.length ∧
      (∀ i (_ : i < payloads.length), ∃ b,
        (exchange slave l.dev (ranges.map (fun r => rtuFrame (BitVec.ofNat 8 sid.toNat)
          (readPdu (BitVec.ofNat 8 op.toNat) r.1.toNat r.2))))[i]? = some (some b) ∧
        IsReadReply b payloads[i]) ∧
      ((∀ i (h1 : i < payloads.length) (h2 : i < ranges.length),
          payloads[i].length = 2 * ranges[i].2) → d.length = 2 * count) := by
  obtain ⟨rs, h1, h2, h3, h4, h5, h6⟩ := rtuReadF_spec slave sid op max _ addr count [] l l' _ h
  obtain ⟨h7, ps, h8, h9, h10⟩ := h6 d rfl
  refine ⟨rs, ps, h2, h7, h1, by simpa using h8, h9, fun i hi => (h10 i hi).2, ?_⟩
  intro hlen
  have : ps.map List.length = rs.map (fun r => 2 * r.2) := by
    apply List.ext_getElem
    · simp [h9]
    · intro i hi1 hi2
      simp only [List.length_map] at hi1 hi2
      simp [hlen i hi1 hi2]
  rw [h8, List.nil_append, List.length_flatten, this, ← h7, covered]
  clear this hlen h1 h2 h3 h4 h5 h6 h7 h8 h9 h10 h
  induction rs with
  | nil => rfl
  | cons r rs ih => simp only [List.map_cons, List.sum_cons, ih]; omega

/-- Non-vacuity: a read that returns data. -/
example : (rtuRead (idealSlave 1) ⟨exMem, []⟩ 1 3 40000 2 1).2 =
    .ok (some [0x9c, 0x40, 0x9c, 0x41]) := by decide +kernel

/-! ## C14 Writes update exactly the addressed registers -/

/-- C14: a write of an even number of bytes to registers that exist on a conforming slave succeeds
and stores exactly these bytes there and changes nothing else. `max` is at most the Modbus limit 123
(or the whole write is). -/
theorem C14_write {σ} {slave : Slave σ} {abs : σ → Mem} {sid : Byte} (hc : ConformsRtu slave abs sid)
    (l : Line σ) (addr : Nat) (data : Bytes) (max : Nat) (hmax : 0 < max)
    (hlim : max ≤ 123 ∨ data.length ≤ 246) (heven : data.length % 2 = 0)
    (hrange : addr + data.length / 2 ≤ 65536) :
    ∃ l', rtuWrite slave l sid.toNat addr data max = (l', .ok ()) ∧
      abs l'.dev = memWrite (abs l.dev) addr data :=
  rtuWriteF_conform hc max hmax (data.length + 1) addr data l (by omega) hlim heven hrange

/-- C14: whatever the arguments and the outcome, a write to a conforming slave stores a prefix of the
data at `addr` and changes nothing else; if it returns normally, the whole data. -/
theorem C14_write_sound {σ} {slave : Slave σ} {abs : σ → Mem} {sid : Byte}
    (hc : ConformsRtu slave abs sid) (l l' : Line σ) (addr : Int) (data : Bytes) (max : Nat)
    (res : Py Unit) (h : rtuWrite slave l sid.toNat addr data max = (l', res)) :
    ∃ k, k ≤ data.length ∧ k % 2 = 0 ∧ abs l'.dev = memWrite (abs l.dev) addr.toNat (data.take k) ∧
      (res = .ok () → k = data.length) :=
  rtuWriteF_prefix hc max _ addr data l l' res h

/-- C14: with any slave, a write returns normally only if all data was sent, in consecutive requests,
and every request was answered by the echo of slave id, function, address and quantity. -/
theorem C14_write_echoed {σ} (slave : Slave σ) (l l' : Line σ) (sid addr : Int) (data : Bytes)
    (max : Nat) (h : rtuWrite slave l sid addr data max = (l', .ok ())) :
    ∃ writes : List (Int × Bytes),
      l'.sent = l.sent ++ writes.map (fun w => rtuFrame (BitVec.ofNat 8 sid.toNat)
        (writePdu w.1.toNat w.2)) ∧
      ConsecutiveW addr writes ∧ (writes.map (·.2)).flatten = data ∧
      (∀ w ∈ writes, w.2.length ≤ 2 * max ∧ 0 ≤ w.1 ∧ w.1 < 65536 ∧ w.2.length < 256) ∧
      ∀ i (hi : i < writes.length), ∃ b,
        (exchange slave l.dev (writes.map (fun w => rtuFrame (BitVec.ofNat 8 sid.toNat)
          (writePdu w.1.toNat w.2))))[i]? = some (some b) ∧
        IsWriteEcho (BitVec.ofNat 8 sid.toNat) writes[i].1.toNat (writes[i].2.length / 2) b := by
  obtain ⟨ws, h1, h2, h3, h4, h5, h6⟩ := rtuWriteF_spec slave sid max _ addr data l l' _ h
  obtain ⟨h7, h8⟩ := h6 rfl
  exact ⟨ws, h1, h2, h7, fun w hw => by
    obtain ⟨a, _, c⟩ := h3 w hw
    exact ⟨a, c⟩, h8⟩

/-- Non-vacuity: three registers written in two requests. -/
example : (rtuWrite (idealSlave 1) ⟨exMem, []⟩ 1 100 [1, 2, 3, 4, 5, 6] 2).2 = .ok () ∧
    (rtuWrite (idealSlave 1) ⟨exMem, []⟩ 1 100 [1, 2, 3, 4, 5, 6] 2).1.sent.length = 2 ∧
    (rtuWrite (idealSlave 1) ⟨exMem, []⟩ 1 100 [1, 2, 3, 4, 5, 6] 2).1.dev 101 = 0x0304 ∧
    (rtuWrite (idealSlave 1) ⟨exMem, []⟩ 1 100 [1, 2, 3, 4, 5, 6] 2).1.dev 103 = 103 := by
  decide +kernel

end Verif
