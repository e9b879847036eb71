import Verif.Props.Tcp

/-!
# C51: quantity limits of the Modbus specification

At most 125 registers per read request and 123 per write request. `REQ_COUNT_MAX = 125`
(modbus/client.py:51) is the default `max_count` of both kinds of devices for reads and writes.
-/

namespace Verif
open Verif.Spec

/-- `REQ_COUNT_MAX` (modbus/client.py:51). -/
def reqCountMax : Nat := 125

/-- C51 for reads: with the default `max_count`, no RTU or TCP read asks for more than 125 registers in
one request, whatever the device answers. -/
theorem C51_read_limit {σ} (slave : Slave σ) (l : Line σ) (srv : TcpServer σ) (t : Tcp σ)
    (sid op addr : Int) (count : Nat) :
    (∀ frame ∈ (rtuRead slave l sid op addr count reqCountMax).1.sent.drop l.sent.length,
      ∃ a q, q ≤ 125 ∧
        frame = rtuFrame (BitVec.ofNat 8 sid.toNat) (readPdu (BitVec.ofNat 8 op.toNat) a q)) ∧
    (∀ adu ∈ (tcpRead srv t sid op addr count reqCountMax).1.sent.drop t.sent.length,
      ∃ a q, q ≤ 125 ∧
        adu = mbap 0 (BitVec.ofNat 8 sid.toNat) (readPdu (BitVec.ofNat 8 op.toNat) a q)) := by
  constructor
  · obtain ⟨rs, h1, _, h3, _⟩ := C09_requests slave l _ sid op addr count reqCountMax (by decide) _ (pair_of_snd rfl)
    rw [h1, List.drop_left]
    intro f hf
    obtain ⟨r, hr, rfl⟩ := List.mem_map.1 hf
    exact ⟨_, _, (h3 r hr).2.1, rfl⟩
  · obtain ⟨rs, h1, _, h3, _⟩ := C15_requests srv t _ sid op addr count reqCountMax (by decide) _ (pair_of_snd rfl)
    rw [h1, List.drop_left]
    intro f hf
    obtain ⟨r, hr, rfl⟩ := List.mem_map.1 hf
    exact ⟨_, _, (h3 r hr).2.1, rfl⟩

/-- C51 for writes, full statement: with the default `max_count`, no write request carries more than
123 registers (246 bytes). -/
def C51_write_full : Prop :=
  ∀ (slave : Slave Unit) (sid addr : Int) (data : Bytes),
    ∀ frame ∈ (rtuWrite slave ⟨(), []⟩ sid addr data reqCountMax).1.sent,
      ∃ a d, d.length ≤ 246 ∧ frame = rtuFrame (BitVec.ofNat 8 sid.toNat) (writePdu a d)

set_option maxRecDepth 100000 in
/-- C51 is violated for writes of 124 or more registers: 125 registers are put in one request. -/
theorem C51_write_violated : ¬ C51_write_full := by
  intro h
  have hlen : ((rtuWrite (constSlave []) ⟨(), []⟩ 1 0 (List.replicate 250 0) reqCountMax).1.sent.map
    List.length) = [259] := by decide +kernel
  generalize hs : (rtuWrite (constSlave []) ⟨(), []⟩ 1 0 (List.replicate 250 0) reqCountMax).1.sent = s at hlen
  match s, hlen with
  | [f], hlen =>
    obtain ⟨a, d, hd, hf⟩ := h (constSlave []) 1 0 (List.replicate 250 0) f (by rw [hs]; simp)
    have : f.length = 259 := by simpa using hlen
    rw [hf] at this
    simp [rtuFrame, writePdu, field16, crcBytes] at this
    omega

set_option maxRecDepth 100000 in
/-- C51, consequence: a conforming device refuses such a request, so with the default `max_count`
a write of 125 existing registers fails with exception 3 on RTU and TCP. -/
theorem C51_write_refused :
    (rtuWrite (idealSlave 1) ⟨exMem, []⟩ 1 0 (List.replicate 250 0) reqCountMax).2 =
      .error (.modbusClientException 3) ∧
    (tcpWrite (idealServer 1) (freshTcp exMem) 1 0 (List.replicate 250 0) reqCountMax).2 =
      .error (.modbusClientException 3) := by decide +kernel

/-- C51 for writes, the part that holds: if `max_count` is at most 123, every write request stays
within the limit, on RTU and TCP, whatever the device answers. -/
theorem C51_write_limit_partial {σ} (slave : Slave σ) (l : Line σ) (srv : TcpServer σ) (t : Tcp σ)
    (sid addr : Int) (data : Bytes) (max : Nat) (hmax : max ≤ 123) :
    (∀ frame ∈ (rtuWrite slave l sid addr data max).1.sent.drop l.sent.length,
      ∃ a d, d.length ≤ 246 ∧ frame = rtuFrame (BitVec.ofNat 8 sid.toNat) (writePdu a d)) ∧
    (∀ adu ∈ (tcpWrite srv t sid addr data max).1.sent.drop t.sent.length,
      ∃ a d, d.length ≤ 246 ∧ adu = mbap 0 (BitVec.ofNat 8 sid.toNat) (writePdu a d)) := by
  constructor
  · obtain ⟨ws, h1, _, h3, _⟩ := rtuWriteF_spec slave sid max (data.length + 1) addr data l _ _ (pair_of_snd rfl)
    unfold rtuWrite
    rw [h1, List.drop_left]
    intro f hf
    obtain ⟨w, hw, rfl⟩ := List.mem_map.1 hf
    exact ⟨_, _, by have := (h3 w hw).1; omega, rfl⟩
  · by_cases hl : 2 * max < data.length
    · -- nothing is sent
      have hsent : (tcpWrite srv t sid addr data max).1.sent = t.sent := by
        unfold tcpWrite
        by_cases hs : t.sock = .absent
        · cases ha : (srv.accept t.dev).2 with
          | false => rw [tcpWith_refused _ _ _ hs ha]
          | true =>
            rw [tcpWith_absent _ _ _ hs ha, tcpWriteF_long _ _ _ _ _ _ hl]
            rfl
        · rw [tcpWith_present _ _ _ hs, tcpWriteF_long _ _ _ _ _ _ hl]
      rw [hsent]
      simp
    · cases hst : startOf srv t with
      | none =>
        by_cases hd : data = []
        · subst hd
          have hsent : (tcpWrite srv t sid addr [] max).1.sent = t.sent := by
            unfold tcpWrite
            by_cases hs : t.sock = .absent
            · cases ha : (srv.accept t.dev).2 with
              | false => rw [tcpWith_refused _ _ _ hs ha]
              | true => simp [startOf, hs, ha] at hst
            · rw [tcpWith_present _ _ _ hs, tcpWriteF_short _ _ _ _ _ _ (by simp)]; rfl
          rw [hsent]; simp
        · obtain ⟨t', e, h1, h2⟩ := (C53_unreachable srv t hst sid 0 addr 1 max (by decide) data hd).2
          rw [h1]
          dsimp only
          rw [h2]; simp
      | some x =>
        obtain ⟨new, h1, h2, _⟩ := C53_write_errors srv t _ sid addr data max _ (pair_of_snd rfl) x.1 x.2 hst
        rw [h1, List.drop_left]
        intro f hf
        rcases h2 with rfl | rfl
        · simp at hf
        · simp only [List.mem_singleton] at hf
          exact ⟨_, _, by omega, hf⟩

set_option maxRecDepth 100000 in
/-- Non-vacuity: a 300 register RTU write in three requests. -/
example : (rtuWrite (idealSlave 1) ⟨exMem, []⟩ 1 0 (List.replicate 600 0) 123).1.sent.length = 3 := by
  decide +kernel

end Verif
