import Verif.Model.Trace
import Verif.Props.Rtu
import Verif.Props.Tcp

/-!
# C52: tracing
-/

namespace Verif
open Spec

/-- C52 in full: with a trace function, reads and writes have the results (and the effects on the line) that they have
without. -/
def C52_full : Prop :=
  ∀ (σ : Type) (slave : Slave σ) (srv : TcpServer σ) (l : LineT σ) (t : Tcp σ) (sid op addr : Int) (count maxCount : Nat)
    (data : Bytes), ∀ tr ≠ Tracer.flag,
    ((rtuReadT tr slave l sid op addr count maxCount).1.line = (rtuRead slave l.line sid op addr count maxCount).1 ∧
      (rtuReadT tr slave l sid op addr count maxCount).2 = (rtuRead slave l.line sid op addr count maxCount).2) ∧
    ((rtuWriteT tr slave l sid addr data maxCount).1.line = (rtuWrite slave l.line sid addr data maxCount).1 ∧
      (rtuWriteT tr slave l sid addr data maxCount).2 = (rtuWrite slave l.line sid addr data maxCount).2) ∧
    tcpReadT tr srv t sid op addr count maxCount = tcpRead srv t sid op addr count maxCount ∧
    tcpWriteT tr srv t sid addr data maxCount = tcpWrite srv t sid addr data maxCount

/-- The traced requests. -/
def requestLines (log : List TraceLine) : List Text := (log.filter fun x => !x.reply).map (·.hex)

theorem rtuWrite1T_eq {σ} (tr : Tracer) (htr : tr ≠ .flag) (slave : Slave σ) (l : LineT σ) (sid addr : Int) (data : Bytes) :
    (rtuWrite1T tr slave l sid addr data).1.line = (rtuWrite1 slave l.line sid addr data).1 ∧
    (rtuWrite1T tr slave l sid addr data).2 = (rtuWrite1 slave l.line sid addr data).2 ∧
    (tr = .func → ∃ fs, (rtuWrite1 slave l.line sid addr data).1.sent = l.line.sent ++ fs ∧
      requestLines (rtuWrite1T tr slave l sid addr data).1.log = requestLines l.log ++ fs.map traceHex) := by
  unfold rtuWrite1T rtuWrite1
  simp only []
  cases hp : packBBHHB sid 16 addr ((data.length / 2 : Nat) : Int) data.length with
  | error e => exact ⟨rfl, rfl, fun _ => ⟨[], by simp, by simp⟩⟩
  | ok hdr =>
    simp only []
    have hs : ∃ d o, slave l.line.dev (hdr ++ data ++ crcField (hdr ++ data)) = (d, o) := ⟨_, _, rfl⟩
    obtain ⟨d, o, hs⟩ := hs
    cases tr with
    | flag => exact absurd rfl htr
    | off =>
      simp only [traceStr, lineSend, hs]
      cases o with
      | none => exact ⟨rfl, rfl, fun h => by cases h⟩
      | some chunks =>
        simp only []
        cases hr : recvLoop writeTotal chunks with
        | error e => exact ⟨rfl, rfl, fun h => by cases h⟩
        | ok r => exact ⟨rfl, rfl, fun h => by cases h⟩
    | func =>
      simp only [traceStr, lineSend, hs]
      cases o with
      | none => exact ⟨rfl, rfl, fun _ => ⟨[_], rfl, by simp [requestLines]⟩⟩
      | some chunks =>
        simp only []
        cases hr : recvLoop writeTotal chunks with
        | error e => exact ⟨rfl, rfl, fun _ => ⟨[_], rfl, by simp [requestLines]⟩⟩
        | ok r => exact ⟨rfl, rfl, fun _ => ⟨[_], rfl, by simp [requestLines]⟩⟩

theorem rtuWriteFT_eq {σ} (tr : Tracer) (htr : tr ≠ .flag) (slave : Slave σ) (sid : Int) (mc : Nat) (fuel : Nat) :
    ∀ (addr : Int) (data : Bytes) (l : LineT σ),
    (rtuWriteFT tr slave sid mc fuel addr data l).1.line = (rtuWriteF slave sid mc fuel addr data l.line).1 ∧
    (rtuWriteFT tr slave sid mc fuel addr data l).2 = (rtuWriteF slave sid mc fuel addr data l.line).2 ∧
    (tr = .func → ∃ fs, (rtuWriteF slave sid mc fuel addr data l.line).1.sent = l.line.sent ++ fs ∧
      requestLines (rtuWriteFT tr slave sid mc fuel addr data l).1.log = requestLines l.log ++ fs.map traceHex) := by
  induction fuel with
  | zero => intro addr data l; exact ⟨rfl, rfl, fun _ => ⟨[], by simp [rtuWriteF], by simp [rtuWriteFT]⟩⟩
  | succ fuel ih =>
    intro addr data l
    rw [rtuWriteFT, rtuWriteF]
    by_cases h0 : data.length > 0
    · rw [if_pos h0, if_pos h0]
      simp only []
      obtain ⟨h1, h2, h3⟩ := rtuWrite1T_eq tr htr slave l sid addr
        (data.take (if data.length > 2 * mc then 2 * mc else data.length))
      generalize rtuWrite1T tr slave l sid addr (data.take (if data.length > 2 * mc then 2 * mc else data.length)) = A at *
      generalize rtuWrite1 slave l.line sid addr (data.take (if data.length > 2 * mc then 2 * mc else data.length)) = B at *
      obtain ⟨A1, A2⟩ := A
      obtain ⟨B1, B2⟩ := B
      simp only at h1 h2 h3
      subst h2
      cases A2 with
      | error e => exact ⟨h1, rfl, h3⟩
      | ok u =>
        simp only []
        have hi := ih (addr + mc) (data.drop (if data.length > 2 * mc then 2 * mc else data.length)) A1
        rw [h1] at hi
        refine ⟨hi.1, hi.2.1, ?_⟩
        intro hf
        obtain ⟨f1, g1, g2⟩ := h3 hf
        obtain ⟨f2, g3, g4⟩ := hi.2.2 hf
        refine ⟨f1 ++ f2, ?_, ?_⟩
        · rw [g3, g1, List.append_assoc]
        · rw [g4, g2, List.map_append, List.append_assoc]
    · rw [if_neg h0, if_neg h0]
      exact ⟨rfl, rfl, fun _ => ⟨[], by simp, by simp⟩⟩

/-- C52 for RTU writes: a trace function changes neither the result nor what is sent, and it is given the requests that are
sent, in order. -/
theorem C52_rtu_write_partial {σ} (slave : Slave σ) (l : LineT σ) (sid addr : Int) (data : Bytes) (maxCount : Nat) :
    (rtuWriteT .func slave l sid addr data maxCount).1.line = (rtuWrite slave l.line sid addr data maxCount).1 ∧
    (rtuWriteT .func slave l sid addr data maxCount).2 = (rtuWrite slave l.line sid addr data maxCount).2 ∧
    ∃ fs, (rtuWrite slave l.line sid addr data maxCount).1.sent = l.line.sent ++ fs ∧
      requestLines (rtuWriteT .func slave l sid addr data maxCount).1.log = requestLines l.log ++ fs.map traceHex := by
  obtain ⟨h1, h2, h3⟩ := rtuWriteFT_eq .func (by decide) slave sid maxCount (data.length + 1) addr data l
  exact ⟨h1, h2, h3 rfl⟩

theorem traceRaw_on (tr : Tracer) (htr : tr ≠ .off) (log : List TraceLine) (addr : Int) (b : Byte) (s : Bytes) :
    traceRaw tr log addr (b :: s) = (log, .error .typeError) := by
  cases tr with
  | off => exact absurd rfl htr
  | func => rfl
  | flag => rfl

theorem cons_append_of_ne {α} {a b : List α} (h : a ≠ []) : ∃ x s, a ++ b = x :: s := by
  cases a with
  | nil => exact absurd rfl h
  | cons x a => exact ⟨x, a ++ b, rfl⟩

/-- Every RTU read of at least one register with trace on (a function, or the `True` of `ClientDevice`) raises a
`TypeError`, before anything is sent. -/
theorem C52_rtu_read_fails {σ} (tr : Tracer) (htr : tr ≠ .off) (slave : Slave σ) (l : LineT σ) (sid op addr : Int)
    (count maxCount : Nat) (hc : 0 < count) (h1 : 0 ≤ sid ∧ sid < 256) (h2 : 0 ≤ op ∧ op < 256)
    (h3 : 0 ≤ addr ∧ addr < 65536) (h4 : min count maxCount < 65536) :
    rtuReadT tr slave l sid op addr count maxCount = (l, .error .typeError) := by
  unfold rtuReadT
  rw [rtuReadFT, if_pos hc]
  simp only []
  have hrc : (if count > maxCount then maxCount else count) = min count maxCount := by
    split <;> omega
  rw [hrc]
  unfold rtuRead1T packBBHH
  have p1 : packU 1 sid = .ok (beEnc 1 sid.toNat) := by unfold packU; rw [if_pos ⟨h1.1, by simpa using h1.2⟩]
  have p2 : packU 1 op = .ok (beEnc 1 op.toNat) := by unfold packU; rw [if_pos ⟨h2.1, by simpa using h2.2⟩]
  have p3 : packU 2 addr = .ok (beEnc 2 addr.toNat) := by unfold packU; rw [if_pos ⟨h3.1, by simpa using h3.2⟩]
  have p4 : packU 2 ((min count maxCount : Nat) : Int) = .ok (beEnc 2 (min count maxCount)) := by
    unfold packU; rw [if_pos ⟨by omega, by simp; omega⟩]; rfl
  rw [p1, p2, p3, p4]
  simp only []
  obtain ⟨x, s, hx⟩ := cons_append_of_ne (a := beEnc 1 sid.toNat ++ beEnc 1 op.toNat ++ beEnc 2 addr.toNat ++
    beEnc 2 (min count maxCount)) (b := crcField (beEnc 1 sid.toNat ++ beEnc 1 op.toNat ++ beEnc 2 addr.toNat ++
    beEnc 2 (min count maxCount))) (by simp [beEnc])
  rw [hx, traceRaw_on tr htr]

/-- RTU writes with `trace=True` raise a `TypeError` before anything is sent. -/
theorem C52_rtu_write_flag_fails {σ} (slave : Slave σ) (l : LineT σ) (sid addr : Int) (data : Bytes) (maxCount : Nat)
    (hc : 0 < data.length) (h1 : 0 ≤ sid ∧ sid < 256) (h3 : 0 ≤ addr ∧ addr < 65536)
    (h4 : min data.length (2 * maxCount) < 256) :
    rtuWriteT .flag slave l sid addr data maxCount = (l, .error .typeError) := by
  unfold rtuWriteT
  rw [rtuWriteFT, if_pos hc]
  simp only []
  have hrc : (if data.length > 2 * maxCount then 2 * maxCount else data.length) = min data.length (2 * maxCount) := by
    split <;> omega
  rw [hrc]
  unfold rtuWrite1T packBBHHB packBBHH
  have hl : (data.take (min data.length (2 * maxCount))).length = min data.length (2 * maxCount) := by
    rw [List.length_take]; omega
  have p1 : packU 1 sid = .ok (beEnc 1 sid.toNat) := by unfold packU; rw [if_pos ⟨h1.1, by simpa using h1.2⟩]
  have p2 : packU 1 16 = .ok (beEnc 1 16) := by decide
  have p3 : packU 2 addr = .ok (beEnc 2 addr.toNat) := by unfold packU; rw [if_pos ⟨h3.1, by simpa using h3.2⟩]
  have p4 : packU 2 ((min data.length (2 * maxCount) / 2 : Nat) : Int) = .ok (beEnc 2 (min data.length (2 * maxCount) / 2)) := by
    unfold packU; rw [if_pos ⟨by omega, by simp; omega⟩]; rfl
  have p5 : packU 1 ((min data.length (2 * maxCount) : Nat) : Int) = .ok (beEnc 1 (min data.length (2 * maxCount))) := by
    unfold packU; rw [if_pos ⟨by omega, by simp; omega⟩]; rfl
  simp only [hl, p1, p2, p3, p4, p5, traceStr]

theorem packTcpRead_ne {sid op addr count : Int} {req : Bytes} (h : packTcpRead sid op addr count = .ok req) : req ≠ [] := by
  unfold packTcpRead at h
  have h0 : packU 2 0 = .ok (beEnc 2 0) := by decide
  simp only [packFields, h0] at h
  split at h
  · cases h; simp [beEnc]
  · cases h

theorem packTcpWrite_ne {sid addr count len : Int} {req : Bytes} (h : packTcpWrite sid addr count len = .ok req) : req ≠ [] := by
  unfold packTcpWrite at h
  have h0 : packU 2 0 = .ok (beEnc 2 0) := by decide
  simp only [packFields, h0] at h
  split at h
  · cases h; simp [beEnc]
  · cases h

/-- Every TCP read of at least one register with trace on raises an error before anything is sent: a `TypeError` if the
request could be built. -/
theorem C52_tcp_read_fails {σ} (tr : Tracer) (htr : tr ≠ .off) (srv : TcpServer σ) (t : Tcp σ) (p : List Bytes)
    (ht : t.sock = .connected p) (sid op addr : Int) (count maxCount : Nat) (hc : 0 < count) (req : Bytes)
    (hr : packTcpRead sid op addr (min count maxCount : Nat) = .ok req) :
    tcpReadT tr srv t sid op addr count maxCount = (t, .error .typeError) := by
  unfold tcpReadT tcpWith
  rw [ht]
  simp only []
  rw [tcpReadFT, if_pos hc]
  simp only []
  have hrc : (if count > maxCount then maxCount else count) = min count maxCount := by
    split <;> omega
  rw [hrc]
  unfold tcpRead1T
  rw [hr]
  obtain ⟨b, s, hb⟩ : ∃ b s, req = b :: s := by
    cases req with
    | nil => exact absurd rfl (packTcpRead_ne hr)
    | cons b s => exact ⟨b, s, rfl⟩
  simp only [andThen, hb, traceRaw_on tr htr]

/-- Every TCP write of at most `max_count` registers with trace on raises a `TypeError` before anything is sent. -/
theorem C52_tcp_write_fails {σ} (tr : Tracer) (htr : tr ≠ .off) (srv : TcpServer σ) (t : Tcp σ) (p : List Bytes)
    (ht : t.sock = .connected p) (sid addr : Int) (data : Bytes) (maxCount : Nat) (hc : 0 < data.length)
    (hm : data.length ≤ 2 * maxCount) (req : Bytes)
    (hr : packTcpWrite sid addr (data.length / 2 : Nat) data.length = .ok req) :
    tcpWriteT tr srv t sid addr data maxCount = (t, .error .typeError) := by
  unfold tcpWriteT tcpWith
  rw [ht]
  simp only []
  rw [tcpWriteFT, if_pos (by omega)]
  simp only []
  rw [if_neg (by omega), if_neg (by omega)]
  simp only []
  unfold tcpWrite1T
  have hd : (data.drop 0).take (0 + (data.length - 0) - 0) = data := by simp
  have ha : addr + ((0 / 2 : Nat) : Int) = addr := by simp
  rw [hd, ha, hr]
  obtain ⟨b, s, hb⟩ : ∃ b s, req ++ data = b :: s := cons_append_of_ne (packTcpWrite_ne hr)
  simp only [andThen, hb, traceRaw_on tr htr]

/-- Without tracing the traced clients are the clients of the other theorems. -/
theorem C52_off {σ} (slave : Slave σ) (srv : TcpServer σ) (l : LineT σ) (t : Tcp σ) (sid op addr : Int) (count maxCount : Nat)
    (data : Bytes) :
    ((rtuReadT .off slave l sid op addr count maxCount).1.line = (rtuRead slave l.line sid op addr count maxCount).1 ∧
      (rtuReadT .off slave l sid op addr count maxCount).2 = (rtuRead slave l.line sid op addr count maxCount).2) ∧
    ((rtuWriteT .off slave l sid addr data maxCount).1.line = (rtuWrite slave l.line sid addr data maxCount).1 ∧
      (rtuWriteT .off slave l sid addr data maxCount).2 = (rtuWrite slave l.line sid addr data maxCount).2) ∧
    tcpReadT .off srv t sid op addr count maxCount = tcpRead srv t sid op addr count maxCount ∧
    tcpWriteT .off srv t sid addr data maxCount = tcpWrite srv t sid addr data maxCount := by
  refine ⟨?_, ?_, ?_, ?_⟩
  · unfold rtuReadT rtuRead
    generalize count + 1 = fuel
    generalize ([] : Bytes) = resp
    induction fuel generalizing addr count resp l with
    | zero => exact ⟨rfl, rfl⟩
    | succ fuel ih =>
      rw [rtuReadFT, rtuReadF]
      by_cases h0 : count > 0
      · rw [if_pos h0, if_pos h0]
        simp only []
        generalize (if count > maxCount then maxCount else count) = rc
        have hone : (rtuRead1T .off slave l sid op addr rc).1.line = (rtuRead1 slave l.line sid op addr rc).1 ∧
            (rtuRead1T .off slave l sid op addr rc).2 = (rtuRead1 slave l.line sid op addr rc).2 := by
          unfold rtuRead1T rtuRead1
          cases packBBHH sid op addr rc with
          | error e => exact ⟨rfl, rfl⟩
          | ok body =>
            have hs : ∃ d o, slave l.line.dev (body ++ crcField body) = (d, o) := ⟨_, _, rfl⟩
            obtain ⟨d, o, hs⟩ := hs
            simp only [traceRaw, traceStr, lineSend, hs]
            cases o with
            | none => exact ⟨rfl, rfl⟩
            | some chunks =>
              simp only []
              cases hr : recvLoop readTotal chunks with
              | error e => exact ⟨rfl, rfl⟩
              | ok r => exact ⟨rfl, rfl⟩
        generalize rtuRead1T .off slave l sid op addr rc = A at *
        generalize rtuRead1 slave l.line sid op addr rc = B at *
        obtain ⟨A1, A2⟩ := A
        obtain ⟨B1, B2⟩ := B
        simp only at hone
        obtain ⟨h1, h2⟩ := hone
        subst h2
        cases A2 with
        | error e => exact ⟨h1, rfl⟩
        | ok data =>
          simp only []
          split
          · rw [← h1]; exact ih A1 (addr + rc) (count - rc) (resp ++ data)
          · exact ⟨h1, rfl⟩
      · rw [if_neg h0, if_neg h0]
        exact ⟨rfl, rfl⟩
  · have h := rtuWriteFT_eq .off (by decide) slave sid maxCount (data.length + 1) addr data l
    exact ⟨h.1, h.2.1⟩
  · have hone : ∀ (t : Tcp σ) (addr count : Int), tcpRead1T .off srv t sid op addr count = tcpRead1 srv t sid op addr count := by
      intro t addr count
      unfold tcpRead1T tcpRead1
      congr 1
    have hF : ∀ fuel addr count resp t, tcpReadFT .off srv sid op maxCount fuel addr count resp t =
        tcpReadF srv sid op maxCount fuel addr count resp t := by
      intro fuel
      induction fuel with
      | zero => intros; rfl
      | succ fuel ih =>
        intro addr count resp t
        rw [tcpReadFT, tcpReadF]
        simp only [hone, ih]
    unfold tcpReadT tcpRead
    congr 1
    funext t
    exact hF _ _ _ _ t
  · have hone : ∀ (t : Tcp σ) (addr : Int) (data : Bytes), tcpWrite1T .off srv t sid addr data = tcpWrite1 srv t sid addr data := by
      intro t addr data
      unfold tcpWrite1T tcpWrite1
      congr 1
    have hF : ∀ fuel w se t, tcpWriteFT .off srv sid addr maxCount data fuel w se t =
        tcpWriteF srv sid addr maxCount data fuel w se t := by
      intro fuel
      induction fuel with
      | zero => intros; rfl
      | succ fuel ih =>
        intro w se t
        rw [tcpWriteFT, tcpWriteF]
        simp only [hone, ih]
        split
        · generalize (if data.length - w > 2 * maxCount then se
            else some (w, w + if data.length - w > 2 * maxCount then 2 * maxCount else data.length - w)) = se'
          cases se' with
          | none => rfl
          | some p => rfl
        · rfl
    have hE : tcpWriteFT .off srv sid addr maxCount data (data.length + 1) 0 none =
        tcpWriteF srv sid addr maxCount data (data.length + 1) 0 none := funext (hF _ _ _)
    unfold tcpWriteT tcpWrite
    rw [hE]

/-- Reading a register of a slave that conforms to the Modbus specification works without, and raises a `TypeError` with a
trace function. -/
theorem C52_witness :
    (rtuReadT .off (drippingSlave 1#8) ⟨⟨exMem, []⟩, []⟩ 1 3 40000 2 125).2 = .ok (some [0x9c#8, 0x40#8, 0x9c#8, 0x41#8]) ∧
    (rtuReadT .func (drippingSlave 1#8) ⟨⟨exMem, []⟩, []⟩ 1 3 40000 2 125).2 = .error .typeError := by
  constructor
  · rw [(C52_off (drippingSlave 1#8) (idealServer 1#8) ⟨⟨exMem, []⟩, []⟩ (freshTcp exMem) 1 3 40000 2 125 []).1.2]
    decide +kernel
  · rw [C52_rtu_read_fails .func (by decide) _ _ _ _ _ _ _ (by decide) (by decide) (by decide) (by decide) (by decide)]

theorem C52_violated : ¬ C52_full := by
  intro h
  have h1 := (h Mem (drippingSlave 1#8) (idealServer 1#8) ⟨⟨exMem, []⟩, []⟩ (freshTcp exMem) 1 3 40000 2 125 [] .func
    (by decide)).1.2
  have h2 := (C52_off (drippingSlave 1#8) (idealServer 1#8) ⟨⟨exMem, []⟩, []⟩ (freshTcp exMem) 1 3 40000 2 125 []).1.2
  rw [← h2, C52_witness.1, C52_witness.2] at h1
  cases h1

/-- A traced RTU write of two registers: the line gets the frame, the trace its text. -/
example :
    (rtuWriteT .func (drippingSlave 1#8) ⟨⟨exMem, []⟩, []⟩ 1 40000 [0x12#8, 0x34#8, 0xab#8, 0xcd#8] 125).2 = .ok () ∧
    (rtuWriteT .func (drippingSlave 1#8) ⟨⟨exMem, []⟩, []⟩ 1 40000 [0x12#8, 0x34#8, 0xab#8, 0xcd#8] 125).1.log.map
      (fun x => (x.reply, x.addr)) = [(false, 40000), (true, 40000)] ∧
    requestLines (rtuWriteT .func (drippingSlave 1#8) ⟨⟨exMem, []⟩, []⟩ 1 40000 [0x12#8, 0x34#8, 0xab#8, 0xcd#8] 125).1.log =
      [t!"01109C400002041234ABCDF48A"] := by
  refine ⟨?_, ?_, ?_⟩ <;> decide +kernel

example : packTcpRead 1 3 40000 (min 2 125 : Nat) = .ok [0, 0, 0, 0, 0, 6, 1, 3, 0x9c, 0x40, 0, 2] := by decide
example : packTcpWrite 1 40000 (([1, 2] : Bytes).length / 2 : Nat) ([1, 2] : Bytes).length =
  .ok [0, 0, 0, 0, 0, 9, 1, 16, 0x9c, 0x40, 0, 1, 2] := by decide

end Verif
