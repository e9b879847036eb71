import Verif.Lemmas.TcpMore
import Verif.Props.Rtu

/-!
# C15 - C21, C53, and C13 and C51 for Modbus TCP

`tcpRead srv t sid op addr count max` is `ModbusClientDeviceTCP.read(addr, count, op)` of a device
with `slave_id = sid` and `max_count = max` in state `t`; `tcpWrite` is `write`. The server `srv`
is arbitrary unless a hypothesis restricts it.
-/

namespace Verif
open Verif.Spec

/-! ## Servers used in the examples -/

/-- A server that answers like `serveTcp`, each reply in one piece. -/
def idealServer (unit : Byte) : TcpServer Mem where
  accept m := (m, true)
  react m req := ((serveTcp unit m req).1,
    some (if (serveTcp unit m req).2 = [] then [] else [(serveTcp unit m req).2]))

/-- A server that answers like `serveTcp`, byte by byte. -/
def drippingServer (unit : Byte) : TcpServer Mem where
  accept m := (m, true)
  react m req := ((serveTcp unit m req).1, some ((serveTcp unit m req).2.map fun b => [b]))

theorem idealServer_conforms (unit : Byte) :
    ConformsTcp (idealServer unit).accept (idealServer unit).react id unit := by
  refine ⟨fun s => ⟨rfl, rfl⟩, fun s req => ⟨rfl, _, rfl, ?_, ?_⟩⟩
  · intro c hc
    split at hc
    · simp at hc
    · rename_i h; simp only [List.mem_singleton] at hc; rw [hc]; exact h
  · simp only [id]
    split
    · rename_i h; simp [h]
    · simp

theorem drippingServer_conforms (unit : Byte) :
    ConformsTcp (drippingServer unit).accept (drippingServer unit).react id unit := by
  refine ⟨fun s => ⟨rfl, rfl⟩, fun s req => ⟨rfl, _, rfl, ?_, ?_⟩⟩
  · simp
  · simp only [id]
    generalize (serveTcp unit s req).2 = b
    induction b with
    | nil => rfl
    | cons x b ih => simpa using ih

/-- A client that has not connected yet. -/
def freshTcp {σ} (d : σ) : Tcp σ := ⟨d, .absent, [], 0, 0⟩

/-- A server that accepts connections and answers every request with the bytes `b`. -/
def constServer (b : Bytes) : TcpServer Unit := ⟨fun s => (s, true), fun s _ => (s, some [b])⟩

/-- The connection on which a call in state `t` sends its requests: an existing one, with what can
already be received on it, or a new one. `none` if there is no usable connection. -/
def startOf {σ} (srv : TcpServer σ) (t : Tcp σ) : Option (σ × (Bytes × Bool)) :=
  match t.sock with
  | .connected p => some (t.dev, stream p)
  | .unconnected => none
  | .absent => if (srv.accept t.dev).2 then some ((srv.accept t.dev).1, ([], false)) else none

/-! ## C15 Requests are well-formed and partition the range -/

theorem tcpRead_spec {σ} (srv : TcpServer σ) (t t' : Tcp σ) (sid op addr : Int) (count max : Nat)
    (res : Py Bytes) (h : tcpRead srv t sid op addr count max = (t', res)) :
    ∃ rs : List (Int × Nat),
      t'.sent = t.sent ++ rs.map (fun r => mbap 0 (BitVec.ofNat 8 sid.toNat)
        (readPdu (BitVec.ofNat 8 op.toNat) r.1.toNat r.2)) ∧
      Consecutive addr rs ∧
      (∀ r ∈ rs, r.2 ≤ max ∧ (0 < max → 1 ≤ r.2) ∧ 0 ≤ r.1 ∧ r.1 < 65536 ∧ r.2 < 65536) ∧
      (rs ≠ [] → 0 ≤ sid ∧ sid < 256 ∧ 0 ≤ op ∧ op < 256) ∧
      covered rs ≤ count ∧
      (∀ d v0, startOf srv t = some (d, v0) →
        ∀ v ∈ views srv.react d v0 (rs.map (fun r => mbap 0 (BitVec.ofNat 8 sid.toNat)
          (readPdu (BitVec.ofNat 8 op.toNat) r.1.toNat r.2))),
        ∀ e, tcpOutcome .modbusClientError v = .error e → res = .error e) ∧
      (startOf srv t = none → rs = []) := by
  unfold tcpRead at h
  cases hs : t.sock with
  | connected p =>
    rw [tcpWith_present _ _ _ (by rw [hs]; simp)] at h
    obtain ⟨_, rs, h1, h2, h3, h4, h5, h6⟩ := tcpReadF_spec srv sid op max _ addr count [] t t' p hs res h
    refine ⟨rs, h1, h2, h3, h4, h5, ?_, ?_⟩
    · intro d v0 hd
      simp only [startOf, hs, Option.some.injEq, Prod.mk.injEq] at hd
      obtain ⟨rfl, rfl⟩ := hd
      exact h6
    · simp [startOf, hs]
  | unconnected =>
    rw [tcpWith_present _ _ _ (by rw [hs]; simp)] at h
    have := (tcpReadF_unconnected srv t (by simp [hs]) sid op max (count + 1) addr count []).1
    rw [h] at this
    dsimp only at this
    subst this
    exact ⟨[], by simp, trivial, by simp, by simp, by simp [covered], by simp [startOf, hs], by simp⟩
  | absent =>
    cases ha : (srv.accept t.dev).2 with
    | false =>
      rw [tcpWith_refused _ _ _ hs ha] at h
      simp only [Prod.mk.injEq] at h
      obtain ⟨rfl, rfl⟩ := h
      exact ⟨[], by simp, trivial, by simp, by simp, by simp [covered], by simp [startOf, hs, ha], by simp⟩
    | true =>
      rw [tcpWith_absent _ _ _ hs ha] at h
      generalize hb : tcpReadF srv sid op max (count + 1) addr count [] _ = b at h
      obtain ⟨b1, b2⟩ := b
      simp only [Prod.mk.injEq] at h
      obtain ⟨rfl, rfl⟩ := h
      obtain ⟨⟨_, _, p', hp'⟩, rs, h1, h2, h3, h4, h5, h6⟩ :=
        tcpReadF_spec srv sid op max _ addr count [] _ b1 [] rfl b2 hb
      refine ⟨rs, ?_, h2, h3, h4, h5, ?_, ?_⟩
      · rw [tcpDisconnect_connected _ _ hp']; exact h1
      · intro d v0 hd
        simp only [startOf, hs, ha, if_true, Option.some.injEq, Prod.mk.injEq] at hd
        obtain ⟨rfl, rfl⟩ := hd
        exact h6
      · simp [startOf, hs, ha]

/-- C15: whatever the server answers, a read sends exactly the application data units for a list of
consecutive ranges starting at `addr` that stay within `count` registers, with
`1 ≤ quantity ≤ max_count`. -/
theorem C15_requests {σ} (srv : TcpServer σ) (t t' : Tcp σ) (sid op addr : Int) (count max : Nat)
    (hmax : 0 < max) (res : Py Bytes) (h : tcpRead srv t sid op addr count max = (t', res)) :
    ∃ ranges : List (Int × Nat),
      t'.sent = t.sent ++ ranges.map (fun r => mbap 0 (BitVec.ofNat 8 sid.toNat)
        (readPdu (BitVec.ofNat 8 op.toNat) r.1.toNat r.2)) ∧
      Consecutive addr ranges ∧
      (∀ r ∈ ranges, 1 ≤ r.2 ∧ r.2 ≤ max ∧ 0 ≤ r.1 ∧ r.1 < 65536 ∧ r.2 < 65536) ∧
      (ranges ≠ [] → (0 ≤ sid ∧ sid < 256) ∧ (0 ≤ op ∧ op < 256)) ∧
      covered ranges ≤ count := by
  obtain ⟨rs, h1, h2, h3, h4, h5, _⟩ := tcpRead_spec srv t t' sid op addr count max res h
  refine ⟨rs, h1, h2, ?_, ?_, h5⟩
  · intro r hr
    obtain ⟨a, b, c, d, e⟩ := h3 r hr
    exact ⟨b hmax, a, c, d, e⟩
  · intro hne
    obtain ⟨a, b, c, d⟩ := h4 hne
    exact ⟨⟨a, b⟩, c, d⟩

/-- C15: the read ends, whatever the server does. -/
theorem C15_terminates {σ} (srv : TcpServer σ) (t : Tcp σ) (sid op addr : Int) (count max : Nat)
    (hmax : 0 < max) : (tcpRead srv t sid op addr count max).2 ≠ .error .diverge := by
  have key := fun t => tcpReadF_no_diverge srv sid op max hmax (count + 1) addr count [] t (by omega)
  unfold tcpRead
  by_cases hs : t.sock = .absent
  · cases ha : (srv.accept t.dev).2 with
    | false => rw [tcpWith_refused _ _ _ hs ha]; simp
    | true => rw [tcpWith_absent _ _ _ hs ha]; exact key _
  · rw [tcpWith_present _ _ _ hs]; exact key _

/-- Five registers in requests of at most two. -/
example : (tcpRead (idealServer 1) (freshTcp exMem) 1 3 40000 5 2).1.sent =
    [[0, 0, 0, 0, 0, 6, 1, 3, 0x9c, 0x40, 0, 2], [0, 0, 0, 0, 0, 6, 1, 3, 0x9c, 0x42, 0, 2],
      [0, 0, 0, 0, 0, 6, 1, 3, 0x9c, 0x44, 0, 1]] := by decide +kernel

/-! ## C16 Fragmentation -/

theorem tcpStep_same {σ} {s1 s2 : TcpServer σ} (h : SameServer s1 s2) {t1 t2 : Tcp σ}
    (ht : SameTcp t1 t2) (sid : Int) (max : Nat) (o : TcpOp) :
    (tcpStep s1 sid max t1 o).2 = (tcpStep s2 sid max t2 o).2 ∧
    SameTcp (tcpStep s1 sid max t1 o).1 (tcpStep s2 sid max t2 o).1 := by
  cases o with
  | connect =>
    simp only [tcpStep]
    obtain ⟨d1, d2, d3, d4, _⟩ := tcpDisconnect_same ht
    unfold tcpConnect
    dsimp only
    rw [h.1, d1]
    rcases hacc : s2.accept (tcpDisconnect t2).dev with ⟨d, _ | _⟩
    · exact ⟨rfl, rfl, d2, by dsimp only [andThen]; rw [d3], d4, Or.inl ⟨rfl, by simp [andThen]⟩⟩
    · exact ⟨rfl, rfl, d2, by dsimp only [andThen]; rw [d3], d4, Or.inr ⟨[], [], rfl, rfl, rfl⟩⟩
  | close => exact ⟨rfl, tcpDisconnect_same ht⟩
  | read op addr count => exact tcpWith_same h ht fun t1 t2 ht => tcpReadF_same h _ _ _ _ _ _ _ ht
  | write addr data =>
    have := tcpWith_same h ht fun t1 t2 ht => tcpWriteF_same h ht sid addr data max
    simp only [tcpStep, tcpWrite]
    generalize tcpWith s1 t1 _ = x at *
    generalize tcpWith s2 t2 _ = y at *
    obtain ⟨x1, x2⟩ := x
    obtain ⟨y1, y2⟩ := y
    obtain ⟨h1, h2⟩ := this
    dsimp only at h1 h2
    subst h1
    cases x2 with
    | error e => exact ⟨rfl, h2⟩
    | ok u => exact ⟨rfl, h2⟩

theorem tcpRun_same {σ} {s1 s2 : TcpServer σ} (h : SameServer s1 s2) (sid : Int) (max : Nat)
    (os : List TcpOp) {t1 t2 : Tcp σ} (ht : SameTcp t1 t2) :
    (tcpRun s1 sid max t1 os).2 = (tcpRun s2 sid max t2 os).2 ∧
    SameTcp (tcpRun s1 sid max t1 os).1 (tcpRun s2 sid max t2 os).1 := by
  induction os generalizing t1 t2 with
  | nil => exact ⟨rfl, ht⟩
  | cons o os ih =>
    obtain ⟨h1, h2⟩ := tcpStep_same h ht sid max o
    obtain ⟨h3, h4⟩ := ih h2
    simp only [tcpRun]
    exact ⟨by rw [h1, h3], h4⟩

/-- C16: if two servers differ only in how the bytes they send are segmented into `recv()` results
(the same bytes arrive and the connection is closed or not in the same way), then every history of
calls has the same results, sends the same requests and leaves the servers in the same state. -/
theorem C16_fragmentation {σ} (s1 s2 : TcpServer σ) (hacc : s1.accept = s2.accept)
    (h : ∀ s r, (s1.react s r).1 = (s2.react s r).1 ∧
      (s1.react s r).2.map stream = (s2.react s r).2.map stream)
    (sid : Int) (max : Nat) (t : Tcp σ) (calls : List TcpOp) :
    (tcpRun s1 sid max t calls).2 = (tcpRun s2 sid max t calls).2 ∧
    (tcpRun s1 sid max t calls).1.sent = (tcpRun s2 sid max t calls).1.sent ∧
    (tcpRun s1 sid max t calls).1.dev = (tcpRun s2 sid max t calls).1.dev := by
  have ht : SameTcp t t := ⟨rfl, rfl, rfl, rfl, by
    cases hs : t.sock with
    | absent => left; simp
    | unconnected => left; simp
    | connected p => right; exact ⟨p, p, rfl, rfl, rfl⟩⟩
  obtain ⟨h1, h2⟩ := tcpRun_same ⟨hacc, h⟩ sid max calls ht
  exact ⟨h1, h2.sent, h2.dev⟩

/-- The ideal and the dripping server differ only in segmentation. -/
example (unit : Byte) : (idealServer unit).accept = (drippingServer unit).accept ∧
    ∀ s r, ((idealServer unit).react s r).1 = ((drippingServer unit).react s r).1 ∧
      ((idealServer unit).react s r).2.map stream = ((drippingServer unit).react s r).2.map stream := by
  refine ⟨rfl, fun s r => ⟨rfl, ?_⟩⟩
  obtain ⟨_, c1, h1, h2, h3⟩ := (idealServer_conforms unit).2 s r
  obtain ⟨_, c2, h4, h5, h6⟩ := (drippingServer_conforms unit).2 s r
  rw [h1, h4]
  simp only [Option.map_some, stream, received_of_nonempty h2, received_of_nonempty h5, h3, h6]
  congr 2
  rw [decide_eq_decide]
  exact ⟨fun h => absurd rfl (h2 _ h), fun h => absurd rfl (h5 _ h)⟩

/-! ## C17 Reads return the server's registers -/

/-- A client without connection, or with an open connection on which nothing is pending. -/
def Idle {σ} (t : Tcp σ) : Prop := t.sock = .absent ∨ t.sock = .connected []

/-- C17: from a conforming server, a read of registers that exist returns exactly their contents,
leaves them unchanged, and leaves the connection (or its absence) as it was. `max` is at most the
Modbus limit 125 (or the whole read is). -/
theorem C17_read {σ} {srv : TcpServer σ} {abs : σ → Mem} {unit : Byte}
    (hc : ConformsTcp srv.accept srv.react abs unit) (t : Tcp σ) (ht : Idle t)
    (op : Byte) (hop : op = 3 ∨ op = 4) (addr count max : Nat) (hmax : 0 < max)
    (hlim : max ≤ 125 ∨ count ≤ 125) (hrange : addr + count ≤ 65536) :
    ∃ t', tcpRead srv t unit.toNat op.toNat addr count max =
        (t', .ok (memRead (abs t.dev) addr count)) ∧ abs t'.dev = abs t.dev ∧ t'.sock = t.sock := by
  have hop' : (op.toNat : Int) = 3 ∨ (op.toNat : Int) = 4 := by
    rcases hop with h | h <;> subst h <;> decide
  unfold tcpRead
  rcases ht with ht | ht
  · obtain ⟨ha, hb⟩ := hc.1 t.dev
    rw [tcpWith_absent _ _ _ ht ha]
    obtain ⟨t1, h1, h2, h3⟩ := tcpReadF_conform hc op.toNat hop' max hmax (count + 1) addr count []
      { t with dev := (srv.accept t.dev).1, sock := .connected [], opened := t.opened + 1 } rfl
      (by omega) hlim hrange
    rw [h1]
    rw [tcpDisconnect_connected _ _ h3]
    dsimp only at h2 ⊢
    refine ⟨_, by rw [hb, List.nil_append], ?_, ht.symm⟩
    dsimp only; rw [h2, hb]
  · rw [tcpWith_present _ _ _ (by rw [ht]; simp)]
    obtain ⟨t1, h1, h2, h3⟩ := tcpReadF_conform hc op.toNat hop' max hmax (count + 1) addr count []
      t ht (by omega) hlim hrange
    exact ⟨t1, by rw [h1, List.nil_append], h2, by rw [h3, ht]⟩

/-- C17: whatever the arguments, a read from a conforming server that returns normally returns
exactly the requested registers. -/
theorem C17_read_sound {σ} {srv : TcpServer σ} {abs : σ → Mem} {unit : Byte}
    (hc : ConformsTcp srv.accept srv.react abs unit) (t t' : Tcp σ) (ht : Idle t)
    (op addr : Int) (count max : Nat) (r : Bytes)
    (h : tcpRead srv t unit.toNat op addr count max = (t', .ok r)) :
    r = memRead (abs t.dev) addr.toNat count := by
  unfold tcpRead at h
  rcases ht with ht | ht
  · obtain ⟨ha, hb⟩ := hc.1 t.dev
    rw [tcpWith_absent _ _ _ ht ha] at h
    generalize hx : tcpReadF srv _ op max (count + 1) addr count [] _ = x at h
    obtain ⟨x1, x2⟩ := x
    simp only [Prod.mk.injEq] at h
    obtain ⟨_, rfl⟩ := h
    have := tcpReadF_sound hc op max (count + 1) addr count [] _ _ rfl r hx
    rw [this, List.nil_append]
    dsimp only; rw [hb]
  · rw [tcpWith_present _ _ _ (by rw [ht]; simp)] at h
    simpa using tcpReadF_sound hc op max (count + 1) addr count [] t t' ht r h

/-- Non-vacuity: reading 300 registers byte by byte in requests of 125. -/
example : ∃ t', tcpRead (drippingServer 7) (freshTcp exMem) 7 3 40000 300 125 =
    (t', .ok (memRead exMem 40000 300)) ∧ id t'.dev = exMem ∧ t'.sock = .absent :=
  C17_read (drippingServer_conforms 7) (freshTcp exMem) (Or.inl rfl) 3 (Or.inl rfl) 40000 300 125
    (by decide) (by decide) (by decide)

/-! ### The idle invariant over histories -/

theorem tcpStep_idle {σ} {srv : TcpServer σ} {abs : σ → Mem} {unit : Byte}
    (hc : ConformsTcp srv.accept srv.react abs unit) (max : Nat) (t : Tcp σ) (ht : Idle t) (o : TcpOp) :
    Idle (tcpStep srv unit.toNat max t o).1 := by
  have hconn : ∀ t : Tcp σ, Idle t → ∃ t1, tcpConnect srv t = (t1, .ok ()) ∧ t1.sock = .connected [] := by
    intro t _
    unfold tcpConnect
    dsimp only
    have := (hc.1 (tcpDisconnect t).dev).1
    rcases hacc : srv.accept (tcpDisconnect t).dev with ⟨d, _ | _⟩
    · rw [hacc] at this; simp at this
    · exact ⟨_, rfl, rfl⟩
  have hdis : ∀ t : Tcp σ, (tcpDisconnect t).sock = .absent := by
    intro t
    unfold tcpDisconnect
    cases hs : t.sock <;> simp [hs]
  cases o with
  | connect =>
    obtain ⟨t1, h1, h2⟩ := hconn t ht
    simp only [tcpStep, h1, andThen_ok]
    exact Or.inr h2
  | close => exact Or.inl (hdis t)
  | read op addr count =>
    simp only [tcpStep, tcpRead]
    rcases ht with ht | ht
    · rw [tcpWith_absent _ _ _ ht (hc.1 _).1]
      exact Or.inl (hdis _)
    · rw [tcpWith_present _ _ _ (by rw [ht]; simp)]
      exact Or.inr (tcpReadF_idle hc op max (count + 1) addr count [] t ht).1
  | write addr data =>
    have hw : ∀ t : Tcp σ, t.sock = .connected [] →
        (tcpWriteF srv unit.toNat addr max data (data.length + 1) 0 none t).1.sock = .connected [] := by
      intro t ht
      by_cases hl : data.length ≤ 2 * max
      · rw [tcpWriteF_short _ _ _ _ _ _ hl]
        by_cases h0 : data = []
        · rw [if_pos h0]; exact ht
        · rw [if_neg h0]
          obtain ⟨t', e, h1, _, h2⟩ := conform_tcpWrite1 hc t ht addr data
          rw [h2]; exact h1
      · rw [tcpWriteF_long _ _ _ _ _ _ (by omega)]; exact ht
    have hfst : ∀ (x : Tcp σ × Py Unit), (andThen x fun t _ => (t, (.ok [] : Py Bytes))).1 = x.1 := by
      rintro ⟨x, e | u⟩ <;> rfl
    simp only [tcpStep, tcpWrite, hfst]
    rcases ht with ht | ht
    · rw [tcpWith_absent _ _ _ ht (hc.1 _).1]
      exact Or.inl (hdis _)
    · rw [tcpWith_present _ _ _ (by rw [ht]; simp)]
      exact Or.inr (hw t ht)

/-- C17 over histories: after any history of calls, successful or not, on a conforming server, every
read of existing registers returns what they then contain. -/
theorem C17_history {σ} {srv : TcpServer σ} {abs : σ → Mem} {unit : Byte}
    (hc : ConformsTcp srv.accept srv.react abs unit) (max : Nat) (hmax : 0 < max) (hlim : max ≤ 125)
    (d : σ) (calls : List TcpOp) (addr count : Nat) (hrange : addr + count ≤ 65536) :
    (tcpRead srv (tcpRun srv unit.toNat max (freshTcp d) calls).1 unit.toNat 3 addr count max).2 =
      .ok (memRead (abs (tcpRun srv unit.toNat max (freshTcp d) calls).1.dev) addr count) := by
  have hidle : ∀ t, Idle t → Idle (tcpRun srv unit.toNat max t calls).1 := by
    induction calls with
    | nil => exact fun t ht => ht
    | cons o os ih => exact fun t ht => ih _ (tcpStep_idle hc max t ht o)
  obtain ⟨t', h, _⟩ := C17_read hc _ (hidle (freshTcp d) (Or.inl rfl)) 3 (Or.inl rfl) addr count max hmax
    (Or.inl hlim) hrange
  exact congrArg Prod.snd h

/-- Non-vacuity: a write, a refused read and another read on a conforming server. -/
example : (tcpRun (idealServer 1) 1 125 (freshTcp exMem)
    [.connect, .write 5 [0xab, 0xcd], .read 3 65535 2, .read 3 5 2]).2 =
    [.ok [], .ok [], .error (.modbusClientException 2), .ok [0xab, 0xcd, 0, 6]] := by decide +kernel

/-! ## C18 Writes of any length -/

/-- C18, full statement: a write of any even number of bytes to existing registers succeeds and
stores exactly these bytes. -/
def C18_full : Prop :=
  ∀ (srv : TcpServer Mem) (unit : Byte), ConformsTcp srv.accept srv.react id unit →
  ∀ (t : Tcp Mem), Idle t → ∀ (addr : Nat) (data : Bytes) (max : Nat), 0 < max → max ≤ 123 →
    data.length % 2 = 0 → addr + data.length / 2 ≤ 65536 →
    ∃ t', tcpWrite srv t unit.toNat addr data max = (t', .ok ()) ∧ t'.dev = memWrite t.dev addr data

/-- C18 is violated for *every* write longer than `max_count` registers (modbus/client.py:939-945:
`start` and `end` are not assigned for a full request): it raises `UnboundLocalError` and sends
nothing, whatever the server and the connection. -/
theorem C18_long_writes_fail {σ} (srv : TcpServer σ) (t : Tcp σ) (ht : ∃ p, t.sock = .connected p)
    (sid addr : Int) (data : Bytes) (max : Nat) (h : 2 * max < data.length) :
    tcpWrite srv t sid addr data max = (t, .error .unboundLocal) := by
  obtain ⟨p, ht⟩ := ht
  unfold tcpWrite
  rw [tcpWith_present _ _ _ (by rw [ht]; simp), tcpWriteF_long _ _ _ _ _ _ h]

theorem C18_violated : ¬ C18_full := by
  intro h
  obtain ⟨t', h1, _⟩ := h (idealServer 1) 1 (idealServer_conforms 1) ⟨exMem, .connected [], [], 0, 0⟩
    (Or.inr rfl) 0 [1, 2, 3, 4] 1 (by decide) (by decide) (by decide) (by decide)
  rw [C18_long_writes_fail _ _ ⟨[], rfl⟩ _ _ _ _ (by decide)] at h1
  simp at h1

/-- C18, the part that holds: writes of at most `max_count` registers, up to the Modbus limit 123. -/
theorem C18_write_partial {σ} {srv : TcpServer σ} {abs : σ → Mem} {unit : Byte}
    (hc : ConformsTcp srv.accept srv.react abs unit) (t : Tcp σ) (ht : Idle t)
    (addr : Nat) (data : Bytes) (max : Nat) (hone : data.length ≤ 2 * max) (hlim : data.length ≤ 246)
    (heven : data.length % 2 = 0) (hrange : addr + data.length / 2 ≤ 65536) :
    ∃ t', tcpWrite srv t unit.toNat addr data max = (t', .ok ()) ∧
      abs t'.dev = memWrite (abs t.dev) addr data ∧ t'.sock = t.sock := by
  have key : ∀ t : Tcp σ, t.sock = .connected [] →
      ∃ t', tcpWriteF srv unit.toNat addr max data (data.length + 1) 0 none t = (t', .ok ()) ∧
        abs t'.dev = memWrite (abs t.dev) addr data ∧ t'.sock = .connected [] := by
    intro t ht
    rw [tcpWriteF_short _ _ _ _ _ _ hone]
    by_cases h0 : data = []
    · subst h0
      refine ⟨t, by simp, ?_, ht⟩
      funext x
      simp only [memWrite, List.length_nil, Nat.zero_div, Nat.add_zero]
      rw [if_neg (by omega)]
    · rw [if_neg h0]
      have hl : 0 < data.length := List.length_pos_iff.2 h0
      obtain ⟨t', e, h1, h2, h3⟩ := conform_tcpWrite1 hc t ht addr data
      rw [if_pos (by omega), if_neg (by omega), if_neg (by omega)] at h2
      simp only [Prod.mk.injEq, Int.toNat_natCast] at h2
      exact ⟨t', by rw [h3, h2.2], h2.1, h1⟩
  unfold tcpWrite
  rcases ht with ht | ht
  · obtain ⟨ha, hb⟩ := hc.1 t.dev
    rw [tcpWith_absent _ _ _ ht ha]
    obtain ⟨t1, h1, h2, h3⟩ := key
      { t with dev := (srv.accept t.dev).1, sock := .connected [], opened := t.opened + 1 } rfl
    rw [h1]
    rw [tcpDisconnect_connected _ _ h3]
    dsimp only at h2 ⊢
    exact ⟨_, rfl, by dsimp only; rw [h2, hb], ht.symm⟩
  · rw [tcpWith_present _ _ _ (by rw [ht]; simp)]
    obtain ⟨t1, h1, h2, h3⟩ := key t ht
    exact ⟨t1, h1, h2, by rw [h3, ht]⟩

/-- C18, the part that holds for all arguments: a write to a conforming server either stores the whole
data at `addr` and succeeds, or raises and changes nothing. -/
theorem C18_sound_partial {σ} {srv : TcpServer σ} {abs : σ → Mem} {unit : Byte}
    (hc : ConformsTcp srv.accept srv.react abs unit) (t t' : Tcp σ) (ht : Idle t)
    (addr : Int) (data : Bytes) (max : Nat) (res : Py Unit)
    (h : tcpWrite srv t unit.toNat addr data max = (t', res)) :
    (res = .ok () ∧ abs t'.dev = memWrite (abs t.dev) addr.toNat data) ∨
    (res ≠ .ok () ∧ abs t'.dev = abs t.dev) := by
  have hnil : ∀ (m : Mem) a, memWrite m a [] = m := by
    intro m a; funext x
    simp only [memWrite, List.length_nil, Nat.zero_div, Nat.add_zero]
    rw [if_neg (by omega)]
  have key : ∀ (t t' : Tcp σ) res, t.sock = .connected [] →
      tcpWriteF srv unit.toNat addr max data (data.length + 1) 0 none t = (t', res) →
      t'.sock = .connected [] ∧
      ((res = .ok () ∧ abs t'.dev = memWrite (abs t.dev) addr.toNat data) ∨
      (res ≠ .ok () ∧ abs t'.dev = abs t.dev)) := by
    intro t t' res ht h
    by_cases hl : data.length ≤ 2 * max
    · rw [tcpWriteF_short _ _ _ _ _ _ hl] at h
      by_cases h0 : data = []
      · rw [if_pos h0] at h
        simp only [Prod.mk.injEq] at h
        obtain ⟨rfl, rfl⟩ := h
        exact ⟨ht, Or.inl ⟨rfl, by rw [h0, hnil]⟩⟩
      · rw [if_neg h0] at h
        obtain ⟨t1, e, h1, h2, h3⟩ := conform_tcpWrite1 hc t ht addr data
        rw [h3] at h
        simp only [Prod.mk.injEq] at h
        obtain ⟨rfl, rfl⟩ := h
        refine ⟨h1, ?_⟩
        repeat' split at h2
        all_goals simp only [Prod.mk.injEq] at h2
        all_goals obtain ⟨h2, rfl⟩ := h2
        all_goals first
          | exact Or.inr ⟨by simp, h2⟩
          | exact Or.inl ⟨rfl, h2⟩
    · rw [tcpWriteF_long _ _ _ _ _ _ (by omega)] at h
      simp only [Prod.mk.injEq] at h
      obtain ⟨rfl, rfl⟩ := h
      exact ⟨ht, Or.inr ⟨by simp, rfl⟩⟩
  unfold tcpWrite at h
  rcases ht with ht | ht
  · obtain ⟨ha, hb⟩ := hc.1 t.dev
    rw [tcpWith_absent _ _ _ ht ha] at h
    generalize hx : tcpWriteF srv _ addr max data _ 0 none _ = x at h
    obtain ⟨x1, x2⟩ := x
    simp only [Prod.mk.injEq] at h
    obtain ⟨rfl, rfl⟩ := h
    obtain ⟨h1, h2⟩ := key _ _ _ rfl hx
    rw [tcpDisconnect_connected _ _ h1]
    dsimp only at h2 ⊢
    rw [hb] at h2
    exact h2
  · rw [tcpWith_present _ _ _ (by rw [ht]; simp)] at h
    exact (key _ _ _ ht h).2

/-- Non-vacuity. -/
example : (tcpWrite (idealServer 1) (freshTcp exMem) 1 100 [1, 2, 3, 4, 5, 6] 125).2 = .ok () ∧
    (tcpWrite (idealServer 1) (freshTcp exMem) 1 100 [1, 2, 3, 4, 5, 6] 125).1.dev 101 = 0x0304 := by
  decide +kernel

/-! ## C53 Error replies raise errors -/

theorem outcome_incomplete {ce : Exc} {w : Bytes × Bool} (h : w.1.length < tcpFrameLen w.1) :
    tcpOutcome ce (some w) = .error (if w.2 then ce else .socketTimeout) := by
  simp only [tcpOutcome, tcpFlat_eq, if_pos h]

theorem outcome_exception {ce : Exc} {w : Bytes × Bool} {c : Byte} (hc : c ≠ 0)
    (h : IsTcpException c w.1) : tcpOutcome ce (some w) = .error (.modbusClientException c.toNat) := by
  obtain ⟨tid, unit, y, rest, hy, hw⟩ := h
  have hl : tcpFrameLen w.1 = 9 := by
    rw [hw]; unfold tcpFrameLen mbap field16; simp
  have h9 : (mbap tid unit [y, c]).length = 9 := by simp [mbap, field16]
  simp only [tcpOutcome, tcpFlat_eq]
  rw [if_neg (by rw [hl, hw, List.length_append, h9]; omega), hl, hw, List.take_append_of_le_length (by omega),
    List.take_of_length_le (by omega)]
  simp only [tcpReply]
  have h7 : (mbap tid unit [y, c]).getD 7 0 = y := by simp [mbap, field16]
  have h8 : (mbap tid unit [y, c]).getD 8 0 = c := by simp [mbap, field16]
  rw [h7, h8, if_neg hy, if_pos]
  intro h0
  exact hc (BitVec.eq_of_toNat_eq (by simpa using h0))

/-- C53 for reads: let `new` be the requests sent by a read. If one of them could not be sent, the
read raises a client error; if an incomplete reply is received for one of them, a client error
(when the peer closed the connection) or a timeout; if an exception reply is received, a Modbus
exception with the same code. -/
theorem C53_read_errors {σ} (srv : TcpServer σ) (t t' : Tcp σ) (sid op addr : Int) (count max : Nat)
    (res : Py Bytes) (h : tcpRead srv t sid op addr count max = (t', res))
    (d : σ) (v0 : Bytes × Bool) (hstart : startOf srv t = some (d, v0)) :
    ∃ new, t'.sent = t.sent ++ new ∧
      (none ∈ views srv.react d v0 new → res = .error .modbusClientError) ∧
      ∀ w, some w ∈ views srv.react d v0 new →
        (w.1.length < tcpFrameLen w.1 →
          res = .error (if w.2 then .modbusClientError else .socketTimeout)) ∧
        (∀ c, c ≠ 0 → IsTcpException c w.1 → res = .error (.modbusClientException c.toNat)) := by
  obtain ⟨rs, h1, _, _, _, _, h2, _⟩ := tcpRead_spec srv t t' sid op addr count max res h
  refine ⟨_, h1, fun hn => h2 d v0 hstart _ hn _ rfl, fun w hw => ⟨fun hl => ?_, fun c hc he => ?_⟩⟩
  · exact h2 d v0 hstart _ hw _ (outcome_incomplete hl)
  · exact h2 d v0 hstart _ hw _ (outcome_exception hc he)

/-- C53: if there is no connection and none can be made, or the socket is not connected, reading
any register and writing any data raises an error and sends nothing. -/
theorem C53_unreachable {σ} (srv : TcpServer σ) (t : Tcp σ) (hstart : startOf srv t = none)
    (sid op addr : Int) (count max : Nat) (hcount : 0 < count) (data : Bytes) (hdata : data ≠ []) :
    (∃ t' e, tcpRead srv t sid op addr count max = (t', .error e) ∧ t'.sent = t.sent) ∧
    (∃ t' e, tcpWrite srv t sid addr data max = (t', .error e) ∧ t'.sent = t.sent) := by
  unfold tcpRead tcpWrite
  cases hs : t.sock with
  | connected p => simp [startOf, hs] at hstart
  | absent =>
    have ha : (srv.accept t.dev).2 = false := by simpa [startOf, hs] using hstart
    rw [tcpWith_refused _ _ _ hs ha, tcpWith_refused _ _ _ hs ha]
    exact ⟨⟨_, _, rfl, rfl⟩, ⟨_, _, rfl, rfl⟩⟩
  | unconnected =>
    have hn : ∀ p, t.sock ≠ .connected p := by simp [hs]
    rw [tcpWith_present _ _ _ (by rw [hs]; simp), tcpWith_present _ _ _ (by rw [hs]; simp)]
    constructor
    · obtain ⟨h1, h2⟩ := tcpReadF_unconnected srv t hn sid op max (count + 1) addr count []
      obtain ⟨e, h2, _⟩ := h2 hcount (by omega)
      exact ⟨t, e, Prod.ext h1 h2, rfl⟩
    · by_cases hl : data.length ≤ 2 * max
      · rw [tcpWriteF_short _ _ _ _ _ _ hl, if_neg hdata]
        obtain ⟨e, h, _⟩ := tcpWrite1_unconnected srv t hn sid addr data
        exact ⟨t, e, h, rfl⟩
      · rw [tcpWriteF_long _ _ _ _ _ _ (by omega)]
        exact ⟨t, _, rfl, rfl⟩

/-- C53 for writes (of at most `max_count` registers; longer ones raise anyway, see C18): at most one
request is sent, and any defect of its reply raises. -/
theorem C53_write_errors {σ} (srv : TcpServer σ) (t t' : Tcp σ) (sid addr : Int) (data : Bytes)
    (max : Nat) (res : Py Unit) (h : tcpWrite srv t sid addr data max = (t', res))
    (d : σ) (v0 : Bytes × Bool) (hstart : startOf srv t = some (d, v0)) :
    ∃ new, t'.sent = t.sent ++ new ∧
      (new = [] ∨ new = [mbap 0 (BitVec.ofNat 8 sid.toNat) (writePdu addr.toNat data)]) ∧
      (res = .ok () → data ≠ [] → new ≠ []) ∧
      (none ∈ views srv.react d v0 new → res = .error .modbusClientError) ∧
      ∀ w, some w ∈ views srv.react d v0 new →
        (w.1.length < tcpFrameLen w.1 →
          res = .error (if w.2 then .modbusClientTimeout else .socketTimeout)) ∧
        (∀ c, c ≠ 0 → IsTcpException c w.1 → res = .error (.modbusClientException c.toNat)) := by
  have key : ∀ (t t' : Tcp σ) p res, t.sock = .connected p →
      tcpWriteF srv sid addr max data (data.length + 1) 0 none t = (t', res) →
      (∃ p', t'.sock = .connected p') ∧
      ∃ new, t'.sent = t.sent ++ new ∧
      (new = [] ∨ new = [mbap 0 (BitVec.ofNat 8 sid.toNat) (writePdu addr.toNat data)]) ∧
      (res = .ok () → data ≠ [] → new ≠ []) ∧
      ∀ v ∈ views srv.react t.dev (stream p) new, ∀ e,
        tcpOutcome .modbusClientTimeout v = .error e → res = .error e := by
    intro t t' p res ht h
    by_cases hl : data.length ≤ 2 * max
    · rw [tcpWriteF_short _ _ _ _ _ _ hl] at h
      by_cases h0 : data = []
      · rw [if_pos h0] at h
        simp only [Prod.mk.injEq] at h
        obtain ⟨rfl, rfl⟩ := h
        exact ⟨⟨p, ht⟩, [], by simp, Or.inl rfl, fun _ hd => absurd h0 hd, by simp [views]⟩
      · rw [if_neg h0] at h
        have h1 := tcpWrite1_eq srv t p ht sid addr data
        split at h1
        · obtain ⟨p', hp', h1⟩ := h1
          rw [h1] at h
          simp only [Prod.mk.injEq] at h
          obtain ⟨rfl, rfl⟩ := h
          refine ⟨⟨p', rfl⟩, _, rfl, Or.inr rfl, fun _ _ => by simp, ?_⟩
          rw [views_cons]
          simp only [views, List.mem_singleton]
          rintro v rfl e he
          rw [he]; rfl
        · rw [h1] at h
          simp only [Prod.mk.injEq] at h
          obtain ⟨rfl, rfl⟩ := h
          exact ⟨⟨p, ht⟩, [], by simp, Or.inl rfl, by simp, by simp [views]⟩
    · rw [tcpWriteF_long _ _ _ _ _ _ (by omega)] at h
      simp only [Prod.mk.injEq] at h
      obtain ⟨rfl, rfl⟩ := h
      exact ⟨⟨p, ht⟩, [], by simp, Or.inl rfl, by simp, by simp [views]⟩
  have fin : ∀ new, (∀ v ∈ views srv.react d v0 new, ∀ e,
        tcpOutcome .modbusClientTimeout v = .error e → res = .error e) →
      (none ∈ views srv.react d v0 new → res = .error .modbusClientError) ∧
      ∀ w, some w ∈ views srv.react d v0 new →
        (w.1.length < tcpFrameLen w.1 →
          res = .error (if w.2 then .modbusClientTimeout else .socketTimeout)) ∧
        (∀ c, c ≠ 0 → IsTcpException c w.1 → res = .error (.modbusClientException c.toNat)) := by
    intro new h2
    exact ⟨fun hn => h2 _ hn _ rfl, fun w hw => ⟨fun hl => h2 _ hw _ (outcome_incomplete hl),
      fun c hc he => h2 _ hw _ (outcome_exception hc he)⟩⟩
  unfold tcpWrite at h
  cases hs : t.sock with
  | unconnected => simp [startOf, hs] at hstart
  | connected p =>
    simp only [startOf, hs, Option.some.injEq, Prod.mk.injEq] at hstart
    obtain ⟨rfl, rfl⟩ := hstart
    rw [tcpWith_present _ _ _ (by rw [hs]; simp)] at h
    obtain ⟨_, new, h1, h2, h3, h4⟩ := key _ _ _ _ hs h
    exact ⟨new, h1, h2, h3, fin new h4⟩
  | absent =>
    cases ha : (srv.accept t.dev).2 with
    | false => simp [startOf, hs, ha] at hstart
    | true =>
      simp only [startOf, hs, ha, if_true, Option.some.injEq, Prod.mk.injEq] at hstart
      obtain ⟨rfl, rfl⟩ := hstart
      rw [tcpWith_absent _ _ _ hs ha] at h
      generalize hx : tcpWriteF srv _ addr max data _ 0 none _ = x at h
      obtain ⟨x1, x2⟩ := x
      simp only [Prod.mk.injEq] at h
      obtain ⟨rfl, rfl⟩ := h
      obtain ⟨⟨p', hp'⟩, new, h1, h2, h3, h4⟩ := key _ _ _ _ rfl hx
      refine ⟨new, ?_, h2, h3, fin new h4⟩
      rw [tcpDisconnect_connected _ _ hp']; exact h1

/-- Non-vacuity: an exception reply, a reply cut short, and a peer that closes. -/
example :
    (tcpRead (constServer (mbap 0 1 [0x83, 2])) (freshTcp ()) 1 3 100 1 125).2 =
      .error (.modbusClientException 2) ∧
    (tcpRead (constServer ((mbap 0 1 [3, 2, 0x12, 0x34]).take 10)) (freshTcp ()) 1 3 100 1 125).2 =
      .error .socketTimeout ∧
    (tcpRead (constServer []) (freshTcp ()) 1 3 100 1 125).2 = .error .modbusClientError ∧
    (tcpWrite (constServer (mbap 0 1 [0x90, 4])) (freshTcp ()) 1 100 [1, 2] 125).2 =
      .error (.modbusClientException 4) := by decide +kernel

/-! ## C13 for TCP -/

/-- C13 for TCP, full statement: a read returns exactly `2 * count` bytes. -/
def C13_full_tcp : Prop :=
  ∀ (srv : TcpServer Unit) (sid op : Byte) (addr count max : Nat) (t' : Tcp Unit) (r : Bytes),
    0 < max → tcpRead srv (freshTcp ()) sid.toNat op.toNat addr count max = (t', .ok r) →
    r.length = 2 * count

/-- C13 is violated for TCP: a reply with one register to a request for two; and an empty reply ends
the read without an error. -/
theorem C13_tcp_violated : ¬ C13_full_tcp := by
  intro h
  have := h (constServer (mbap 0 1 [3, 2, 0xab, 0xcd])) 1 3 100 2 125 _ [0xab, 0xcd] (by decide)
    (pair_of_snd (by decide +kernel))
  simp at this

/-- C13: unit id, function code, transaction id and byte count of a TCP reply are not checked. -/
theorem C13_tcp_unchecked :
    (tcpRead (constServer (mbap 77 9 [4, 99, 1, 2, 3, 4])) (freshTcp ()) 1 3 100 2 125).2 =
      .ok [1, 2, 3, 4] ∧
    (tcpRead (constServer (mbap 0 1 [3, 0])) (freshTcp ()) 1 3 100 2 125).2 = .ok [] := by
  decide +kernel

/-- C13 for TCP, the part that holds: returned data is the concatenation of the payloads of complete
replies received on this connection, one per request, in order. If every one of them carries twice
the requested quantity, the data has `2 * count` bytes. -/
theorem C13_tcp_partial {σ} (srv : TcpServer σ) (t t' : Tcp σ) (sid op addr : Int) (count max : Nat)
    (hmax : 0 < max) (r : Bytes) (h : tcpRead srv t sid op addr count max = (t', .ok r))
    (d : σ) (v0 : Bytes × Bool) (hstart : startOf srv t = some (d, v0)) :
    ∃ (ranges : List (Int × Nat)) (payloads : List Bytes),
      Consecutive addr ranges ∧ covered ranges ≤ count ∧
      t'.sent = t.sent ++ ranges.map (fun r => mbap 0 (BitVec.ofNat 8 sid.toNat)
        (readPdu (BitVec.ofNat 8 op.toNat) r.1.toNat r.2)) ∧
      r = payloads.flatten ∧ payloads.length = ranges.length ∧
      (∀ i (_ : i < payloads.length), ∃ w,
        (views srv.react d v0 (ranges.map (fun r => mbap 0 (BitVec.ofNat 8 sid.toNat)
          (readPdu (BitVec.ofNat 8 op.toNat) r.1.toNat r.2))))[i]? = some (some w) ∧
        tcpFrameLen w.1 ≤ w.1.length ∧ payloads[i] = (w.1.take (tcpFrameLen w.1)).drop 9 ∧
        (w.1.getD 7 0 &&& 0x80 = 0 ∨ w.1.getD 8 0 = 0)) ∧
      (covered ranges = count ∨ [] ∈ payloads) ∧
      ((∀ i (h1 : i < payloads.length) (h2 : i < ranges.length),
          payloads[i].length = 2 * ranges[i].2) → r.length = 2 * count) := by
  have fin : ∀ (rs : List (Int × Nat)) (ps : List Bytes), (∀ x ∈ rs, 1 ≤ x.2) → r = ps.flatten →
      ps.length = rs.length → (covered rs = count ∨ [] ∈ ps) →
      (∀ i (h1 : i < ps.length) (h2 : i < rs.length), ps[i].length = 2 * rs[i].2) →
      r.length = 2 * count := by
    intro rs ps hpos hr hlen hcov hsz
    have hmap : ps.map List.length = rs.map (fun r => 2 * r.2) := by
      apply List.ext_getElem
      · simp [hlen]
      · intro i hi1 hi2
        simp only [List.length_map] at hi1 hi2
        simp [hsz i hi1 hi2]
    have hcov' : covered rs = count := by
      rcases hcov with h | h
      · exact h
      · obtain ⟨i, hi, he⟩ := List.getElem_of_mem h
        have := hsz i hi (by omega)
        rw [he] at this
        have := hpos _ (List.getElem_mem (by omega : i < rs.length))
        simp at *; omega
    rw [hr, List.length_flatten, hmap, ← hcov', covered]
    clear hmap hcov' hcov hsz hlen hr hpos
    induction rs with
    | nil => rfl
    | cons r rs ih => simp only [List.map_cons, List.sum_cons, ih]; omega
  unfold tcpRead at h
  cases hs : t.sock with
  | unconnected => simp [startOf, hs] at hstart
  | connected p =>
    simp only [startOf, hs, Option.some.injEq, Prod.mk.injEq] at hstart
    obtain ⟨rfl, rfl⟩ := hstart
    rw [tcpWith_present _ _ _ (by rw [hs]; simp)] at h
    obtain ⟨rs, ps, h1, h2, h3, h4, h5, h6, h7, h8⟩ := tcpReadF_ok srv sid op max _ addr count [] t t' p hs r h
    rw [List.nil_append] at h4
    exact ⟨rs, ps, h2, h3, h1, h4, h5, h6, h7, fin rs ps (h8 hmax) h4 h5 h7⟩
  | absent =>
    cases ha : (srv.accept t.dev).2 with
    | false => simp [startOf, hs, ha] at hstart
    | true =>
      simp only [startOf, hs, ha, if_true, Option.some.injEq, Prod.mk.injEq] at hstart
      obtain ⟨rfl, rfl⟩ := hstart
      rw [tcpWith_absent _ _ _ hs ha] at h
      generalize hb : tcpReadF srv sid op max (count + 1) addr count [] _ = b at h
      obtain ⟨b1, b2⟩ := b
      simp only [Prod.mk.injEq] at h
      obtain ⟨rfl, rfl⟩ := h
      obtain ⟨⟨_, _, p', hp'⟩, _⟩ :=
        tcpReadF_spec srv sid op max _ addr count [] _ b1 [] rfl _ hb
      obtain ⟨rs, ps, h1, h2, h3, h4, h5, h6, h7, h8⟩ :=
        tcpReadF_ok srv sid op max _ addr count [] _ b1 [] rfl r hb
      rw [List.nil_append] at h4
      refine ⟨rs, ps, h2, h3, ?_, h4, h5, h6, h7, fin rs ps (h8 hmax) h4 h5 h7⟩
      rw [tcpDisconnect_connected _ _ hp']; exact h1

/-! ## C19 Replies are matched to requests -/

/-- C19, full statement: what a read returns does not depend on bytes that arrived on the connection
before it (late answers to earlier requests). -/
def C19_full : Prop :=
  ∀ (srv : TcpServer Unit) (p : List Bytes), [] ∉ p → ∀ (sid op : Byte) (addr count max : Nat),
    0 < max → (tcpRead srv ⟨(), .connected p, [], 0, 0⟩ sid.toNat op.toNat addr count max).2 =
      (tcpRead srv ⟨(), .connected [], [], 0, 0⟩ sid.toNat op.toNat addr count max).2

/-- C19 is violated in general: whenever a complete normal reply is pending on the connection, a read
of up to `max_count` registers returns its payload, whatever the server answers to the read. -/
theorem C19_stale_reply_returned {σ} (srv : TcpServer σ) (t : Tcp σ) (payload : Bytes) (tid : Nat)
    (u n : Byte) (hpay : payload ≠ []) (hlen : payload.length < 65000)
    (ht : t.sock = .connected [mbap tid u (3 :: n :: payload)])
    (hsend : ∀ s r, (srv.react s r).2 ≠ none)
    (sid op : Byte) (addr count max : Nat) (hcount : 0 < count) (hmax : count ≤ max)
    (haddr : addr < 65536) (hc : count < 65536) :
    (tcpRead srv t sid.toNat op.toNat addr count max).2 = .ok payload := by
  unfold tcpRead
  rw [tcpWith_present _ _ _ (by rw [ht]; simp), tcpReadF, if_pos hcount]
  simp only
  rw [if_neg (by omega : ¬ count > max)]
  generalize hP : [mbap tid u (3 :: n :: payload)] = P at ht
  have hs := sid.isLt
  have ho := op.isLt
  obtain ⟨S, hS⟩ : ∃ S : Int, S = sid.toNat := ⟨_, rfl⟩
  obtain ⟨O, hO⟩ : ∃ O : Int, O = op.toNat := ⟨_, rfl⟩
  rw [← hS, ← hO]
  have h1 := tcpRead1_eq srv t P ht S O addr count
  rw [if_pos (by omega)] at h1
  simp only at h1
  generalize mbap 0 _ _ = req at h1
  obtain ⟨p', _, h1⟩ := h1
  rw [h1, ← hP]
  have hv : tcpOutcome .modbusClientError (viewOf srv t.dev (stream [mbap tid u (3 :: n :: payload)]) req) =
      .ok payload := by
    cases hr : (srv.react t.dev req).2 with
    | none => exact absurd hr (hsend _ _)
    | some chunks =>
      have hst : stream [mbap tid u (3 :: n :: payload)] = (mbap tid u (3 :: n :: payload), false) := by
        rw [stream_cons (by simp [mbap, field16])]
        simp [stream, received]
      have hml : (mbap tid u (3 :: n :: payload)).length = 9 + payload.length := by
        simp [mbap, field16]; omega
      have hfl : ∀ rest, tcpFrameLen (mbap tid u (3 :: n :: payload) ++ rest) = 9 + payload.length := by
        intro rest
        have : ((3 :: n :: payload).length + 1 : Nat) = payload.length + 3 := by simp
        unfold tcpFrameLen mbap field16
        rw [this]
        simp only [List.cons_append, List.nil_append, List.getD_cons_succ, List.getD_cons_zero,
          BitVec.toNat_ofNat]
        omega
      simp only [viewOf, hr, Option.map_some, hst, streamAppend, Bool.false_eq_true, if_false]
      simp only [tcpOutcome, tcpFlat_eq, hfl]
      rw [if_neg (by rw [List.length_append, hml]; omega)]
      simp only
      rw [List.take_append_of_le_length (by omega), List.take_of_length_le (by omega)]
      simp [tcpReply, mbap, field16]
  rw [hv, andThen_ok, if_pos (List.length_pos_iff.2 hpay)]
  rw [show count - count = 0 by omega]
  cases count with
  | zero => omega
  | succ c =>
    rw [tcpReadF, if_neg (by omega)]
    simp

/-- C19 is violated in a reachable state: the server answers the first read too late; the first read
times out, and the second, of another register, returns the value of the first one. -/
def lateServer : TcpServer (List Bytes) where
  accept s := (s, true)
  react s req := ([[0, 0, 0, 0, 0, 5, 1, 3, 2, req.getD 8 0, req.getD 9 0]], some s)

theorem C19_history_violated :
    (tcpRun lateServer 1 125 (freshTcp []) [.connect, .read 3 100 1, .read 3 200 1]).2 =
      [.ok [], .error .socketTimeout, .ok [0, 100]] := by decide +kernel

theorem C19_violated : ¬ C19_full := by
  intro h
  have := h (constServer (mbap 0 1 [3, 2, 1, 2])) [mbap 0 1 [3, 2, 7, 7]] (by decide) 1 3 100 1 125 (by decide)
  exact absurd this (by decide +kernel)

/-- C19, the part that holds: a read that opens its own connection returns only bytes that the server
sent on that connection, that is, after the read began; nothing that happened before (in
particular the client's history) has any influence. -/
theorem C19_fresh_connection_partial {σ} (srv : TcpServer σ) (t1 t2 : Tcp σ)
    (h1 : t1.sock = .absent) (h2 : t2.sock = .absent) (hd : t1.dev = t2.dev)
    (sid op addr : Int) (count max : Nat) :
    (tcpRead srv t1 sid op addr count max).2 = (tcpRead srv t2 sid op addr count max).2 := by
  cases ha : (srv.accept t1.dev).2 with
  | false =>
    unfold tcpRead
    rw [tcpWith_refused _ _ _ h1 ha, tcpWith_refused _ _ _ h2 (by rw [← hd]; exact ha)]
  | true =>
    unfold tcpRead
    rw [tcpWith_absent _ _ _ h1 ha, tcpWith_absent _ _ _ h2 (by rw [← hd]; exact ha)]
    dsimp only
    rw [← hd]
    have gen : ∀ (fuel : Nat) (addr : Int) (count : Nat) (resp : Bytes) (u1 u2 : Tcp σ),
        u1.dev = u2.dev → u1.sock = u2.sock →
        (tcpReadF srv sid op max fuel addr count resp u1).2 =
          (tcpReadF srv sid op max fuel addr count resp u2).2 := by
      intro fuel
      induction fuel with
      | zero => intros; rfl
      | succ fuel ih =>
        intro addr count resp u1 u2 hd hs
        rw [tcpReadF, tcpReadF]
        by_cases hc : count > 0
        · rw [if_pos hc, if_pos hc]
          simp only
          generalize (if count > max then max else count) = q
          have key : (tcpRead1 srv u1 sid op addr q).2 = (tcpRead1 srv u2 sid op addr q).2 ∧
              (tcpRead1 srv u1 sid op addr q).1.dev = (tcpRead1 srv u2 sid op addr q).1.dev ∧
              (tcpRead1 srv u1 sid op addr q).1.sock = (tcpRead1 srv u2 sid op addr q).1.sock := by
            unfold tcpRead1
            cases packTcpRead sid op addr q with
            | error e => exact ⟨rfl, hd, hs⟩
            | ok req =>
              rw [andThen_ok, andThen_ok]
              unfold tcpExchange
              rw [← hs, ← hd]
              cases hk : u1.sock with
              | absent => exact ⟨rfl, hd, hs⟩
              | unconnected => exact ⟨rfl, hd, hs⟩
              | connected p =>
                dsimp only
                rcases srv.react u1.dev req with ⟨d, _ | chunks⟩
                · exact ⟨rfl, rfl, rfl⟩
                · dsimp only
                  generalize tcpRecvF _ _ _ _ _ = x
                  obtain ⟨x1, e | x2⟩ := x
                  · exact ⟨rfl, rfl, rfl⟩
                  · exact ⟨rfl, rfl, rfl⟩
          rcases hx : tcpRead1 srv u1 sid op addr q with ⟨v1, r1⟩
          rcases hy : tcpRead1 srv u2 sid op addr q with ⟨v2, r2⟩
          rw [hx, hy] at key
          dsimp only at key
          obtain ⟨rfl, k2, k3⟩ := key
          cases r1 with
          | error e => rfl
          | ok data =>
            rw [andThen_ok, andThen_ok]
            by_cases hdl : data.length > 0
            · rw [if_pos hdl, if_pos hdl]; exact ih _ _ _ _ _ k2 k3
            · rw [if_neg hdl, if_neg hdl]
        · rw [if_neg hc, if_neg hc]
    exact gen _ _ _ _ _ _ rfl rfl

/-- The same history without the persistent connection: the late reply is lost with the connection it
belonged to. -/
example : (tcpRun lateServer 1 125 (freshTcp []) [.read 3 100 1]).2 = [.error .socketTimeout] ∧
    (tcpRun lateServer 1 125 (freshTcp []) [.read 3 100 1]).1.sock = .absent := by decide +kernel

/-! ## C20 Temporary connections are released -/

/-- C20, full statement: a call without an existing connection leaves no socket open. -/
def C20_full : Prop :=
  ∀ (srv : TcpServer Unit) (sid op addr : Int) (count max : Nat),
    (tcpRead srv (freshTcp ()) sid op addr count max).1.opened =
      (tcpRead srv (freshTcp ()) sid op addr count max).1.closed

/-- C20 is violated whenever the connection attempt fails (modbus/client.py:822-826: `connect` is
outside of the `try`/`finally`): the socket is created and neither closed nor forgotten. -/
theorem C20_failed_connect_leaks {σ} (srv : TcpServer σ) (t : Tcp σ) (hs : t.sock = .absent)
    (ha : (srv.accept t.dev).2 = false) (sid op addr : Int) (count max : Nat) (data : Bytes) :
    (∃ t', tcpRead srv t sid op addr count max = (t', .error .modbusClientError) ∧
      t'.opened = t.opened + 1 ∧ t'.closed = t.closed ∧ t'.sock = .unconnected) ∧
    (∃ t', tcpWrite srv t sid addr data max = (t', .error .modbusClientError) ∧
      t'.opened = t.opened + 1 ∧ t'.closed = t.closed ∧ t'.sock = .unconnected) := by
  unfold tcpRead tcpWrite
  rw [tcpWith_refused _ _ _ hs ha, tcpWith_refused _ _ _ hs ha]
  exact ⟨⟨_, rfl, rfl, rfl, rfl⟩, ⟨_, rfl, rfl, rfl, rfl⟩⟩

/-- A server that refuses the first `n` connection attempts (state: refusals left, memory). -/
def rebootingServer (unit : Byte) : TcpServer (Nat × Mem) where
  accept s := ((s.1 - 1, s.2), s.1 = 0)
  react s req := ((s.1, (serveTcp unit s.2 req).1), some [(serveTcp unit s.2 req).2])

theorem C20_violated : ¬ C20_full := by
  intro h
  have := h ⟨fun s => (s, false), fun s _ => (s, none)⟩ 1 3 100 1 125
  exact absurd this (by decide +kernel)

/-- C20, the part that holds: if the connection attempt succeeds, exactly one socket is created and
closed again, whatever the call does then, including any exception; and an existing connection is
neither closed nor replaced. -/
theorem C20_released_partial {σ} (srv : TcpServer σ) (t : Tcp σ) (sid op addr : Int)
    (count max : Nat) (data : Bytes) :
    (t.sock = .absent → (srv.accept t.dev).2 = true →
      ∀ t', t' = (tcpRead srv t sid op addr count max).1 ∨ t' = (tcpWrite srv t sid addr data max).1 →
        t'.sock = .absent ∧ t'.opened = t.opened + 1 ∧ t'.closed = t.closed + 1) ∧
    ((∃ p, t.sock = .connected p) →
      ∀ t', t' = (tcpRead srv t sid op addr count max).1 ∨ t' = (tcpWrite srv t sid addr data max).1 →
        (∃ p, t'.sock = .connected p) ∧ t'.opened = t.opened ∧ t'.closed = t.closed) := by
  have kr : ∀ (t : Tcp σ) p, t.sock = .connected p →
      let t' := (tcpReadF srv sid op max (count + 1) addr count [] t).1
      (t'.opened = t.opened ∧ t'.closed = t.closed ∧ ∃ p', t'.sock = .connected p') :=
    fun t p hp => (tcpReadF_spec srv sid op max _ addr count [] t _ p hp _ rfl).1
  have kw := fun (t : Tcp σ) p hp => tcpWriteF_conn srv t p hp sid addr data max
  unfold tcpRead tcpWrite
  constructor
  · intro hs ha t'
    rw [tcpWith_absent _ _ _ hs ha, tcpWith_absent _ _ _ hs ha]
    rintro (rfl | rfl)
    · obtain ⟨h1, h2, p', h3⟩ := kr { t with dev := (srv.accept t.dev).1, sock := .connected [], opened := t.opened + 1 } [] rfl
      rw [tcpDisconnect_connected _ _ h3]
      dsimp only at *
      exact ⟨rfl, h1, by rw [h2]⟩
    · obtain ⟨h1, h2, p', h3⟩ := kw { t with dev := (srv.accept t.dev).1, sock := .connected [], opened := t.opened + 1 } [] rfl
      rw [tcpDisconnect_connected _ _ h3]
      dsimp only at *
      exact ⟨rfl, h1, by rw [h2]⟩
  · rintro ⟨p, hp⟩ t'
    rw [tcpWith_present _ _ _ (by rw [hp]; simp), tcpWith_present _ _ _ (by rw [hp]; simp)]
    rintro (rfl | rfl)
    · obtain ⟨h1, h2, h3⟩ := kr t p hp
      exact ⟨h3, h1, h2⟩
    · obtain ⟨h1, h2, h3⟩ := kw t p hp
      exact ⟨h3, h1, h2⟩

/-- Non-vacuity: a read that ends in a Modbus exception on a temporary connection. -/
example : let r := tcpRead (idealServer 1) (freshTcp exMem) 1 3 65535 2 125
    r.2 = .error (.modbusClientException 2) ∧ r.1.opened = 1 ∧ r.1.closed = 1 := by decide +kernel

/-! ## C21 Recovery after a failed connection attempt -/

/-- C21, full statement: after a call that failed because the device refused the connection, reads
succeed once the device is reachable. -/
def C21_full : Prop :=
  ∀ (srv1 srv2 : TcpServer Mem) (unit : Byte), ConformsTcp srv2.accept srv2.react id unit →
    ∀ (m : Mem) (addr count : Nat), (srv1.accept m).2 = false → addr + count ≤ 65536 →
    ∃ r, (tcpRead srv2 (tcpRead srv1 (freshTcp m) unit.toNat 3 addr count 125).1
      unit.toNat 3 addr count 125).2 = .ok r

/-- C21 is violated in general: after one failed connection attempt, every later history of reads of
at least one register and writes of at least one byte fails completely, and nothing is ever sent,
even if the server is reachable and conforming (`srv` is arbitrary). -/
theorem C21_stuck {σ} (srv : TcpServer σ) (sid : Int) (max : Nat) (t : Tcp σ)
    (ht : t.sock = .unconnected) (calls : List TcpOp)
    (hcalls : ∀ c ∈ calls, (∃ op addr count, c = .read op addr count ∧ 0 < count) ∨
      (∃ addr data, c = .write addr data ∧ data ≠ [])) :
    (∀ r ∈ (tcpRun srv sid max t calls).2, ∃ e, r = .error e) ∧
    (tcpRun srv sid max t calls).1 = t := by
  have hstart : startOf srv t = none := by simp [startOf, ht]
  have hn : ∀ p, t.sock ≠ .connected p := by simp [ht]
  induction calls with
  | nil => exact ⟨by simp [tcpRun], rfl⟩
  | cons c cs ih =>
    have hstep : ∃ e, tcpStep srv sid max t c = (t, .error e) := by
      rcases hcalls c (by simp) with ⟨op, addr, count, rfl, hc⟩ | ⟨addr, data, rfl, hd⟩
      · obtain ⟨h1, h2⟩ := tcpReadF_unconnected srv t hn sid op max (count + 1) addr count []
        obtain ⟨e, h2, _⟩ := h2 hc (by omega)
        refine ⟨e, ?_⟩
        simp only [tcpStep, tcpRead]
        rw [tcpWith_present _ _ _ (by rw [ht]; simp)]
        exact Prod.ext h1 h2
      · simp only [tcpStep, tcpWrite]
        rw [tcpWith_present _ _ _ (by rw [ht]; simp)]
        by_cases hl : data.length ≤ 2 * max
        · rw [tcpWriteF_short _ _ _ _ _ _ hl, if_neg hd]
          obtain ⟨e, h, _⟩ := tcpWrite1_unconnected srv t hn sid addr data
          exact ⟨e, by rw [h]; rfl⟩
        · rw [tcpWriteF_long _ _ _ _ _ _ (by omega)]
          exact ⟨_, rfl⟩
    obtain ⟨e, hstep⟩ := hstep
    obtain ⟨h1, h2⟩ := ih fun c hc => hcalls c (List.mem_cons_of_mem _ hc)
    simp only [tcpRun, hstep]
    refine ⟨?_, h2⟩
    intro r hr
    rcases List.mem_cons.1 hr with rfl | hr
    · exact ⟨e, rfl⟩
    · exact h1 r hr

theorem C21_violated : ¬ C21_full := by
  intro h
  obtain ⟨r, h⟩ := h ⟨fun s => (s, false), fun s _ => (s, none)⟩ (idealServer 1) 1 (idealServer_conforms 1)
    exMem 100 1 rfl (by decide)
  have := (C21_stuck (idealServer 1) 1 125
    (tcpRead ⟨fun s => (s, false), fun s _ => (s, none)⟩ (freshTcp exMem) 1 3 100 1 125).1
    (by decide +kernel) [.read 3 100 1] (by
      intro c hc; simp only [List.mem_singleton] at hc; subst hc
      exact Or.inl ⟨_, _, _, rfl, by decide⟩)).1
  obtain ⟨e, he⟩ := this _ (by simp only [tcpRun, tcpStep]; exact List.mem_singleton.2 rfl)
  exact absurd (h.symm.trans he) (by simp)

/-- Non-vacuity of `C21_stuck`: a server that refuses one attempt and is reachable then. -/
example : (tcpRun (rebootingServer 1) 1 125 (freshTcp (1, exMem))
    [.read 3 100 1, .read 3 100 1, .write 100 [1, 2], .close, .read 3 100 1]).2 =
    [.error .modbusClientError, .error .modbusClientError, .error .modbusClientError, .ok [],
      .ok [0, 100]] := by decide +kernel

/-- C21, the part that holds: after any history on any server, an explicit `close()` makes reads
succeed once the server is reachable and conforms. -/
theorem C21_close_recovers_partial {σ} (srv1 : TcpServer σ) (sid1 : Int) (calls : List TcpOp) (t : Tcp σ)
    {srv : TcpServer σ} {abs : σ → Mem} {unit : Byte}
    (hc : ConformsTcp srv.accept srv.react abs unit) (addr count max : Nat) (hmax : 0 < max)
    (hlim : max ≤ 125) (hrange : addr + count ≤ 65536) :
    let t' := (tcpRun srv1 sid1 max t (calls ++ [.close])).1
    (tcpRead srv t' unit.toNat 3 addr count max).2 = .ok (memRead (abs t'.dev) addr count) := by
  have happ : ∀ t, (tcpRun srv1 sid1 max t (calls ++ [.close])).1 =
      tcpDisconnect (tcpRun srv1 sid1 max t calls).1 := by
    induction calls with
    | nil => intro t; rfl
    | cons o os ih => intro t; simp only [tcpRun, List.cons_append]; rw [ih]
  dsimp only
  have hidle : Idle (tcpRun srv1 sid1 max t (calls ++ [.close])).1 := by
    rw [happ]
    left
    unfold tcpDisconnect
    cases hs : (tcpRun srv1 sid1 max t calls).1.sock <;> simp [hs]
  obtain ⟨t', h, _⟩ := C17_read hc _ hidle 3 (Or.inl rfl) addr count max hmax (Or.inl hlim) hrange
  exact congrArg Prod.snd h

/-- C21, the part that holds: a call on a temporary connection that was established but failed in any
way (timeout, broken connection, exception reply) does not prevent the next read. -/
theorem C21_reconnect_partial {σ} (srv1 : TcpServer σ) (t : Tcp σ) (hs : t.sock = .absent)
    (ha : (srv1.accept t.dev).2 = true) (sid op a : Int) (n : Nat)
    {srv : TcpServer σ} {abs : σ → Mem} {unit : Byte}
    (hc : ConformsTcp srv.accept srv.react abs unit) (addr count max : Nat) (hmax : 0 < max)
    (hlim : max ≤ 125) (hrange : addr + count ≤ 65536) :
    let t' := (tcpRead srv1 t sid op a n max).1
    (tcpRead srv t' unit.toNat 3 addr count max).2 = .ok (memRead (abs t'.dev) addr count) := by
  dsimp only
  have := (C20_released_partial srv1 t sid op a n max []).1 hs ha _ (Or.inl rfl)
  obtain ⟨t', h, _⟩ := C17_read hc _ (Or.inl this.1) 3 (Or.inl rfl) addr count max hmax (Or.inl hlim) hrange
  exact congrArg Prod.snd h

end Verif
