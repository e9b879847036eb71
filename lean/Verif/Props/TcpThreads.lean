import Verif.Lemmas.TcpThreads
import Verif.Props.Threads
import Verif.Props.Tcp

/-!
# C107 Threads sharing a connected TCP device

A `ModbusClientDeviceTCP` that has been connected keeps one socket for all its calls, and has no lock. If it is used from several threads, the calls of
`sendall` and `recv` come in any order, and as all requests have the transaction id 0 a read may return what another thread has asked for
(`C107_violated`). This is what remains: calls still end (`C107_waits`), what a read returns has been received as
complete replies after its own requests (`C107_reads`), and writes are safe (`C107_writes_partial`): as long as the others do not write
the same registers, no point is left half written, and all have been written if `write_points` returns.
-/

namespace Verif
open Verif.Spec

/-- C107: reads and writes of a thread end after a bounded number of waits of its own, whatever the other threads do. -/
theorem C107_waits {τ} (net : Net τ) (N : Nat) (hN : 65541 < N) (sid : Int) (w : NetWaited (τ × List (List NetAct))) (addr : Int) :
    (∀ count, ((netDev (sharedNet net) N sid).read w addr count).2 ≠ .error .diverge ∧
      ((netDev (sharedNet net) N sid).read w addr count).1.waits ≤ w.waits + 65541 * ((count.toNat + 124) / 125)) ∧
    (∀ data, ((netDev (sharedNet net) N sid).write w addr data).2 ≠ .error .diverge ∧
      ((netDev (sharedNet net) N sid).write w addr data).1.waits ≤ w.waits + 65541 * ((data.length + 249) / 250)) :=
  ⟨(C91_tcp_calls (sharedNet net) N hN sid w addr).1, (C91_tcp_calls (sharedNet net) N hN sid w addr).2.1⟩

/-- C107: what a read on a connected device returns has been received, after each of its requests, as one complete reply that is no exception. This holds
for any network (on which `recv(n)` does not return more than `n` bytes), in particular for shared ones. -/
theorem C107_reads {τ} (net : Net τ) (hle : ∀ s n s' c, net.recv s n = (s', some c) → c.length ≤ n) (N : Nat) (unit : Byte)
    (w w' : NetWaited (τ × List (List NetAct))) (hk : w.sock = .connected) (addr count : Int) (d : Bytes)
    (h : (netDev (sharedNet net) N unit.toNat).read w addr count = (w', .ok (some d))) :
    w'.sock = .connected ∧ NetReadCalls (sharedNet net) unit w.st addr count.toNat d w'.st := by
  have hle' : ∀ s n s' c, (sharedNet net).recv s n = (s', some c) → c.length ≤ n := by
    intro s n s' c hc
    simp only [sharedNet, Prod.mk.injEq] at hc
    exact hle (netTurn net s) n (net.recv (netTurn net s) n).1 c (Prod.ext rfl hc.2)
  have hw : netWith (sharedNet net) w (netReadF (sharedNet net) N unit.toNat 3 125 (count.toNat + 1) addr count.toNat []) =
      netReadF (sharedNet net) N unit.toNat 3 125 (count.toNat + 1) addr count.toNat [] w := by
    unfold netWith
    rw [if_neg (by rw [hk]; simp)]
  have g : ((netWith (sharedNet net) w (netReadF (sharedNet net) N unit.toNat 3 125 (count.toNat + 1) addr count.toNat [])).1,
      (netWith (sharedNet net) w (netReadF (sharedNet net) N unit.toNat 3 125 (count.toNat + 1) addr count.toNat [])).2.map some) = (w', .ok (some d)) := h
  rw [hw] at g
  clear h hw
  generalize hx : netReadF (sharedNet net) N unit.toNat 3 125 (count.toNat + 1) addr count.toNat [] w = o at g
  obtain ⟨w1, x⟩ := o
  cases x with
  | error e => simp only [Prod.mk.injEq] at g; cases g.2
  | ok x =>
    simp only [Prod.mk.injEq] at g
    obtain ⟨rfl, g⟩ := g
    cases g
    obtain ⟨k0, rest, k1, k2⟩ := netReadF_calls (sharedNet net) hle' N unit _ _ _ _ _ _ _ hx
    rw [List.nil_append] at k1
    subst k1
    exact ⟨k0.trans hk, k2⟩

/-- C107: as long as the other threads do not write registers `D`, among which are those of the modified points, `write_points` leaves the registers
of each modified point as they were or with all of the new value, and does not change other registers of `D`; if it returns, all points have been written. -/
theorem C107_writes_partial {τ} {net : Net τ} {abs : τ → Mem} {unit : Byte} (hp : NetExecutes net abs unit) (N : Nat) (D : Int → Prop)
    (w : NetWaited (τ × List (List NetAct))) (hk : w.sock = .connected) (m : MdlObj) (hD : ∀ x, Mine m x → D x)
    (hm : CanStore (regMem (abs w.st.1)) (fun n => n ≤ 123) m) (hs : NetHarmlessThreads unit D w.st.2)
    (w' : NetWaited (τ × List (List NetAct))) (m' : MdlObj) (r : Py Unit)
    (h : writePoints (netDev (sharedNet net) N unit.toNat).toMbDev w m = (w', m', r)) :
    w'.sock = .connected ∧
    (∀ x, D x → ¬ Mine m x → regMem (abs w'.st.1) x = regMem (abs w.st.1) x) ∧
    (∀ b ∈ m.blocks, ∀ q ∈ b.pts, q.dirty = true →
      memRegs (regMem (abs w'.st.1)) q.addr q.pt.len.toNat = memRegs (regMem (abs w.st.1)) q.addr q.pt.len.toNat ∨
      ∃ rs, Encoded q rs ∧ memRegs (regMem (abs w'.st.1)) q.addr q.pt.len.toNat = some rs) ∧
    (r = .ok () → Written m (regMem (abs w'.st.1))) := by
  have hm' : CanStore (within D (regMem (abs w.st.1))) (fun n => n ≤ 123) m := by
    refine ⟨hm.separate, hm.size, fun b hb q hq hd => ?_⟩
    obtain ⟨h1, h2, h3⟩ := hm.points b hb q hq hd
    refine ⟨h1, h2, fun x x1 x2 => ?_⟩
    rw [within_in (hD x ⟨b, hb, q, hq, hd, x1, x2⟩)]
    exact h3 x x1 x2
  obtain ⟨mem', k1, k2, k3, k4⟩ := writePoints_atomic (net_threads_atomic hp N D) w _ ⟨hk, hs, rfl⟩ trivial m hm'
  rw [h] at k1 k4
  obtain ⟨k0, _, rfl⟩ := k1
  have hin : ∀ b ∈ m.blocks, ∀ q ∈ b.pts, q.dirty = true → ∀ f : RegMem, memRegs (within D f) q.addr q.pt.len.toNat = memRegs f q.addr q.pt.len.toNat := by
    intro b hb q hq hd f
    apply memRegs_congr
    intro x x1 x2
    exact within_in (hD x ⟨b, hb, q, hq, hd, x1, by omega⟩)
  refine ⟨k0, fun x hx hn => ?_, fun b hb q hq hd => ?_, fun hr b hb q hq hd => ?_⟩
  · have := k2 x hn
    rw [within_in hx, within_in hx] at this
    exact this
  · have := k3 b hb q hq hd
    rw [hin b hb q hq hd, hin b hb q hq hd] at this
    exact this
  · obtain ⟨rs, e1, e2⟩ := (k4 hr).2 b hb q hq hd
    rw [hin b hb q hq hd] at e2
    exact ⟨rs, e1, e2⟩

/-! ## Non-vacuity -/

theorem serverNet_executes (unit : Byte) : NetExecutes (serverNet (idealServer unit)) (·.1) unit := by
  constructor
  · intro s n
    unfold serverNet
    dsimp only
    repeat' split
    all_goals rfl
  · intro s req _; rfl
  · intro s req h; cases h

theorem serverNet_recv_le {σ} (srv : TcpServer σ) : ∀ s n s' c, (serverNet srv).recv s n = (s', some c) → c.length ≤ n := by
  intro s n s' c h
  unfold serverNet at h
  dsimp only at h
  split at h
  · cases h
  · split at h
    · simp only [Prod.mk.injEq, Option.some.injEq] at h
      rw [← h.2]; exact Nat.zero_le _
    · simp only [Prod.mk.injEq, Option.some.injEq] at h
      rw [← h.2]; exact serialRead_length _ _

/-- Requests to read are harmless. -/
theorem net_read_harmless (unit : Byte) (D : Int → Prop) (a q : Nat) : NetHarmless unit D (mbap 0 unit (readPdu 3 a q)) := by
  intro m x _
  rw [serveTcp_mbap]
  have : (serve m (readPdu 3 a q)).1 = m := by
    unfold serve readPdu field16
    dsimp only [List.cons_append, List.nil_append]
    rw [if_pos (by decide)]
    repeat' split
    all_goals rfl
  rw [this]

/-- Another thread reads a register between the calls of this one, and takes the reply to its first request away: `write_points` raises and leaves
the first point written, the others unchanged. -/
def netReaderActs : List (List NetAct) := [[.send (mbap 0 1 (readPdu 3 7 1))], [.recv 100, .recv 100, .recv 100]]

example : NetHarmlessThreads 1 (fun _ => True) netReaderActs := by
  intro l hl req hreq
  simp only [netReaderActs, List.mem_cons, List.not_mem_nil, or_false] at hl
  rcases hl with rfl | rfl
  · simp at hreq
    subst hreq
    exact net_read_harmless _ _ _ _
  · simp at hreq

example :
    (writePoints (netDev (sharedNet (serverNet (idealServer 1))) 300 1).toMbDev ⟨((exMem, []), netReaderActs), .connected, 0⟩ (mapPts allSet exModel)).2.2 ≠ .ok () ∧
    (List.range 7).map (fun i => (writePoints (netDev (sharedNet (serverNet (idealServer 1))) 300 1).toMbDev ⟨((exMem, []), netReaderActs), .connected, 0⟩
      (mapPts allSet exModel)).1.st.1.1 (40002 + i)) = [5, 40003, 40004, 40005, 40006, 40007, 40008] := by decide +kernel

/-- Without other threads: all points are written. -/
example :
    (writePoints (netDev (sharedNet (serverNet (idealServer 1))) 300 1).toMbDev ⟨((exMem, []), []), .connected, 0⟩ (mapPts allSet exModel)).2.2 = .ok () ∧
    (List.range 7).map (fun i => (writePoints (netDev (sharedNet (serverNet (idealServer 1))) 300 1).toMbDev ⟨((exMem, []), []), .connected, 0⟩
      (mapPts allSet exModel)).1.st.1.1 (40002 + i)) = [5, 40003, 40004, 5, 5, 5, 5] := by decide +kernel

/-- The hypotheses of `C107_writes_partial` for this model and any calls of other threads that are harmless. -/
example (unit : Byte) (acts : List (List NetAct)) (hs : NetHarmlessThreads unit (fun _ => True) acts)
    (w' : NetWaited ((Mem × List Bytes) × List (List NetAct))) (m' : MdlObj) (r : Py Unit)
    (h : writePoints (netDev (sharedNet (serverNet (idealServer unit))) 300 unit.toNat).toMbDev ⟨((exMem, []), acts), .connected, 0⟩
      (mapPts allSet exModel) = (w', m', r)) :
    r = .ok () → Written (mapPts allSet exModel) (regMem w'.st.1.1) := by
  have hm : CanStore (regMem exMem) (fun n => n ≤ 123) (mapPts allSet exModel) := by
    refine ⟨allSet_store.separate, ?_, allSet_store.points⟩
    have : ∀ b ∈ (mapPts allSet exModel).blocks, dirtyLen b.pts ≤ 2 := by decide +kernel
    intro b hb n _ hn
    have := this b hb
    omega
  generalize mapPts allSet exModel = m at *
  have := C107_writes_partial (serverNet_executes unit) 300 (fun _ => True) ⟨((exMem, []), acts), .connected, 0⟩ rfl m (fun _ _ => trivial) hm hs w' m' r h
  exact this.2.2.2

/-- Reads that return: with another thread that has sent a request before, and without. -/
example :
    ((netDev (sharedNet (serverNet (idealServer 1))) 300 1).read ⟨((exMem, []), [[.send (mbap 0 1 (readPdu 3 7 1))]]), .connected, 0⟩ 40000 1).2 = .ok (some [0, 7]) ∧
    ((netDev (sharedNet (serverNet (idealServer 1))) 300 1).read ⟨((exMem, []), []), .connected, 0⟩ 40000 1).2 = .ok (some [156, 64]) := by decide +kernel

/-! ## What threads may do to each other's reads -/

/-- C107, full statement: if no thread writes, a read that returns gives the registers asked for. -/
def C107_full : Prop :=
  ∀ (unit : Byte) (mem : Mem) (acts : List (List NetAct)), NetHarmlessThreads unit (fun _ => True) acts →
    ∀ (N a n : Nat) (d : Bytes), ((netDev (sharedNet (serverNet (idealServer unit))) N unit.toNat).read ⟨((mem, []), acts), .connected, 0⟩ a n).2 =
      .ok (some d) → d = memRead mem a n

/-- C107 is violated: another thread has sent its request before this one, which then receives the reply to the other one. -/
theorem C107_violated : ¬ C107_full := by
  intro h
  have := h 1 exMem [[.send (mbap 0 1 (readPdu 3 7 1))]] (by
    intro l hl req hreq
    simp only [List.mem_cons, List.not_mem_nil, or_false] at hl
    subst hl
    simp at hreq
    subst hreq
    exact net_read_harmless _ _ _ _) 300 40000 1 [0, 7] (by decide +kernel)
  revert this
  decide +kernel

end Verif
