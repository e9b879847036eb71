import Verif.Lemmas.Threads
import Verif.Props.Wire
import Verif.Props.Atomic

/-!
# C96 Threads sharing a serial line

Devices on the same serial port use the same port object (C22), which has no lock. If they are used from several threads, the calls of the threads come in
any order. Then a read may return what another thread has asked for (`C96_violated`). This is what remains: calls still end (`C96_waits`), whatever a
read returns comes from complete reply frames received after its own requests (`C96_reads`), and writes are safe (`C96_writes_partial`): as long as the
others do not write the same registers, no point is left half written, and all have been written if `write_points` returns.
-/

namespace Verif
open Verif.Spec

/-- C96: reads and writes of a thread end after a bounded number of waits of its own, whatever the other threads do. -/
theorem C96_waits {τ} (p : Port τ) (N : Nat) (hN : 260 < N) (sid : Int) (w : Waited (τ × List (List PortAct))) (addr : Int) :
    (∀ count, ((portDev (sharedPort p) N sid).read w addr count).2 ≠ .error .diverge ∧
      ((portDev (sharedPort p) N sid).read w addr count).1.waits ≤ w.waits + 260 * ((count.toNat + 124) / 125)) ∧
    (∀ data, ((portDev (sharedPort p) N sid).write w addr data).2 ≠ .error .diverge ∧
      ((portDev (sharedPort p) N sid).write w addr data).1.waits ≤ w.waits + 8 * ((data.length + 249) / 250)) :=
  ⟨(C91_rtu_calls (sharedPort p) N hN sid w addr).1, (C91_rtu_calls (sharedPort p) N hN sid w addr).2.1⟩

/-- C96: what a read returns has been received, after each of its requests, as a complete reply frame with the right CRC. This holds for any port (that
does not return more bytes than asked for), in particular for shared ones. -/
theorem C96_reads {τ} (p : Port τ) (hle : ∀ s n, (p.read s n).2.length ≤ n) (N : Nat) (sid : Byte) (w w' : Waited (τ × List (List PortAct))) (addr count : Int)
    (d : Bytes) (h : (portDev (sharedPort p) N sid.toNat).read w addr count = (w', .ok (some d))) :
    ReadCalls (sharedPort p) sid w.st addr count.toNat d w'.st := by
  obtain ⟨rest, r1, r2⟩ := portReadF_calls (sharedPort p) (fun s n => hle _ n) N sid _ addr count.toNat [] w w' d h
  rw [r1]
  exact r2

/-- C96: as long as the other threads do not write registers `D`, among which are those of the modified points, `write_points` leaves the registers
of each modified point as they were or with all of the new value, and does not change other registers of `D`; if it returns, all points have been written. -/
theorem C96_writes_partial {τ} {p : Port τ} {abs : τ → Mem} {sid : Byte} (hp : Executes p abs sid) (N : Nat) (hN : 8 < N) (D : Int → Prop)
    (w : Waited (τ × List (List PortAct))) (m : MdlObj) (hD : ∀ x, Mine m x → D x) (hm : CanStore (regMem (abs w.st.1)) (fun n => n ≤ 123) m)
    (hs : HarmlessThreads sid D w.st.2) (w' : Waited (τ × List (List PortAct))) (m' : MdlObj) (r : Py Unit)
    (h : writePoints (portDev (sharedPort p) N sid.toNat).toMbDev w m = (w', m', r)) :
    (∀ x, D x → ¬ Mine m x → regMem (abs w'.st.1) x = regMem (abs w.st.1) x) ∧
    (∀ b ∈ m.blocks, ∀ q ∈ b.pts, q.dirty = true →
      memRegs (regMem (abs w'.st.1)) q.addr q.pt.len.toNat = memRegs (regMem (abs w.st.1)) q.addr q.pt.len.toNat ∨
      ∃ rs, Encoded q rs ∧ memRegs (regMem (abs w'.st.1)) q.addr q.pt.len.toNat = some rs) ∧
    (r = .ok () → Written m (regMem (abs w'.st.1))) := by
  have hm' : CanStore (within D (regMem (abs w.st.1))) (fun n => n ≤ 123) m := by
    refine ⟨hm.separate, hm.size, fun b hb q hq hd => ?_⟩
    obtain ⟨h1, h2, h3⟩ := hm.points b hb q hq hd
    refine ⟨h1, h2, fun x x1 x2 => ?_⟩
    rw [within_in (hD x ⟨b, hb, q, hq, hd, x1, x2⟩)]
    exact h3 x x1 x2
  obtain ⟨mem', k1, k2, k3, k4⟩ := writePoints_atomic (threads_atomic hp N hN D) w _ ⟨hs, rfl⟩ trivial m hm'
  rw [h] at k1 k4
  obtain ⟨_, rfl⟩ := k1
  have hin : ∀ b ∈ m.blocks, ∀ q ∈ b.pts, q.dirty = true → ∀ f : RegMem, memRegs (within D f) q.addr q.pt.len.toNat = memRegs f q.addr q.pt.len.toNat := by
    intro b hb q hq hd f
    apply memRegs_congr
    intro x x1 x2
    exact within_in (hD x ⟨b, hb, q, hq, hd, x1, by omega⟩)
  refine ⟨fun x hx hn => ?_, fun b hb q hq hd => ?_, fun hr b hb q hq hd => ?_⟩
  · have := k2 x hn
    rw [within_in hx, within_in hx] at this
    exact this
  · have := k3 b hb q hq hd
    rw [hin b hb q hq hd, hin b hb q hq hd] at this
    exact this
  · obtain ⟨rs, e1, e2⟩ := (k4 hr).2 b hb q hq hd
    rw [hin b hb q hq hd] at e2
    exact ⟨rs, e1, e2⟩

/-! ## Non-vacuity -/

theorem serialRead_length (n : Nat) (l : List Bytes) : (serialRead n l).1.length ≤ n := by
  unfold serialRead
  split
  · exact Nat.zero_le _
  · split
    · assumption
    · exact List.length_take_le _ _

theorem linePort_executes (sid : Byte) : Executes (linePort (idealSlave sid)) (·.1) sid := by
  constructor
  · intro s; rfl
  · intro s n; rfl
  · intro s req _; rfl
  · intro s req h; cases h

/-- Requests to read are harmless. -/
theorem read_harmless (sid : Byte) (D : Int → Prop) (a q : Nat) : Harmless sid D (rtuFrame sid (readPdu 3 a q)) := by
  intro m x _
  rw [serveRtu_frame]
  have : (serve m (readPdu 3 a q)).1 = m := by
    unfold serve readPdu field16
    dsimp only [List.cons_append, List.nil_append]
    rw [if_pos (by decide)]
    repeat' split
    all_goals rfl
  rw [this]

/-- Another thread reads a register between the calls of this one, and takes the reply to its first request away: `write_points` raises and leaves
the first point written, the others unchanged. -/
def readerActs : List (List PortAct) := [[], [.flush, .write (rtuFrame 1 (readPdu 3 7 1))], [.read 100, .read 100]]

example : HarmlessThreads 1 (fun _ => True) readerActs := by
  intro l hl req hreq
  simp only [readerActs, List.mem_cons, List.not_mem_nil, or_false] at hl
  rcases hl with rfl | rfl | rfl
  · cases hreq
  · simp at hreq
    subst hreq
    exact read_harmless _ _ _ _
  · simp at hreq

example :
    (writePoints (portDev (sharedPort (linePort (idealSlave 1))) 261 1).toMbDev ⟨((exMem, []), readerActs), 0⟩ (mapPts allSet exModel)).2.2 ≠ .ok () ∧
    (List.range 7).map (fun i => (writePoints (portDev (sharedPort (linePort (idealSlave 1))) 261 1).toMbDev ⟨((exMem, []), readerActs), 0⟩
      (mapPts allSet exModel)).1.st.1.1 (40002 + i)) = [5, 40003, 40004, 40005, 40006, 40007, 40008] := by decide +kernel

/-- Without other threads: all points are written. -/
example :
    (writePoints (portDev (sharedPort (linePort (idealSlave 1))) 261 1).toMbDev ⟨((exMem, []), []), 0⟩ (mapPts allSet exModel)).2.2 = .ok () ∧
    (List.range 7).map (fun i => (writePoints (portDev (sharedPort (linePort (idealSlave 1))) 261 1).toMbDev ⟨((exMem, []), []), 0⟩
      (mapPts allSet exModel)).1.st.1.1 (40002 + i)) = [5, 40003, 40004, 5, 5, 5, 5] := by decide +kernel

/-- The hypotheses of `C96_writes_partial` for this model and any calls of other threads that are harmless. -/
example (sid : Byte) (acts : List (List PortAct)) (hs : HarmlessThreads sid (fun _ => True) acts)
    (w' : Waited ((Mem × List Bytes) × List (List PortAct))) (m' : MdlObj) (r : Py Unit)
    (h : writePoints (portDev (sharedPort (linePort (idealSlave sid))) 261 sid.toNat).toMbDev ⟨((exMem, []), acts), 0⟩ (mapPts allSet exModel) = (w', m', r)) :
    r = .ok () → Written (mapPts allSet exModel) (regMem w'.st.1.1) := by
  have hm : CanStore (regMem exMem) (fun n => n ≤ 123) (mapPts allSet exModel) := by
    refine ⟨allSet_store.separate, ?_, allSet_store.points⟩
    have : ∀ b ∈ (mapPts allSet exModel).blocks, dirtyLen b.pts ≤ 2 := by decide +kernel
    intro b hb n _ hn
    have := this b hb
    omega
  generalize mapPts allSet exModel = m at *
  have := C96_writes_partial (linePort_executes sid) 261 (by decide) (fun _ => True) ⟨((exMem, []), acts), 0⟩ m (fun _ _ => trivial) hm hs w' m' r h
  exact this.2.2

/-! ## What threads may do to each other's reads -/

/-- C96, full statement: if no thread writes, a read that returns gives the registers asked for. -/
def C96_full : Prop :=
  ∀ (sid : Byte) (mem : Mem) (acts : List (List PortAct)), HarmlessThreads sid (fun _ => True) acts →
    ∀ (a n : Nat) (d : Bytes), ((portDev (sharedPort (linePort (idealSlave sid))) 261 sid.toNat).read ⟨((mem, []), acts), 0⟩ a n).2 = .ok (some d) →
      d = memRead mem a n

/-- C96 is violated: another thread sends its request between `flushInput` and `write` of this one, which then receives the reply to the other one. -/
theorem C96_violated : ¬ C96_full := by
  intro h
  have := h 1 exMem [[], [.flush, .write (rtuFrame 1 (readPdu 3 7 1))]] (by
    intro l hl req hreq
    simp only [List.mem_cons, List.not_mem_nil, or_false] at hl
    rcases hl with rfl | rfl
    · cases hreq
    · simp at hreq
      subst hreq
      exact read_harmless _ _ _ _) 40000 1 [0, 7] (by decide +kernel)
  revert this
  decide +kernel

end Verif
