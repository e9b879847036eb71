import Verif.Lemmas.Bus
import Verif.Props.Alike

/-!
# C75: programs that use different devices of one serial line do not disturb one another
-/

namespace Verif
open Verif.Spec

/-- The program of device `b` alone on the line with its device: `n` calls. -/
def Spec.alone {σ} (slaves : Byte → Slave σ) (users : Byte → User) (d : Byte → σ) (objs : Byte → CliDev Unit) (b : Byte) (n : Nat) :
    CliDev (Line σ) × Transcript :=
  converse (rtuScanDev (slaves b) b.toNat) (users b).fuel (users b).lib (users b).next n [] (onLine (objs b) ⟨d b, []⟩)

/-- After `n b` calls of each program `b` everything is as if the programs had been alone. -/
def AsAlone {σ} (slaves : Byte → Slave σ) (users : Byte → User) (d : Byte → σ) (objs : Byte → CliDev Unit) (n : Byte → Nat)
    (st : Station σ) : Prop :=
  ∀ b, st.seen b = (alone slaves users d objs b (n b)).2 ∧ st.obj b = visible (alone slaves users d objs b (n b)).1 ∧
    st.line.dev b = (alone slaves users d objs b (n b)).1.st.dev ∧
    requestsFor b st.line.sent = (alone slaves users d objs b (n b)).1.st.sent

theorem asAlone_step {σ} (slaves : Byte → Slave σ) (users : Byte → User) (d : Byte → σ) (objs : Byte → CliDev Unit) (n : Byte → Nat)
    (st : Station σ) (h : AsAlone slaves users d objs n st) (b : Byte) (hb : b ≠ 0) :
    AsAlone slaves users d objs (fun k => n k + if k = b then 1 else 0) (st.step slaves users b) := by
  intro k
  obtain ⟨h1, h2, h3, h4⟩ := h b
  have one : alone slaves users d objs b (n b + 1) =
      converse (rtuScanDev (slaves b) b.toNat) (users b).fuel (users b).lib (users b).next 1 (alone slaves users d objs b (n b)).2
        (alone slaves users d objs b (n b)).1 := converse_snoc _ _ _ _ _ _ _
  unfold Station.step
  cases hn : (users b).next (st.seen b) with
  | none =>
    dsimp only
    by_cases hk : k = b
    · subst hk
      rw [if_pos rfl, one, converse, ← h1, hn]
      exact ⟨rfl, h2, h3, h4⟩
    · rw [if_neg hk]
      exact h k
  | some call =>
    dsimp only
    have la : LookAlike (OnBus b st.line) (onLine (st.obj b) st.line) (alone slaves users d objs b (n b)).1 :=
      ⟨by rw [visible_onLine, h2], h3, h4, fun k _ => ⟨rfl, rfl⟩⟩
    obtain ⟨p1, p2, p3, p4, p5⟩ := perform_alike (bus_scanAlike slaves hb st.line) (users b).lib (users b).fuel la call
    by_cases hk : k = b
    · subst hk
      simp only [if_true]
      rw [one, converse, ← h1, hn]
      dsimp only
      rw [converse, p1, p2]
      exact ⟨rfl, rfl, p3, p4⟩
    · simp only [if_neg hk]
      obtain ⟨q1, q2⟩ := p5 k hk
      rw [q1, q2]
      exact h k

theorem asAlone_run {σ} (slaves : Byte → Slave σ) (users : Byte → User) (d : Byte → σ) (objs : Byte → CliDev Unit)
    (sched : List Byte) (hs : ∀ b ∈ sched, b ≠ 0) (n : Byte → Nat) (st : Station σ) (h : AsAlone slaves users d objs n st) :
    AsAlone slaves users d objs (fun k => n k + sched.count k) (st.run slaves users sched) := by
  induction sched generalizing n st with
  | nil => exact h
  | cons b sched ih =>
    have := ih (fun x hx => hs x (.tail _ hx)) _ _ (asAlone_step slaves users d objs n st h b (hs b (.head _)))
    intro k
    have hk := this k
    dsimp only at hk ⊢
    have e : n k + (if k = b then 1 else 0) + sched.count k = n k + (b :: sched).count k := by
      rw [List.count_cons]
      by_cases hkb : k = b
      · subst hkb; simp; omega
      · have : ¬ b = k := fun e => hkb e.symm
        simp [hkb, this]
    rw [e] at hk
    exact hk

/-- C75: let programs share a serial line, each using its own device (ids other than the broadcast id 0), the devices being
arbitrary, and let their calls come in any order. Then each program sees exactly what it sees when it is alone on the line with
its device, its device object ends up the same, its device has received exactly the same requests and is in the same state; this
is so after each prefix of the schedule, as any list is one. -/
theorem C75_programs_partial {σ} (slaves : Byte → Slave σ) (users : Byte → User) (d : Byte → σ) (objs : Byte → CliDev Unit)
    (sched : List Byte) (hs : ∀ b ∈ sched, b ≠ 0) (st : Station σ)
    (hst : st = Station.run slaves users sched ⟨⟨d, []⟩, objs, fun _ => []⟩) (b : Byte) (a : CliDev (Line σ) × Transcript)
    (ha : a = alone slaves users d objs b (sched.count b)) :
    st.seen b = a.2 ∧ st.obj b = visible a.1 ∧ st.line.dev b = a.1.st.dev ∧ requestsFor b st.line.sent = a.1.st.sent := by
  have := asAlone_run slaves users d objs sched hs (fun _ => 0) ⟨⟨d, []⟩, objs, fun _ => []⟩
    (fun b => ⟨rfl, rfl, rfl, rfl⟩) b
  simp only [Nat.zero_add] at this
  rw [← hst, ← ha] at this
  exact this

/-- C75: a device that no program uses receives nothing and stays as it is. -/
theorem C75_unused_partial {σ} (slaves : Byte → Slave σ) (users : Byte → User) (d : Byte → σ) (objs : Byte → CliDev Unit)
    (sched : List Byte) (hs : ∀ b ∈ sched, b ≠ 0) (st : Station σ)
    (hst : st = Station.run slaves users sched ⟨⟨d, []⟩, objs, fun _ => []⟩) (b : Byte) (hb : b ∉ sched) :
    st.line.dev b = d b ∧ requestsFor b st.line.sent = [] := by
  obtain ⟨_, _, h3, h4⟩ := C75_programs_partial slaves users d objs sched hs st hst b _ rfl
  rw [List.count_eq_zero_of_not_mem hb] at h3 h4
  exact ⟨h3, h4⟩

/-- C75, one request: a read or write of a device has on the shared line exactly the outcome, exceptions included, that it has when
the device is alone, and leaves the states of all other devices unchanged. -/
theorem C75_request_partial {σ} (slaves : Byte → Slave σ) (b : Byte) (hb : b ≠ 0) (l : Line (Byte → σ)) :
    let t : Line σ := ⟨l.dev b, requestsFor b l.sent⟩
    (∀ a n, ((rtuDev (bus slaves) b.toNat).read l a n).2 = ((rtuDev (slaves b) b.toNat).read t a n).2 ∧
      ((rtuDev (bus slaves) b.toNat).read l a n).1.dev b = ((rtuDev (slaves b) b.toNat).read t a n).1.dev ∧
      ∀ k, k ≠ b → ((rtuDev (bus slaves) b.toNat).read l a n).1.dev k = l.dev k) ∧
    ∀ a x, ((rtuDev (bus slaves) b.toNat).write l a x).2 = ((rtuDev (slaves b) b.toNat).write t a x).2 ∧
      ((rtuDev (bus slaves) b.toNat).write l a x).1.dev b = ((rtuDev (slaves b) b.toNat).write t a x).1.dev ∧
      ∀ k, k ≠ b → ((rtuDev (bus slaves) b.toNat).write l a x).1.dev k = l.dev k := by
  intro t
  have h : OnBus b l l t := ⟨rfl, rfl, fun _ _ => ⟨rfl, rfl⟩⟩
  refine ⟨fun a n => ?_, fun a x => ?_⟩
  · obtain ⟨h1, h2, _, h4⟩ := rtuReadF_bus slaves hb l 3 125 (n.toNat + 1) a n.toNat [] h
    unfold rtuDev
    dsimp only
    unfold rtuRead
    exact ⟨h1, h2, fun k hk => (h4 k hk).1⟩
  · obtain ⟨h1, h2, _, h4⟩ := rtuWriteF_bus slaves hb l 125 (x.length + 1) a x h
    unfold rtuDev
    dsimp only
    unfold rtuWrite
    exact ⟨h1, h2, fun k hk => (h4 k hk).1⟩

example := C75_request_partial (fun b => drippingSlave b) 7 (by decide) ⟨fun _ => exMem, []⟩

/-- C75, full statement for lines whose devices may also be slow: what is read from a device that is not slow does not depend on the
requests to other devices before. -/
def C75_full : Prop :=
  ∀ (slaves : Byte → Slave Unit) (slow : Byte → Bool) (b c : Byte), b ≠ 0 → c ≠ 0 → b ≠ c → slow c = false → ∀ (a n : Int),
    ((rtuDev (lateBus slaves slow) c.toNat).read
      ((rtuDev (lateBus slaves slow) b.toNat).read ⟨([], fun _ => ()), []⟩ a n).1 a n).2 =
    ((rtuDev (slaves c) c.toNat).read ⟨(), []⟩ a n).2

/-- C75 is violated if a device may be slow: device 7 answers too late, the program that waits for it gets a timeout; the program of
device 9, which is not slow, then reads the register of device 7, because the client does not look at the device id of an answer
(modbus/client.py:243-279; see C13). -/
theorem C75_late_violated : ¬ C75_full := by
  intro h
  have := h (fun b => constSlave (rtuFrame b [3, 2, 0, b])) (fun b => b == 7) 7 9 (by decide) (by decide) (by decide) (by decide) 100 1
  revert this
  decide +kernel

/-- In detail: the timeout, then register 7 instead of register 9. -/
example :
    let dev := fun b : Byte => rtuDev (lateBus (fun b => constSlave (rtuFrame b [3, 2, 0, b])) (fun b => b == 7)) b.toNat
    ((dev 7).read ⟨([], fun _ => ()), []⟩ 100 1).2 = .error .modbusClientTimeout ∧
    ((dev 9).read ((dev 7).read ⟨([], fun _ => ()), []⟩ 100 1).1 100 1).2 = .ok (some [0, 7]) ∧
    ((dev 9).read ⟨([], fun _ => ()), []⟩ 100 1).2 = .ok (some [0, 9]) := by decide +kernel

/-- Two devices with the same models, used by the programs `exProgram`, which take turns in some order. -/
def exStation : Station Mem :=
  Station.run (fun b => drippingSlave b) (fun _ => ⟨9, exLib, exProgram⟩) [7, 9, 9, 7, 7, 7, 9, 9, 9, 7]
    ⟨⟨fun _ => scanMem, []⟩, fun _ => { st := () }, fun _ => []⟩

/-- What one such program sees, and the register it assigns, by C73. -/
theorem exAlone (b : Byte) :
    (alone (fun b => drippingSlave b) (fun _ => ⟨9, exLib, exProgram⟩) (fun _ => scanMem) (fun _ => { st := () }) b 5).2.map (fun x => x.1) =
      [.returned, .returned, .returned, .returned, .returned] ∧
    (alone (fun b => drippingSlave b) (fun _ => ⟨9, exLib, exProgram⟩) (fun _ => scanMem) (fun _ => { st := () }) b 5).1.st.dev 40004 = 7 := by
  have tcp5 : (converse (tcpScanDev (drippingServer 9) (9 : Byte).toNat) 9 exLib exProgram 5 [] { st := freshTcp scanMem }).2.map (fun x => x.1) =
      [.returned, .returned, .returned, .returned, .returned] ∧
    (converse (tcpScanDev (drippingServer 9) (9 : Byte).toNat) 9 exLib exProgram 5 [] { st := freshTcp scanMem }).1.st.dev 40004 = 7 := by
    decide +kernel
  obtain ⟨g1, _, g3⟩ := C73_program (drippingSlave_conforms b) (drippingServer_conforms 9) 9 exLib exProgram 5
    (onLine { st := () } ⟨scanMem, []⟩) { st := freshTcp scanMem } rfl rfl (.inl rfl)
  unfold alone
  dsimp only
  rw [g1]
  exact ⟨tcp5.1, (congrFun g3 40004).trans tcp5.2⟩

/-- Non-vacuity: both programs run to their ends, each has assigned 7 to the register of its device, and a third device keeps its
registers. -/
example :
    ((exStation.seen 7).map fun x => x.1) = [.returned, .returned, .returned, .returned, .returned] ∧ exStation.line.dev 7 40004 = 7 ∧
    ((exStation.seen 9).map fun x => x.1) = [.returned, .returned, .returned, .returned, .returned] ∧ exStation.line.dev 9 40004 = 7 ∧
    exStation.line.dev 8 = scanMem := by
  have hs : ∀ b ∈ ([7, 9, 9, 7, 7, 7, 9, 9, 9, 7] : List Byte), b ≠ 0 := by decide
  have key : ∀ b : Byte, ([7, 9, 9, 7, 7, 7, 9, 9, 9, 7] : List Byte).count b = 5 →
      ((exStation.seen b).map fun x => x.1) = [.returned, .returned, .returned, .returned, .returned] ∧ exStation.line.dev b 40004 = 7 := by
    intro b hb
    obtain ⟨h1, _, h3, _⟩ := C75_programs_partial _ _ _ _ _ hs exStation exStation.eq_1 b _ rfl
    rw [hb] at h1 h3
    rw [h1, h3]
    exact exAlone b
  exact ⟨(key 7 (by decide)).1, (key 7 (by decide)).2, (key 9 (by decide)).1, (key 9 (by decide)).2,
    (C75_unused_partial _ _ _ _ _ hs exStation exStation.eq_1 8 (by decide)).1⟩

end Verif
