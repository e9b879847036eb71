import Verif.Lemmas.Ends
import Verif.Lemmas.WireSame

/-!
# C91: every call ends after a bounded number of waits
-/

namespace Verif
open Verif.Spec

/-! ## From waits to requests -/

theorem cheap_of_waits {σ} {dev : MbDev σ} {f : σ → Nat} (k : Nat) (hk : 0 < k)
    (h : ∀ s a n, f (dev.read s a n).1 ≤ f s + k * ((n.toNat + 124) / 125)) (w0 : Nat) :
    Cheap dev (fun s => (f s - w0 + (k - 1)) / k) := by
  intro s a n
  have h1 := h s a n
  dsimp only
  generalize (n.toNat + 124) / 125 = q at h1 ⊢
  generalize f (dev.read s a n).1 = x at h1 ⊢
  have h2 : x - w0 + (k - 1) ≤ (f s - w0 + (k - 1)) + k * q := by omega
  calc (x - w0 + (k - 1)) / k ≤ ((f s - w0 + (k - 1)) + k * q) / k := Nat.div_le_div_right h2
    _ = (f s - w0 + (k - 1)) / k + q := by rw [Nat.add_mul_div_left _ _ hk]

theorem waits_of_cost {x w0 k K : Nat} (hk : 0 < k) (h : (x - w0 + (k - 1)) / k ≤ (w0 - w0 + (k - 1)) / k + K) : x ≤ w0 + k * K := by
  have e : (w0 - w0 + (k - 1)) / k = 0 := Nat.div_eq_of_lt (by omega)
  rw [e, Nat.zero_add] at h
  have h1 : (x - w0 + (k - 1)) < k * (K + 1) := by
    rw [Nat.mul_comm]
    exact (Nat.div_lt_iff_lt_mul hk).1 (by omega)
  rw [Nat.mul_add, Nat.mul_one] at h1
  omega

/-- What is known about a device whose calls end: reading takes at most `k` waits for each request, writing at most `k'`. -/
structure CallsEnd {σ} (dev : ScanDev σ) (waits : σ → Nat) (k k' : Nat) : Prop where
  pos : 0 < k
  reads : ∀ s a n, (dev.read s a n).2 ≠ .error .diverge
  readWaits : ∀ s a n, waits (dev.read s a n).1 ≤ waits s + k * ((n.toNat + 124) / 125)
  writes : WritesEnd dev.toMbDev waits k'
  conn : ∀ f, dev.conn = some f → ∀ s, (f s).2 ≠ .error .diverge ∧ waits (f s).1 = waits s
  disc : ∀ s, waits (dev.disc s) = waits s
  confined : Confined dev.toMbDev 65536

theorem CallsEnd.models {σ} {dev : ScanDev σ} {waits : σ → Nat} {k k' : Nat} (h : CallsEnd dev waits k k') :
    (∀ s m, (readPoints dev.toMbDev s m).2.2 ≠ .error .diverge ∧
      (LoadedInOrder m → waits (readPoints dev.toMbDev s m).1 ≤ waits s + k * ((m.len.toNat + 41) / 42))) ∧
    (∀ s ms, (readModels dev.toMbDev ms s).2.2 ≠ .error .diverge ∧
      ((∀ m ∈ ms, LoadedInOrder m) → waits (readModels dev.toMbDev ms s).1 ≤ waits s + k * (ms.map fun m => (m.len.toNat + 41) / 42).sum)) ∧
    (∀ s m, (writePoints dev.toMbDev s m).2.2 ≠ .error .diverge ∧
      waits (writePoints dev.toMbDev s m).1 ≤ waits s + k' * ((m.blocks.flatMap fun b => b.pts).map pieces).sum) := by
  refine ⟨fun s m => ⟨readPoints_ends h.reads s m, fun hm => ?_⟩, fun s ms => ⟨readModels_ends h.reads ms s, fun hm => ?_⟩, fun s m => writePoints_ends h.writes s m⟩
  · have h1 := readPoints_cost (cheap_of_waits k h.pos h.readWaits (waits s)) s m
    have h2 := planCost_loaded m hm
    exact waits_of_cost h.pos (Nat.le_trans h1 (by omega))
  · exact waits_of_cost h.pos (readModels_cost (cheap_of_waits k h.pos h.readWaits (waits s)) ms hm s)

theorem CallsEnd.scan {σ} {dev : ScanDev σ} {waits : σ → Nat} {k k' : Nat} (h : CallsEnd dev waits k k') (bases : List Int) :
    (∃ F, ∀ lib, Definitions lib → ∀ (prog : List MdlObj → Int → Bool) (c : CliDev σ), c.bases = bases →
      (scan F dev lib prog c).2 ≠ .error .diverge ∧ ∀ fuel, F ≤ fuel → scan fuel dev lib prog c = scan F dev lib prog c) ∧
    (∀ fuel lib prog (c : CliDev σ), c.bases = bases →
      waits (scan fuel dev lib prog c).1.st ≤ waits c.st + k * (bases.length + 65535)) := by
  constructor
  · obtain ⟨F, hF⟩ := C39_terminates_partial dev h.reads (fun f hf s => (h.conn f hf s).1) 65536 (fun _ => True) (fun _ _ _ _ => trivial)
      (fun _ _ _ _ => trivial) (fun s a _ ha => h.confined.above s a ha) bases
    exact ⟨F, fun lib hl prog c hc => hF lib hl prog c hc trivial⟩
  · intro fuel lib prog c hc
    subst hc
    obtain ⟨found, h1, h2⟩ := scan_cost (dev := dev) (cheap_of_waits k h.pos h.readWaits (waits c.st))
      (fun f hf s => by rw [(h.conn f hf s).2]) (fun s => by rw [h.disc]) lib prog fuel c
    have h3 := scan_few h.confined (by decide) lib prog fuel c
    rw [h1, List.length_append] at h3
    refine waits_of_cost h.pos (Nat.le_trans h2 ?_)
    have e : ((65536 : Int) - 2).toNat = 65534 := rfl
    rw [e] at h3
    omega

/-! ## RTU -/

theorem portReadF_out {τ} (p : Port τ) (N : Nat) (sid op : Int) (max fuel : Nat) (addr : Int) (count : Nat) (resp : Bytes) (w : Waited τ)
    (hc : 0 < count) (ha : ¬ (0 ≤ addr ∧ addr < 65536)) :
    ∃ e, (portReadF p N sid op max fuel addr count resp w).2 = .error e := by
  cases fuel with
  | zero => exact ⟨_, rfl⟩
  | succ fuel =>
    rw [portReadF, if_pos hc]
    dsimp only
    generalize (if count > max then max else count) = rc
    have : portRead1 p N w sid op addr rc = (w, .error .structError) := by
      unfold portRead1
      rw [packBBHH_eq, if_neg (fun h => ha h.2.2.1)]
    rw [this]
    exact ⟨_, rfl⟩

theorem port_ends {τ} (p : Port τ) (N : Nat) (hN : 260 < N) (sid : Int) : CallsEnd (portDev p N sid) Waited.waits 260 8 where
  pos := by decide
  reads w a n := (portReadF_waits p N hN sid 3 125 (by decide) (n.toNat + 1) a n.toNat [] w (by omega)).1
  readWaits w a n := (portReadF_waits p N hN sid 3 125 (by decide) (n.toNat + 1) a n.toNat [] w (by omega)).2.1
  writes := {
    ends := fun w a d => (portWriteF_waits p N (by omega) sid 125 (by decide) (d.length + 1) a d w (by omega)).1
    cheap := fun w a d => (portWriteF_waits p N (by omega) sid 125 (by decide) (d.length + 1) a d w (by omega)).2.1 }
  conn f hf := by simp [portDev] at hf
  disc _ := rfl
  confined := {
    above := fun w a ha => portReadF_out p N sid 3 125 _ a 1 [] w (by decide) (by omega)
    below := fun w a ha => portReadF_out p N sid 3 125 _ a 3 [] w (by decide) (by omega) }

/-- C91 over RTU, single calls: whatever is connected to the port, even if it never stops sending, `read` and `write` end, `read`
after at most 260 calls of `serial.read` for each 125 registers begun, `write` after at most 8 for each 250 bytes begun; each of
these calls lasts no longer than the timeout of the port. (`N` cuts the receive loop off; from 261 on it makes no difference.) -/
theorem C91_rtu_calls {τ} (p : Port τ) (N : Nat) (hN : 260 < N) (sid : Int) (w : Waited τ) (addr : Int) :
    (∀ count, ((portDev p N sid).read w addr count).2 ≠ .error .diverge ∧
      ((portDev p N sid).read w addr count).1.waits ≤ w.waits + 260 * ((count.toNat + 124) / 125)) ∧
    (∀ data, ((portDev p N sid).write w addr data).2 ≠ .error .diverge ∧
      ((portDev p N sid).write w addr data).1.waits ≤ w.waits + 8 * ((data.length + 249) / 250)) ∧
    (∀ N', 260 < N' → portDev p N' sid = portDev p N sid) := by
  have h := port_ends p N hN sid
  refine ⟨fun n => ⟨h.reads w addr n, h.readWaits w addr n⟩, fun d => ⟨h.writes.ends w addr d, h.writes.cheap w addr d⟩, fun N' hN' => ?_⟩
  have hr : ∀ M, 260 < M → portDev p M sid = portDev p 261 sid := by
    intro M hM
    have h1 : (fun (w : Waited τ) (addr count : Int) => portReadF p M sid 3 125 (count.toNat + 1) addr count.toNat [] w) =
        fun w addr count => portReadF p 261 sid 3 125 (count.toNat + 1) addr count.toNat [] w :=
      funext fun w => funext fun a => funext fun n =>
        (portReadF_waits p M hM sid 3 125 (by decide) (n.toNat + 1) a n.toNat [] w (by omega)).2.2
    have h2 : (fun (w : Waited τ) (addr : Int) (data : Bytes) => portWriteF p M sid 125 (data.length + 1) addr data w) =
        fun w addr data => portWriteF p 261 sid 125 (data.length + 1) addr data w :=
      funext fun w => funext fun a => funext fun d =>
        (portWriteF_waits p M (by omega) sid 125 (by decide) (d.length + 1) a d w (by omega)).2.2.trans
          (portWriteF_waits p 261 (by decide) sid 125 (by decide) (d.length + 1) a d w (by omega)).2.2.symm
    unfold portDev
    rw [h1, h2]
  rw [hr N' hN', hr N hN]

/-- C91 over RTU, models and scans: `read_points` of a model and of a device and `write_points` end after a number of waits that
only depends on the lengths of the models and the modified points. A scan ends after at most `260 * (bases + 65535)` waits, provided
that the definitions it loads are sound (`_partial`: see `C39_violated`). -/
theorem C91_rtu_partial {τ} (p : Port τ) (N : Nat) (hN : 260 < N) (sid : Int) :
    (∀ w m, (readPoints (portDev p N sid).toMbDev w m).2.2 ≠ .error .diverge ∧
      (LoadedInOrder m → (readPoints (portDev p N sid).toMbDev w m).1.waits ≤ w.waits + 260 * ((m.len.toNat + 41) / 42))) ∧
    (∀ w ms, (readModels (portDev p N sid).toMbDev ms w).2.2 ≠ .error .diverge ∧
      ((∀ m ∈ ms, LoadedInOrder m) →
        (readModels (portDev p N sid).toMbDev ms w).1.waits ≤ w.waits + 260 * (ms.map fun m => (m.len.toNat + 41) / 42).sum)) ∧
    (∀ w m, (writePoints (portDev p N sid).toMbDev w m).2.2 ≠ .error .diverge ∧
      (writePoints (portDev p N sid).toMbDev w m).1.waits ≤ w.waits + 8 * ((m.blocks.flatMap fun b => b.pts).map pieces).sum) ∧
    (∀ bases, (∃ F, ∀ lib, Definitions lib → ∀ (prog : List MdlObj → Int → Bool) (c : CliDev (Waited τ)), c.bases = bases →
        (scan F (portDev p N sid) lib prog c).2 ≠ .error .diverge ∧
        ∀ fuel, F ≤ fuel → scan fuel (portDev p N sid) lib prog c = scan F (portDev p N sid) lib prog c) ∧
      (∀ fuel lib prog (c : CliDev (Waited τ)), c.bases = bases →
        (scan fuel (portDev p N sid) lib prog c).1.st.waits ≤ c.st.waits + 260 * (bases.length + 65535))) := by
  have h := port_ends p N hN sid
  exact ⟨h.models.1, h.models.2.1, h.models.2.2, fun bases => h.scan bases⟩

/-! ## TCP -/

theorem netReadF_out {τ} (net : Net τ) (N : Nat) (sid op : Int) (max fuel : Nat) (addr : Int) (count : Nat) (resp : Bytes) (w : NetWaited τ)
    (hc : 0 < count) (ha : ¬ (0 ≤ addr ∧ addr < 65536)) :
    ∃ e, (netReadF net N sid op max fuel addr count resp w).2 = .error e := by
  cases fuel with
  | zero => exact ⟨_, rfl⟩
  | succ fuel =>
    rw [netReadF, if_pos hc]
    dsimp only
    generalize (if count > max then max else count) = rc
    have : netRead1 net N w sid op addr rc = (w, .error .structError) := by
      unfold netRead1
      rw [packTcpRead_eq, if_neg (fun h => ha h.2.2.1)]
      rfl
    rw [this]
    exact ⟨_, rfl⟩

theorem netRead_out {τ} (net : Net τ) (N : Nat) (sid addr : Int) (count : Int) (w : NetWaited τ) (hc : 0 < count)
    (ha : ¬ (0 ≤ addr ∧ addr < 65536)) : ∃ e, ((netDev net N sid).read w addr count).2 = .error e := by
  have key : ∃ e, (netWith net w (netReadF net N sid 3 125 (count.toNat + 1) addr count.toNat [])).2 = .error e := by
    have hb := fun w => netReadF_out net N sid 3 125 (count.toNat + 1) addr count.toNat [] w (by omega) ha
    unfold netWith
    split
    · generalize netConnect net w = q
      obtain ⟨w1, r⟩ := q
      cases r with
      | error e => exact ⟨e, rfl⟩
      | ok u => exact hb w1
    · exact hb w
  obtain ⟨e, he⟩ := key
  refine ⟨e, ?_⟩
  show Except.map some _ = _
  rw [he]
  rfl

theorem net_ends {τ} (net : Net τ) (K N : Nat) (hK : 65541 ≤ K) (hN : K < N) (sid : Int) : CallsEnd (netDev net N sid) NetWaited.waits K K := by
  have hr := fun (a n : Int) (w : NetWaited τ) => netWith_waits net (K * ((n.toNat + 124) / 125))
    (netReadF net N sid 3 125 (n.toNat + 1) a n.toNat []) (netReadF net N sid 3 125 (n.toNat + 1) a n.toNat [])
    (fun w => by
      have := netReadF_waits net K N N hK hN hN sid 3 125 (by decide) (n.toNat + 1) a n.toNat [] w (by omega)
      exact ⟨this.1, this.2.1, rfl⟩) w
  have hw := fun (a : Int) (d : Bytes) (w : NetWaited τ) => netWith_waits net (K * ((d.length + 249) / 250))
    (netWriteF net N sid a 125 d (d.length + 1) 0 none) (netWriteF net N sid a 125 d (d.length + 1) 0 none)
    (fun w => by
      have := netWriteF_waits net K N N hK hN hN sid a 125 (by decide) d (d.length + 1) 0 none w (by omega)
      exact ⟨this.1, this.2.1, rfl⟩) w
  constructor
  · omega
  · intro w a n
    exact map_ends _ (hr a n w).1
  · intro w a n
    exact (hr a n w).2.1
  · exact ⟨fun w a d => (hw a d w).1, fun w a d => (hw a d w).2.1⟩
  · intro f hf w
    have hf : netConnect net = f := Option.some.inj hf
    subst hf
    exact ⟨(netConnect_waits net w).2, (netConnect_waits net w).1⟩
  · intro w
    exact netDisconnect_waits net w
  · exact ⟨fun w a ha => netRead_out net N sid a 1 w (by decide) (by omega), fun w a ha => netRead_out net N sid a 3 w (by decide) (by omega)⟩

/-- C91 over TCP, single calls: the same with at most 65541 calls of `socket.recv` for each request; connecting and disconnecting
take none. -/
theorem C91_tcp_calls {τ} (net : Net τ) (N : Nat) (hN : 65541 < N) (sid : Int) (w : NetWaited τ) (addr : Int) :
    (∀ count, ((netDev net N sid).read w addr count).2 ≠ .error .diverge ∧
      ((netDev net N sid).read w addr count).1.waits ≤ w.waits + 65541 * ((count.toNat + 124) / 125)) ∧
    (∀ data, ((netDev net N sid).write w addr data).2 ≠ .error .diverge ∧
      ((netDev net N sid).write w addr data).1.waits ≤ w.waits + 65541 * ((data.length + 249) / 250)) ∧
    (∀ N', 65541 < N' → netDev net N' sid = netDev net N sid) := by
  have h := net_ends net 65541 N (Nat.le_refl _) hN sid
  refine ⟨fun n => ⟨h.reads w addr n, h.readWaits w addr n⟩, fun d => ⟨h.writes.ends w addr d, h.writes.cheap w addr d⟩, fun N' hN' => ?_⟩
  have h1 : ∀ (addr count : Int), netReadF net N' sid 3 125 (count.toNat + 1) addr count.toNat [] =
      netReadF net N sid 3 125 (count.toNat + 1) addr count.toNat [] := fun a n => funext fun w =>
    (netReadF_waits net 65541 N' N (Nat.le_refl _) hN' hN sid 3 125 (by decide) (n.toNat + 1) a n.toNat [] w (by omega)).2.2
  have h2 : ∀ (addr : Int) (data : Bytes), netWriteF net N' sid addr 125 data (data.length + 1) 0 none =
      netWriteF net N sid addr 125 data (data.length + 1) 0 none := fun a d => funext fun w =>
    (netWriteF_waits net 65541 N' N (Nat.le_refl _) hN' hN sid a 125 (by decide) d (d.length + 1) 0 none w (by omega)).2.2
  unfold netDev
  simp only [h1, h2]

/-- C91 over TCP, models and scans. -/
theorem C91_tcp_partial {τ} (net : Net τ) (N : Nat) (hN : 65541 < N) (sid : Int) :
    (∀ w m, (readPoints (netDev net N sid).toMbDev w m).2.2 ≠ .error .diverge ∧
      (LoadedInOrder m → (readPoints (netDev net N sid).toMbDev w m).1.waits ≤ w.waits + 65541 * ((m.len.toNat + 41) / 42))) ∧
    (∀ w ms, (readModels (netDev net N sid).toMbDev ms w).2.2 ≠ .error .diverge ∧
      ((∀ m ∈ ms, LoadedInOrder m) →
        (readModels (netDev net N sid).toMbDev ms w).1.waits ≤ w.waits + 65541 * (ms.map fun m => (m.len.toNat + 41) / 42).sum)) ∧
    (∀ w m, (writePoints (netDev net N sid).toMbDev w m).2.2 ≠ .error .diverge ∧
      (writePoints (netDev net N sid).toMbDev w m).1.waits ≤ w.waits + 65541 * ((m.blocks.flatMap fun b => b.pts).map pieces).sum) ∧
    (∀ bases, (∃ F, ∀ lib, Definitions lib → ∀ (prog : List MdlObj → Int → Bool) (c : CliDev (NetWaited τ)), c.bases = bases →
        (scan F (netDev net N sid) lib prog c).2 ≠ .error .diverge ∧
        ∀ fuel, F ≤ fuel → scan fuel (netDev net N sid) lib prog c = scan F (netDev net N sid) lib prog c) ∧
      (∀ fuel lib prog (c : CliDev (NetWaited τ)), c.bases = bases →
        (scan fuel (netDev net N sid) lib prog c).1.st.waits ≤ c.st.waits + 65541 * (bases.length + 65535))) := by
  have h := net_ends net 65541 N (Nat.le_refl _) hN sid
  exact ⟨h.models.1, h.models.2.1, h.models.2.2, fun bases => h.scan bases⟩

/-! ## The other properties hold at this level too -/

/-- C91: for a port with a slave as in the rest of the model (one that decides about the whole of each answer at once), both levels
of the model say the same: every read and write has the same result and leaves the slave in the same state. -/
theorem C91_rtu_same {σ} (slave : Slave σ) (N : Nat) (hN : 260 < N) (sid : Int) (w : Waited (σ × List Bytes)) (sent : List Bytes) (addr : Int) :
    (∀ count, ((portDev (slavePort slave) N sid).read w addr count).2 = ((rtuDev slave sid).read ⟨w.st.1, sent⟩ addr count).2 ∧
      ((portDev (slavePort slave) N sid).read w addr count).1.st.1 = ((rtuDev slave sid).read ⟨w.st.1, sent⟩ addr count).1.dev) ∧
    (∀ data, ((portDev (slavePort slave) N sid).write w addr data).2 = ((rtuDev slave sid).write ⟨w.st.1, sent⟩ addr data).2 ∧
      ((portDev (slavePort slave) N sid).write w addr data).1.st.1 = ((rtuDev slave sid).write ⟨w.st.1, sent⟩ addr data).1.dev) := by
  obtain ⟨s, k⟩ := w
  constructor
  · intro n
    have := portReadF_same slave N hN sid 3 125 (n.toNat + 1) addr n.toNat [] s k sent
    exact ⟨this.2, this.1⟩
  · intro d
    have := portWriteF_same slave N (by omega) sid 125 (d.length + 1) addr d s k sent
    exact ⟨this.2, this.1⟩

/-- C91: the same for a network with a server: every call has the same result and leaves the server in the same state and the
socket the same (with the same bytes waiting in it). -/
theorem C91_tcp_same {σ} (srv : TcpServer σ) (N : Nat) (hN : 65541 < N) (sid : Int) (w : NetWaited (σ × List Bytes)) (t : Tcp σ)
    (h : SameSocket w t) (addr : Int) :
    (∀ count, ((netDev (serverNet srv) N sid).read w addr count).2 = ((tcpDev srv sid).read t addr count).2 ∧
      SameSocket ((netDev (serverNet srv) N sid).read w addr count).1 ((tcpDev srv sid).read t addr count).1) ∧
    (∀ data, ((netDev (serverNet srv) N sid).write w addr data).2 = ((tcpDev srv sid).write t addr data).2 ∧
      SameSocket ((netDev (serverNet srv) N sid).write w addr data).1 ((tcpDev srv sid).write t addr data).1) ∧
    (netConnect (serverNet srv) w).2 = (tcpConnect srv t).2 ∧ SameSocket (netConnect (serverNet srv) w).1 (tcpConnect srv t).1 ∧
    SameSocket (netDisconnect (serverNet srv) w) (tcpDisconnect t) := by
  refine ⟨fun n => ?_, fun d => ?_, ?_, ?_, ?_⟩
  · have := netWith_same srv w t h (netReadF_same srv N hN sid 3 125 (n.toNat + 1) addr n.toNat [])
    exact ⟨congrArg (Except.map some) this.2, this.1⟩
  · have := netWith_same srv w t h (netWriteF_same srv N hN sid addr 125 d (d.length + 1) 0 none)
    exact ⟨this.2, this.1⟩
  · exact (netConnect_same srv w t h).2
  · exact (netConnect_same srv w t h).1
  · exact (netDisconnect_same srv w t h).1

/-! ## Examples -/

/-- A port that never stops sending: one byte for each `serial.read`, the third one being 255 (the state counts the bytes since the
last request). -/
def drippingPort : Port Nat where
  flush := id
  write _ _ := (0, true)
  read s _ := (s + 1, [if s = 2 then 255 else 0])

/-- The bound is reached: the answer is 260 bytes long, and arrives in as many pieces (its CRC is wrong). -/
example : ((portDev drippingPort 261 1).read ⟨0, 0⟩ 40000 3).1.waits = 260 ∧
    ((portDev drippingPort 261 1).read ⟨0, 0⟩ 40000 3).2 = .error .modbusClientError := by decide +kernel

example : (readPoints (portDev drippingPort 261 1).toMbDev ⟨0, 0⟩ exModel).1.waits = 260 := by decide +kernel

/-- A network that never stops sending: zeros, as many as `socket.recv` has room for. -/
def floodingNet : Net Unit where
  connect _ := ((), true)
  close := id
  send _ _ := ((), true)
  recv _ n := ((), some (List.replicate n 0))

/-- An answer with length 0 in its header has been received after the first call. -/
example : (netDev floodingNet 65542 1).read ⟨(), .absent, 0⟩ 40000 3 = (⟨(), .absent, 1⟩, .ok (some [])) := by decide +kernel

/-- A port with a device that announces model 901 with 2 registers, whatever it is asked for: it answers the first request with
three registers and the following ones with one. -/
def announcingPort : Port (Nat × Bytes) where
  flush s := (s.1, [])
  write s _ := ((s.1 + 1, rtuFrame 1 (if s.1 = 0 then [3, 6, 0x53, 0x75, 0x6e, 0x53, 0x03, 0x85] else [3, 2, 0, 2])), true)
  read s n := ((s.1, s.2.drop n), s.2.take n)

/-- C91 without the proviso about definitions. -/
def C91_full : Prop :=
  ∀ {τ : Type} (p : Port τ) (N : Nat), 260 < N → ∀ (sid : Int) (lib : Int → Py ModelType) (prog : List MdlObj → Int → Bool)
    (c : CliDev (Waited τ)), ∃ F, (scan F (portDev p N sid) lib prog c).2 ≠ .error .diverge

/-- C91 is violated by definitions whose repeating block has no registers: the scan never ends (after a few waits). -/
theorem C91_violated : ¬ C91_full := by
  intro h
  obtain ⟨F, hF⟩ := h announcingPort 261 (by decide) 1 (fun _ => .ok zeroRep) (fun _ _ => true) ⟨⟨(0, []), 0⟩, none, [40000], [], []⟩
  apply hF
  have hl : scanLoad (.ok zeroRep) (mdlNew 901 40004 2) = .error .diverge := by
    have hz : (mdlLoad (.ok zeroRep) (mdlNew 901 40004 2)).2 = .error .diverge :=
      C29_violated_general zeroRep ⟨true, .str (t!"0"), t!"repeating", []⟩ 901 40004 2 1 0
        ⟨by decide, by intro rb h t ht; simp [zeroRep] at h; subst h; simp [dataPoints] at ht⟩
        (by decide) rfl (by decide) (by decide) (by decide) (by decide) _
    unfold scanLoad
    generalize mdlLoad (.ok zeroRep) (mdlNew 901 40004 2) = q at hz
    obtain ⟨m', r⟩ := q
    dsimp only at hz
    subst hz
    rfl
  have h1 : cdRead (portDev announcingPort 261 1).toMbDev ⟨(0, []), 0⟩ 40000 3 =
      (⟨(1, []), 2⟩, .ok (some [0x53, 0x75, 0x6e, 0x53, 0x03, 0x85])) := by decide +kernel
  have h2 : cdRead (portDev announcingPort 261 1).toMbDev ⟨(1, []), 2⟩ 40003 1 = (⟨(2, []), 4⟩, .ok (some [0, 2])) := by decide +kernel
  have hp : probe (portDev announcingPort 261 1).toMbDev [40000] ⟨(0, []), 0⟩ =
      (⟨(1, []), 2⟩, .ok (some (40000, [0x53, 0x75, 0x6e, 0x53, 0x03, 0x85]))) := by
    rw [probe, h1]
    rfl
  have hs : scan F (portDev announcingPort 261 1) (fun _ => .ok zeroRep) (fun _ _ => true) ⟨⟨(0, []), 0⟩, none, [40000], [], []⟩ =
      scanLoop (portDev announcingPort 261 1).toMbDev (fun _ => .ok zeroRep) (fun _ _ => true) F 901 40002
        ⟨⟨(1, []), 2⟩, some 40000, [40000], [], []⟩ := by
    show scanBody F (portDev announcingPort 261 1).toMbDev (fun _ => .ok zeroRep) (fun _ _ => true) ⟨⟨(0, []), 0⟩, none, [40000], [], []⟩ = _
    unfold scanBody
    dsimp only
    rw [hp]
    dsimp only
    unfold scanFrom
    rw [show wordOf (some (List.take 2 (List.drop 4 ([0x53, 0x75, 0x6e, 0x53, 3, 0x85] : Bytes)))) = some 901 by decide +kernel]
    dsimp only
    rw [show (40000 + 2 : Int) = 40002 by decide]
  rw [hs]
  cases F with
  | zero => rfl
  | succ F =>
    rw [scanLoop, if_neg (by decide)]
    have e : (40002 : Int) + 1 = 40003 := rfl
    have e' : (40002 : Int) + 2 = 40004 := rfl
    dsimp only
    rw [e, e', h2]
    dsimp only
    have hw : wordOf (some [0, 2]) = some 2 := by decide
    rw [hw]
    dsimp only
    rw [hl]
    rfl

end Verif
