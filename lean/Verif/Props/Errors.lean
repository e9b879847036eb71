import Verif.Lemmas.Errors

/-!
# C69, C70: exceptions; silent devices
-/

namespace Verif
open Spec

/-! ## C69: which exceptions reach the caller -/

/-- C69 as stated: whatever the device does, reading and writing models and scanning raise `SunSpecClientError` or nothing. -/
def C69_full : Prop :=
  (∀ (σ : Type) (slave : Slave σ) (sid : Byte) (l : Line σ) (m : MdlObj), PointsFit m → Addressable m → Sendable m →
    OnlyClient (readPoints (rtuDev slave sid.toNat) l m).2.2 ∧ OnlyClient (writePoints (rtuDev slave sid.toNat) l m).2.2) ∧
  (∀ (σ : Type) (srv : TcpServer σ) (sid : Byte) (t : Tcp σ) (m : MdlObj), PointsFit m → Addressable m → Sendable m →
    OnlyClient (readPoints (tcpDev srv sid.toNat) t m).2.2 ∧ OnlyClient (writePoints (tcpDev srv sid.toNat) t m).2.2) ∧
  (∀ (σ : Type) (slave : Slave σ) (sid : Byte) (l : Line σ) (lib : Int → Py ModelType) (prog : List MdlObj → Int → Bool), Definitions lib →
    ∃ N, ∀ fuel, N ≤ fuel → OnlyClient (scan fuel (rtuScanDev slave sid.toNat) lib prog { st := l }).2) ∧
  (∀ (σ : Type) (srv : TcpServer σ) (sid : Byte) (t : Tcp σ) (lib : Int → Py ModelType) (prog : List MdlObj → Int → Bool), Definitions lib →
    ∃ N, ∀ fuel, N ≤ fuel → OnlyClient (scan fuel (tcpScanDev srv sid.toNat) lib prog { st := t }).2)

theorem byte_sid (sid : Byte) : 0 ≤ (sid.toNat : Int) ∧ (sid.toNat : Int) < 256 := by
  have := sid.isLt
  omega

theorem rtu_readErrs {σ} (slave : Slave σ) (sid : Byte) :
    ReadErrs (rtuDev slave sid.toNat) (fun a n => 0 ≤ a ∧ a + n ≤ 65536) (fun _ => False) True := by
  refine ⟨fun s a n e hP h => ?_, fun _ _ _ _ => trivial⟩
  have h' : (rtuRead slave s sid.toNat 3 a n.toNat 125).2 = .error e := h
  unfold rtuRead at h'
  by_cases hn : 0 < n
  · rcases rtuReadF_err slave _ _ (byte_sid sid) (by omega) _ _ _ _ _ _ (by omega) h' with h | ⟨_, h⟩
    · exact .inl h
    · exfalso; omega
  · have : n.toNat = 0 := by omega
    rw [this, rtuReadF, if_neg (by omega)] at h'
    cases h'

theorem rtu_readErrs_any {σ} (slave : Slave σ) (sid : Byte) :
    ReadErrs (rtuDev slave sid.toNat) (fun _ _ => True) (fun e => e = .structError) True := by
  refine ⟨fun s a n e _ h => ?_, fun _ _ _ _ => trivial⟩
  rcases rtuReadF_err slave _ _ (byte_sid sid) (by omega) _ _ _ _ _ _ (by omega) h with h | ⟨h, _⟩
  · exact .inl h
  · exact .inr h

theorem map_some_err {α} (r : Py α) (e : Exc) (h : r.map some = .error e) : r = .error e := by
  cases r with
  | error e1 => cases h; rfl
  | ok a => cases h

theorem map_some_none {α} (r : Py α) (h : r.map some = .ok none) : False := by
  cases r with
  | error e1 => cases h
  | ok a => cases h

theorem tcp_readErrs_gen {σ} (srv : TcpServer σ) (sid : Byte) (s : Tcp σ) (a n : Int) (e : Exc) (h : ((tcpDev srv sid.toNat).read s a n).2 = .error e) :
    e.isModbusClient = true ∨ e = .socketTimeout ∨ (e = .structError ∧ 0 < n ∧ (a < 0 ∨ 65536 < a + n)) := by
  have h' : (tcpRead srv s sid.toNat 3 a n.toNat 125).2 = .error e := map_some_err _ _ h
  unfold tcpRead at h'
  rcases tcpWith_err _ _ _ _ h' with rfl | ⟨t1, h'⟩
  · exact .inl rfl
  · by_cases hn : 0 < n
    · rcases tcpReadF_err srv _ _ (byte_sid sid) (by omega) _ _ _ _ _ _ (by omega) h' with h | h | ⟨h1, h2⟩
      · exact .inl h
      · exact .inr (.inl h)
      · exact .inr (.inr ⟨h1, hn, by omega⟩)
    · have : n.toNat = 0 := by omega
      rw [this, tcpReadF, if_neg (by omega)] at h'
      cases h'

theorem tcp_readErrs {σ} (srv : TcpServer σ) (sid : Byte) :
    ReadErrs (tcpDev srv sid.toNat) (fun a n => 0 ≤ a ∧ a + n ≤ 65536) (fun e => e = .socketTimeout) False := by
  refine ⟨fun s a n e hP h => ?_, fun s a n h => map_some_none _ h⟩
  rcases tcp_readErrs_gen srv sid s a n e h with h | h | ⟨_, _, h⟩
  · exact .inl h
  · exact .inr h
  · exfalso; omega

theorem tcp_readErrs_any {σ} (srv : TcpServer σ) (sid : Byte) :
    ReadErrs (tcpDev srv sid.toNat) (fun _ _ => True) (fun e => e = .socketTimeout ∨ e = .structError) False := by
  refine ⟨fun s a n e hP h => ?_, fun s a n h => map_some_none _ h⟩
  rcases tcp_readErrs_gen srv sid s a n e h with h | h | ⟨h, _, _⟩
  · exact .inl h
  · exact .inr (.inl h)
  · exact .inr (.inr h)

/-- C69 for reads over Modbus RTU, the part that holds: whatever the slave does, `read_points` raises `SunSpecClientError` or
`TypeError` (the latter for an empty reply in a model that is read in several parts, see `C69_type_error`). -/
theorem C69_rtu_read_partial {σ} (slave : Slave σ) (sid : Byte) (l : Line σ) (m : MdlObj) (hm : PointsFit m) (ha : Addressable m) (e : Exc)
    (h : (readPoints (rtuDev slave sid.toNat) l m).2.2 = .error e) : e = .sunSpecClientError ∨ e = .typeError := by
  rcases readPoints_err (rtu_readErrs slave sid) l m hm ha e h with h | h | h
  · exact .inl h
  · exact absurd h id
  · exact .inr h.1

theorem readPoints_client {σ} {dev : MbDev σ} {P} (hd : ReadErrs dev P (fun _ => False) True) (s : σ) (m : MdlObj) (hm : PointsFit m)
    (hP : ∀ c ∈ readPlan m, P c.1 c.2) (h1 : m.readBlocks.length = 1) : OnlyClient (readPoints dev s m).2.2 := by
  intro e h
  unfold readPoints at h
  by_cases hn : m.mtype = none
  · rw [if_pos hn] at h; cases h
  · rw [if_neg hn] at h
    unfold readData at h
    rw [if_pos h1] at h
    have := fun e => cdRead_errs hd s m.addr m.len e (hP (m.addr, m.len) (by unfold readPlan; rw [if_pos h1]; simp))
    cases hx : cdRead dev s m.addr m.len with
    | mk s1 r1 =>
      rw [hx] at h this
      cases r1 with
      | error e1 =>
        rcases this e1 rfl with h2 | h2
        · subst h2
          have h : rpWrap (.error .sunSpecClientError) = .error e := h
          cases h
          rfl
        · exact absurd h2 id
      | ok d =>
        dsimp only at h
        rcases readApply_total m hm d with ⟨h2, _⟩ | h2
        · rw [h2] at h
          cases h
          rfl
        · rw [h2] at h; cases h

/-- C69 for models that are read at once (up to 125 registers): only `SunSpecClientError`. -/
theorem C69_rtu_small_partial {σ} (slave : Slave σ) (sid : Byte) (l : Line σ) (m : MdlObj) (hm : PointsFit m) (ha : Addressable m)
    (h1 : m.readBlocks.length = 1) : OnlyClient (readPoints (rtuDev slave sid.toNat) l m).2.2 :=
  readPoints_client (rtu_readErrs slave sid) l m hm ha h1

/-- C69 for reads over Modbus TCP: `SunSpecClientError` or `socket.timeout`. -/
theorem C69_tcp_read_partial {σ} (srv : TcpServer σ) (sid : Byte) (t : Tcp σ) (m : MdlObj) (hm : PointsFit m) (ha : Addressable m) (e : Exc)
    (h : (readPoints (tcpDev srv sid.toNat) t m).2.2 = .error e) : e = .sunSpecClientError ∨ e = .socketTimeout := by
  rcases readPoints_err (tcp_readErrs srv sid) t m hm ha e h with h | h | h
  · exact .inl h
  · exact .inr h
  · exact absurd h.2 id

/-- C69 for reads of all models of a device. -/
theorem C69_device_read_partial {σ τ} (slave : Slave σ) (srv : TcpServer τ) (sid : Byte) (ms : List MdlObj) (hm : ∀ m ∈ ms, PointsFit m ∧ Addressable m) (e : Exc) :
    (∀ l, (readModels (rtuDev slave sid.toNat) ms l).2.2 = .error e → e = .sunSpecClientError ∨ e = .typeError) ∧
    (∀ t, (readModels (tcpDev srv sid.toNat) ms t).2.2 = .error e → e = .sunSpecClientError ∨ e = .socketTimeout) := by
  refine ⟨fun l h => ?_, fun t h => ?_⟩
  · rcases readModels_err (rtu_readErrs slave sid) ms l e hm h with h | h | h
    · exact .inl h
    · exact absurd h id
    · exact .inr h.1
  · rcases readModels_err (tcp_readErrs srv sid) ms t e hm h with h | h | h
    · exact .inl h
    · exact .inr h
    · exact absurd h.2 id

theorem rtu_writeErrs {σ} (slave : Slave σ) (sid : Byte) : WriteErrs (rtuDev slave sid.toNat) (fun _ _ => True) (fun e => e = .structError) := by
  intro s a d e _ h
  exact rtuWriteF_err slave _ _ _ _ _ _ (by omega) h

theorem tcp_writeErrs {σ} (srv : TcpServer σ) (sid : Byte) : WriteErrs (tcpDev srv sid.toNat) (fun a n => 0 ≤ a ∧ a < 65536 ∧ 0 < n)
    (fun e => e = .socketTimeout ∨ e = .unboundLocal) := by
  intro s a d e hP h
  have h' : (tcpWrite srv s sid.toNat a d 125).2 = .error e := h
  unfold tcpWrite at h'
  rcases tcpWith_err _ _ _ _ h' with rfl | ⟨t1, h'⟩
  · exact .inl rfl
  · rcases tcpWriteF_err srv _ _ (byte_sid sid) ⟨hP.1, hP.2.1⟩ _ _ _ h' with h | h | ⟨h, _⟩
    · exact .inl h
    · exact .inr (.inl h)
    · exact .inr (.inr h)

/-- C69 for writes over Modbus RTU: `SunSpecClientError` or `struct.error` (`C69_struct_error`). -/
theorem C69_rtu_write_partial {σ} (slave : Slave σ) (sid : Byte) (l : Line σ) (m : MdlObj) (hp : Sendable m) (e : Exc)
    (h : (writePoints (rtuDev slave sid.toNat) l m).2.2 = .error e) : e = .sunSpecClientError ∨ e = .structError :=
  writePoints_err _ (fun _ _ _ _ _ => trivial) (rtu_writeErrs slave sid) m l hp e h

/-- C69 for writes over Modbus TCP: `SunSpecClientError`, `socket.timeout`, or `UnboundLocalError` (for runs of more than 125
registers, C18). -/
theorem C69_tcp_write_partial {σ} (srv : TcpServer σ) (sid : Byte) (t : Tcp σ) (m : MdlObj) (hp : Sendable m) (e : Exc)
    (h : (writePoints (tcpDev srv sid.toNat) t m).2.2 = .error e) : e = .sunSpecClientError ∨ e = .socketTimeout ∨ e = .unboundLocal :=
  writePoints_err _ (fun a n h1 h2 h3 => by refine ⟨h1, ?_, ?_⟩ <;> omega) (tcp_writeErrs srv sid) m t hp e h

/-- C69 for scans over Modbus RTU: whatever the slave does, the scan ends, and raises `SunSpecClientError`, `TypeError` or
`struct.error`. -/
theorem C69_rtu_scan_partial {σ} (slave : Slave σ) (sid : Byte) (bases : List Int) :
    ∃ N, ∀ (lib : Int → Py ModelType), Definitions lib → ∀ (prog : List MdlObj → Int → Bool) (c : CliDev (Line σ)), c.bases = bases → c.base = none →
      ∀ fuel, N ≤ fuel → ∀ e, (scan fuel (rtuScanDev slave sid.toNat) lib prog c).2 = .error e →
        e = .sunSpecClientError ∨ e = .typeError ∨ e = .structError := by
  obtain ⟨N, hN⟩ := C39_rtu_partial slave sid.toNat bases
  refine ⟨N, fun lib hlib prog c hc hb fuel hf e h => ?_⟩
  obtain ⟨h1, h2⟩ := hN lib hlib prog c hc
  rw [h2 fuel hf] at h
  have h' : (scanBody N (rtuDev slave sid.toNat) lib prog c).2 = .error e := h
  rcases scanBody_err (rtu_readErrs_any slave sid) lib prog N c e h' with h3 | h3 | h3 | h3 | h3 | h3
  · exact .inl h3
  · exact .inr (.inr h3)
  · subst h3; exact absurd h h1
  · exact .inr (.inl h3.1)
  · exact .inr (.inr h3)
  · exact absurd hb h3.2

/-- C69 for scans over Modbus TCP: the scan ends, and raises `SunSpecClientError`, `socket.timeout`, `struct.error`, or
`ModbusClientError` if the connection could not be made. -/
theorem C69_tcp_scan_partial {σ} (srv : TcpServer σ) (sid : Byte) (bases : List Int) :
    ∃ N, ∀ (lib : Int → Py ModelType), Definitions lib → ∀ (prog : List MdlObj → Int → Bool) (c : CliDev (Tcp σ)), c.bases = bases → c.base = none →
      ∀ fuel, N ≤ fuel → ∀ e, (scan fuel (tcpScanDev srv sid.toNat) lib prog c).2 = .error e →
        e = .sunSpecClientError ∨ e = .socketTimeout ∨ e = .structError ∨ (e = .modbusClientError ∧ (tcpConnect srv c.st).2 = .error .modbusClientError) := by
  obtain ⟨N, hN⟩ := C39_tcp_partial srv sid.toNat bases
  refine ⟨N, fun lib hlib prog c hc hb fuel hf e h => ?_⟩
  obtain ⟨h1, h2⟩ := hN lib hlib prog c hc
  rw [h2 fuel hf] at h
  have hcon : ∀ e, (tcpConnect srv c.st).2 = .error e → e = .modbusClientError := by
    intro e h
    unfold tcpConnect at h
    dsimp only at h
    split at h
    · cases h
    · cases h; rfl
  have hs : scan N (tcpScanDev srv sid.toNat) lib prog c =
      match tcpConnect srv c.st with
      | (s, .error e) => ({ c with st := s }, .error e)
      | (s, .ok _) => scanEnd tcpDisconnect (scanBody N (tcpDev srv sid.toNat) lib prog { c with st := s }) := by
    unfold scan tcpScanDev
    dsimp only
    generalize tcpConnect srv c.st = X
    obtain ⟨s, r⟩ := X
    cases r <;> rfl
  cases hx : tcpConnect srv c.st with
  | mk s r =>
    rw [hs, hx] at h
    cases r with
    | error e1 =>
      rw [hx] at hcon
      have := hcon e1 rfl
      subst this
      cases h
      exact .inr (.inr (.inr ⟨rfl, rfl⟩))
    | ok u =>
      dsimp only at h
      have hb' : (scanBody N (tcpDev srv sid.toNat) lib prog { c with st := s }).2 = .error e := by
        revert h
        generalize scanBody N (tcpDev srv sid.toNat) lib prog { c with st := s } = X
        obtain ⟨c', r'⟩ := X
        cases r' with
        | error e' => intro h; exact h
        | ok u => intro h; cases h
      rcases scanBody_err (tcp_readErrs_any srv sid) lib prog N _ e hb' with h3 | h3 | h3 | h3 | h3 | h3
      · exact .inl h3
      · rcases h3 with h3 | h3
        · exact .inr (.inl h3)
        · exact .inr (.inr (.inl h3))
      · subst h3
        rw [hs, hx] at h1
        exact absurd h h1
      · exact absurd h3.2 id
      · exact .inr (.inr (.inl h3))
      · exact absurd hb h3.2

/-- A loaded model asks only for its own registers. -/
theorem C69_addressable (fuel : Nat) (mt : ModelType) (id addr len : Int) (m : MdlObj)
    (h : loadWith fuel (.ok mt) (mdlNew id addr len) = (m, .ok ()))
    (hof : ∀ F, mt.fixed.len.toInt = .ok F → BlockOrdered mt.fixed (fixedLen id m.len F) ∧ 0 ≤ fixedLen id m.len F)
    (hor : ∀ rb R, mt.rep = some rb → rb.len.toInt = .ok R → BlockOrdered rb R ∧ 0 ≤ R) (ha : 0 ≤ addr ∧ addr + m.len ≤ 65536) :
    Addressable m := by
  have h1 := C31_cover fuel mt id addr len m h
  have h2 := (C31_whole fuel mt id addr len m h hof hor).1
  have key : ∀ (cs : List (Int × Int)) (a b : Int), Tiles a b cs → (∀ c ∈ cs, 0 ≤ c.2) → a ≤ b ∧ ∀ c ∈ cs, a ≤ c.1 ∧ c.1 + c.2 ≤ b := by
    intro cs
    induction cs with
    | nil => intro a b h _; exact ⟨Int.le_of_eq h, by simp⟩
    | cons c cs ih =>
      obtain ⟨x, n⟩ := c
      intro a b h hn
      obtain ⟨rfl, h⟩ := h
      have hn0 := hn (x, n) (by simp)
      obtain ⟨h3, h4⟩ := ih _ _ h (fun c hc => hn c (by simp [hc]))
      dsimp only at hn0
      refine ⟨by omega, fun c hc => ?_⟩
      rcases List.mem_cons.1 hc with rfl | hc
      · dsimp only; omega
      · have := h4 c hc; omega
  intro c hc
  have := (key _ _ _ h1 h2).2 c hc
  omega

theorem exModel_addressable : Addressable exModel := by
  unfold Addressable
  rw [exModel_plan]
  decide

theorem exModel_fit : PointsFit exModel := C68_models (.ok exType) 900 40002 7 (fun t h => by cases h; exact exType_fits _)

/-- A server that accepts connections and then says nothing. -/
def muteServer : TcpServer Unit := ⟨fun _ => ((), true), fun _ _ => ((), some [])⟩

theorem exModel_sendable : Sendable exModel := by
  intro b hb p hp hd
  have h : ∀ b ∈ exModel.blocks, ∀ p ∈ b.pts, p.dirty = false := by decide +kernel
  rw [h b hb p hp] at hd
  cases hd

/-- C69: a TCP device that does not answer raises `socket.timeout`, which is not a `SunSpecClientError`. -/
theorem C69_timeout : (readPoints (tcpDev muteServer 1) (freshTcp ()) exModel).2.2 = .error .socketTimeout := by decide +kernel

theorem C69_violated : ¬ C69_full := by
  intro h
  have := (h.2.1 Unit muteServer 1 (freshTcp ()) exModel exModel_fit exModel_addressable exModel_sendable).1 .socketTimeout C69_timeout
  cases this

/-- Non-vacuity: `SunSpecClientError` it is when the server closes the connection. -/
example : (readPoints (tcpDev ⟨fun _ => ((), true), fun _ _ => ((), some [[]])⟩ 1) (freshTcp ()) exModel).2.2 = .error .sunSpecClientError := by decide +kernel

/-- C69: an exception reply with code 0 to a write over RTU gives `struct.error`. -/
theorem C69_struct_error :
    (writePoints (rtuDev (constSlave (rtuFrame 1 [0x90, 0])) 1) ⟨(), []⟩
      { exModel with blocks := [⟨exType.fixed, 40002, 3, 0, [{ pt := { id := t!"a", type := .uint16, offset := 0, len := 1 }, addr := 40002, base := some (.int 5), dirty := true }], []⟩] }).2.2
      = .error .structError := by decide +kernel

/-- A definition of 130 registers. -/
def wideType : ModelType :=
  { exType with rep := none, len := 130, fixed := ⟨false, .int 130, t!"fixed", [{ id := t!"a", type := .string, offset := 0, len := 100 }, { id := t!"b", type := .string, offset := 100, len := 30 }]⟩ }

/-- C69: an empty reply over RTU in a model of more than 125 registers gives `TypeError`. -/
theorem C69_type_error :
    (mdlLoad (.ok wideType) (mdlNew 900 40002 130)).2 = .ok () ∧
    (readPoints (rtuDev (constSlave (rtuFrame 1 [3, 0])) 1) ⟨(), []⟩ (mdlLoad (.ok wideType) (mdlNew 900 40002 130)).1).2.2 = .error .typeError := by
  decide +kernel

/-- C69: scanning a device whose server refuses connections raises `ModbusClientError`. -/
theorem C69_refused :
    (scan 9 (tcpScanDev (⟨fun _ => ((), false), fun _ _ => ((), none)⟩ : TcpServer Unit) 1) (fun _ => .error .sunSpecError) (fun _ _ => true) { st := freshTcp () }).2
      = .error .modbusClientError := by decide +kernel


/-! ## C70: devices that do not answer -/

/-- A device that answers no request (in the states `I`). -/
structure SilentDev {σ} (dev : MbDev σ) (I : σ → Prop) : Prop where
  keeps : ∀ s a n, I s → I (dev.read s a n).1
  read : ∀ s a n, I s → 0 < n → ∃ e, (dev.read s a n).2 = .error e
  empty : ∀ s a n, n ≤ 0 → (dev.read s a n).2 = .ok (some []) ∨ ∃ e, (dev.read s a n).2 = .error e
  write : ∀ s a d, I s → d ≠ [] → ∃ e, (dev.write s a d).2 = .error e

theorem flatten_received {chunks : List Bytes} (h : chunks.flatten = []) : received chunks = [] := by
  cases chunks with
  | nil => rfl
  | cons c cs =>
    have : c = [] := by simp at h; exact h.1
    subst this
    rfl

theorem silent_read1 {σ} (slave : Slave σ) (hs : SilentRtu slave) (l : Line σ) (sid op addr count : Int) :
    ∃ e, (rtuRead1 slave l sid op addr count).2 = .error e := by
  rw [rtuRead1_eq]
  split
  · dsimp only
    rcases hs l.dev (rtuFrame (BitVec.ofNat 8 sid.toNat) (readPdu (BitVec.ofNat 8 op.toNat) addr.toNat count.toNat)) with h | ⟨chunks, h1, h2⟩
    · rw [h]; exact ⟨_, rfl⟩
    · rw [h1, Option.map_some, flatten_received h2]; exact ⟨_, rfl⟩
  · exact ⟨_, rfl⟩

theorem silent_write1 {σ} (slave : Slave σ) (hs : SilentRtu slave) (l : Line σ) (sid addr : Int) (data : Bytes) :
    ∃ e, (rtuWrite1 slave l sid addr data).2 = .error e := by
  rw [rtuWrite1_eq]
  split
  · dsimp only
    rcases hs l.dev (rtuFrame (BitVec.ofNat 8 sid.toNat) (writePdu addr.toNat data)) with h | ⟨chunks, h1, h2⟩
    · rw [h]; exact ⟨_, rfl⟩
    · rw [h1, Option.map_some, flatten_received h2]; exact ⟨_, rfl⟩
  · exact ⟨_, rfl⟩

theorem silent_rtu {σ} (slave : Slave σ) (hs : SilentRtu slave) (sid : Int) : SilentDev (rtuDev slave sid) (fun _ => True) := by
  refine ⟨fun _ _ _ _ => trivial, fun s a n _ hn => ?_, fun s a n hn => ?_, fun s a d _ hd => ?_⟩
  · show ∃ e, (rtuRead slave s sid 3 a n.toNat 125).2 = .error e
    unfold rtuRead
    rw [rtuReadF, if_pos (by omega)]
    dsimp only
    obtain ⟨e, h⟩ := silent_read1 slave hs s sid 3 a (if n.toNat > 125 then 125 else n.toNat : Nat)
    cases hr : rtuRead1 slave s sid 3 a (if n.toNat > 125 then 125 else n.toNat : Nat) with
    | mk s1 r =>
      rw [hr] at h
      cases h
      exact ⟨e, rfl⟩
  · left
    show (rtuRead slave s sid 3 a n.toNat 125).2 = _
    unfold rtuRead
    rw [rtuReadF, if_neg (by omega)]
  · show ∃ e, (rtuWrite slave s sid a d 125).2 = .error e
    have hl : 0 < d.length := List.length_pos_iff.2 hd
    unfold rtuWrite
    rw [rtuWriteF, if_pos hl]
    dsimp only
    obtain ⟨e, h⟩ := silent_write1 slave hs s sid a (d.take (if d.length > 2 * 125 then 2 * 125 else d.length))
    cases hr : rtuWrite1 slave s sid a (d.take (if d.length > 2 * 125 then 2 * 125 else d.length)) with
    | mk s1 r =>
      rw [hr] at h
      cases h
      exact ⟨e, rfl⟩

/-- Nothing can be received before the connection is closed. -/
def Deaf {σ} (t : Tcp σ) : Prop := ∀ p, t.sock = .connected p → (stream p).1 = []

theorem stream_append_deaf {p chunks : List Bytes} (h1 : (stream p).1 = []) (h2 : chunks.flatten = []) : (stream (p ++ chunks)).1 = [] := by
  cases p with
  | nil => exact flatten_received h2
  | cons c cs =>
    cases c with
    | nil => rfl
    | cons x c => simp [stream, received] at h1

theorem silent_exchange {σ} (srv : TcpServer σ) (hs : SilentTcp srv) (ce : Exc) (t : Tcp σ) (ht : Deaf t) (req : Bytes) :
    Deaf (tcpExchange srv ce t req).1 ∧ ∃ e, (tcpExchange srv ce t req).2 = .error e := by
  cases hk : t.sock with
  | absent => unfold tcpExchange; rw [hk]; exact ⟨(by intro p hp; rw [hk] at hp; cases hp), _, rfl⟩
  | unconnected => unfold tcpExchange; rw [hk]; exact ⟨(by intro p hp; rw [hk] at hp; cases hp), _, rfl⟩
  | connected p =>
    obtain ⟨p', h1, h2⟩ := tcpExchange_eq srv ce t p hk req
    rw [h1]
    have hp := ht p hk
    rcases hs t.dev req with h | ⟨chunks, h3, h4⟩
    · rw [h] at h2 ⊢
      refine ⟨?_, _, rfl⟩
      intro q hq
      have hq : p' = q := by simpa using hq
      subst hq
      dsimp only at h2
      rw [h2]; exact hp
    · rw [h3] at h2 ⊢
      dsimp only at h2 ⊢
      have h5 := stream_append_deaf hp h4
      refine ⟨?_, ?_⟩
      · intro q hq
        have hq : p' = q := by simpa using hq
        subst hq
        rw [h2, h5]; rfl
      · rw [h5, tcpFlat_eq, if_pos (by unfold tcpFrameLen; simp)]
        exact ⟨_, rfl⟩

theorem silent_tcpReadF {σ} (srv : TcpServer σ) (hs : SilentTcp srv) (sid op : Int) (fuel : Nat) (a : Int) (n : Nat) (resp : Bytes) (t : Tcp σ) (ht : Deaf t) :
    Deaf (tcpReadF srv sid op 125 fuel a n resp t).1 ∧ (0 < n → ∃ e, (tcpReadF srv sid op 125 fuel a n resp t).2 = .error e) ∧
    (n = 0 → (tcpReadF srv sid op 125 (fuel + 1) a n resp t).2 = .ok resp) := by
  cases fuel with
  | zero =>
    refine ⟨ht, fun _ => ⟨_, rfl⟩, fun h => ?_⟩
    subst h
    rw [tcpReadF, if_neg (by omega)]
  | succ fuel =>
    refine ⟨?_, ?_, fun h => ?_⟩
    · rw [tcpReadF]
      split
      · dsimp only
        have h1 : ∀ k : Int, Deaf (tcpRead1 srv t sid op a k).1 ∧ ∃ e, (tcpRead1 srv t sid op a k).2 = .error e := by
          intro k
          unfold tcpRead1
          generalize packTcpRead sid op a k = r
          cases r with
          | error e => exact ⟨ht, e, rfl⟩
          | ok req =>
            obtain ⟨h1, e, h2⟩ := silent_exchange srv hs .modbusClientError t ht req
            rw [andThen_ok, andThen_raised _ _ _ h2]
            exact ⟨h1, e, rfl⟩
        obtain ⟨h2, e, h3⟩ := h1 ((if n > 125 then 125 else n : Nat) : Int)
        rw [andThen_raised _ _ _ h3]
        exact h2
      · exact ht
    · intro hn
      rw [tcpReadF, if_pos hn]
      dsimp only
      have h1 : ∀ k : Int, ∃ e, (tcpRead1 srv t sid op a k).2 = .error e := by
        intro k
        unfold tcpRead1
        generalize packTcpRead sid op a k = r
        cases r with
        | error e => exact ⟨e, rfl⟩
        | ok req =>
          obtain ⟨h1, e, h2⟩ := silent_exchange srv hs .modbusClientError t ht req
          rw [andThen_ok, andThen_raised _ _ _ h2]
          exact ⟨e, rfl⟩
      obtain ⟨e, h3⟩ := h1 ((if n > 125 then 125 else n : Nat) : Int)
      rw [andThen_raised _ _ _ h3]
      exact ⟨e, rfl⟩
    · subst h
      rw [tcpReadF, if_neg (by omega)]

theorem deaf_disconnect {σ} (t : Tcp σ) : Deaf (tcpDisconnect t) := by
  intro p hp
  unfold tcpDisconnect at hp
  cases hk : t.sock with
  | absent => rw [hk] at hp; dsimp only at hp; rw [hk] at hp; cases hp
  | unconnected => rw [hk] at hp; cases hp
  | connected q => rw [hk] at hp; cases hp

theorem silent_with {σ α} (srv : TcpServer σ) (t : Tcp σ) (ht : Deaf t) (body : Tcp σ → Tcp σ × Py α) (hb : ∀ t, Deaf t → Deaf (body t).1) :
    Deaf (tcpWith srv t body).1 ∧ ((∀ t, Deaf t → ∃ e, (body t).2 = .error e) → ∃ e, (tcpWith srv t body).2 = .error e) ∧
    (∀ a, (∀ t, (body t).2 = .ok a) → (tcpWith srv t body).2 = .ok a ∨ ∃ e, (tcpWith srv t body).2 = .error e) := by
  have hnew : Deaf ({ t with dev := (srv.accept t.dev).1, sock := .connected [], opened := t.opened + 1 } : Tcp σ) := by
    intro p hp
    have : [] = p := by simpa using hp
    subst this
    rfl
  by_cases hs : t.sock = .absent
  · cases ha : (srv.accept t.dev).2 with
    | false =>
      rw [tcpWith_refused _ _ _ hs ha]
      refine ⟨?_, fun _ => ⟨_, rfl⟩, fun _ _ => .inr ⟨_, rfl⟩⟩
      intro p hp; cases hp
    | true =>
      rw [tcpWith_absent _ _ _ hs ha]
      exact ⟨deaf_disconnect _, fun h => h _ hnew, fun a h => .inl (h _)⟩
  · rw [tcpWith_present _ _ _ hs]
    exact ⟨hb t ht, fun h => h t ht, fun a h => .inl (h t)⟩

theorem silent_tcp {σ} (srv : TcpServer σ) (hs : SilentTcp srv) (sid : Int) : SilentDev (tcpDev srv sid) Deaf := by
  refine ⟨fun s a n hI => ?_, fun s a n hI hn => ?_, fun s a n hn => ?_, fun s a d hI hd => ?_⟩
  · show Deaf (tcpRead srv s sid 3 a n.toNat 125).1
    unfold tcpRead
    exact (silent_with srv s hI _ (fun t ht => (silent_tcpReadF srv hs sid 3 _ a n.toNat [] t ht).1)).1
  · show ∃ e, (tcpRead srv s sid 3 a n.toNat 125).2.map some = .error e
    unfold tcpRead
    obtain ⟨e, h⟩ := (silent_with srv s hI _ (fun t ht => (silent_tcpReadF srv hs sid 3 _ a n.toNat [] t ht).1)).2.1
      (fun t ht => (silent_tcpReadF srv hs sid 3 (n.toNat + 1) a n.toNat [] t ht).2.1 (by omega))
    rw [h]
    exact ⟨e, rfl⟩
  · show (tcpRead srv s sid 3 a n.toNat 125).2.map some = _ ∨ ∃ e, (tcpRead srv s sid 3 a n.toNat 125).2.map some = .error e
    unfold tcpRead
    have h0 : n.toNat = 0 := by omega
    rw [h0]
    have hb : ∀ t : Tcp σ, tcpReadF srv sid 3 125 (0 + 1) a 0 [] t = (t, .ok []) := fun t => by rw [tcpReadF, if_neg (by omega)]
    have hbody : tcpReadF srv sid 3 125 (0 + 1) a 0 [] = fun t => (t, .ok []) := funext hb
    rw [hbody]
    by_cases hk : s.sock = .absent
    · cases ha : (srv.accept s.dev).2 with
      | false => rw [tcpWith_refused _ _ _ hk ha]; exact .inr ⟨_, rfl⟩
      | true => rw [tcpWith_absent _ _ _ hk ha]; exact .inl rfl
    · rw [tcpWith_present _ _ _ hk]; exact .inl rfl
  · show ∃ e, (tcpWrite srv s sid a d 125).2 = .error e
    unfold tcpWrite
    have h1 : ∀ t, Deaf t → ∃ e, (tcpWriteF srv sid a 125 d (d.length + 1) 0 none t).2 = .error e := by
      intro t ht
      by_cases hl : d.length ≤ 2 * 125
      · rw [tcpWriteF_short srv t sid a d 125 hl, if_neg hd]
        unfold tcpWrite1
        generalize packTcpWrite sid a (d.length / 2 : Nat) d.length = r
        cases r with
        | error e => exact ⟨e, rfl⟩
        | ok req =>
          obtain ⟨_, e, h2⟩ := silent_exchange srv hs .modbusClientTimeout t ht (req ++ d)
          rw [andThen_ok, andThen_raised _ _ _ h2]
          exact ⟨e, rfl⟩
      · rw [tcpWriteF_long srv t sid a d 125 (by omega)]
        exact ⟨_, rfl⟩
    by_cases hk : s.sock = .absent
    · cases ha : (srv.accept s.dev).2 with
      | false => rw [tcpWith_refused _ _ _ hk ha]; exact ⟨_, rfl⟩
      | true =>
        rw [tcpWith_absent _ _ _ hk ha]
        refine h1 _ ?_
        intro p hp
        have : [] = p := by simpa using hp
        subst this
        rfl
    · rw [tcpWith_present _ _ _ hk]; exact h1 s hI

theorem cdWrap_err {α} {r : Py α} {e : Exc} (h : r = .error e) : ∃ e', cdWrap r = .error e' := by
  subst h; exact ⟨_, rfl⟩

theorem silent_readChunks {σ} {dev : MbDev σ} {I} (hd : SilentDev dev I) : ∀ (cs : List (Int × Int)) (data : Bytes) (s : σ), I s →
    (∃ c ∈ cs, 0 < c.2) → ∃ e, (readChunks dev cs data s).2 = .error e := by
  intro cs
  induction cs with
  | nil => intro data s _ h; obtain ⟨c, h, _⟩ := h; cases h
  | cons c cs ih =>
    obtain ⟨a, n⟩ := c
    intro data s hI h
    rw [readChunks]
    have hk := hd.keeps s a n hI
    have h1 := hd.read s a n hI
    have h2 := hd.empty s a n
    unfold cdRead
    cases hr : dev.read s a n with
    | mk s1 r =>
      rw [hr] at hk h1 h2
      cases r with
      | error e => exact ⟨_, rfl⟩
      | ok d =>
        by_cases hn : 0 < n
        · obtain ⟨e, h⟩ := h1 hn; cases h
        · rcases h2 (by omega) with h3 | ⟨e, h3⟩
          · cases h3
            refine ih _ _ hk ?_
            obtain ⟨c, hc, hc2⟩ := h
            rcases List.mem_cons.1 hc with rfl | hc
            · exact absurd hc2 hn
            · exact ⟨c, hc, hc2⟩
          · cases h3

theorem tiles_some {cs : List (Int × Int)} : ∀ {a b : Int}, Tiles a b cs → a < b → ∃ c ∈ cs, 0 < c.2 := by
  induction cs with
  | nil => intro a b h hab; have : a = b := h; omega
  | cons c cs ih =>
    obtain ⟨x, n⟩ := c
    intro a b h hab
    obtain ⟨_, h⟩ := h
    by_cases hn : 0 < n
    · exact ⟨(x, n), by simp, hn⟩
    · obtain ⟨c, hc, hc2⟩ := ih h (by omega)
      exact ⟨c, by simp [hc], hc2⟩

theorem silent_readPoints {σ} {dev : MbDev σ} {I} (hd : SilentDev dev I) (s : σ) (hI : I s) (m : MdlObj) (hm : m.mtype ≠ none)
    (ht : Tiles m.addr (m.addr + m.len) (readPlan m)) (hl : 1 ≤ m.len) :
    ∃ s' e, readPoints dev s m = (s', m, .error e) := by
  unfold readPoints
  rw [if_neg hm]
  have h1 : ∃ e, (readData dev m s).2 = .error e := by
    unfold readData
    by_cases h1 : m.readBlocks.length = 1
    · rw [if_pos h1]
      obtain ⟨e, h⟩ := hd.read s m.addr m.len hI (by omega)
      exact cdWrap_err h
    · rw [if_neg h1]
      obtain ⟨e, h⟩ := silent_readChunks hd (readPlan m) [] s hI (tiles_some ht (by omega))
      cases hr : readChunks dev (readPlan m) [] s with
      | mk s1 r => rw [hr] at h; cases h; exact ⟨e, rfl⟩
  obtain ⟨e, h⟩ := h1
  cases hr : readData dev m s with
  | mk s1 r =>
    rw [hr] at h
    cases h
    exact ⟨s1, _, rfl⟩

theorem packStr_ne {n : Nat} {b : Bytes} (h : 0 < n) : packStr n b ≠ [] := by
  intro h'
  have := congrArg List.length h'
  simp only [packStr, List.length_append, List.length_take, List.length_replicate, List.length_nil] at this
  omega

/-- Points are never encoded to nothing. -/
theorem toData_ne (t : PointType) (hl : LenOK t) (v : Option Val) (d : Bytes) (h : t.type.toData v (t.len * 2).toNat = .ok d) : d ≠ [] := by
  have hpos := lenOK_pos hl
  by_cases hs : t.type = .string
  · rw [hs] at h
    cases v with
    | none => cases h
    | some v =>
      cases v with
      | str x =>
        simp only [PT.toData, strToData] at h
        split at h
        · cases h
        · split at h
          · cases h; exact packStr_ne (by omega)
          · cases h; exact packStr_ne (by dsimp only [Option.getD]; omega)
      | int i => cases h
      | flt f => cases h
      | dbl f => cases h
  · have h2 : (t.len * 2).toNat = 2 * t.len.toNat := by omega
    rw [h2] at h
    have := C05_exact_size_partial t.type t.len.toNat (by
      intro k hk
      unfold LenOK at hl
      rw [hk] at hl
      dsimp only at hl
      omega) (fun h => absurd h hs) v d h
    intro h'
    subst h'
    simp at this
    omega

theorem silent_wpPoints {σ} {dev : MbDev σ} {I} (hd : SilentDev dev I) : ∀ (ps : List PointObj) (acc : WAcc σ),
    (∀ p ∈ ps, LenOK p.pt) → I acc.s → (acc.addr ≠ none → acc.data ≠ []) →
    (∃ e, (wpPoints dev ps acc).2.2 = .error e) ∨
    ((wpPoints dev ps acc).2.1.s = acc.s ∧ ((wpPoints dev ps acc).2.1.addr ≠ none → (wpPoints dev ps acc).2.1.data ≠ []) ∧
      ((acc.addr ≠ none ∨ ∃ p ∈ ps, p.dirty = true) → (wpPoints dev ps acc).2.1.addr ≠ none)) := by
  intro ps
  induction ps with
  | nil =>
    intro acc _ _ h
    refine .inr ⟨rfl, h, fun h => ?_⟩
    rcases h with h | ⟨p, h, _⟩
    · exact h
    · cases h
  | cons p ps ih =>
    intro acc hl hI h
    rw [wpPoints]
    have hstep : (∃ e, (wpPoint dev acc p).2.2 = .error e) ∨
        ((wpPoint dev acc p).2.1.s = acc.s ∧ ((wpPoint dev acc p).2.1.addr ≠ none → (wpPoint dev acc p).2.1.data ≠ []) ∧
          ((acc.addr ≠ none ∨ p.dirty = true) → (wpPoint dev acc p).2.1.addr ≠ none)) := by
      unfold wpPoint
      by_cases hdirty : p.dirty = true
      · rw [if_pos hdirty]
        cases hr : p.pt.type.toData p.base (p.pt.len * 2).toNat with
        | error e => exact .inl ⟨e, rfl⟩
        | ok pd =>
          have hpd := toData_ne p.pt (hl p (by simp)) _ _ hr
          dsimp only
          cases ha : acc.addr with
          | none => exact .inr ⟨rfl, fun _ => hpd, fun _ => by simp⟩
          | some a =>
            dsimp only
            by_cases hn : p.addr = acc.next
            · rw [if_pos hn]
              exact .inr ⟨rfl, fun _ => by simp [hpd], fun _ => by simp⟩
            · rw [if_neg hn]
              obtain ⟨e, he⟩ := hd.write acc.s a acc.data hI (h (by rw [ha]; simp))
              left
              unfold cdWrite
              rw [he]
              exact ⟨_, rfl⟩
      · rw [if_neg hdirty]
        refine .inr ⟨rfl, h, fun h => ?_⟩
        rcases h with h | h
        · exact h
        · exact absurd h hdirty
    cases hw : wpPoint dev acc p with
    | mk p' r =>
      obtain ⟨acc', r⟩ := r
      rw [hw] at hstep
      cases r with
      | error e => exact .inl ⟨e, rfl⟩
      | ok u =>
        rcases hstep with ⟨e, h1⟩ | ⟨h1, h2, h3⟩
        · cases h1
        · dsimp only at h1 h2 h3
          rcases ih acc' (fun p hp => hl p (by simp [hp])) (by rw [h1]; exact hI) h2 with h4 | ⟨h4, h5, h6⟩
          · exact .inl h4
          · right
            refine ⟨h4.trans h1, h5, fun hx => h6 ?_⟩
            rcases hx with hx | ⟨q, hq, hqd⟩
            · exact .inl (h3 (.inl hx))
            · rcases List.mem_cons.1 hq with rfl | hq
              · exact .inl (h3 (.inr hqd))
              · exact .inr ⟨q, hq, hqd⟩

theorem silent_writePoints {σ} {dev : MbDev σ} {I} (hd : SilentDev dev I) (s : σ) (hI : I s) (m : MdlObj)
    (hl : ∀ b ∈ m.blocks, ∀ p ∈ b.pts, LenOK p.pt) (hx : ∃ b ∈ m.blocks, ∃ p ∈ b.pts, p.dirty = true) :
    ∃ e, (writePoints dev s m).2.2 = .error e := by
  have key : ∀ (bs : List BlockObj) (s : σ), I s → (∀ b ∈ bs, ∀ p ∈ b.pts, LenOK p.pt) → (∃ b ∈ bs, ∃ p ∈ b.pts, p.dirty = true) →
      ∃ e, (wpBlocks dev bs s).2.2 = .error e := by
    intro bs
    induction bs with
    | nil => intro s _ _ h; obtain ⟨b, h, _⟩ := h; cases h
    | cons b bs ih =>
      intro s hI hl hx
      rw [wpBlocks]
      have h1 := silent_wpPoints hd b.pts { s := s } (hl b (by simp)) hI (by simp)
      cases hp : wpPoints dev b.pts { s := s } with
      | mk pts r =>
        obtain ⟨acc, r⟩ := r
        rw [hp] at h1
        cases r with
        | error e => exact ⟨e, rfl⟩
        | ok u =>
          rcases h1 with ⟨e, h1⟩ | ⟨h1, h2, h3⟩
          · cases h1
          · dsimp only at h1 h2 h3 ⊢
            by_cases ha : acc.addr = none
            · have hfl : wpFlush dev acc = (acc.s, .ok ()) := by unfold wpFlush; rw [ha]
              rw [hfl]
              refine ih acc.s (by rw [h1]; exact hI) (fun b hb => hl b (by simp [hb])) ?_
              obtain ⟨c, hc, p, hp1, hp2⟩ := hx
              rcases List.mem_cons.1 hc with rfl | hc
              · exact absurd ha (h3 (.inr ⟨p, hp1, hp2⟩))
              · exact ⟨c, hc, p, hp1, hp2⟩
            · obtain ⟨a, ha'⟩ := Option.ne_none_iff_exists'.1 ha
              obtain ⟨e, he⟩ := hd.write acc.s a acc.data (by rw [h1]; exact hI) (h2 ha)
              have hfl : wpFlush dev acc = cdWrite dev acc.s a acc.data := by unfold wpFlush; rw [ha']
              rw [hfl]
              unfold cdWrite
              rw [he]
              exact ⟨_, rfl⟩
  exact key m.blocks s hI hl hx

theorem silent_scanBody {σ} {dev : MbDev σ} {I} (hd : SilentDev dev I) (fuel : Nat) (lib : Int → Py ModelType) (prog : List MdlObj → Int → Bool) (c : CliDev σ) (hI : I c.st) :
    ∃ s e, scanBody fuel dev lib prog c = ({ c with st := s }, .error e) := by
  have hpr : ∀ (bs : List Int) (s : σ), I s → (∃ s', probe dev bs s = (s', .ok none)) ∨ ∃ s' e, probe dev bs s = (s', .error e) := by
    intro bs
    induction bs with
    | nil => intro s _; exact .inl ⟨s, rfl⟩
    | cons a bs ih =>
      intro s hI
      rw [probe]
      obtain ⟨e, h⟩ := hd.read s a 3 hI (by omega)
      have hk := hd.keeps s a 3 hI
      obtain ⟨e', h'⟩ := cdWrap_err h
      unfold cdRead
      rw [h']
      dsimp only
      split
      · exact ih _ hk
      · exact .inr ⟨_, _, rfl⟩
  unfold scanBody
  cases hb : c.base with
  | some b => exact ⟨c.st, _, by dsimp only; rw [← hb]⟩
  | none =>
    dsimp only
    rcases hpr c.bases c.st hI with ⟨s, h⟩ | ⟨s, e, h⟩
    · rw [h]; exact ⟨s, _, by rw [← hb]⟩
    · rw [h]; exact ⟨s, e, by rw [← hb]⟩

/-- C70 over Modbus RTU: if the slave does not answer, reading a model raises and leaves it as it was, writing a model with
modified points raises, and scanning raises and finds no models. -/
theorem C70_rtu {σ} (slave : Slave σ) (hs : SilentRtu slave) (sid : Int) (l : Line σ) :
    (∀ m, m.mtype ≠ none → Tiles m.addr (m.addr + m.len) (readPlan m) → 1 ≤ m.len → ∃ l' e, readPoints (rtuDev slave sid) l m = (l', m, .error e)) ∧
    (∀ m, (∀ b ∈ m.blocks, ∀ p ∈ b.pts, LenOK p.pt) → (∃ b ∈ m.blocks, ∃ p ∈ b.pts, p.dirty = true) →
      ∃ e, (writePoints (rtuDev slave sid) l m).2.2 = .error e) ∧
    (∀ fuel lib prog (c : CliDev (Line σ)), c.st = l → ∃ l' e, scan fuel (rtuScanDev slave sid) lib prog c = ({ c with st := l' }, .error e)) := by
  refine ⟨fun m h1 h2 h3 => silent_readPoints (silent_rtu slave hs sid) l trivial m h1 h2 h3,
    fun m h1 h2 => silent_writePoints (silent_rtu slave hs sid) l trivial m h1 h2, fun fuel lib prog c hc => ?_⟩
  exact silent_scanBody (silent_rtu slave hs sid) fuel lib prog c trivial

/-- C70 over Modbus TCP. -/
theorem C70_tcp {σ} (srv : TcpServer σ) (hs : SilentTcp srv) (sid : Int) (t : Tcp σ) (ht : NothingPending t) :
    (∀ m, m.mtype ≠ none → Tiles m.addr (m.addr + m.len) (readPlan m) → 1 ≤ m.len → ∃ t' e, readPoints (tcpDev srv sid) t m = (t', m, .error e)) ∧
    (∀ m, (∀ b ∈ m.blocks, ∀ p ∈ b.pts, LenOK p.pt) → (∃ b ∈ m.blocks, ∃ p ∈ b.pts, p.dirty = true) →
      ∃ e, (writePoints (tcpDev srv sid) t m).2.2 = .error e) ∧
    (∀ fuel lib prog (c : CliDev (Tcp σ)), c.st = t → ∃ t' e, scan fuel (tcpScanDev srv sid) lib prog c = ({ c with st := t' }, .error e)) := by
  have hI : Deaf t := fun p hp => flatten_received (ht p hp)
  refine ⟨fun m h1 h2 h3 => silent_readPoints (silent_tcp srv hs sid) t hI m h1 h2 h3,
    fun m h1 h2 => silent_writePoints (silent_tcp srv hs sid) t hI m h1 h2, fun fuel lib prog c hc => ?_⟩
  unfold scan tcpScanDev
  dsimp only
  have hcon : ∀ s r, tcpConnect srv c.st = (s, r) → Deaf s := by
    intro s r h
    unfold tcpConnect at h
    dsimp only at h
    split at h
    · cases h
      intro p hp
      have : [] = p := by simpa using hp
      subst this
      rfl
    · cases h
      intro p hp
      cases hp
  cases hx : tcpConnect srv c.st with
  | mk s r =>
    cases r with
    | error e => exact ⟨s, e, rfl⟩
    | ok u =>
      obtain ⟨s', e, h⟩ := silent_scanBody (silent_tcp srv hs sid) fuel lib prog { c with st := s } (hcon s _ hx)
      dsimp only
      rw [h]
      exact ⟨s', e, rfl⟩

/-- Non-vacuity: slaves that are not connected, servers that accept and say nothing, close the connection or refuse it are silent. -/
example : SilentRtu (fun (d : Unit) _ => (d, some [])) ∧ SilentTcp muteServer ∧ SilentTcp (⟨fun d => (d, true), fun d _ => (d, some [[]])⟩ : TcpServer Unit) ∧
    SilentTcp (⟨fun d => (d, false), fun d _ => (d, none)⟩ : TcpServer Unit) ∧ NothingPending (freshTcp ()) ∧
    (∃ e, (readPoints (tcpDev muteServer 1) (freshTcp ()) exModel).2 = (exModel, .error e)) :=
  ⟨fun _ _ => .inr ⟨[], rfl, rfl⟩, fun _ _ => .inr ⟨[], rfl, rfl⟩, fun _ _ => .inr ⟨[[]], rfl, rfl⟩, fun _ _ => .inl rfl,
   fun p h => (by cases h), by
    obtain ⟨t', e, h⟩ := (C70_tcp muteServer (fun _ _ => .inr ⟨[], rfl, rfl⟩) 1 (freshTcp ()) (fun p h => by cases h)).1 exModel
      exModel_ok.mtype exModel_tiles (by rw [exModel_span.2]; decide)
    exact ⟨e, by rw [h]⟩⟩

end Verif
