import Verif.Props.Scan

/-!
# C58: scanning and reading never write
-/

namespace Verif
open Spec

namespace Spec

/-- A Modbus RTU request to read 1 to 125 holding registers (function 3). -/
def RtuReads (sid : Byte) (req : Bytes) : Prop := ∃ a q : Nat, a < 65536 ∧ 1 ≤ q ∧ q ≤ 125 ∧ req = rtuFrame sid (readPdu 3 a q)

/-- The same for Modbus TCP. -/
def TcpReads (sid : Byte) (req : Bytes) : Prop := ∃ a q : Nat, a < 65536 ∧ 1 ≤ q ∧ q ≤ 125 ∧ req = mbap 0 sid (readPdu 3 a q)

end Spec

/-! ### What reads keep, scanning and reading points keep -/

section keeps
variable {σ : Type} {I : σ → Prop}

theorem cdRead_keeps {dev : MbDev σ} (hr : ∀ s a n, I s → I (dev.read s a n).1) {s : σ} (h : I s) (a n : Int) : I (cdRead dev s a n).1 := hr s a n h

theorem readChunks_keeps {dev : MbDev σ} (hr : ∀ s a n, I s → I (dev.read s a n).1) (plan : List (Int × Int)) :
    ∀ (data : Bytes) (s : σ), I s → I (readChunks dev plan data s).1 := by
  induction plan with
  | nil => intro data s h; exact h
  | cons an plan ih =>
    intro data s h
    obtain ⟨a, n⟩ := an
    have h1 := cdRead_keeps hr h a n
    rw [readChunks]
    split <;> rename_i heq <;> rw [heq] at h1
    · exact h1
    · exact h1
    · exact ih _ _ h1

theorem readPoints_keeps {dev : MbDev σ} (hr : ∀ s a n, I s → I (dev.read s a n).1) (s : σ) (h : I s) (m : MdlObj) : I (readPoints dev s m).1 := by
  have hd : I (readData dev m s).1 := by
    unfold readData
    split
    · exact cdRead_keeps hr h _ _
    · have := readChunks_keeps hr (readPlan m) [] s h
      split <;> rename_i heq <;> rw [heq] at this <;> exact this
  unfold readPoints
  split
  · exact h
  · split <;> rename_i heq <;> rw [heq] at hd <;> exact hd

theorem readModels_keeps {dev : MbDev σ} (hr : ∀ s a n, I s → I (dev.read s a n).1) (ms : List MdlObj) :
    ∀ s : σ, I s → I (readModels dev ms s).1 := by
  induction ms with
  | nil => intro s h; exact h
  | cons m ms ih =>
    intro s h
    have h1 := readPoints_keeps hr s h m
    rw [readModels]
    split <;> rename_i heq <;> rw [heq] at h1
    · exact h1
    · exact ih _ h1

theorem probe_keeps {dev : MbDev σ} (hr : ∀ s a n, I s → I (dev.read s a n).1) (bases : List Int) : ∀ s : σ, I s → I (probe dev bases s).1 := by
  induction bases with
  | nil => intro s h; exact h
  | cons a bases ih =>
    intro s h
    have h1 := cdRead_keeps hr h a 3
    rw [probe]
    split <;> rename_i heq <;> rw [heq] at h1
    · split
      · exact ih _ h1
      · exact h1
    · exact h1
    · split
      · exact h1
      · exact ih _ h1

theorem scanLoop_holds {dev : MbDev σ} (hr : ∀ s a n, I s → I (dev.read s a n).1) (lib : Int → Py ModelType) (prog : List MdlObj → Int → Bool)
    (fuel : Nat) : ∀ (id addr : Int) (c : CliDev σ), I c.st → I (scanLoop dev lib prog fuel id addr c).1.st := by
  induction fuel with
  | zero => intro id addr c h; exact h
  | succ fuel ih =>
    intro id addr c h
    have h1 := cdRead_keeps hr h (addr + 1) 1
    rw [scanLoop]
    split
    · exact h
    · split <;> rename_i heq <;> rw [heq] at h1
      · exact h1
      · rename_i s1 d1
        split
        · exact h1
        · rename_i len hlen
          split
          · exact h1
          · split
            · exact h1
            · have h2 := cdRead_keeps hr (show I s1 from h1) (addr + (len + 2)) 1
              split <;> rename_i heq2 <;> rw [heq2] at h2
              · exact h2
              · split
                · exact h2
                · exact ih _ _ _ h2

theorem scanBody_keeps {dev : MbDev σ} (hr : ∀ s a n, I s → I (dev.read s a n).1) (lib : Int → Py ModelType) (prog : List MdlObj → Int → Bool)
    (fuel : Nat) (c : CliDev σ) (h : I c.st) : I (scanBody fuel dev lib prog c).1.st := by
  unfold scanBody
  split
  · exact h
  · have h1 := probe_keeps hr c.bases c.st h
    split <;> rename_i heq <;> rw [heq] at h1
    · exact h1
    · exact h1
    · unfold scanFrom
      split
      · exact h1
      · exact scanLoop_holds hr lib prog fuel _ _ _ h1

theorem scan_keeps {dev : ScanDev σ} (hr : ∀ s a n, I s → I (dev.read s a n).1) (hc : ∀ f, dev.conn = some f → ∀ s, I s → I (f s).1)
    (hd : ∀ s, I s → I (dev.disc s)) (lib : Int → Py ModelType) (prog : List MdlObj → Int → Bool) (fuel : Nat) (c : CliDev σ) (h : I c.st) :
    I (scan fuel dev lib prog c).1.st := by
  unfold scan
  split
  · exact scanBody_keeps hr lib prog fuel c h
  · rename_i f hf
    have h1 := hc f hf c.st h
    split <;> rename_i heq <;> rw [heq] at h1
    · exact h1
    · rename_i s _
      have h2 := scanBody_keeps hr lib prog fuel { c with st := s } h1
      unfold scanEnd
      split <;> rename_i heq2 <;> rw [heq2] at h2
      · exact hd _ h2
      · exact h2

end keeps

/-! ### RTU -/

theorem rtu_reads {σ} (slave : Slave σ) (sid : Int) (sent : List Bytes) (l : Line σ) (a n : Int)
    (h : ∃ new, l.sent = sent ++ new ∧ ∀ r ∈ new, RtuReads (BitVec.ofNat 8 sid.toNat) r) :
    ∃ new, ((rtuDev slave sid).read l a n).1.sent = sent ++ new ∧ ∀ r ∈ new, RtuReads (BitVec.ofNat 8 sid.toNat) r := by
  obtain ⟨new, h1, h2⟩ := h
  obtain ⟨ranges, g1, -, g3, -⟩ := C09_requests slave l (rtuRead slave l sid 3 a n.toNat 125).1 sid 3 a n.toNat 125 (by decide)
    (rtuRead slave l sid 3 a n.toNat 125).2 rfl
  refine ⟨new ++ ranges.map fun r => rtuFrame (BitVec.ofNat 8 sid.toNat) (readPdu 3 r.1.toNat r.2), ?_, ?_⟩
  · show (rtuRead slave l sid 3 a n.toNat 125).1.sent = _
    rw [g1, h1, List.append_assoc]
    rfl
  · intro r hr
    rcases List.mem_append.mp hr with hr | hr
    · exact h2 r hr
    · obtain ⟨x, hx, rfl⟩ := List.mem_map.mp hr
      obtain ⟨q1, q2, q3, q4, q5⟩ := g3 x hx
      exact ⟨x.1.toNat, x.2, by omega, q1, q2, rfl⟩

/-- C58 on a serial line: whatever the device answers, a scan and reading all models send requests of function 3 only, for 1 to 125
registers each. -/
theorem C58_rtu {σ} (slave : Slave σ) (sid : Int) (lib : Int → Py ModelType) (prog : List MdlObj → Int → Bool) (fuel : Nat) :
    (∀ c : CliDev (Line σ), ∃ new, (scan fuel (rtuScanDev slave sid) lib prog c).1.st.sent = c.st.sent ++ new ∧
      ∀ r ∈ new, RtuReads (BitVec.ofNat 8 sid.toNat) r) ∧
    (∀ (ms : List MdlObj) (l : Line σ), ∃ new, (readModels (rtuDev slave sid) ms l).1.sent = l.sent ++ new ∧
      ∀ r ∈ new, RtuReads (BitVec.ofNat 8 sid.toNat) r) := by
  constructor
  · intro c
    refine scan_keeps (I := fun l : Line σ => ∃ new, l.sent = c.st.sent ++ new ∧ ∀ r ∈ new, RtuReads (BitVec.ofNat 8 sid.toNat) r)
      (fun s a n h => rtu_reads slave sid _ s a n h) ?_ (fun s h => h) lib prog fuel c ⟨[], by simp, by simp⟩
    intro f hf
    simp [rtuScanDev] at hf
  · intro ms l
    exact readModels_keeps (I := fun l' : Line σ => ∃ new, l'.sent = l.sent ++ new ∧ ∀ r ∈ new, RtuReads (BitVec.ofNat 8 sid.toNat) r)
      (fun s a n h => rtu_reads slave sid _ s a n h) ms l ⟨[], by simp, by simp⟩

theorem rtuReadF_abs {σ} {slave : Slave σ} {abs : σ → Mem} {sid : Byte} (hc : ConformsRtu slave abs sid) (op : Int) (max : Nat) (fuel : Nat) :
    ∀ (addr : Int) (count : Nat) (resp : Bytes) (l : Line σ),
      abs (rtuReadF slave sid.toNat op max fuel addr count resp l).1.dev = abs l.dev := by
  induction fuel with
  | zero => intro addr count resp l; rfl
  | succ fuel ih =>
    intro addr count resp l
    rw [rtuReadF]
    split
    · dsimp only
      have h1 : ∀ q : Nat, abs (rtuRead1 slave l sid.toNat op addr q).1.dev = abs l.dev := by
        intro q
        rw [rtuRead1_eq]
        split
        · rename_i hr
          have := (conform_read hc l.dev (BitVec.ofNat 8 op.toNat) (a := addr.toNat) (q := (q : Int).toNat) (by omega) (by omega)).1
          simpa using this
        · rfl
      have h2 := h1 (if count > max then max else count)
      split <;> rename_i heq <;> rw [heq] at h2
      · exact h2
      · split
        · rw [ih]; exact h2
        · exact h2
    · rfl

/-- C58 for a device that conforms to Modbus RTU: its registers are the same afterwards. -/
theorem C58_rtu_memory {σ} {slave : Slave σ} {abs : σ → Mem} {sid : Byte} (hc : ConformsRtu slave abs sid) (lib : Int → Py ModelType)
    (prog : List MdlObj → Int → Bool) (fuel : Nat) :
    (∀ c : CliDev (Line σ), abs (scan fuel (rtuScanDev slave sid.toNat) lib prog c).1.st.dev = abs c.st.dev) ∧
    (∀ (ms : List MdlObj) (l : Line σ), abs (readModels (rtuDev slave sid.toNat) ms l).1.dev = abs l.dev) := by
  constructor
  · intro c
    refine scan_keeps (I := fun l : Line σ => abs l.dev = abs c.st.dev) (fun s a n h => (rtuReadF_abs hc _ _ _ _ _ _ s).trans h) ?_ (fun s h => h)
      lib prog fuel c rfl
    intro f hf
    simp [rtuScanDev] at hf
  · intro ms l
    exact readModels_keeps (I := fun l' : Line σ => abs l'.dev = abs l.dev) (fun s a n h => (rtuReadF_abs hc _ _ _ _ _ _ s).trans h) ms l rfl

/-! ### TCP -/

theorem tcp_reads {σ} (srv : TcpServer σ) (sid : Int) (sent : List Bytes) (t : Tcp σ) (a n : Int)
    (h : ∃ new, t.sent = sent ++ new ∧ ∀ r ∈ new, TcpReads (BitVec.ofNat 8 sid.toNat) r) :
    ∃ new, ((tcpDev srv sid).read t a n).1.sent = sent ++ new ∧ ∀ r ∈ new, TcpReads (BitVec.ofNat 8 sid.toNat) r := by
  obtain ⟨new, h1, h2⟩ := h
  obtain ⟨ranges, g1, -, g3, -⟩ := C15_requests srv t (tcpRead srv t sid 3 a n.toNat 125).1 sid 3 a n.toNat 125 (by decide)
    (tcpRead srv t sid 3 a n.toNat 125).2 rfl
  refine ⟨new ++ ranges.map fun r => mbap 0 (BitVec.ofNat 8 sid.toNat) (readPdu 3 r.1.toNat r.2), ?_, ?_⟩
  · show (tcpRead srv t sid 3 a n.toNat 125).1.sent = _
    rw [g1, h1, List.append_assoc]
    rfl
  · intro r hr
    rcases List.mem_append.mp hr with hr | hr
    · exact h2 r hr
    · obtain ⟨x, hx, rfl⟩ := List.mem_map.mp hr
      obtain ⟨q1, q2, q3, q4, q5⟩ := g3 x hx
      exact ⟨x.1.toNat, x.2, by omega, q1, q2, rfl⟩

theorem tcpDisconnect_sent {σ} (t : Tcp σ) : (tcpDisconnect t).sent = t.sent ∧ (tcpDisconnect t).dev = t.dev := by
  unfold tcpDisconnect
  split <;> exact ⟨rfl, rfl⟩

theorem tcpConnect_sent {σ} (srv : TcpServer σ) (t : Tcp σ) : (tcpConnect srv t).1.sent = t.sent ∧ (tcpConnect srv t).1.dev = (srv.accept t.dev).1 := by
  unfold tcpConnect
  dsimp only
  rw [(tcpDisconnect_sent t).2]
  split <;> rename_i heq <;> rw [heq] <;> exact ⟨(tcpDisconnect_sent t).1, rfl⟩

/-- C58 over TCP: whatever the server answers, a scan and reading all models send requests of function 3 only, for 1 to 125
registers each. -/
theorem C58_tcp {σ} (srv : TcpServer σ) (sid : Int) (lib : Int → Py ModelType) (prog : List MdlObj → Int → Bool) (fuel : Nat) :
    (∀ c : CliDev (Tcp σ), ∃ new, (scan fuel (tcpScanDev srv sid) lib prog c).1.st.sent = c.st.sent ++ new ∧
      ∀ r ∈ new, TcpReads (BitVec.ofNat 8 sid.toNat) r) ∧
    (∀ (ms : List MdlObj) (t : Tcp σ), ∃ new, (readModels (tcpDev srv sid) ms t).1.sent = t.sent ++ new ∧
      ∀ r ∈ new, TcpReads (BitVec.ofNat 8 sid.toNat) r) := by
  constructor
  · intro c
    refine scan_keeps (I := fun t : Tcp σ => ∃ new, t.sent = c.st.sent ++ new ∧ ∀ r ∈ new, TcpReads (BitVec.ofNat 8 sid.toNat) r)
      (fun s a n h => tcp_reads srv sid _ s a n h) ?_ ?_ lib prog fuel c ⟨[], by simp, by simp⟩
    · intro f hf s h
      simp only [tcpScanDev, Option.some.injEq] at hf
      subst hf
      rw [(tcpConnect_sent srv s).1]
      exact h
    · intro s h
      show ∃ new, (tcpDisconnect s).sent = _ ∧ _
      rw [(tcpDisconnect_sent s).1]
      exact h
  · intro ms t
    exact readModels_keeps (I := fun t' : Tcp σ => ∃ new, t'.sent = t.sent ++ new ∧ ∀ r ∈ new, TcpReads (BitVec.ofNat 8 sid.toNat) r)
      (fun s a n h => tcp_reads srv sid _ s a n h) ms t ⟨[], by simp, by simp⟩

theorem tcpExchange_abs {σ} {srv : TcpServer σ} {abs : σ → Mem} {unit : Byte} (hc : ConformsTcp srv.accept srv.react abs unit) (x : Exc) (t : Tcp σ)
    (op : Byte) (a q : Nat) (ha : a < 65536) (hq : q < 65536) (hop : op = 3 ∨ op = 4) :
    abs (tcpExchange srv x t (mbap 0 unit (readPdu op a q))).1.dev = abs t.dev := by
  have h1 := (hc.2 t.dev (mbap 0 unit (readPdu op a q))).1
  rw [serveTcp_mbap, serve_read _ _ hop ha hq] at h1
  unfold tcpExchange
  split
  · split <;> rename_i heq <;> rw [heq] at h1 <;> exact h1
  · rfl

theorem tcpReadF_abs {σ} {srv : TcpServer σ} {abs : σ → Mem} {unit : Byte} (hc : ConformsTcp srv.accept srv.react abs unit) (max : Nat) (fuel : Nat) :
    ∀ (addr : Int) (count : Nat) (resp : Bytes) (t : Tcp σ),
      abs (tcpReadF srv unit.toNat 3 max fuel addr count resp t).1.dev = abs t.dev := by
  induction fuel with
  | zero => intro addr count resp l; rfl
  | succ fuel ih =>
    intro addr count resp t
    rw [tcpReadF]
    split
    · dsimp only
      have h1 : ∀ q : Nat, abs (tcpRead1 srv t unit.toNat 3 addr q).1.dev = abs t.dev := by
        intro q
        unfold tcpRead1
        rw [packTcpRead_eq]
        split
        · rename_i hr
          have := tcpExchange_abs hc .modbusClientError t 3 addr.toNat (q : Int).toNat (by omega) (by omega) (.inl rfl)
          simp only [andThen, Int.toNat_natCast, BitVec.ofNat_toNat, BitVec.setWidth_eq] at this ⊢
          split <;> rename_i heq <;> simp_all
        · rfl
      have h2 := h1 (if count > max then max else count)
      generalize tcpRead1 srv t unit.toNat 3 addr _ = r at h2 ⊢
      obtain ⟨t', r⟩ := r
      cases r with
      | error e => exact h2
      | ok d =>
        simp only [andThen]
        split
        · rw [ih]; exact h2
        · exact h2
    · rfl

theorem tcpRead_abs {σ} {srv : TcpServer σ} {abs : σ → Mem} {unit : Byte} (hc : ConformsTcp srv.accept srv.react abs unit) (t : Tcp σ) (a n : Int) :
    abs ((tcpDev srv unit.toNat).read t a n).1.dev = abs t.dev := by
  show abs (tcpRead srv t unit.toNat 3 a n.toNat 125).1.dev = _
  unfold tcpRead tcpWith
  split
  · have h1 := (tcpConnect_sent srv t).2
    generalize tcpConnect srv t = r at h1 ⊢
    obtain ⟨t1, r⟩ := r
    have h2 : abs t1.dev = abs t.dev := by
      have : t1.dev = _ := h1
      rw [this, (hc.1 t.dev).2]
    cases r with
    | error e => exact h2
    | ok d =>
      simp only [andThen]
      rw [(tcpDisconnect_sent _).2, tcpReadF_abs hc]
      exact h2
  · exact tcpReadF_abs hc ..

/-- C58 for a server that conforms to Modbus TCP: its registers are the same afterwards. -/
theorem C58_tcp_memory {σ} {srv : TcpServer σ} {abs : σ → Mem} {unit : Byte} (hc : ConformsTcp srv.accept srv.react abs unit)
    (lib : Int → Py ModelType) (prog : List MdlObj → Int → Bool) (fuel : Nat) :
    (∀ c : CliDev (Tcp σ), abs (scan fuel (tcpScanDev srv unit.toNat) lib prog c).1.st.dev = abs c.st.dev) ∧
    (∀ (ms : List MdlObj) (t : Tcp σ), abs (readModels (tcpDev srv unit.toNat) ms t).1.dev = abs t.dev) := by
  constructor
  · intro c
    refine scan_keeps (I := fun t : Tcp σ => abs t.dev = abs c.st.dev) (fun s a n h => (tcpRead_abs hc s a n).trans h) ?_ ?_ lib prog fuel c rfl
    · intro f hf s h
      simp only [tcpScanDev, Option.some.injEq] at hf
      subst hf
      rw [(tcpConnect_sent srv s).2, (hc.1 s.dev).2]
      exact h
    · intro s h
      show abs (tcpDisconnect s).dev = _
      rw [(tcpDisconnect_sent s).2]
      exact h
  · intro ms t
    exact readModels_keeps (I := fun t' : Tcp σ => abs t'.dev = abs t.dev) (fun s a n h => (tcpRead_abs hc s a n).trans h) ms t rfl

/-! ### Mapped devices -/

/-- C58 for a map file: the map is the same afterwards. -/
theorem C58_mapped (lib : Int → Py ModelType) (prog : List MdlObj → Int → Bool) (fuel : Nat) :
    (∀ c : CliDev MbMap, (scan fuel mapScanDev lib prog c).1.st = c.st) ∧ (∀ (ms : List MdlObj) (m : MbMap), (readModels mapDev ms m).1 = m) := by
  constructor
  · intro c
    refine scan_keeps (I := fun m : MbMap => m = c.st) (fun s a n h => h) ?_ (fun s h => h) lib prog fuel c rfl
    intro f hf
    simp [mapScanDev] at hf
  · intro ms m
    exact readModels_keeps (I := fun m' : MbMap => m' = m) (fun s a n h => h) ms m rfl

/-- A conforming serial device and a conforming TCP server. -/
example (lib : Int → Py ModelType) (c : CliDev (Line Mem)) :
    (scan 9 (rtuScanDev (drippingSlave 7) 7) lib (fun _ _ => true) c).1.st.dev = c.st.dev :=
  (C58_rtu_memory (drippingSlave_conforms 7) lib (fun _ _ => true) 9).1 c
example (lib : Int → Py ModelType) (c : CliDev (Tcp Mem)) :
    (scan 9 (tcpScanDev (idealServer 1) 1) lib (fun _ _ => true) c).1.st.dev = c.st.dev :=
  (C58_tcp_memory (idealServer_conforms 1) lib (fun _ _ => true) 9).1 c

end Verif
