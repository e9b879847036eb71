import Verif.Props.Failure

/-!
# Which exceptions can occur
-/

namespace Verif
open Spec

theorem andThen_err {σ α β} {r : σ × Py α} {f : σ → α → σ × Py β} {e : Exc} (h : (andThen r f).2 = .error e) :
    r.2 = .error e ∨ ∃ a, r.2 = .ok a ∧ (f r.1 a).2 = .error e := by
  obtain ⟨s, x⟩ := r
  cases x with
  | error e1 => simp only [andThen, Except.error.injEq] at h; subst h; exact .inl rfl
  | ok a => exact .inr ⟨a, rfl, h⟩

/-! ## Modbus RTU -/

theorem readOutcome_err (r : Option Bytes) (e : Exc) (h : readOutcome r = .error e) : e.isModbusClient = true := by
  cases r with
  | none => cases h; rfl
  | some b =>
    simp only [readOutcome] at h
    cases hr : recvFlat readTotal b with
    | error e1 => rw [hr, recvFlat_err hr] at h; cases h; rfl
    | ok p =>
      obtain ⟨f, exc⟩ := p
      rw [hr] at h
      simp only [rtuReadReply] at h
      repeat' split at h
      all_goals (cases h)
      all_goals rfl

theorem rtuReadF_err {σ} (slave : Slave σ) (sid op : Int) (hs : 0 ≤ sid ∧ sid < 256) (ho : 0 ≤ op ∧ op < 256) :
    ∀ (fuel : Nat) (addr : Int) (count : Nat) (resp : Bytes) (l : Line σ) (e : Exc), count < fuel →
    (rtuReadF slave sid op 125 fuel addr count resp l).2 = .error e →
    e.isModbusClient = true ∨ (e = .structError ∧ (addr < 0 ∨ 65536 < addr + count)) := by
  intro fuel
  induction fuel with
  | zero => intro addr count resp l e hf; omega
  | succ fuel ih =>
    intro addr count resp l e hf h
    rw [rtuReadF] at h
    by_cases hc : count > 0
    · rw [if_pos hc] at h
      dsimp only at h
      generalize hk : (if count > 125 then 125 else count) = k at h
      have hk1 : 0 < k ∧ k ≤ count ∧ k ≤ 125 := by subst hk; split <;> omega
      rw [rtuRead1_eq] at h
      by_cases hr : (0 ≤ sid ∧ sid < 256) ∧ (0 ≤ op ∧ op < 256) ∧ (0 ≤ addr ∧ addr < 65536) ∧ (0 ≤ (k : Int) ∧ (k : Int) < 65536)
      · rw [if_pos hr] at h
        dsimp only at h
        split at h
        · rename_i heq
          simp only [Prod.mk.injEq] at heq
          cases h
          exact .inl (readOutcome_err _ _ heq.2)
        · split at h
          · rcases ih _ _ _ _ _ (by omega) h with h | ⟨h1, h2⟩
            · exact .inl h
            · refine .inr ⟨h1, ?_⟩; omega
          · cases h
      · rw [if_neg hr] at h
        dsimp only at h
        cases h
        exact .inr ⟨rfl, by omega⟩
    · rw [if_neg hc] at h
      cases h

theorem writeOutcome_err (sid addr count : Int) (r : Option Bytes) (e : Exc) (h : writeOutcome sid addr count r = .error e) :
    e.isModbusClient = true ∨ e = .structError := by
  cases r with
  | none => cases h; exact .inl rfl
  | some b =>
    simp only [writeOutcome] at h
    cases hr : recvFlat writeTotal b with
    | error e1 => rw [hr, recvFlat_err hr] at h; cases h; exact .inl rfl
    | ok p =>
      obtain ⟨f, exc⟩ := p
      rw [hr] at h
      simp only [rtuWriteReply] at h
      repeat' split at h
      all_goals (cases h)
      all_goals first | exact .inl rfl | exact .inr rfl

theorem rtuWriteF_err {σ} (slave : Slave σ) (sid : Int) : ∀ (fuel : Nat) (addr : Int) (data : Bytes) (l : Line σ) (e : Exc), data.length < fuel →
    (rtuWriteF slave sid 125 fuel addr data l).2 = .error e → e.isModbusClient = true ∨ e = .structError := by
  intro fuel
  induction fuel with
  | zero => intro addr data l e hf; omega
  | succ fuel ih =>
    intro addr data l e hf h
    rw [rtuWriteF] at h
    by_cases hc : data.length > 0
    · rw [if_pos hc] at h
      dsimp only at h
      generalize hk : (if data.length > 2 * 125 then 2 * 125 else data.length) = k at h
      have hk1 : 0 < k := by subst hk; split <;> omega
      rw [rtuWrite1_eq] at h
      by_cases hr : (0 ≤ sid ∧ sid < 256) ∧ (0 ≤ addr ∧ addr < 65536) ∧ (data.take k).length < 256
      · rw [if_pos hr] at h
        dsimp only at h
        split at h
        · rename_i heq
          simp only [Prod.mk.injEq] at heq
          cases h
          exact writeOutcome_err _ _ _ _ _ heq.2
        · exact ih _ _ _ _ (by rw [List.length_drop]; omega) h
      · rw [if_neg hr] at h
        cases h
        exact .inr rfl
    · rw [if_neg hc] at h
      cases h

/-! ## Modbus TCP -/

theorem tcpExchange_err {σ} (srv : TcpServer σ) (ce : Exc) (hce : ce.isModbusClient = true) (t : Tcp σ) (req : Bytes) (e : Exc)
    (h : (tcpExchange srv ce t req).2 = .error e) : e.isModbusClient = true ∨ e = .socketTimeout := by
  cases ht : t.sock with
  | absent => unfold tcpExchange at h; rw [ht] at h; cases h; exact .inl rfl
  | unconnected => unfold tcpExchange at h; rw [ht] at h; cases h; exact .inl rfl
  | connected p =>
    obtain ⟨p', h1, _⟩ := tcpExchange_eq srv ce t p ht req
    rw [h1] at h
    dsimp only at h
    cases hr : (srv.react t.dev req).2 with
    | none => rw [hr] at h; cases h; exact .inl rfl
    | some chunks =>
      rw [hr] at h
      dsimp only at h
      rw [tcpFlat_eq] at h
      split at h
      · cases h
        split
        · exact .inl hce
        · exact .inr rfl
      · cases h

theorem tcpReply_err (resp : Bytes) (e : Exc) (h : tcpReply resp = .error e) : e.isModbusClient = true := by
  unfold tcpReply at h
  repeat' split at h
  all_goals (cases h)
  all_goals rfl

theorem packTcpRead_err (sid op addr count : Int) (e : Exc) (h : packTcpRead sid op addr count = .error e) :
    e = .structError ∧ ¬ ((0 ≤ sid ∧ sid < 256) ∧ (0 ≤ op ∧ op < 256) ∧ (0 ≤ addr ∧ addr < 65536) ∧ (0 ≤ count ∧ count < 65536)) := by
  rw [packTcpRead_eq] at h
  split at h
  · cases h
  · rename_i hr; cases h; exact ⟨rfl, hr⟩

theorem tcpRead1_err {σ} (srv : TcpServer σ) (t : Tcp σ) (sid op addr count : Int) (e : Exc) (h : (tcpRead1 srv t sid op addr count).2 = .error e) :
    e.isModbusClient = true ∨ e = .socketTimeout ∨
    (e = .structError ∧ ¬ ((0 ≤ sid ∧ sid < 256) ∧ (0 ≤ op ∧ op < 256) ∧ (0 ≤ addr ∧ addr < 65536) ∧ (0 ≤ count ∧ count < 65536))) := by
  unfold tcpRead1 at h
  rcases andThen_err h with h | ⟨req, _, h⟩
  · exact .inr (.inr (packTcpRead_err _ _ _ _ _ h))
  · rcases andThen_err h with h | ⟨resp, _, h⟩
    · rcases tcpExchange_err srv _ rfl _ _ _ h with h | h
      · exact .inl h
      · exact .inr (.inl h)
    · exact .inl (tcpReply_err _ _ h)

theorem tcpReadF_err {σ} (srv : TcpServer σ) (sid op : Int) (hs : 0 ≤ sid ∧ sid < 256) (ho : 0 ≤ op ∧ op < 256) :
    ∀ (fuel : Nat) (addr : Int) (count : Nat) (resp : Bytes) (t : Tcp σ) (e : Exc), count < fuel →
    (tcpReadF srv sid op 125 fuel addr count resp t).2 = .error e →
    e.isModbusClient = true ∨ e = .socketTimeout ∨ (e = .structError ∧ (addr < 0 ∨ 65536 < addr + count)) := by
  intro fuel
  induction fuel with
  | zero => intro addr count resp l e hf; omega
  | succ fuel ih =>
    intro addr count resp t e hf h
    rw [tcpReadF] at h
    by_cases hc : count > 0
    · rw [if_pos hc] at h
      dsimp only at h
      generalize hk : (if count > 125 then 125 else count) = k at h
      have hk1 : 0 < k ∧ k ≤ count ∧ k ≤ 125 := by subst hk; split <;> omega
      rcases andThen_err h with h | ⟨data, _, h⟩
      · rcases tcpRead1_err srv _ _ _ _ _ _ h with h | h | ⟨h1, h2⟩
        · exact .inl h
        · exact .inr (.inl h)
        · refine .inr (.inr ⟨h1, ?_⟩); omega
      · split at h
        · rcases ih _ _ _ _ _ (by omega) h with h | h | ⟨h1, h2⟩
          · exact .inl h
          · exact .inr (.inl h)
          · refine .inr (.inr ⟨h1, ?_⟩); omega
        · cases h
    · rw [if_neg hc] at h
      cases h

theorem tcpWith_err {σ α} (srv : TcpServer σ) (t : Tcp σ) (body : Tcp σ → Tcp σ × Py α) (e : Exc) (h : (tcpWith srv t body).2 = .error e) :
    e = .modbusClientError ∨ ∃ t1, (body t1).2 = .error e := by
  by_cases hs : t.sock = .absent
  · cases ha : (srv.accept t.dev).2 with
    | false => rw [tcpWith_refused _ _ _ hs ha] at h; cases h; exact .inl rfl
    | true => rw [tcpWith_absent _ _ _ hs ha] at h; exact .inr ⟨_, h⟩
  · rw [tcpWith_present _ _ _ hs] at h
    exact .inr ⟨_, h⟩

theorem packTcpWrite_err (sid addr : Int) (data : Bytes) (e : Exc) (h : packTcpWrite sid addr (data.length / 2 : Nat) data.length = .error e) :
    e = .structError ∧ ¬ ((0 ≤ sid ∧ sid < 256) ∧ (0 ≤ addr ∧ addr < 65536) ∧ data.length < 256) := by
  rw [packTcpWrite_eq] at h
  split at h
  · cases h
  · rename_i hr; cases h; exact ⟨rfl, hr⟩

theorem tcpWrite1_err {σ} (srv : TcpServer σ) (t : Tcp σ) (sid addr : Int) (data : Bytes) (e : Exc) (h : (tcpWrite1 srv t sid addr data).2 = .error e) :
    e.isModbusClient = true ∨ e = .socketTimeout ∨ (e = .structError ∧ ¬ ((0 ≤ sid ∧ sid < 256) ∧ (0 ≤ addr ∧ addr < 65536) ∧ data.length < 256)) := by
  unfold tcpWrite1 at h
  generalize hp : packTcpWrite sid addr (data.length / 2 : Nat) data.length = r at h
  rcases andThen_err h with h | ⟨req, _, h⟩
  · dsimp only at h
    rw [h] at hp
    exact .inr (.inr (packTcpWrite_err sid addr data e hp))
  · rcases andThen_err h with h | ⟨resp, _, h⟩
    · rcases tcpExchange_err srv _ rfl _ _ _ h with h | h
      · exact .inl h
      · exact .inr (.inl h)
    · rcases andThen_err h with h | ⟨_, _, h⟩
      · exact .inl (tcpReply_err _ _ h)
      · cases h

theorem tcpWriteF_err {σ} (srv : TcpServer σ) (sid addr : Int) (hs : 0 ≤ sid ∧ sid < 256) (ha : 0 ≤ addr ∧ addr < 65536) (data : Bytes) (t : Tcp σ) (e : Exc)
    (h : (tcpWriteF srv sid addr 125 data (data.length + 1) 0 none t).2 = .error e) :
    e.isModbusClient = true ∨ e = .socketTimeout ∨ (e = .unboundLocal ∧ 250 < data.length) := by
  by_cases hl : data.length ≤ 2 * 125
  · rw [tcpWriteF_short srv t sid addr data 125 hl] at h
    split at h
    · cases h
    · rcases tcpWrite1_err srv _ _ _ _ _ h with h | h | ⟨h1, h2⟩
      · exact .inl h
      · exact .inr (.inl h)
      · omega
  · rw [tcpWriteF_long srv t sid addr data 125 (by omega)] at h
    cases h
    exact .inr (.inr ⟨rfl, by omega⟩)

/-! ## Reading, writing and scanning a device -/

/-- The exceptions of reads (at addresses and counts in `P`) are Modbus client errors or in `Q`; `None` is returned only if `N`. -/
structure ReadErrs {σ} (dev : MbDev σ) (P : Int → Int → Prop) (Q : Exc → Prop) (N : Prop) : Prop where
  err : ∀ s a n e, P a n → (dev.read s a n).2 = .error e → e.isModbusClient = true ∨ Q e
  none : ∀ s a n, (dev.read s a n).2 = .ok none → N

theorem cdRead_errs {σ} {dev : MbDev σ} {P Q N} (hd : ReadErrs dev P Q N) (s : σ) (a n : Int) (e : Exc) (hP : P a n)
    (h : (cdRead dev s a n).2 = .error e) : e = .sunSpecClientError ∨ Q e := by
  simp only [cdRead] at h
  cases hr : (dev.read s a n).2 with
  | ok d => rw [hr] at h; cases h
  | error e1 =>
    rw [hr] at h
    simp only [cdWrap, Except.error.injEq] at h
    rcases hd.err _ _ _ _ hP hr with h1 | h1
    · rw [if_pos h1] at h; exact .inl h.symm
    · by_cases h2 : e1.isModbusClient = true
      · rw [if_pos h2] at h; exact .inl h.symm
      · rw [if_neg h2] at h; subst h; exact .inr h1

theorem cdRead_none {σ} {dev : MbDev σ} {P Q N} (hd : ReadErrs dev P Q N) (s : σ) (a n : Int) (h : (cdRead dev s a n).2 = .ok none) : N := by
  simp only [cdRead] at h
  cases hr : (dev.read s a n).2 with
  | ok d => rw [hr] at h; cases h; exact hd.none _ _ _ hr
  | error e1 => rw [hr] at h; cases h

theorem readChunks_err {σ} {dev : MbDev σ} {P Q N} (hd : ReadErrs dev P Q N) : ∀ (cs : List (Int × Int)) (data : Bytes) (s : σ) (e : Exc),
    (∀ c ∈ cs, P c.1 c.2) → (readChunks dev cs data s).2 = .error e → e = .sunSpecClientError ∨ Q e ∨ (e = .typeError ∧ N) := by
  intro cs
  induction cs with
  | nil => intro data s e _ h; cases h
  | cons c cs ih =>
    obtain ⟨a, n⟩ := c
    intro data s e hP h
    rw [readChunks] at h
    have h1 := fun e => cdRead_errs hd s a n e (hP (a, n) (by simp))
    have h2 := cdRead_none hd s a n
    cases hr : cdRead dev s a n with
    | mk s' r =>
      rw [hr] at h h1 h2
      cases r with
      | error e1 => cases h; rcases h1 _ rfl with h | h <;> simp [h]
      | ok d =>
        cases d with
        | none => cases h; exact .inr (.inr ⟨rfl, h2 rfl⟩)
        | some d => exact ih _ _ _ (fun c hc => hP c (by simp [hc])) h

theorem readPoints_err {σ} {dev : MbDev σ} {P Q N} (hd : ReadErrs dev P Q N) (s : σ) (m : MdlObj) (hm : PointsFit m)
    (hP : ∀ c ∈ readPlan m, P c.1 c.2) (e : Exc) (h : (readPoints dev s m).2.2 = .error e) :
    e = .sunSpecClientError ∨ Q e ∨ (e = .typeError ∧ N) := by
  have hdata : ∀ e, (readData dev m s).2 = .error e → e = .sunSpecClientError ∨ Q e ∨ (e = .typeError ∧ N) := by
    intro e h
    unfold readData at h
    by_cases h1 : m.readBlocks.length = 1
    · rw [if_pos h1] at h
      rcases cdRead_errs hd s m.addr m.len e (hP (m.addr, m.len) (by unfold readPlan; rw [if_pos h1]; simp)) h with h | h <;> simp [h]
    · rw [if_neg h1] at h
      have := readChunks_err hd (readPlan m) [] s
      cases hr : readChunks dev (readPlan m) [] s with
      | mk s' r =>
        rw [hr] at h this
        cases r with
        | error e1 => cases h; exact this _ hP rfl
        | ok d => cases h
  have hwrap : ∀ e1, (e1 = .sunSpecClientError ∨ Q e1 ∨ (e1 = .typeError ∧ N)) → rpWrap (.error e1) = .error e → e = .sunSpecClientError ∨ Q e ∨ (e = .typeError ∧ N) := by
    intro e1 h1 h
    simp only [rpWrap, Except.error.injEq] at h
    split at h
    · exact .inl h.symm
    · subst h; exact h1
  unfold readPoints at h
  by_cases hn : m.mtype = none
  · rw [if_pos hn] at h; cases h
  · rw [if_neg hn] at h
    cases hx : readData dev m s with
    | mk s1 r1 =>
      rw [hx] at h
      cases r1 with
      | error e1 => exact hwrap e1 (hdata e1 (by rw [hx])) h
      | ok d =>
        dsimp only at h
        rcases readApply_total m hm d with ⟨h1, _⟩ | h1
        · rw [h1] at h
          exact hwrap _ (.inl rfl) h
        · rw [h1] at h; cases h

theorem readModels_err {σ} {dev : MbDev σ} {P Q N} (hd : ReadErrs dev P Q N) : ∀ (ms : List MdlObj) (s : σ) (e : Exc),
    (∀ m ∈ ms, PointsFit m ∧ ∀ c ∈ readPlan m, P c.1 c.2) → (readModels dev ms s).2.2 = .error e →
    e = .sunSpecClientError ∨ Q e ∨ (e = .typeError ∧ N) := by
  intro ms
  induction ms with
  | nil => intro s e _ h; cases h
  | cons m ms ih =>
    intro s e hm h
    rw [readModels] at h
    have h1 := fun e => readPoints_err hd s m (hm m (by simp)).1 (hm m (by simp)).2 e
    cases hx : readPoints dev s m with
    | mk s1 r1 =>
      obtain ⟨m1, r⟩ := r1
      rw [hx] at h h1
      cases r with
      | error e1 => cases h; exact h1 _ rfl
      | ok u => exact ih s1 e (fun m hm' => hm m (by simp [hm'])) h

/-- The exceptions of writes (at addresses and of data in `P`). -/
def WriteErrs {σ} (dev : MbDev σ) (P : Int → Nat → Prop) (Q : Exc → Prop) : Prop :=
  ∀ s a d e, P a d.length → (dev.write s a d).2 = .error e → e.isModbusClient = true ∨ Q e

theorem cdWrite_err {σ} {dev : MbDev σ} {P Q} (hd : WriteErrs dev P Q) (s : σ) (a : Int) (d : Bytes) (e : Exc) (hP : P a d.length)
    (h : (cdWrite dev s a d).2 = .error e) : e = .sunSpecClientError ∨ Q e := by
  simp only [cdWrite] at h
  cases hr : (dev.write s a d).2 with
  | ok d => rw [hr] at h; cases h
  | error e1 =>
    rw [hr] at h
    simp only [cdWrap, Except.error.injEq] at h
    rcases hd _ _ _ _ hP hr with h1 | h1
    · rw [if_pos h1] at h; exact .inl h.symm
    · by_cases h2 : e1.isModbusClient = true
      · rw [if_pos h2] at h; exact .inl h.symm
      · rw [if_neg h2] at h; subst h; exact .inr h1

/-- What is waiting to be written is a run of registers in the address space. -/
def RunOK (P : Int → Nat → Prop) {σ} (acc : WAcc σ) : Prop :=
  ∀ a, acc.addr = some a → P a acc.data.length ∧ acc.data.length = 2 * (acc.next - a).toNat ∧ a ≤ acc.next ∧ 0 ≤ a

theorem wpPoints_err {σ} {dev : MbDev σ} {Q} (P : Int → Nat → Prop) (hP : ∀ (a : Int) (n : Nat), 0 ≤ a → a + n ≤ 65536 → 0 < n → P a (2 * n)) (hd : WriteErrs dev P Q) : ∀ (ps : List PointObj) (acc : WAcc σ),
    (∀ p ∈ ps, p.dirty → (∃ rs, Encoded p rs) ∧ 0 ≤ p.addr ∧ p.addr + p.pt.len ≤ 65536 ∧ 0 < p.pt.len) → RunOK P acc →
    RunOK P (wpPoints dev ps acc).2.1 ∧ ∀ e, (wpPoints dev ps acc).2.2 = .error e → e = .sunSpecClientError ∨ Q e := by
  intro ps
  induction ps with
  | nil => intro acc _ h; exact ⟨h, fun e h => by cases h⟩
  | cons p ps ih =>
    intro acc hp hacc
    rw [wpPoints]
    have ih' := fun acc => ih acc (fun p h => hp p (by simp [h]))
    have hstep : RunOK P (wpPoint dev acc p).2.1 ∧ ∀ e, (wpPoint dev acc p).2.2 = .error e → e = .sunSpecClientError ∨ Q e := by
      unfold wpPoint
      by_cases hdirty : p.dirty = true
      · rw [if_pos hdirty]
        obtain ⟨⟨rs, h1, h2⟩, h3, h4, h5⟩ := hp p (by simp) hdirty
        rw [h1]
        dsimp only
        have hnew : ∀ s : σ, RunOK P (⟨s, some p.addr, p.addr + p.pt.len, regBytes rs⟩ : WAcc σ) := by
          intro s a ha
          have ha : p.addr = a := Option.some.inj ha
          subst ha
          dsimp only
          rw [regBytes_length]
          exact ⟨hP _ _ h3 (by omega) (by omega), by omega, by omega, h3⟩
        cases ha : acc.addr with
        | none => exact ⟨hnew _, fun e h => by cases h⟩
        | some a =>
          obtain ⟨c1, c2, c3, c4⟩ := hacc a ha
          dsimp only
          by_cases hn : p.addr = acc.next
          · rw [if_pos hn]
            refine ⟨?_, fun e h => by cases h⟩
            intro a' ha'
            have ha' : a = a' := Option.some.inj ha'
            subst ha'
            dsimp only
            rw [List.length_append, regBytes_length, c2]
            have : 2 * (acc.next - a).toNat + 2 * rs.length = 2 * ((p.addr + p.pt.len - a).toNat) := by omega
            rw [this]
            exact ⟨hP _ _ c4 (by omega) (by omega), rfl, by omega, c4⟩
          · rw [if_neg hn]
            have hw := fun e => cdWrite_err hd acc.s a acc.data e c1
            cases hr : cdWrite dev acc.s a acc.data with
            | mk s' r =>
              rw [hr] at hw
              cases r with
              | error e1 =>
                refine ⟨?_, fun e h => ?_⟩
                · intro a' ha'
                  exact hacc a' (ha.trans ha')
                · cases h; exact hw _ rfl
              | ok u => exact ⟨hnew _, fun e h => by cases h⟩
      · rw [if_neg hdirty]
        exact ⟨hacc, fun e h => by cases h⟩
    cases hw : wpPoint dev acc p with
    | mk p' r =>
      obtain ⟨acc', r⟩ := r
      rw [hw] at hstep
      cases r with
      | error e1 =>
        refine ⟨hstep.1, fun e h => ?_⟩
        cases h
        exact hstep.2 _ rfl
      | ok u =>
        have := ih' acc' hstep.1
        exact this

theorem writePoints_err {σ} {dev : MbDev σ} {Q} (P : Int → Nat → Prop) (hP : ∀ (a : Int) (n : Nat), 0 ≤ a → a + n ≤ 65536 → 0 < n → P a (2 * n)) (hd : WriteErrs dev P Q) (m : MdlObj) (s : σ)
    (hp : ∀ b ∈ m.blocks, ∀ p ∈ b.pts, p.dirty → (∃ rs, Encoded p rs) ∧ 0 ≤ p.addr ∧ p.addr + p.pt.len ≤ 65536 ∧ 0 < p.pt.len)
    (e : Exc) (h : (writePoints dev s m).2.2 = .error e) : e = .sunSpecClientError ∨ Q e := by
  have key : ∀ (bs : List BlockObj) (s : σ), (∀ b ∈ bs, b ∈ m.blocks) → (wpBlocks dev bs s).2.2 = .error e → e = .sunSpecClientError ∨ Q e := by
    intro bs
    induction bs with
    | nil => intro s _ h; cases h
    | cons b bs ih =>
      intro s hb h
      rw [wpBlocks] at h
      have h1 := wpPoints_err P hP hd b.pts { s := s } (hp b (hb b (by simp))) (by intro a ha; cases ha)
      cases hx : wpPoints dev b.pts { s := s } with
      | mk pts r =>
        obtain ⟨acc, r⟩ := r
        rw [hx] at h h1
        cases r with
        | error e1 => cases h; exact h1.2 _ rfl
        | ok u =>
          dsimp only at h
          have hfl : ∀ e, (wpFlush dev acc).2 = .error e → e = .sunSpecClientError ∨ Q e := by
            intro e h
            unfold wpFlush at h
            cases ha : acc.addr with
            | none => rw [ha] at h; cases h
            | some a => rw [ha] at h; exact cdWrite_err hd _ _ _ _ (h1.1 a ha).1 h
          cases hy : wpFlush dev acc with
          | mk s' r =>
            rw [hy] at h hfl
            cases r with
            | error e1 => cases h; exact hfl _ rfl
            | ok u => exact ih s' (fun b hb' => hb b (by simp [hb'])) h
  exact key m.blocks s (fun b h => h) h

theorem scanLoop_err {σ} {dev : MbDev σ} {Q N} (hd : ReadErrs dev (fun _ _ => True) Q N) (lib : Int → Py ModelType) (prog : List MdlObj → Int → Bool) :
    ∀ (fuel : Nat) (id addr : Int) (c : CliDev σ) (e : Exc), (scanLoop dev lib prog fuel id addr c).2 = .error e →
    e = .sunSpecClientError ∨ Q e ∨ e = .diverge := by
  intro fuel
  induction fuel with
  | zero => intro id addr c e h; cases h; exact .inr (.inr rfl)
  | succ fuel ih =>
    intro id addr c e h
    rw [scanLoop] at h
    split at h
    · cases h
    · have h1 := fun e => cdRead_errs hd c.st (addr + 1) 1 e trivial
      cases hr : cdRead dev c.st (addr + 1) 1 with
      | mk s1 r =>
        rw [hr] at h h1
        cases r with
        | error e1 => cases h; rcases h1 _ rfl with h | h <;> simp [h]
        | ok d =>
          dsimp only at h
          split at h
          · cases h
          · split at h
            · cases h; exact .inl rfl
            · rename_i len _ _
              split at h
              · rename_i heq
                cases h
                unfold scanLoad at heq
                split at heq
                · cases heq
                · split at heq
                  · cases heq; exact .inr (.inr rfl)
                  · cases heq
              · have h2 := fun e => cdRead_errs hd s1 (addr + (len + 2)) 1 e trivial
                cases hr2 : cdRead dev s1 (addr + (len + 2)) 1 with
                | mk s2 r2 =>
                  rw [hr2] at h h2
                  cases r2 with
                  | error e1 => cases h; rcases h2 _ rfl with h | h <;> simp [h]
                  | ok d =>
                    dsimp only at h
                    split at h
                    · cases h
                    · exact ih _ _ _ _ h

theorem scanBody_err {σ} {dev : MbDev σ} {Q N} (hd : ReadErrs dev (fun _ _ => True) Q N) (lib : Int → Py ModelType) (prog : List MdlObj → Int → Bool)
    (fuel : Nat) (c : CliDev σ) (e : Exc) (h : (scanBody fuel dev lib prog c).2 = .error e) :
    e = .sunSpecClientError ∨ Q e ∨ e = .diverge ∨ (e = .typeError ∧ N) ∨ e = .structError ∨ (e = .unboundLocal ∧ c.base ≠ none) := by
  unfold scanBody at h
  cases hb : c.base with
  | some b => rw [hb] at h; cases h; simp
  | none =>
    rw [hb] at h
    dsimp only at h
    have hpr : ∀ (bs : List Int) (s : σ) (e : Exc), (probe dev bs s).2 = .error e → Q e ∨ (e = .typeError ∧ N) := by
      intro bs
      induction bs with
      | nil => intro s e h; cases h
      | cons a bs ih =>
        intro s e h
        rw [probe] at h
        have h1 := fun e => cdRead_errs hd s a 3 e trivial
        have h2 := cdRead_none hd s a 3
        cases hr : cdRead dev s a 3 with
        | mk s1 r =>
          rw [hr] at h h1 h2
          cases r with
          | error e1 =>
            dsimp only at h
            split at h
            · exact ih _ _ h
            · rename_i hne
              cases h
              rcases h1 _ rfl with h | h
              · exact absurd h hne
              · exact .inl h
          | ok d =>
            cases d with
            | none => cases h; exact .inr ⟨rfl, h2 rfl⟩
            | some d =>
              dsimp only at h
              split at h
              · cases h
              · exact ih _ _ h
    have hpr := hpr c.bases c.st
    cases hp : probe dev c.bases c.st with
    | mk s r =>
      rw [hp] at h hpr
      cases r with
      | error e1 => cases h; rcases hpr _ rfl with h | h <;> simp [h]
      | ok x =>
        cases x with
        | none => cases h; exact .inl rfl
        | some ad =>
          obtain ⟨a, d⟩ := ad
          dsimp only at h
          unfold scanFrom at h
          split at h
          · cases h; simp
          · rcases scanLoop_err hd lib prog _ _ _ _ _ h with h | h | h <;> simp [h]

end Verif
