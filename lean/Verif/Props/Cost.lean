import Verif.Props.Cancel
import Verif.Props.Load
import Verif.Props.ReadOnly

/-!
# C78: how many requests reading takes
-/

namespace Verif
open Verif.Spec

/-- The requests needed to read `n` registers, `max` at a time. -/
def Spec.requestsFor' (n max : Nat) : Nat := (n + (max - 1)) / max

/-- `cost` counts requests: reading `n` registers takes at most one for each 125 registers begun. -/
def Spec.Cheap {σ} (dev : MbDev σ) (cost : σ → Nat) : Prop :=
  ∀ s a n, cost (dev.read s a n).1 ≤ cost s + (n.toNat + 124) / 125

/-! ## Single reads -/

theorem requestsFor_step (count max : Nat) (hmax : 0 < max) (hc : 0 < count) :
    1 + requestsFor' (count - (if count > max then max else count)) max = requestsFor' count max := by
  unfold requestsFor'
  split
  · rename_i h
    have : count + (max - 1) = (count - max + (max - 1)) + max := by omega
    rw [this, Nat.add_div_right _ hmax]; omega
  · rename_i h
    have e1 : count - count + (max - 1) = max - 1 := by omega
    rw [e1, Nat.div_eq_of_lt (by omega)]
    have e2 : count + (max - 1) = (count - 1) + max := by omega
    rw [e2, Nat.add_div_right _ hmax, Nat.div_eq_of_lt (by omega)]

theorem rtuReadF_cost {σ} (slave : Slave σ) (sid op : Int) (max : Nat) (hmax : 0 < max) :
    ∀ (fuel : Nat) (addr : Int) (count : Nat) (resp : Bytes) (l : Line σ),
      (rtuReadF slave sid op max fuel addr count resp l).1.sent.length ≤ l.sent.length + requestsFor' count max := by
  intro fuel
  induction fuel with
  | zero => intro addr count resp l; exact Nat.le_add_right _ _
  | succ fuel ih =>
    intro addr count resp l
    rw [rtuReadF]
    by_cases hc : count > 0
    · rw [if_pos hc]
      dsimp only
      have hs := requestsFor_step count max hmax hc
      generalize (if count > max then max else count) = rc at hs ⊢
      rw [rtuRead1_eq]
      split
      · rename_i l' e heq
        split at heq
        · simp only [Prod.mk.injEq] at heq
          rw [← heq.1]; simp; omega
        · simp only [Prod.mk.injEq] at heq
          rw [← heq.1]; exact Nat.le_add_right _ _
      · rename_i l' data heq
        split at heq
        · simp only [Prod.mk.injEq] at heq
          have hl : l'.sent.length = l.sent.length + 1 := by rw [← heq.1]; simp
          split
          · have := ih (addr + rc) (count - rc) (resp ++ data) l'
            omega
          · dsimp only; omega
        · simp at heq
    · rw [if_neg hc]; exact Nat.le_add_right _ _

theorem tcpRead1_cost {σ} (srv : TcpServer σ) (t : Tcp σ) (sid op addr q : Int) :
    (tcpRead1 srv t sid op addr q).1.sent.length ≤ t.sent.length + 1 := by
  unfold tcpRead1
  generalize packTcpRead sid op addr q = r
  cases r with
  | error e => exact Nat.le_succ _
  | ok req =>
    rw [andThen_ok]
    have he : (tcpExchange srv .modbusClientError t req).1.sent.length ≤ t.sent.length + 1 := by
      unfold tcpExchange
      split
      · split <;> simp
      · exact Nat.le_succ _
    generalize tcpExchange srv .modbusClientError t req = x at he ⊢
    obtain ⟨t', x⟩ := x
    cases x with
    | error e => exact he
    | ok x => exact he

theorem tcpReadF_cost {σ} (srv : TcpServer σ) (sid op : Int) (max : Nat) (hmax : 0 < max) :
    ∀ (fuel : Nat) (addr : Int) (count : Nat) (resp : Bytes) (t : Tcp σ),
      (tcpReadF srv sid op max fuel addr count resp t).1.sent.length ≤ t.sent.length + requestsFor' count max := by
  intro fuel
  induction fuel with
  | zero => intro addr count resp l; exact Nat.le_add_right _ _
  | succ fuel ih =>
    intro addr count resp t
    rw [tcpReadF]
    by_cases hc : count > 0
    · rw [if_pos hc]
      dsimp only
      have hs := requestsFor_step count max hmax hc
      generalize (if count > max then max else count) = rc at hs ⊢
      have h1 := tcpRead1_cost srv t sid op addr rc
      generalize tcpRead1 srv t sid op addr rc = x at h1 ⊢
      obtain ⟨t', x⟩ := x
      dsimp only at h1
      cases x with
      | error e => show t'.sent.length ≤ _; omega
      | ok data =>
        rw [andThen_ok]
        split
        · have := ih (addr + rc) (count - rc) (resp ++ data) t'
          omega
        · dsimp only; omega
    · rw [if_neg hc]; exact Nat.le_add_right _ _

/-- C78, single reads: whatever the slave or the server answers, reading `count` registers sends at most one request for each
`max_count` registers begun. -/
theorem C78_read {σ} (max : Nat) (hmax : 0 < max) (sid op addr : Int) (count : Nat) :
    (∀ (slave : Slave σ) (l : Line σ), (rtuRead slave l sid op addr count max).1.sent.length ≤ l.sent.length + (count + (max - 1)) / max) ∧
    (∀ (srv : TcpServer σ) (t : Tcp σ), (tcpRead srv t sid op addr count max).1.sent.length ≤ t.sent.length + (count + (max - 1)) / max) := by
  constructor
  · intro slave l
    exact rtuReadF_cost slave sid op max hmax _ addr count [] l
  · intro srv t
    have key := tcpReadF_cost srv sid op max hmax (count + 1) addr count []
    unfold tcpRead tcpWith
    split
    · have hc := (tcpConnect_sent srv t).1
      generalize tcpConnect srv t = x at hc ⊢
      obtain ⟨t1, x⟩ := x
      dsimp only at hc
      cases x with
      | error e => show t1.sent.length ≤ _; rw [hc]; exact Nat.le_add_right _ _
      | ok u =>
        rw [andThen_ok]
        dsimp only
        rw [(tcpDisconnect_sent _).1, ← hc]
        exact key t1
    · exact key t

theorem rtu_cheap {σ} (slave : Slave σ) (sid : Int) : Cheap (rtuDev slave sid) (fun l => l.sent.length) := by
  intro l a n
  exact (C78_read (σ := σ) 125 (by decide) sid 3 a n.toNat).1 slave l

theorem tcp_cheap {σ} (srv : TcpServer σ) (sid : Int) : Cheap (tcpDev srv sid) (fun t => t.sent.length) := by
  intro t a n
  exact (C78_read (σ := σ) 125 (by decide) sid 3 a n.toNat).2 srv t

/-! ## Reading a model -/

/-- The requests of a list of reads. -/
def planCost (plan : List (Int × Int)) : Nat := (plan.map fun c => (c.2.toNat + 124) / 125).sum

theorem readChunks_cost {σ} {dev : MbDev σ} {cost : σ → Nat} (hc : Cheap dev cost) (plan : List (Int × Int)) :
    ∀ (data : Bytes) (s : σ), cost (readChunks dev plan data s).1 ≤ cost s + planCost plan := by
  induction plan with
  | nil => intro data s; exact Nat.le_add_right _ _
  | cons an plan ih =>
    intro data s
    obtain ⟨a, n⟩ := an
    have h1 : cost (cdRead dev s a n).1 ≤ cost s + (n.toNat + 124) / 125 := hc s a n
    have hp : planCost ((a, n) :: plan) = (n.toNat + 124) / 125 + planCost plan := by simp [planCost]
    rw [readChunks, hp]
    generalize cdRead dev s a n = x at h1
    obtain ⟨s', x⟩ := x
    dsimp only at h1
    cases x with
    | error e => dsimp only; omega
    | ok d =>
      cases d with
      | none => dsimp only; omega
      | some d => have := ih (data ++ d) s'; dsimp only; omega

theorem readPoints_cost {σ} {dev : MbDev σ} {cost : σ → Nat} (hc : Cheap dev cost) (s : σ) (m : MdlObj) :
    cost (readPoints dev s m).1 ≤ cost s + planCost (readPlan m) := by
  have hd : cost (readData dev m s).1 ≤ cost s + planCost (readPlan m) := by
    unfold readData readPlan
    split
    · have := hc s m.addr m.len
      simp only [planCost, List.map_cons, List.map_nil, List.sum_cons, List.sum_nil]
      exact this
    · rename_i hl
      have := readChunks_cost hc (readPlan m) [] s
      have e : readPlan m = readPlanLoop (m.addr + m.len) m.readBlocks := by unfold readPlan; rw [if_neg hl]
      rw [e] at this
      split <;> rename_i heq <;> rw [heq] at this <;> exact this
  unfold readPoints
  split
  · exact Nat.le_add_right _ _
  · split <;> rename_i heq <;> rw [heq] at hd <;> exact hd

theorem planCost_bound (stop : Int) (sp : List (Int × Int)) : ∀ lr l : Int, 0 ≤ l → lr + l ≤ stop →
    sp.Pairwise (fun x y => x.1 + x.2 ≤ y.1) → (∀ x ∈ sp, lr + l ≤ x.1 ∧ x.1 + x.2 ≤ stop ∧ 1 ≤ x.2) →
    42 * (planCost (readPlanLoop stop (lr :: readsOf sp lr)) : Int) ≤ stop - lr + 41 ∧
    ∀ n : Int, 1 ≤ n → n < 42 → 126 ≤ n + l → 42 * ((planCost (readPlanLoop stop (lr :: readsOf sp lr)) : Int) + 1) ≤ stop - lr + n + 41 := by
  induction sp with
  | nil =>
    intro lr l hl hs _ _
    simp only [readsOf, readPlanLoop, planCost, List.map_cons, List.map_nil, List.sum_cons, List.sum_nil]
    constructor
    · omega
    · intro n h1 h2 h3; omega
  | cons x sp ih =>
    intro lr l hl hs hp hin
    obtain ⟨a, l'⟩ := x
    obtain ⟨hp1, hp2⟩ := List.pairwise_cons.1 hp
    have hx := hin (a, l') (by simp)
    dsimp only at hx hp1
    rw [readsOf]
    by_cases hc : 125 < a + l' - lr
    · rw [if_pos hc, readPlanLoop]
      have hcost : ∀ rest, planCost ((lr, a - lr) :: rest) = ((a - lr).toNat + 124) / 125 + planCost rest := by
        intro rest; simp [planCost]
      rw [hcost]
      obtain ⟨iA, iB⟩ := ih a l' (by omega) (by omega) hp2 (fun y hy => by
        have h1 := hin y (by simp [hy]); have h2 := hp1 y hy; omega)
      generalize planCost (readPlanLoop stop (a :: readsOf sp a)) = k at iA iB ⊢
      have hB := iB (a - lr)
      constructor
      · by_cases h0 : a - lr < 42
        · by_cases h1 : 1 ≤ a - lr
          · have := hB h1 h0 (by omega); omega
          · omega
        · omega
      · intro n h1 h2 h3; omega
    · rw [if_neg hc]
      exact ih lr l hl hs hp2 (fun y hy => hin y (by simp [hy]))

/-- The model has been loaded from a definition whose points lie in order in their blocks; values may have been read or assigned since. -/
def Spec.LoadedInOrder (m' : MdlObj) : Prop :=
  ∃ (fuel : Nat) (mt : ModelType) (id addr len : Int) (m : MdlObj),
    loadWith fuel (.ok mt) (mdlNew id addr len) = (m, .ok ()) ∧
    (∀ F, mt.fixed.len.toInt = .ok F → BlockOrdered mt.fixed (fixedLen id m.len F) ∧ 0 ≤ fixedLen id m.len F) ∧
    (∀ rb R, mt.rep = some rb → rb.len.toInt = .ok R → BlockOrdered rb R ∧ 0 ≤ R) ∧
    m'.addr = m.addr ∧ m'.len = m.len ∧ m'.readBlocks = m.readBlocks

theorem planCost_loaded (m' : MdlObj) (hm : LoadedInOrder m') : planCost (readPlan m') ≤ (m'.len.toNat + 41) / 42 := by
  obtain ⟨fuel, mt, id, addr, len, m, h, hof, hor, e1, e2, e3⟩ := hm
  have e4 : readPlan m' = readPlan m := by unfold readPlan; rw [e1, e2, e3]
  rw [e4, e2]
  obtain ⟨F, R, n, hl⟩ := loadWith_ok fuel mt id addr len m h
  have hlen := hl.hlen
  obtain ⟨ho, hF0⟩ := hof F hl.flen
  rw [hlen] at ho hF0
  obtain ⟨s1, s2, s3⟩ := hl.spans ho (fun rb hr => hor rb R hr (hl.rlen rb hr)) hF0
  have key := (planCost_bound (addr + effLen mt len) (blockSpans m.blocks) addr 0 (by omega) (by omega) s1 (fun x hx => by
    have := s2 x hx; omega)).1
  have hplan : readPlan m = readPlanLoop (addr + effLen mt len) (addr :: readsOf (blockSpans m.blocks) addr) := by
    unfold readPlan
    by_cases h1 : m.readBlocks.length = 1
    · rw [if_pos h1, hl.haddr, hlen]
      have hnil : readsOf (blockSpans m.blocks) addr = [] := by
        rw [hl.reads] at h1
        simpa using h1
      rw [hnil, readPlanLoop]
      have : addr + effLen mt len - addr = effLen mt len := by omega
      rw [this]
    · rw [if_neg h1, ← hl.reads, hl.haddr, hlen]
  rw [hplan, hlen]
  omega

/-- The requests of reading all models (`read_points` of the device): at most the sum of their bounds. -/
theorem readModels_cost {σ} {dev : MbDev σ} {cost : σ → Nat} (hc : Cheap dev cost) (ms : List MdlObj) (hm : ∀ m ∈ ms, LoadedInOrder m) :
    ∀ s : σ, cost (readModels dev ms s).1 ≤ cost s + (ms.map fun m => (m.len.toNat + 41) / 42).sum := by
  induction ms with
  | nil => intro s; exact Nat.le_add_right _ _
  | cons m ms ih =>
    intro s
    have h1 := readPoints_cost hc s m
    have h2 := planCost_loaded m (hm m (by simp))
    rw [readModels, List.map_cons, List.sum_cons]
    generalize readPoints dev s m = x at h1
    obtain ⟨s1, m1, x⟩ := x
    dsimp only at h1
    cases x with
    | error e => dsimp only; omega
    | ok u => have := ih (fun m hm' => hm m (by simp [hm'])) s1; dsimp only; omega

/-! ## Scanning -/

theorem cdRead_cost1 {σ} {dev : MbDev σ} {cost : σ → Nat} (hc : Cheap dev cost) (s : σ) (a n : Int) (h0 : 0 ≤ n) (h1 : n ≤ 125) :
    cost (cdRead dev s a n).1 ≤ cost s + 1 := by
  have : cost (cdRead dev s a n).1 ≤ cost s + (n.toNat + 124) / 125 := hc s a n
  omega

theorem probe_cost {σ} {dev : MbDev σ} {cost : σ → Nat} (hc : Cheap dev cost) (bases : List Int) :
    ∀ s : σ, cost (probe dev bases s).1 ≤ cost s + bases.length := by
  induction bases with
  | nil => intro s; exact Nat.le_refl _
  | cons a bases ih =>
    intro s
    have h1 := cdRead_cost1 hc s a 3 (by decide) (by decide)
    rw [probe, List.length_cons]
    generalize cdRead dev s a 3 = x at h1
    obtain ⟨s', x⟩ := x
    dsimp only at h1
    have := ih s'
    cases x with
    | error e => dsimp only; split <;> (try dsimp only) <;> omega
    | ok d =>
      cases d with
      | none => dsimp only; omega
      | some d => dsimp only; split <;> (try dsimp only) <;> omega

theorem scanLoop_cost {σ} {dev : MbDev σ} {cost : σ → Nat} (hc : Cheap dev cost) (lib : Int → Py ModelType) (prog : List MdlObj → Int → Bool) :
    ∀ (fuel : Nat) (id addr : Int) (c : CliDev σ),
      cost (scanLoop dev lib prog fuel id addr c).1.st + 2 * c.list.length ≤ cost c.st + 2 * (scanLoop dev lib prog fuel id addr c).1.list.length + 1 := by
  intro fuel
  induction fuel with
  | zero => intro id addr c; rw [scanLoop]; dsimp only; omega
  | succ fuel ih =>
    intro id addr c
    rw [scanLoop]
    split
    · dsimp only; omega
    · have h1 := cdRead_cost1 hc c.st (addr + 1) 1 (by decide) (by decide)
      generalize cdRead dev c.st (addr + 1) 1 = r1 at h1
      obtain ⟨s1, r1⟩ := r1
      dsimp only at h1
      cases r1 with
      | error e => dsimp only; omega
      | ok d1 =>
        dsimp only
        cases wordOf d1 with
        | none => dsimp only; omega
        | some len =>
          dsimp only
          split
          · dsimp only; omega
          · cases scanLoad (lib id) (mdlNew id (addr + 2) len) with
            | error e => dsimp only; omega
            | ok m =>
              dsimp only
              have h2 := cdRead_cost1 hc s1 (addr + (len + 2)) 1 (by decide) (by decide)
              generalize cdRead dev s1 (addr + (len + 2)) 1 = r2 at h2
              obtain ⟨s2, r2⟩ := r2
              dsimp only at h2
              have hlen : (addModel c m).list.length = c.list.length + 1 := by simp [addModel]
              cases r2 with
              | error e => dsimp only; omega
              | ok d2 =>
                dsimp only
                cases wordOf d2 with
                | none => dsimp only; omega
                | some id2 =>
                  dsimp only
                  have := ih id2 (addr + (len + 2)) { addModel c m with st := s2 }
                  dsimp only at this
                  omega

/-- Scanning: whatever the device answers, a scan sends at most one request for each base address, two for each model it
finds, and one more. -/
theorem scan_cost {σ} {dev : ScanDev σ} {cost : σ → Nat} (hc : Cheap dev.toMbDev cost)
    (hconn : ∀ f, dev.conn = some f → ∀ s, cost (f s).1 = cost s) (hdisc : ∀ s, cost (dev.disc s) = cost s)
    (lib : Int → Py ModelType) (prog : List MdlObj → Int → Bool) (fuel : Nat) (c : CliDev σ) :
    ∃ found, (scan fuel dev lib prog c).1.list = c.list ++ found ∧
      cost (scan fuel dev lib prog c).1.st ≤ cost c.st + c.bases.length + 2 * found.length + 1 := by
  have hbody : ∀ c : CliDev σ, cost (scanBody fuel dev.toMbDev lib prog c).1.st + 2 * c.list.length ≤
      cost c.st + c.bases.length + 2 * (scanBody fuel dev.toMbDev lib prog c).1.list.length + 1 := by
    intro c
    unfold scanBody
    cases c.base with
    | some b => dsimp only; omega
    | none =>
      dsimp only
      have h1 := probe_cost hc c.bases c.st
      generalize probe dev.toMbDev c.bases c.st = r at h1
      obtain ⟨s, r⟩ := r
      dsimp only at h1
      cases r with
      | error e => dsimp only; omega
      | ok o =>
        cases o with
        | none => dsimp only; omega
        | some x =>
          obtain ⟨a, d⟩ := x
          dsimp only
          unfold scanFrom
          cases wordOf (some ((d.drop 4).take 2)) with
          | none => dsimp only; omega
          | some id =>
            dsimp only
            have := scanLoop_cost hc lib prog fuel id (a + 2) { c with st := s, base := some a }
            dsimp only at this
            omega
  have hlist := C77_obeyed dev lib prog fuel c
  obtain ⟨found, hf, -⟩ := hlist
  refine ⟨found, hf, ?_⟩
  have hl : (scan fuel dev lib prog c).1.list.length = c.list.length + found.length := by rw [hf, List.length_append]
  have key : cost (scan fuel dev lib prog c).1.st + 2 * c.list.length ≤ cost c.st + c.bases.length + 2 * (scan fuel dev lib prog c).1.list.length + 1 := by
    clear hf hl
    unfold scan
    cases hcn : dev.conn with
    | none => exact hbody c
    | some f =>
      dsimp only
      have h1 := hconn f hcn c.st
      generalize f c.st = r at h1
      obtain ⟨s, r⟩ := r
      dsimp only at h1
      cases r with
      | error e => dsimp only; omega
      | ok u =>
        dsimp only
        have h2 := hbody { c with st := s }
        generalize scanBody fuel dev.toMbDev lib prog { c with st := s } = r at h2
        obtain ⟨c1, r⟩ := r
        dsimp only at h2
        cases r with
        | error e => unfold scanEnd; dsimp only; omega
        | ok u => unfold scanEnd; dsimp only; rw [hdisc]; omega
  omega

/-- C78 on a serial line: whatever the slave answers, a scan sends at most one request for each base address, two for each model it
finds, and one more; reading a loaded model whose points are in order sends at most one request for each 42 registers begun;
and reading all models at most the sum of these. -/
theorem C78_rtu {σ} (slave : Slave σ) (sid : Int) :
    (∀ lib prog fuel (c : CliDev (Line σ)), ∃ found, (scan fuel (rtuScanDev slave sid) lib prog c).1.list = c.list ++ found ∧
      (scan fuel (rtuScanDev slave sid) lib prog c).1.st.sent.length ≤ c.st.sent.length + c.bases.length + 2 * found.length + 1) ∧
    (∀ (l : Line σ) m, LoadedInOrder m → (readPoints (rtuDev slave sid) l m).1.sent.length ≤ l.sent.length + (m.len.toNat + 41) / 42) ∧
    (∀ (l : Line σ) ms, (∀ m ∈ ms, LoadedInOrder m) →
      (readModels (rtuDev slave sid) ms l).1.sent.length ≤ l.sent.length + (ms.map fun m => (m.len.toNat + 41) / 42).sum) := by
  have hc := rtu_cheap slave sid
  refine ⟨fun lib prog fuel c => ?_, fun l m hm => ?_, fun l ms hm => readModels_cost hc ms hm l⟩
  · exact scan_cost (dev := rtuScanDev slave sid) hc (fun f hf => by simp [rtuScanDev] at hf) (fun _ => rfl) lib prog fuel c
  · have h1 := readPoints_cost hc l m
    have h2 := planCost_loaded m hm
    omega

/-- C78 over TCP: the same. -/
theorem C78_tcp {σ} (srv : TcpServer σ) (sid : Int) :
    (∀ lib prog fuel (c : CliDev (Tcp σ)), ∃ found, (scan fuel (tcpScanDev srv sid) lib prog c).1.list = c.list ++ found ∧
      (scan fuel (tcpScanDev srv sid) lib prog c).1.st.sent.length ≤ c.st.sent.length + c.bases.length + 2 * found.length + 1) ∧
    (∀ (t : Tcp σ) m, LoadedInOrder m → (readPoints (tcpDev srv sid) t m).1.sent.length ≤ t.sent.length + (m.len.toNat + 41) / 42) ∧
    (∀ (t : Tcp σ) ms, (∀ m ∈ ms, LoadedInOrder m) →
      (readModels (tcpDev srv sid) ms t).1.sent.length ≤ t.sent.length + (ms.map fun m => (m.len.toNat + 41) / 42).sum) := by
  have hc := tcp_cheap srv sid
  refine ⟨fun lib prog fuel c => ?_, fun l m hm => ?_, fun l ms hm => readModels_cost hc ms hm l⟩
  · refine scan_cost (dev := tcpScanDev srv sid) hc (fun f hf => ?_) (fun t => congrArg List.length (tcpDisconnect_sent t).1) lib prog fuel c
    intro t
    simp only [tcpScanDev, Option.some.injEq] at hf
    subst hf
    exact congrArg List.length (tcpConnect_sent srv t).1
  · have h1 := readPoints_cost hc l m
    have h2 := planCost_loaded m hm
    omega

/-- Non-vacuity: the definition of 128 registers of C31. -/
example : LoadedInOrder (mdlLoad (.ok bigType) (mdlNew 902 40002 128)).1 := by
  have e : (mdlLoad (.ok bigType) (mdlNew 902 40002 128)).1.len = 128 := by decide +kernel
  refine ⟨loadFuel (.ok bigType) (mdlNew 902 40002 128), bigType, 902, 40002, 128, (mdlLoad (.ok bigType) (mdlNew 902 40002 128)).1, ?_, ?_, ?_, rfl, rfl, rfl⟩
  · exact Prod.ext rfl (by decide +kernel : (mdlLoad (.ok bigType) (mdlNew 902 40002 128)).2 = .ok ())
  · intro F hF
    have h : bigType.fixed.len.toInt = .ok 128 := by decide +kernel
    have := (Except.ok.inj (hF.symm.trans h))
    subst this
    rw [e]
    exact ⟨⟨by decide +kernel, by decide +kernel, by decide +kernel⟩, by decide +kernel⟩
  · intro rb R h; exact absurd h (by simp [bigType])

/-- A definition that comes near to the bound: a point and a string of 125 registers, padding, and the same again. -/
def gapType : ModelType where
  id := 903
  len := 254
  name := t!"gaps"
  fixed := ⟨false, .str (t!"254"), t!"fixed", [
    { id := t!"A", offset := 0, type := .uint16, len := 1 },
    { id := t!"S", offset := 1, type := .string, len := 125 },
    { id := t!"Pad", offset := 126, type := .pad, len := 1 },
    { id := t!"B", offset := 127, type := .uint16, len := 1 },
    { id := t!"T", offset := 128, type := .string, len := 125 },
    { id := t!"Pad2", offset := 253, type := .pad, len := 1 }]⟩
  rep := none

/-- 254 registers in six requests, one for 42 1/3 registers; the bound is seven. -/
example : readPlan (mdlLoad (.ok gapType) (mdlNew 903 40002 254)).1 = [(40002, 1), (40003, 126), (40129, 1), (40130, 126)] ∧
    planCost (readPlan (mdlLoad (.ok gapType) (mdlNew 903 40002 254)).1) = 6 ∧ (254 + 41) / 42 = 7 := by decide +kernel

/-- Non-vacuity: scanning a device with two models: five reads of the eight allowed (there are three base addresses). -/
example : (scan 9 (recorded mapScanDev) (fun _ => .ok exType) (fun _ _ => true) { st := (scanMap, []) }).1.st.2.length = 5 ∧
    (scan 9 (recorded mapScanDev) (fun _ => .ok exType) (fun _ _ => true) { st := (scanMap, []) }).1.list.length = 2 := by
  decide +kernel

end Verif
