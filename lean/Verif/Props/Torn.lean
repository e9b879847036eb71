import Verif.Props.Cost

/-!
# C80: registers that change while they are read

The registers of a device change by themselves: `env k` is the memory of the device at the moment of its `k`-th request,
whatever the requests are. Nothing is assumed about how `env` changes.
-/

namespace Verif
open Verif.Spec

/-- A slave whose registers change by themselves: `now` counts its requests; it answers request number `k` from the
registers `env k`, in any fragmentation. -/
def Spec.LiveRtu {σ : Type} (slave : Slave σ) (now : σ → Nat) (env : Nat → Mem) (sid : Byte) : Prop :=
  ∀ s req, now (slave s req).1 = now s + 1 ∧
    ∃ chunks, (slave s req).2 = some chunks ∧ received chunks = (serveRtu sid (env (now s)) req).2.getD []

/-- The same for a TCP server; accepting a connection is not a request. -/
def Spec.LiveTcp {σ : Type} (srv : TcpServer σ) (now : σ → Nat) (env : Nat → Mem) (unit : Byte) : Prop :=
  (∀ s, (srv.accept s).2 = true ∧ now (srv.accept s).1 = now s) ∧
  ∀ s req, now (srv.react s req).1 = now s + 1 ∧
    ∃ chunks, (srv.react s req).2 = some chunks ∧ (∀ c ∈ chunks, c ≠ []) ∧
      chunks.flatten = (serveTcp unit (env (now s)) req).2

/-- Reading `n` registers takes one moment for each 125 registers begun; register number `j` of the read is the one of the
moment in which it is requested. -/
def Spec.Live {σ : Type} (dev : MbDev σ) (now : σ → Nat) (ready : σ → Prop) (env : Nat → Mem) : Prop :=
  ∀ (s : σ) (a n : Nat), ready s → a + n ≤ 65536 → ∃ s', ready s' ∧ now s' = now s + (n + 124) / 125 ∧
    dev.read s a n = (s', .ok (some (memRead (fun x => env (now s + (x - a) / 125) x) a n)))

/-! ## Devices -/

theorem memRead_congr {m m' : Mem} {a n : Nat} (h : ∀ x, a ≤ x → x < a + n → m x = m' x) : memRead m a n = memRead m' a n := by
  unfold memRead
  rw [List.flatMap_congr]
  intro i hi
  rw [h (a + i) (by omega) (by have := List.mem_range.1 hi; omega)]

theorem live_split (env : Nat → Mem) (k a q count : Nat) (h1 : 1 ≤ q) (h2 : q ≤ count) (h3 : q = 125 ∨ (q ≤ 125 ∧ q = count)) :
    memRead (env k) a q ++ memRead (fun x => env (k + 1 + (x - (a + q)) / 125) x) (a + q) (count - q) =
      memRead (fun x => env (k + (x - a) / 125) x) a count := by
  have e : count = q + (count - q) := by omega
  rw [show memRead (fun x => env (k + (x - a) / 125) x) a count = memRead (fun x => env (k + (x - a) / 125) x) a (q + (count - q)) by rw [← e],
    memRead_add]
  congr 1
  · apply memRead_congr
    intro x hx1 hx2
    rw [show (x - a) / 125 = 0 by omega]; rfl
  · apply memRead_congr
    intro x hx1 hx2
    rw [show k + 1 + (x - (a + q)) / 125 = k + (x - a) / 125 by omega]

theorem live_rtuReadF {σ} {slave : Slave σ} {now : σ → Nat} {env : Nat → Mem} {sid : Byte} (hc : LiveRtu slave now env sid) :
    ∀ (fuel a count : Nat) (resp : Bytes) (l : Line σ), count < fuel → a + count ≤ 65536 →
      ∃ l', now l'.dev = now l.dev + (count + 124) / 125 ∧
        rtuReadF slave sid.toNat 3 125 fuel a count resp l =
          (l', .ok (some (resp ++ memRead (fun x => env (now l.dev + (x - a) / 125) x) a count))) := by
  intro fuel
  induction fuel with
  | zero => intro a count resp l h; omega
  | succ fuel ih =>
    intro a count resp l hf ha
    rw [rtuReadF]
    by_cases hcz : count > 0
    · rw [if_pos hcz]
      dsimp only
      generalize hqq : (if count > 125 then 125 else count) = q
      have hq1 : 1 ≤ q ∧ q ≤ count ∧ (q = 125 ∨ (q ≤ 125 ∧ q = count)) := by split at hqq <;> omega
      have hsid := sid.isLt
      rw [rtuRead1_eq, if_pos (by omega)]
      simp only [Int.toNat_natCast, BitVec.ofNat_toNat, BitVec.setWidth_eq]
      rw [show (BitVec.ofNat 8 (3 : Int).toNat : Byte) = 3 from rfl]
      obtain ⟨h1, chunks, h2, h3⟩ := hc l.dev (rtuFrame sid (readPdu 3 a q))
      rw [serveRtu_frame, serve_read _ _ (.inl rfl) (by omega) (by omega), if_neg (by omega), if_neg (by omega)] at h3
      simp only [Option.getD_some] at h3
      have hout := readOutcome_reply sid 3 (memRead (env (now l.dev)) a q) (by decide) (by rw [memRead_length]; omega)
      rw [memRead_length] at hout
      rw [h2, Option.map_some, h3, hout]
      dsimp only
      rw [memRead_length, if_pos (by omega)]
      obtain ⟨l', r1, r2⟩ := ih (a + q) (count - q) (resp ++ memRead (env (now l.dev)) a q)
        ⟨(slave l.dev (rtuFrame sid (readPdu 3 a q))).1, l.sent ++ [rtuFrame sid (readPdu 3 a q)]⟩ (by omega) (by omega)
      rw [Int.natCast_add] at r2
      refine ⟨l', ?_, ?_⟩
      · rw [r1]; dsimp only; rw [h1]; omega
      · rw [r2]
        dsimp only
        rw [h1, List.append_assoc, live_split env _ a q count hq1.1 hq1.2.1 hq1.2.2]
    · rw [if_neg hcz]
      have : count = 0 := by omega
      subst this
      exact ⟨l, by omega, by simp [memRead]⟩

theorem rtu_live {σ} {slave : Slave σ} {now : σ → Nat} {env : Nat → Mem} {sid : Byte} (hc : LiveRtu slave now env sid) :
    Live (rtuDev slave sid.toNat) (fun l => now l.dev) (fun _ => True) env := by
  intro l a n _ h
  obtain ⟨l', r1, r2⟩ := live_rtuReadF hc (n + 1) a n [] l (by omega) h
  refine ⟨l', trivial, r1, ?_⟩
  unfold rtuDev; dsimp only; unfold rtuRead
  rw [Int.toNat_natCast]
  exact r2

theorem live_tcpRead1 {σ} {srv : TcpServer σ} {now : σ → Nat} {env : Nat → Mem} {unit : Byte} (hc : LiveTcp srv now env unit)
    (t : Tcp σ) (ht : t.sock = .connected []) (a q : Nat) (h1 : 1 ≤ q) (h2 : q ≤ 125) (h3 : a + q ≤ 65536) :
    ∃ t', t'.sock = .connected [] ∧ now t'.dev = now t.dev + 1 ∧
      tcpRead1 srv t unit.toNat 3 a q = (t', .ok (memRead (env (now t.dev)) a q)) := by
  classical
  -- the server that answers from the registers of this moment conforms to Modbus
  let srv' : TcpServer (Mem × σ) :=
    { accept := fun s => ((s.1, (srv.accept s.2).1), true)
      react := fun s req =>
        if s.1 = env (now s.2) then (((serveTcp unit s.1 req).1, (srv.react s.2 req).1), (srv.react s.2 req).2)
        else (((serveTcp unit s.1 req).1, s.2), some (if (serveTcp unit s.1 req).2 = [] then [] else [(serveTcp unit s.1 req).2])) }
  have hc' : ConformsTcp srv'.accept srv'.react Prod.fst unit := by
    refine ⟨fun s => ⟨rfl, rfl⟩, ?_⟩
    intro s req
    show (Prod.fst (if s.1 = env (now s.2) then _ else _ : (Mem × σ) × Option (List Bytes)).1 = _) ∧ _
    by_cases h : s.1 = env (now s.2)
    · have e : srv'.react s req = (((serveTcp unit s.1 req).1, (srv.react s.2 req).1), (srv.react s.2 req).2) := if_pos h
      rw [e, if_pos h]
      obtain ⟨_, chunks, c1, c2, c3⟩ := hc.2 s.2 req
      exact ⟨rfl, chunks, c1, c2, by rw [c3, h]⟩
    · have e : srv'.react s req = (((serveTcp unit s.1 req).1, s.2), some (if (serveTcp unit s.1 req).2 = [] then [] else [(serveTcp unit s.1 req).2])) := if_neg h
      rw [e, if_neg h]
      refine ⟨rfl, _, rfl, ?_, ?_⟩
      · intro c hcm
        split at hcm
        · cases hcm
        · rename_i hne
          rw [List.mem_singleton] at hcm
          rw [hcm]; exact hne
      · split <;> rename_i hne
        · exact hne.symm
        · simp
  obtain ⟨t1, r1, _, r3, _, _⟩ := conform_tcpRead1 hc' (⟨(env (now t.dev), t.dev), t.sock, t.sent, t.opened, t.closed⟩ : Tcp (Mem × σ)) ht 3 a q
  rw [if_pos (by omega), if_pos (.inl rfl), if_neg (by omega), if_neg (by omega), Int.toNat_natCast] at r1
  dsimp only at r1
  have hp := packTcpRead_eq unit.toNat 3 a q
  have hu := unit.isLt
  rw [if_pos (by omega)] at hp
  unfold tcpRead1 at r1 ⊢
  rw [hp, andThen_ok] at r1 ⊢
  generalize hreq : mbap 0 (BitVec.ofNat 8 (unit.toNat : Int).toNat) (readPdu (BitVec.ofNat 8 (3 : Int).toNat) (a : Int).toNat (q : Int).toNat) = req at r1 ⊢
  unfold tcpExchange at r1 ⊢
  rw [ht] at r1 ⊢
  dsimp only at r1 ⊢
  have e : srv'.react (env (now t.dev), t.dev) req = (((serveTcp unit (env (now t.dev)) req).1, (srv.react t.dev req).1), (srv.react t.dev req).2) := if_pos rfl
  obtain ⟨c0, chunks, c1, c2, c3⟩ := hc.2 t.dev req
  have e2 : srv.react t.dev req = ((srv.react t.dev req).1, some chunks) := by rw [← c1]
  rw [e, c1] at r1
  rw [e2]
  dsimp only at r1 ⊢
  generalize tcpRecvF .modbusClientError (bytesLeft ([] ++ chunks) + 1) 9 [] ([] ++ chunks) = z at r1 ⊢
  obtain ⟨left, z⟩ := z
  dsimp only at r1 ⊢
  cases z with
  | error e => rw [andThen_error] at r1; simp at r1
  | ok b =>
    rw [andThen_ok] at r1 ⊢
    simp only [Prod.mk.injEq] at r1
    refine ⟨_, ?_, ?_, by rw [r1.2]⟩
    · have := r3; rw [← r1.1] at this; exact this
    · exact c0


theorem live_tcpReadF {σ} {srv : TcpServer σ} {now : σ → Nat} {env : Nat → Mem} {unit : Byte} (hc : LiveTcp srv now env unit) :
    ∀ (fuel a count : Nat) (resp : Bytes) (t : Tcp σ), t.sock = .connected [] → count < fuel → a + count ≤ 65536 →
      ∃ t', t'.sock = .connected [] ∧ now t'.dev = now t.dev + (count + 124) / 125 ∧
        tcpReadF srv unit.toNat 3 125 fuel a count resp t =
          (t', .ok (resp ++ memRead (fun x => env (now t.dev + (x - a) / 125) x) a count)) := by
  intro fuel
  induction fuel with
  | zero => intro a count resp t _ h; omega
  | succ fuel ih =>
    intro a count resp t ht hf ha
    rw [tcpReadF]
    by_cases hcz : count > 0
    · rw [if_pos hcz]
      dsimp only
      generalize hqq : (if count > 125 then 125 else count) = q
      have hq1 : 1 ≤ q ∧ q ≤ count ∧ (q = 125 ∨ (q ≤ 125 ∧ q = count)) := by split at hqq <;> omega
      obtain ⟨t1, h1, h2, h3⟩ := live_tcpRead1 hc t ht a q (by omega) (by omega) (by omega)
      rw [h3, andThen_ok, memRead_length, if_pos (by omega)]
      obtain ⟨t', r0, r1, r2⟩ := ih (a + q) (count - q) (resp ++ memRead (env (now t.dev)) a q) t1 h1 (by omega) (by omega)
      rw [Int.natCast_add] at r2
      refine ⟨t', r0, ?_, ?_⟩
      · rw [r1, h2]; omega
      · rw [r2, h2, List.append_assoc, live_split env _ a q count hq1.1 hq1.2.1 hq1.2.2]
    · rw [if_neg hcz]
      have : count = 0 := by omega
      subst this
      exact ⟨t, ht, by omega, by simp [memRead]⟩

theorem tcp_live {σ} {srv : TcpServer σ} {now : σ → Nat} {env : Nat → Mem} {unit : Byte} (hc : LiveTcp srv now env unit) :
    Live (tcpDev srv unit.toNat) (fun t => now t.dev) Idle env := by
  intro t a n ht h
  have key : ∃ t', Idle t' ∧ now t'.dev = now t.dev + (n + 124) / 125 ∧
      tcpRead srv t unit.toNat 3 a n 125 = (t', .ok (memRead (fun x => env (now t.dev + (x - a) / 125) x) a n)) := by
    unfold tcpRead
    rcases ht with ht | ht
    · obtain ⟨ha, hb⟩ := hc.1 t.dev
      rw [tcpWith_absent _ _ _ ht ha]
      obtain ⟨t1, r0, r1, r2⟩ := live_tcpReadF hc (n + 1) a n []
        { t with dev := (srv.accept t.dev).1, sock := .connected [], opened := t.opened + 1 } rfl (by omega) h
      rw [r2, tcpDisconnect_connected _ _ r0]
      dsimp only at r1 ⊢
      rw [hb] at r1
      refine ⟨{ t1 with sock := .absent, closed := t1.closed + 1 }, .inl rfl, r1, ?_⟩
      rw [hb, List.nil_append]
    · rw [tcpWith_present _ _ _ (by rw [ht]; simp)]
      obtain ⟨t1, r0, r1, r2⟩ := live_tcpReadF hc (n + 1) a n [] t ht (by omega) h
      exact ⟨t1, .inr r0, r1, by rw [r2, List.nil_append]⟩
  obtain ⟨t', r0, r1, r2⟩ := key
  refine ⟨t', r0, r1, ?_⟩
  unfold tcpDev
  dsimp only
  rw [Int.toNat_natCast, r2]
  rfl

/-! ## Models -/

theorem wordAt (m : Mem) (a n j : Nat) (h : j < n) :
    ((memRead m a n).getD (2 * j) 0, (memRead m a n).getD (2 * j + 1) 0) = ((m (a + j) >>> 8).setWidth 8, (m (a + j)).setWidth 8) := by
  induction n generalizing a j with
  | zero => omega
  | succ n ih =>
    rw [memRead_succ]
    cases j with
    | zero => simp [wordBytes]
    | succ j =>
      have := ih (a + 1) j (by omega)
      rw [show a + 1 + j = a + (j + 1) by omega] at this
      rw [← this, show 2 * (j + 1) + 1 = 2 * j + 1 + 1 + 1 by omega, show 2 * (j + 1) = 2 * j + 1 + 1 by omega]
      simp [wordBytes]

/-- What the reads of a plan deliver if the first one begins at moment `k`. -/
def liveLog (env : Nat → Mem) : Nat → List (Int × Int) → List (Int × Bytes)
  | _, [] => []
  | k, (a, n) :: plan =>
    (a, memRead (fun x => env (k + (x - a.toNat) / 125) x) a.toNat n.toNat) :: liveLog env (k + (n.toNat + 124) / 125) plan

theorem live_reads {σ} {dev : MbDev σ} {now : σ → Nat} {ready : σ → Prop} {env : Nat → Mem} (hd : Live dev now ready env)
    (plan : List (Int × Int)) : ∀ (s : σ) (a b : Int), ready s → Tiles a b plan → (∀ c ∈ plan, 0 ≤ c.2) → 0 ≤ a → b ≤ 65536 →
    ∃ s' log, Reads dev s plan s' log ∧ ready s' ∧ now s' = now s + planCost plan ∧ (a ≤ b ∧ log = liveLog env (now s) plan) ∧
      ∀ c ∈ plan, a ≤ c.1 ∧ c.1 + c.2 ≤ b ∧ ∃ k, now s ≤ k ∧ k + (c.2.toNat + 124) / 125 ≤ now s' ∧
        ∀ x, c.1 ≤ x → x < c.1 + c.2 → replyMem log x = regMem (env (k + (x - c.1).toNat / 125)) x := by
  induction plan with
  | nil =>
    intro s a b hR hT _ _ _
    have hT' : a = b := hT
    exact ⟨s, [], ⟨rfl, rfl⟩, hR, rfl, ⟨by omega, rfl⟩, by simp⟩
  | cons c plan ih =>
    intro s a b hR hT hpos h0 hb
    obtain ⟨c1, n⟩ := c
    obtain ⟨rfl, hT⟩ := hT
    have hn : 0 ≤ n := hpos (c1, n) (by simp)
    have hle : ∀ (plan : List (Int × Int)) (u v : Int), Tiles u v plan → (∀ c ∈ plan, 0 ≤ c.2) → u ≤ v := by
      intro plan
      induction plan with
      | nil => intro u v h _; exact (show u = v from h) ▸ Int.le_refl u
      | cons c plan ih' =>
        intro u v h hp
        obtain ⟨e1, e2⟩ := h
        have := ih' _ _ e2 (fun c hc => hp c (by simp [hc]))
        have := hp c (by simp)
        omega
    have hle1 := hle plan _ _ hT (fun c hc => hpos c (by simp [hc]))
    obtain ⟨s1, r1, r2, r3⟩ := hd s c1.toNat n.toNat hR (by omega)
    rw [show ((c1.toNat : Nat) : Int) = c1 by omega, show ((n.toNat : Nat) : Int) = n by omega] at r3
    obtain ⟨s', log, q1, q2, q3, ⟨q4, q6⟩, q5⟩ := ih s1 (c1 + n) b r1 hT (fun c hc => hpos c (by simp [hc])) (by omega) hb
    have hp : planCost ((c1, n) :: plan) = (n.toNat + 124) / 125 + planCost plan := by simp [planCost]
    generalize hM : (fun x => env (now s + (x - c1.toNat) / 125) x : Mem) = M at r3
    have hlen : (memRead M c1.toNat n.toNat).length = 2 * n.toNat := memRead_length ..
    refine ⟨s', _, ⟨s1, _, log, r3, by rw [hlen]; omega, q1, rfl⟩, q2, by rw [q3, r2, hp]; omega, ⟨by omega, by rw [liveLog, hM, q6, r2]⟩, ?_⟩
    intro c hc
    rcases List.mem_cons.1 hc with rfl | hc
    · refine ⟨Int.le_refl _, by dsimp only; omega, now s, Nat.le_refl _, by rw [q3, r2]; dsimp only; omega, ?_⟩
      intro x h1 h2
      dsimp only at h1 h2 ⊢
      unfold replyMem
      rw [hlen, if_pos (by omega)]
      have hw := wordAt M c1.toNat n.toNat (x - c1).toNat (by omega)
      rw [show (2 * (x - c1)).toNat = 2 * (x - c1).toNat by omega, show (2 * (x - c1) + 1).toNat = 2 * (x - c1).toNat + 1 by omega, hw,
        show c1.toNat + (x - c1).toNat = x.toNat by omega]
      unfold regMem
      rw [if_pos (by omega), ← hM]
      dsimp only
      rw [show x.toNat - c1.toNat = (x - c1).toNat by omega]
    · obtain ⟨t1, t2, k, t3, t4, t5⟩ := q5 c hc
      refine ⟨by omega, t2, k, by rw [r2] at t3; omega, t4, ?_⟩
      intro x h1 h2
      unfold replyMem
      rw [hlen, if_neg (by omega)]
      exact t5 x h1 h2

/-- Each point (scale factors included) lies in the first 125 registers of one of the reads of the model; by C31 (`C31_whole`) this holds for
the models loaded from definitions in which the points lie in order. -/
def Spec.InOneRequest (m : MdlObj) : Prop :=
  ∀ b ∈ m.blocks, ∀ p, p ∈ b.pts ∨ p ∈ b.sfs → ∃ c ∈ readPlan m, c.1 ≤ p.addr ∧ p.addr + p.pt.len ≤ c.1 + min c.2 125

theorem pointRead_congr {mem mem' : RegMem} {p p' : PointObj} (h : PointRead mem p p')
    (he : ∀ x, p.addr ≤ x → x < p.addr + p.pt.len → mem x = mem' x) : PointRead mem' p p' := by
  obtain ⟨rs, h1, h2, h3⟩ := h
  refine ⟨rs, ?_, h2, h3⟩
  rw [← h1]
  exact memRegs_congr fun x hx1 hx2 => (he x hx1 (by omega)).symm

/-- C80, single points: the registers of a point are read in one request, so the value of the point after `read_points` is one that its
registers denoted together at one moment during the call - whatever the device changes between the requests. -/
theorem C80_point_partial {σ} {dev : MbDev σ} {now : σ → Nat} {ready : σ → Prop} {env : Nat → Mem} (hd : Live dev now ready env)
    (s : σ) (hs : ready s) (m : MdlObj) (hm : ModelOK m) (ht : Tiles m.addr (m.addr + m.len) (readPlan m))
    (hpos : ∀ c ∈ readPlan m, 0 ≤ c.2) (hone : InOneRequest m) (ha : 0 ≤ m.addr) (hb : m.addr + m.len ≤ 65536) :
    ∃ s' m', readPoints dev s m = (s', m', .ok ()) ∧ ready s' ∧
      ∀ (i : Nat) (b b' : BlockObj), m.blocks[i]? = some b → m'.blocks[i]? = some b' →
        (∀ (j : Nat) (p p' : PointObj), b.pts[j]? = some p → b'.pts[j]? = some p' →
          (∃ k, now s ≤ k ∧ k < now s' ∧ PointRead (regMem (env k)) p p') ∧
          (p'.base ≠ none → ∀ ref, p.sf = some ref → IsScale m'.blocks ref p'.vsf)) ∧
        (∀ (j : Nat) (p p' : PointObj), b.sfs[j]? = some p → b'.sfs[j]? = some p' →
          ∃ k, now s ≤ k ∧ k < now s' ∧ PointRead (regMem (env k)) p p') := by
  obtain ⟨s', log, h1, h2, h3, _, h5⟩ := live_reads hd (readPlan m) s _ _ hs ht hpos ha hb
  obtain ⟨m', h6, h7⟩ := C32_read dev s s' m log hm ht h1
  have key : ∀ b ∈ m.blocks, ∀ p p', p ∈ b.pts ∨ p ∈ b.sfs → PointRead (replyMem log) p p' →
      ∃ k, now s ≤ k ∧ k < now s' ∧ PointRead (regMem (env k)) p p' := by
    intro b hb p p' hp hr
    obtain ⟨c, hc, c1, c2⟩ := hone b hb p hp
    obtain ⟨_, _, k, k1, k2, k3⟩ := h5 c hc
    have hl := lenOK_pos (hm.len b hb p hp)
    have := hpos c hc
    refine ⟨k, k1, by omega, pointRead_congr hr ?_⟩
    intro x hx1 hx2
    rw [k3 x (by omega) (by omega), show (x - c.1).toNat / 125 = 0 by omega]
    rfl
  refine ⟨s', m', h6, h2, ?_⟩
  intro i b b' e1 e2
  have hbm := List.mem_of_getElem? e1
  refine ⟨?_, ?_⟩
  · intro j p p' f1 f2
    obtain ⟨g1, g2⟩ := h7.point i b b' e1 e2 j p p' f1 f2
    exact ⟨key b hbm p p' (.inl (List.mem_of_getElem? f1)) g1, g2⟩
  · intro j p p' f1 f2
    exact key b hbm p p' (.inr (List.mem_of_getElem? f1)) (h7.scale i b b' e1 e2 j p p' f1 f2)


/-- C80, small models: a model of at most 125 registers whose points lie in order is read in one request: all its values and scale
factors are those of one moment. -/
theorem C80_snapshot_partial {σ} {dev : MbDev σ} {now : σ → Nat} {ready : σ → Prop} {env : Nat → Mem} (hd : Live dev now ready env)
    (s : σ) (hs : ready s) (m : MdlObj) (hm : ModelOK m) (hl : LoadedInOrder m)
    (ha : 0 ≤ m.addr) (hb : m.addr + m.len ≤ 65536) (h1 : 1 ≤ m.len) (h125 : m.len ≤ 125) :
    ∃ s' m', readPoints dev s m = (s', m', .ok ()) ∧ ready s' ∧ now s' = now s + 1 ∧ ModelRead (regMem (env (now s))) m m' := by
  have hplan : readPlan m = [(m.addr, m.len)] := by
    obtain ⟨fuel, mt, id, addr, len, m0, h, hof, hor, e1, e2, e3⟩ := hl
    obtain ⟨F, R, n, hl⟩ := loadWith_ok fuel mt id addr len m0 h
    obtain ⟨ho, hF0⟩ := hof F hl.flen
    rw [hl.hlen] at ho hF0
    obtain ⟨s1, s2, s3⟩ := hl.spans ho (fun rb hr => hor rb R hr (hl.rlen rb hr)) hF0
    have hnil : ∀ sp : List (Int × Int), (∀ x ∈ sp, x.1 + x.2 ≤ addr + 125) → readsOf sp addr = [] := by
      intro sp
      induction sp with
      | nil => intro _; rfl
      | cons x sp ih =>
        intro hx
        obtain ⟨a, l⟩ := x
        have := hx (a, l) (by simp)
        dsimp only at this
        rw [readsOf, if_neg (by omega)]
        exact ih fun y hy => hx y (by simp [hy])
    have hr : m.readBlocks.length = 1 := by
      rw [e3, hl.reads, hnil _ (fun x hx => by have := s2 x hx; have := hl.hlen; omega)]
      rfl
    unfold readPlan
    rw [if_pos hr]
  have ht : Tiles m.addr (m.addr + m.len) (readPlan m) := by rw [hplan]; exact ⟨rfl, rfl⟩
  obtain ⟨s', log, r1, r2, r3, _, r5⟩ := live_reads hd (readPlan m) s _ _ hs ht (by rw [hplan]; simp; omega) ha hb
  obtain ⟨_, _, k, k1, k2, k3⟩ := r5 (m.addr, m.len) (by rw [hplan]; simp)
  have hcost : planCost (readPlan m) = 1 := by rw [hplan]; simp only [planCost, List.map_cons, List.map_nil, List.sum_cons, List.sum_nil]; omega
  rw [hcost] at r3
  dsimp only at k2
  have hk : k = now s := by omega
  subst hk
  obtain ⟨m', r6, r7⟩ := readPoints_mem dev s s' m log (regMem (env (now s))) hm ht r1 (fun x x1 x2 => by
    rw [k3 x x1 x2, show (x - m.addr).toNat / 125 = 0 by omega]; rfl)
  exact ⟨s', m', r6, r2, r3, r7⟩

/-- C80 for the models that a definition gives: no point of a loaded model is torn. -/
theorem C80_loaded_partial {σ} {dev : MbDev σ} {now : σ → Nat} {ready : σ → Prop} {env : Nat → Mem} (hd : Live dev now ready env)
    (s : σ) (hs : ready s) (fuel : Nat) (mt : ModelType) (id addr len : Int) (m : MdlObj)
    (h : loadWith fuel (.ok mt) (mdlNew id addr len) = (m, .ok ()))
    (hof : ∀ F, mt.fixed.len.toInt = .ok F → BlockFits mt.fixed (fixedLen id m.len F) ∧ BlockOrdered mt.fixed (fixedLen id m.len F) ∧ 0 ≤ fixedLen id m.len F)
    (hor : ∀ rb R, mt.rep = some rb → rb.len.toInt = .ok R → BlockFits rb R ∧ BlockOrdered rb R ∧ 0 ≤ R)
    (ha : 0 ≤ addr) (hb : addr + m.len ≤ 65536) :
    ∃ s' m', readPoints dev s m = (s', m', .ok ()) ∧ ready s' ∧
      ∀ (i : Nat) (b b' : BlockObj), m.blocks[i]? = some b → m'.blocks[i]? = some b' →
        (∀ (j : Nat) (p p' : PointObj), b.pts[j]? = some p → b'.pts[j]? = some p' →
          (∃ k, now s ≤ k ∧ k < now s' ∧ PointRead (regMem (env k)) p p') ∧
          (p'.base ≠ none → ∀ ref, p.sf = some ref → IsScale m'.blocks ref p'.vsf)) ∧
        (∀ (j : Nat) (p p' : PointObj), b.sfs[j]? = some p → b'.sfs[j]? = some p' →
          ∃ k, now s ≤ k ∧ k < now s' ∧ PointRead (regMem (env k)) p p') := by
  have haddr : m.addr = addr := by obtain ⟨_, _, _, hl⟩ := loadWith_ok fuel mt id addr len m h; exact hl.haddr
  have hw := C31_whole fuel mt id addr len m h (fun F hF => (hof F hF).2) (fun rb R h1 h2 => (hor rb R h1 h2).2)
  refine C80_point_partial hd s hs m ?_ ?_ hw.1 hw.2 (by omega) (by omega)
  · exact loaded_modelOK fuel mt id addr len m h (fun F hF => ⟨(hof F hF).1, (hof F hF).2.2⟩) (fun rb R h1 h2 => ⟨(hor rb R h1 h2).1, (hor rb R h1 h2).2.2⟩)
  · rw [haddr]; exact C31_cover fuel mt id addr len m h

/-- C80: RTU slaves and TCP servers whose registers change by themselves are such devices. -/
theorem C80_devices :
    (∀ (σ : Type) (slave : Slave σ) (now : σ → Nat) (env : Nat → Mem) (sid : Byte), LiveRtu slave now env sid →
      Live (rtuDev slave sid.toNat) (fun l => now l.dev) (fun _ => True) env) ∧
    (∀ (σ : Type) (srv : TcpServer σ) (now : σ → Nat) (env : Nat → Mem) (unit : Byte), LiveTcp srv now env unit →
      Live (tcpDev srv unit.toNat) (fun t => now t.dev) Idle env) :=
  ⟨fun _ _ _ _ _ h => rtu_live h, fun _ _ _ _ _ h => tcp_live h⟩

/-- C80, full statement: after `read_points` of a loaded model, each implemented scaled point and its scale factor are those of one moment
during the call. -/
def C80_full : Prop :=
  ∀ (σ : Type) (slave : Slave σ) (now : σ → Nat) (env : Nat → Mem) (sid : Byte), LiveRtu slave now env sid →
    ∀ (l l' : Line σ) (m m' : MdlObj), ModelOK m → LoadedInOrder m →
      readPoints (rtuDev slave sid.toNat) l m = (l', m', .ok ()) →
      ∀ (i : Nat) (b b' : BlockObj), m.blocks[i]? = some b → m'.blocks[i]? = some b' →
        ∀ (j : Nat) (p p' : PointObj), b.pts[j]? = some p → b'.pts[j]? = some p' → p'.base ≠ none →
          ∀ blk id, p.sf = some (.point blk id) →
            ∃ k, now l.dev ≤ k ∧ k < now l'.dev ∧ PointRead (regMem (env k)) p p' ∧
              ∃ (bs bs' : BlockObj) (n : Nat) (q q' : PointObj), m.blocks[blk]? = some bs ∧ m'.blocks[blk]? = some bs' ∧
                bs.sfs[n]? = some q ∧ bs'.sfs[n]? = some q' ∧ q.pt.id = id ∧ p'.vsf = q'.base ∧ PointRead (regMem (env k)) q q'


/-- A value, a text of 124 registers, and the scale factor of the value: 126 registers, read in two requests. -/
def tornType : ModelType where
  id := 904
  len := 126
  name := t!"torn"
  fixed := ⟨false, .str (t!"126"), t!"fixed", [
    { id := t!"A", offset := 0, type := .uint16, len := 1, sf := some (t!"A_SF") },
    { id := t!"S", offset := 1, type := .string, len := 124 },
    { id := t!"A_SF", offset := 125, type := .sunssf, len := 1 }]⟩
  rep := none

/-- The model at 40002. -/
def tornModel : MdlObj := (mdlLoad (.ok tornType) (mdlNew 904 40002 126)).1

/-- Registers that all have the value `k` at moment `k`. -/
def tickEnv (k : Nat) : Mem := fun _ => BitVec.ofNat 16 k

/-- A slave whose registers are `env k` at its `k`-th request. -/
def Spec.liveSlave (env : Nat → Mem) (sid : Byte) : Slave Nat := fun k req => (k + 1, some [(serveRtu sid (env k) req).2.getD []])

theorem liveSlave_live (env : Nat → Mem) (sid : Byte) : LiveRtu (liveSlave env sid) id env sid := by
  intro k req
  refine ⟨rfl, _, rfl, ?_⟩
  show received [(serveRtu sid (env k) req).2.getD []] = (serveRtu sid (env k) req).2.getD []
  generalize (serveRtu sid (env k) req).2.getD [] = b
  cases b <;> simp [received]

theorem tornModel_load : mdlLoad (.ok tornType) (mdlNew 904 40002 126) = (tornModel, .ok ()) := by decide +kernel

theorem tornType_fits : (∀ F, tornType.fixed.len.toInt = .ok F → BlockFits tornType.fixed (fixedLen 904 tornModel.len F) ∧
      BlockOrdered tornType.fixed (fixedLen 904 tornModel.len F) ∧ 0 ≤ fixedLen 904 tornModel.len F) ∧
    (∀ rb R, tornType.rep = some rb → rb.len.toInt = .ok R → BlockFits rb R ∧ BlockOrdered rb R ∧ 0 ≤ R) := by
  constructor
  · intro F hF
    have h126 : tornType.fixed.len.toInt = .ok 126 := by decide
    rw [h126] at hF
    have := (Except.ok.inj hF).symm
    subst this
    have e : fixedLen 904 tornModel.len 126 = 126 := by decide +kernel
    rw [e]
    refine ⟨?_, ?_, by decide⟩
    · intro t ht _
      simp only [tornType, List.mem_cons, List.not_mem_nil, or_false] at ht
      rcases ht with rfl | rfl | rfl <;> decide
    · exact ⟨by decide +kernel, by decide +kernel, by decide +kernel⟩
  · intro rb R h; exact absurd h (by simp [tornType])

theorem tornModel_ok : ModelOK tornModel :=
  loaded_modelOK (loadFuel (.ok tornType) (mdlNew 904 40002 126)) tornType 904 40002 126 tornModel tornModel_load
    (fun F hF => ⟨(tornType_fits.1 F hF).1, (tornType_fits.1 F hF).2.2⟩) (fun rb R h1 h2 => ⟨(tornType_fits.2 rb R h1 h2).1, (tornType_fits.2 rb R h1 h2).2.2⟩)

theorem tornModel_inOrder : LoadedInOrder tornModel :=
  ⟨loadFuel (.ok tornType) (mdlNew 904 40002 126), tornType, 904, 40002, 126, tornModel, tornModel_load,
    fun F hF => (tornType_fits.1 F hF).2, fun rb R h1 h2 => (tornType_fits.2 rb R h1 h2).2, rfl, rfl, rfl⟩

theorem tornModel_plan : readPlan tornModel = [(40002, 125), (40127, 1)] := by decide +kernel

/-- C80 does not hold fully: a value and its scale factor that are read in different requests need not have existed together. The scale
factor of the value 1 is 2 here (the value is taken for 100), but at no moment the device had value 1 and scale factor 2. -/
theorem C80_violated : ¬ C80_full := by
  intro hfull
  have hlive := rtu_live (liveSlave_live tickEnv 7)
  have hspan : tornModel.addr = 40002 ∧ tornModel.len = 126 := by decide +kernel
  have ht : Tiles tornModel.addr (tornModel.addr + tornModel.len) (readPlan tornModel) := by
    rw [tornModel_plan, hspan.1, hspan.2]; exact ⟨rfl, rfl, rfl⟩
  obtain ⟨l', log, r1, _, r3, ⟨_, r4⟩, _⟩ := live_reads hlive (readPlan tornModel) (⟨1, []⟩ : Line Nat) _ _ trivial ht
    (by rw [tornModel_plan]; decide) (by rw [hspan.1]; decide) (by rw [hspan.1, hspan.2]; decide)
  obtain ⟨m', h6, h7⟩ := C32_read _ _ l' tornModel log tornModel_ok ht r1
  rw [tornModel_plan] at r3 r4
  have hnow : l'.dev = 3 := r3
  clear r1 r3 ht hlive
  -- what has been read
  have m1 : replyMem log 40002 = some (0, 1) := by rw [r4]; decide +kernel
  have m2 : replyMem log 40127 = some (0, 2) := by rw [r4]; decide +kernel
  have one : ∀ (mem : RegMem) (a : Int) (r : Reg) (t : PT) (p p' : PointObj), p.addr = a → p.pt.type = t → p.pt.len = 1 → mem a = some r →
      PointRead mem p p' → t.readValue [r.1, r.2] = .ok p'.base := by
    intro mem a r t p p' e1 e2 e3 e4 ⟨rs, f1, f2, _⟩
    rw [e1, e3] at f1
    have : rs = [r] := by simpa [memRegs, e4] using f1.symm
    subst this
    rw [← e2]
    exact f2
  obtain ⟨b, hb⟩ : ∃ b, tornModel.blocks[0]? = some b := by
    have : tornModel.blocks[0]?.isSome = true := by decide +kernel
    exact Option.isSome_iff_exists.1 this
  have hA : (tornModel.blocks[0]?.bind fun b => b.pts[0]?).map (fun p => (p.addr, p.pt.type, p.pt.len, p.sf)) =
      some (40002, .uint16, 1, some (.point 0 (t!"A_SF"))) := by decide +kernel
  have hS : (tornModel.blocks[0]?.map fun b => b.sfs.map fun p => (p.addr, p.pt.type, p.pt.len)) = some [(40127, .sunssf, 1)] := by decide +kernel
  rw [hb] at hA hS
  simp only [Option.bind_some, Option.map_some, Option.some.injEq] at hA hS
  obtain ⟨p, hp, hA⟩ := Option.map_eq_some_iff.1 hA
  simp only [Prod.mk.injEq] at hA
  obtain ⟨a1, a2, a3, a4⟩ := hA
  have hlen : 0 < m'.blocks.length := by rw [h7.count]; have := (List.getElem?_eq_some_iff.1 hb).1; omega
  have hb' : m'.blocks[0]? = some m'.blocks[0] := List.getElem?_eq_getElem hlen
  generalize m'.blocks[0] = b' at hb'
  obtain ⟨_, n1, n2⟩ := h7.block 0 b b' hb hb'
  have hpl : 0 < b'.pts.length := by rw [n1]; have := (List.getElem?_eq_some_iff.1 hp).1; omega
  have hp' : b'.pts[0]? = some b'.pts[0] := List.getElem?_eq_getElem hpl
  generalize b'.pts[0] = p' at hp'
  have v1 := one _ _ _ _ p p' a1 a2 a3 m1 (h7.point 0 b b' hb hb' 0 p p' hp hp').1
  have w1 : PT.readValue .uint16 [0, 1] = .ok (some (.int 1)) := by decide +kernel
  have v1' : p'.base = some (.int 1) := (Except.ok.inj (v1.symm.trans w1))
  obtain ⟨k, k1, k2, k3, bs, bs', n, q, q', g1, g2, g3, g4, _, _, g5⟩ :=
    hfull Nat (liveSlave tickEnv 7) id tickEnv 7 (liveSlave_live tickEnv 7) ⟨1, []⟩ l' tornModel m' tornModel_ok tornModel_inOrder h6
      0 b b' hb hb' 0 p p' hp hp' (by rw [v1']; simp) 0 (t!"A_SF") a4
  dsimp only [id] at k1 k2
  rw [hnow] at k2
  rw [hb] at g1
  rw [hb'] at g2
  cases g1
  cases g2
  have hq : q.addr = 40127 ∧ q.pt.type = .sunssf ∧ q.pt.len = 1 := by
    have := congrArg (fun l => l[n]?) hS
    simp only [List.getElem?_map, g3, Option.map_some] at this
    have hn : n = 0 := by
      have h1 := (List.getElem?_eq_some_iff.1 g3).1
      have h2 := congrArg List.length hS
      simp at h2; omega
    subst hn
    simpa using this
  have v2 := one _ _ _ _ q q' hq.1 hq.2.1 hq.2.2 m2 (h7.scale 0 b b' hb hb' n q q' g3 g4)
  have w2 : PT.readValue .sunssf [0, 2] = .ok (some (.int 2)) := by decide +kernel
  have v2' : q'.base = some (.int 2) := Except.ok.inj (v2.symm.trans w2)
  have hk : k = 1 ∨ k = 2 := by omega
  rcases hk with rfl | rfl
  · have e : regMem (tickEnv 1) 40127 = some (0, 1) := by decide +kernel
    have := one _ _ _ _ q q' hq.1 hq.2.1 hq.2.2 e g5
    have w : PT.readValue .sunssf [0, 1] = .ok (some (.int 1)) := by decide +kernel
    rw [v2'] at this
    have := Except.ok.inj (this.symm.trans w)
    simp at this
  · have e : regMem (tickEnv 2) 40002 = some (0, 2) := by decide +kernel
    have := one _ _ _ _ p p' a1 a2 a3 e k3
    have w : PT.readValue .uint16 [0, 2] = .ok (some (.int 2)) := by decide +kernel
    rw [v1'] at this
    have := Except.ok.inj (this.symm.trans w)
    simp at this

/-- Non-vacuity: the same model, point by point. -/
example : ∃ s' m', readPoints (rtuDev (liveSlave tickEnv 7) 7) ⟨1, []⟩ tornModel = (s', m', .ok ()) := by
  obtain ⟨s', m', h, _⟩ := C80_loaded_partial (rtu_live (liveSlave_live tickEnv 7)) ⟨1, []⟩ trivial (loadFuel (.ok tornType) (mdlNew 904 40002 126)) tornType 904 40002 126
    tornModel tornModel_load tornType_fits.1 tornType_fits.2 (by decide) (by decide +kernel)
  exact ⟨s', m', h⟩

/-- A TCP server whose registers are `env k` at its `k`-th request. -/
def Spec.liveServer (env : Nat → Mem) (unit : Byte) : TcpServer Nat where
  accept k := (k, true)
  react k req := (k + 1, some (if (serveTcp unit (env k) req).2 = [] then [] else [(serveTcp unit (env k) req).2]))

theorem liveServer_live (env : Nat → Mem) (unit : Byte) : LiveTcp (liveServer env unit) id env unit := by
  refine ⟨fun s => ⟨rfl, rfl⟩, ?_⟩
  intro k req
  refine ⟨rfl, _, rfl, ?_, ?_⟩
  · intro c hc
    split at hc
    · cases hc
    · rename_i hne
      rw [List.mem_singleton] at hc
      rw [hc]; exact hne
  · show List.flatten (if (serveTcp unit (env k) req).2 = [] then [] else [(serveTcp unit (env k) req).2]) = (serveTcp unit (env k) req).2
    split <;> rename_i hne
    · exact hne.symm
    · simp

/-- Non-vacuity: the example of 7 registers over TCP is read in one moment. -/
example : ∃ s' m', readPoints (tcpDev (liveServer tickEnv 1) 1) ⟨5, .connected [], [], 0, 0⟩ exModel = (s', m', .ok ()) ∧ s'.dev = 6 ∧
    ModelRead (regMem (tickEnv 5)) exModel m' := by
  have hl : LoadedInOrder exModel := by
    refine ⟨loadFuel (.ok exType) (mdlNew 900 40002 7), exType, 900, 40002, 7, exModel, exModel_loaded, ?_, ?_, rfl, rfl, rfl⟩
    · intro F hF
      have h3 : exType.fixed.len.toInt = .ok 3 := by decide
      have := Except.ok.inj (hF.symm.trans h3)
      subst this
      exact ⟨⟨by decide +kernel, by decide +kernel, by decide +kernel⟩, by decide +kernel⟩
    · intro rb R hr hR
      have : rb = (exType.rep.get rfl) := by simp [exType] at hr ⊢; exact hr.symm
      subst this
      have h2 : (exType.rep.get rfl).len.toInt = .ok 2 := by decide
      have := Except.ok.inj (hR.symm.trans h2)
      subst this
      exact ⟨⟨by decide +kernel, by decide +kernel, by decide +kernel⟩, by decide +kernel⟩
  obtain ⟨s', m', h1, _, h2, h3⟩ := C80_snapshot_partial (tcp_live (liveServer_live tickEnv 1)) ⟨5, .connected [], [], 0, 0⟩ (.inr rfl) exModel exModel_ok hl
    (by rw [exModel_span.1]; decide) (by decide +kernel) (by decide +kernel) (by decide +kernel)
  exact ⟨s', m', h1, h2, h3⟩

end Verif
