import Verif.Spec.Wire
import Verif.Lemmas.Wire

/-!
# The two levels of the model agree
-/

namespace Verif
open Verif.Spec

theorem portRecvF_same {σ} (slave : Slave σ) (total : Bytes → Int) : ∀ (fuel : Nat) (r : Int) (found : Bool) (resp : Bytes) (exc : Option Nat)
    (d : σ) (chunks : List Bytes) (k : Nat),
    (portRecvF (slavePort slave) total fuel r found resp exc ⟨(d, chunks), k⟩).2 = recvLoopF total fuel r found resp exc chunks ∧
    (portRecvF (slavePort slave) total fuel r found resp exc ⟨(d, chunks), k⟩).1.st.1 = d := by
  intro fuel
  induction fuel with
  | zero => intro r found resp exc d chunks k; exact ⟨rfl, rfl⟩
  | succ fuel ih =>
    intro r found resp exc d chunks k
    rw [portRecvF, recvLoopF]
    have hr : ∀ n, portRead (slavePort slave) ⟨(d, chunks), k⟩ n = (⟨(d, (serialRead n chunks).2), k + 1⟩, (serialRead n chunks).1) :=
      fun _ => rfl
    simp only [hr]
    split
    · generalize serialRead r.toNat chunks = q
      obtain ⟨c, rest⟩ := q
      dsimp only
      split
      · split
        · split
          · exact ih _ _ _ _ _ _ _
          · exact ih _ _ _ _ _ _ _
        · exact ih _ _ _ _ _ _ _
      · exact ⟨rfl, rfl⟩
    · exact ⟨rfl, rfl⟩

theorem portExchange_same {σ} (slave : Slave σ) (N : Nat) (total : Bytes → Int) (M : Nat) (hM : 5 ≤ M) (htot : ∀ r, total r ≤ M)
    (hge : ∀ r, 5 ≤ total r) (hN : M < N) (s : σ × List Bytes) (k : Nat) (sent : List Bytes) (req : Bytes) :
    (portExchange (slavePort slave) N total ⟨s, k⟩ req).1.st.1 = (lineSend slave ⟨s.1, sent⟩ req).1.dev ∧
    (portExchange (slavePort slave) N total ⟨s, k⟩ req).2 =
      match (lineSend slave ⟨s.1, sent⟩ req).2 with
      | .ok chunks => recvLoop total chunks
      | .error e => .error e := by
  have hw : (slavePort slave).write ((slavePort slave).flush s) req =
      match slave s.1 req with
      | (d, some chunks) => ((d, chunks), true)
      | (d, none) => ((d, []), false) := rfl
  unfold portExchange lineSend
  dsimp only
  rw [hw]
  generalize slave s.1 req = q
  obtain ⟨d, c⟩ := q
  cases c with
  | none => exact ⟨rfl, rfl⟩
  | some chunks =>
    dsimp only
    obtain ⟨_, _, h3⟩ := portRecvF_head (slavePort slave) total M hM htot N 5 [] ⟨(d, chunks), k⟩ (by simp) (by have e5 : (5 : Int).toNat = 5 := rfl; omega)
    have h4 := h3 (N + (bytesLeft chunks + 1)) (by omega)
    have hs := portRecvF_same slave total (N + (bytesLeft chunks + 1)) 5 false [] none d chunks k
    rw [h4] at hs
    refine ⟨hs.2, hs.1.trans ?_⟩
    have e := recvLoopF_header total hge (N + (bytesLeft chunks + 1)) 5 [] (by decide) rfl chunks (by omega)
    have e' := recvLoopF_header total hge (bytesLeft chunks + 1) 5 [] (by decide) rfl chunks (by omega)
    exact e.trans e'.symm

theorem portRead1_same {σ} (slave : Slave σ) (N : Nat) (hN : 260 < N) (s : σ × List Bytes) (k : Nat) (sent : List Bytes) (sid op addr count : Int) :
    (portRead1 (slavePort slave) N ⟨s, k⟩ sid op addr count).1.st.1 = (rtuRead1 slave ⟨s.1, sent⟩ sid op addr count).1.dev ∧
    (portRead1 (slavePort slave) N ⟨s, k⟩ sid op addr count).2 = (rtuRead1 slave ⟨s.1, sent⟩ sid op addr count).2 := by
  unfold portRead1 rtuRead1
  generalize packBBHH sid op addr count = r
  cases r with
  | error e => exact ⟨rfl, rfl⟩
  | ok body =>
    dsimp only
    obtain ⟨h1, h2⟩ := portExchange_same slave N readTotal 260 (by decide) readTotal_le readTotal_ge hN s k sent (body ++ crcField body)
    rw [h1, h2]
    generalize lineSend slave ⟨s.1, sent⟩ (body ++ crcField body) = q
    obtain ⟨l', r⟩ := q
    cases r <;> exact ⟨rfl, rfl⟩

theorem portWrite1_same {σ} (slave : Slave σ) (N : Nat) (hN : 8 < N) (s : σ × List Bytes) (k : Nat) (sent : List Bytes) (sid addr : Int) (data : Bytes) :
    (portWrite1 (slavePort slave) N ⟨s, k⟩ sid addr data).1.st.1 = (rtuWrite1 slave ⟨s.1, sent⟩ sid addr data).1.dev ∧
    (portWrite1 (slavePort slave) N ⟨s, k⟩ sid addr data).2 = (rtuWrite1 slave ⟨s.1, sent⟩ sid addr data).2 := by
  unfold portWrite1 rtuWrite1
  dsimp only
  generalize packBBHHB sid 16 addr (data.length / 2 : Nat) data.length = r
  cases r with
  | error e => exact ⟨rfl, rfl⟩
  | ok hdr =>
    dsimp only
    obtain ⟨h1, h2⟩ := portExchange_same slave N writeTotal 8 (by decide) writeTotal_le writeTotal_ge hN s k sent (hdr ++ data ++ crcField (hdr ++ data))
    rw [h1, h2]
    generalize lineSend slave ⟨s.1, sent⟩ (hdr ++ data ++ crcField (hdr ++ data)) = q
    obtain ⟨l', r⟩ := q
    cases r <;> exact ⟨rfl, rfl⟩

theorem portReadF_same {σ} (slave : Slave σ) (N : Nat) (hN : 260 < N) (sid op : Int) (max : Nat) : ∀ (fuel : Nat) (addr : Int) (count : Nat) (resp : Bytes)
    (s : σ × List Bytes) (k : Nat) (sent : List Bytes),
    (portReadF (slavePort slave) N sid op max fuel addr count resp ⟨s, k⟩).1.st.1 = (rtuReadF slave sid op max fuel addr count resp ⟨s.1, sent⟩).1.dev ∧
    (portReadF (slavePort slave) N sid op max fuel addr count resp ⟨s, k⟩).2 = (rtuReadF slave sid op max fuel addr count resp ⟨s.1, sent⟩).2 := by
  intro fuel
  induction fuel with
  | zero => intro addr count resp s k sent; exact ⟨rfl, rfl⟩
  | succ fuel ih =>
    intro addr count resp s k sent
    rw [portReadF, rtuReadF]
    split
    · dsimp only
      generalize (if count > max then max else count) = rc
      obtain ⟨h1, h2⟩ := portRead1_same slave N hN s k sent sid op addr rc
      generalize portRead1 (slavePort slave) N ⟨s, k⟩ sid op addr rc = q1 at h1 h2
      generalize rtuRead1 slave ⟨s.1, sent⟩ sid op addr rc = q2 at h1 h2
      obtain ⟨⟨s', k'⟩, r1⟩ := q1
      obtain ⟨⟨d', sent'⟩, r2⟩ := q2
      dsimp only at h1 h2
      subst h1 h2
      cases r1 with
      | error e => exact ⟨rfl, rfl⟩
      | ok data =>
        dsimp only
        split
        · exact ih _ _ _ _ _ _
        · exact ⟨rfl, rfl⟩
    · exact ⟨rfl, rfl⟩

theorem portWriteF_same {σ} (slave : Slave σ) (N : Nat) (hN : 8 < N) (sid : Int) (max : Nat) : ∀ (fuel : Nat) (addr : Int) (data : Bytes)
    (s : σ × List Bytes) (k : Nat) (sent : List Bytes),
    (portWriteF (slavePort slave) N sid max fuel addr data ⟨s, k⟩).1.st.1 = (rtuWriteF slave sid max fuel addr data ⟨s.1, sent⟩).1.dev ∧
    (portWriteF (slavePort slave) N sid max fuel addr data ⟨s, k⟩).2 = (rtuWriteF slave sid max fuel addr data ⟨s.1, sent⟩).2 := by
  intro fuel
  induction fuel with
  | zero => intro addr data s k sent; exact ⟨rfl, rfl⟩
  | succ fuel ih =>
    intro addr data s k sent
    rw [portWriteF, rtuWriteF]
    split
    · dsimp only
      generalize (if data.length > 2 * max then 2 * max else data.length) = rc
      obtain ⟨h1, h2⟩ := portWrite1_same slave N hN s k sent sid addr (data.take rc)
      generalize portWrite1 (slavePort slave) N ⟨s, k⟩ sid addr (data.take rc) = q1 at h1 h2
      generalize rtuWrite1 slave ⟨s.1, sent⟩ sid addr (data.take rc) = q2 at h1 h2
      obtain ⟨⟨s', k'⟩, r1⟩ := q1
      obtain ⟨⟨d', sent'⟩, r2⟩ := q2
      dsimp only at h1 h2
      subst h1 h2
      cases r1 with
      | error e => exact ⟨rfl, rfl⟩
      | ok u => exact ih _ _ _ _ _
    · exact ⟨rfl, rfl⟩

/-! ## TCP -/

theorem tcpRecvF_mono (ce : Exc) : ∀ (fuel fuel' : Nat) (r : Int) (resp : Bytes) (p : List Bytes), fuel ≤ fuel' →
    (tcpRecvF ce fuel r resp p).2 ≠ .error .diverge → tcpRecvF ce fuel' r resp p = tcpRecvF ce fuel r resp p := by
  intro fuel
  induction fuel with
  | zero => intro fuel' r resp p _ h; exact absurd rfl h
  | succ fuel ih =>
    intro fuel' r resp p hf h
    obtain ⟨f, rfl⟩ : ∃ f, fuel' = f + 1 := ⟨fuel' - 1, by omega⟩
    have hf' : fuel ≤ f := by omega
    rw [tcpRecvF.eq_def] at h ⊢
    rw [tcpRecvF.eq_def ce (fuel + 1)]
    dsimp only at h ⊢
    split
    · rename_i hr
      rw [if_pos hr] at h
      cases p with
      | nil => rfl
      | cons c rest =>
        dsimp only at h ⊢
        split
        · rfl
        · rename_i hc
          rw [if_neg hc] at h
          split
          · rename_i h9
            rw [if_pos h9] at h
            exact ih _ _ _ _ hf' h
          · rename_i h9
            rw [if_neg h9] at h
            exact ih _ _ _ _ hf' h
    · rfl

theorem netRecvF_same {σ} (srv : TcpServer σ) (ce : Exc) : ∀ (fuel : Nat) (r : Int) (resp : Bytes) (d : σ) (p : List Bytes) (k : Nat),
    (netRecvF (serverNet srv) ce fuel r resp ⟨(d, p), .connected, k⟩).2 = (tcpRecvF ce fuel r resp p).2 ∧
    (netRecvF (serverNet srv) ce fuel r resp ⟨(d, p), .connected, k⟩).1.st = (d, (tcpRecvF ce fuel r resp p).1) ∧
    (netRecvF (serverNet srv) ce fuel r resp ⟨(d, p), .connected, k⟩).1.sock = .connected := by
  intro fuel
  induction fuel with
  | zero => intro r resp d p k; exact ⟨rfl, rfl, rfl⟩
  | succ fuel ih =>
    intro r resp d p k
    rw [netRecvF, tcpRecvF.eq_def]
    dsimp only
    split
    · have hv : ∀ n, (serverNet srv).recv (d, p) n =
          match p with
          | [] => ((d, p), none)
          | c :: rest =>
            if c.length = 0 then ((d, p), some []) else ((d, (serialRead n (c :: rest)).2), some (serialRead n (c :: rest)).1) := fun _ => rfl
      rw [hv]
      cases p with
      | nil => exact ⟨rfl, rfl, rfl⟩
      | cons c rest =>
        dsimp only
        by_cases hc : c.length = 0
        · have hc' : c = [] := List.length_eq_zero_iff.1 hc
          subst hc'
          exact ⟨rfl, rfl, rfl⟩
        · rw [if_neg hc, if_neg hc]
          have hn : ¬ (serialRead r.toNat (c :: rest)).1.length = 0 := by
            rename_i hr
            rw [serialRead]
            split
            · exact hc
            · rw [List.length_take]; omega
          generalize serialRead r.toNat (c :: rest) = q at hn
          obtain ⟨got, rest'⟩ := q
          dsimp only at hn ⊢
          rw [if_neg hn]
          split
          · exact ih _ _ _ _ _
          · exact ih _ _ _ _ _
    · exact ⟨rfl, rfl, rfl⟩

/-- Every device at the lower level is one at the upper level. -/
theorem same_cases {σ} {w : NetWaited (σ × List Bytes)} {t : Tcp σ} (h : SameSocket w t) :
    (w.sock = .absent ↔ t.sock = .absent) ∧ (w.sock = .connected ↔ t.sock = .connected w.st.2) ∧ w.st.1 = t.dev := by
  obtain ⟨h1, h2⟩ := h
  cases hs : t.sock with
  | absent => rw [hs] at h2; simp only at h2; simp [h1, h2]
  | unconnected => rw [hs] at h2; simp only at h2; simp [h1, h2]
  | connected p => rw [hs] at h2; simp only at h2; simp [h1, h2.1, h2.2]

/-- The results of two computations: the same outcome, and devices with the same socket. -/
def SameEnd {σ α} (x : NetWaited (σ × List Bytes) × Py α) (y : Tcp σ × Py α) : Prop := SameSocket x.1 y.1 ∧ x.2 = y.2

theorem andThen_same {σ α β} {x : NetWaited (σ × List Bytes) × Py α} {y : Tcp σ × Py α} (h : SameEnd x y)
    {f : NetWaited (σ × List Bytes) → α → NetWaited (σ × List Bytes) × Py β} {g : Tcp σ → α → Tcp σ × Py β}
    (hfg : ∀ w t a, SameSocket w t → SameEnd (f w a) (g t a)) : SameEnd (andThen x f) (andThen y g) := by
  obtain ⟨w, r⟩ := x
  obtain ⟨t, r'⟩ := y
  obtain ⟨h1, h2⟩ := h
  dsimp only at h1 h2
  subst h2
  cases r with
  | error e => exact ⟨h1, rfl⟩
  | ok a => exact hfg w t a h1

theorem netExchange_same {σ} (srv : TcpServer σ) (ce : Exc) (hce : ce ≠ .diverge) (N : Nat) (hN : 65541 < N) (w : NetWaited (σ × List Bytes)) (t : Tcp σ)
    (h : SameSocket w t) (req : Bytes) : SameEnd (netExchange (serverNet srv) N ce w req) (tcpExchange srv ce t req) := by
  obtain ⟨⟨d, p⟩, sock, k⟩ := w
  obtain ⟨d', sock', sent, op, cl⟩ := t
  obtain ⟨h1, h2⟩ := h
  dsimp only at h1
  subst h1
  unfold netExchange tcpExchange
  cases sock' with
  | absent => dsimp only at h2; subst h2; exact ⟨⟨rfl, rfl⟩, rfl⟩
  | unconnected => dsimp only at h2; subst h2; exact ⟨⟨rfl, rfl⟩, rfl⟩
  | connected q =>
    dsimp only at h2
    obtain ⟨h2, h3⟩ := h2
    subst h2 h3
    rw [if_pos rfl]
    have hw : (serverNet srv).send (d, p) req =
      match srv.react d req with
      | (d, some chunks) => ((d, p ++ chunks), true)
      | (d, none) => ((d, p), false) := rfl
    dsimp only
    rw [hw]
    generalize srv.react d req = x
    obtain ⟨d', c⟩ := x
    cases c with
    | none => exact ⟨⟨rfl, rfl, rfl⟩, rfl⟩
    | some chunks =>
      dsimp only
      obtain ⟨_, _, e3⟩ := netRecvF_head (serverNet srv) ce hce N 9 [] ⟨(d', p ++ chunks), .connected, k⟩ (by simp)
        (by have e9 : (9 : Int).toNat = 9 := rfl; omega)
      have e4 := e3 (N + (bytesLeft (p ++ chunks) + 1)) (by omega)
      have hnd : (tcpRecvF ce (bytesLeft (p ++ chunks) + 1) 9 [] (p ++ chunks)).2 ≠ .error .diverge := by
        have := (tcpRecv_eq ce (p ++ chunks)).1
        rw [tcpFlat_eq] at this
        rw [this]
        split
        · split
          · simpa using hce
          · simp
        · simp
      have e5 := tcpRecvF_mono ce _ (N + (bytesLeft (p ++ chunks) + 1)) 9 [] (p ++ chunks) (by omega) hnd
      have hs := netRecvF_same srv ce (N + (bytesLeft (p ++ chunks) + 1)) 9 [] d' (p ++ chunks) k
      rw [e4, e5] at hs
      obtain ⟨s1, s2, s3⟩ := hs
      refine ⟨⟨?_, s3, ?_⟩, s1⟩
      · exact congrArg Prod.fst s2
      · exact congrArg Prod.snd s2

theorem netRead1_same {σ} (srv : TcpServer σ) (N : Nat) (hN : 65541 < N) (w : NetWaited (σ × List Bytes)) (t : Tcp σ)
    (h : SameSocket w t) (sid op addr count : Int) :
    SameEnd (netRead1 (serverNet srv) N w sid op addr count) (tcpRead1 srv t sid op addr count) := by
  unfold netRead1 tcpRead1
  refine andThen_same ⟨h, rfl⟩ fun w t req h => ?_
  exact andThen_same (netExchange_same srv _ (by decide) N hN w t h req) fun w t resp h => ⟨h, rfl⟩

theorem netWrite1_same {σ} (srv : TcpServer σ) (N : Nat) (hN : 65541 < N) (w : NetWaited (σ × List Bytes)) (t : Tcp σ)
    (h : SameSocket w t) (sid addr : Int) (data : Bytes) :
    SameEnd (netWrite1 (serverNet srv) N w sid addr data) (tcpWrite1 srv t sid addr data) := by
  unfold netWrite1 tcpWrite1
  refine andThen_same ⟨h, rfl⟩ fun w t req h => ?_
  refine andThen_same (netExchange_same srv _ (by decide) N hN w t h _) fun w t resp h => ?_
  exact andThen_same ⟨h, rfl⟩ fun w t _ h => ⟨h, rfl⟩

theorem netReadF_same {σ} (srv : TcpServer σ) (N : Nat) (hN : 65541 < N) (sid op : Int) (max : Nat) : ∀ (fuel : Nat) (addr : Int) (count : Nat) (resp : Bytes)
    (w : NetWaited (σ × List Bytes)) (t : Tcp σ), SameSocket w t →
    SameEnd (netReadF (serverNet srv) N sid op max fuel addr count resp w) (tcpReadF srv sid op max fuel addr count resp t) := by
  intro fuel
  induction fuel with
  | zero => intro addr count resp w t h; exact ⟨h, rfl⟩
  | succ fuel ih =>
    intro addr count resp w t h
    rw [netReadF, tcpReadF]
    split
    · dsimp only
      refine andThen_same (netRead1_same srv N hN w t h sid op addr _) fun w t data h => ?_
      split
      · exact ih _ _ _ _ _ h
      · exact ⟨h, rfl⟩
    · exact ⟨h, rfl⟩

theorem netWriteF_same {σ} (srv : TcpServer σ) (N : Nat) (hN : 65541 < N) (sid addr : Int) (max : Nat) (data : Bytes) : ∀ (fuel written : Nat)
    (se : Option (Nat × Nat)) (w : NetWaited (σ × List Bytes)) (t : Tcp σ), SameSocket w t →
    SameEnd (netWriteF (serverNet srv) N sid addr max data fuel written se w) (tcpWriteF srv sid addr max data fuel written se t) := by
  intro fuel
  induction fuel with
  | zero => intro written se w t h; exact ⟨h, rfl⟩
  | succ fuel ih =>
    intro written se w t h
    rw [netWriteF, tcpWriteF]
    split
    · dsimp only
      generalize (if data.length - written > 2 * max then 2 * max else data.length - written) = n
      generalize (if data.length - written > 2 * max then se else some (written, written + n)) = se'
      cases se' with
      | none => exact ⟨h, rfl⟩
      | some x =>
        obtain ⟨a, b⟩ := x
        dsimp only
        exact andThen_same (netWrite1_same srv N hN w t h sid _ _) fun w t _ h => ih _ _ _ _ h
    · exact ⟨h, rfl⟩

theorem netDisconnect_same {σ} (srv : TcpServer σ) (w : NetWaited (σ × List Bytes)) (t : Tcp σ) (h : SameSocket w t) :
    SameSocket (netDisconnect (serverNet srv) w) (tcpDisconnect t) ∧ (netDisconnect (serverNet srv) w).sock = .absent := by
  obtain ⟨⟨d, p⟩, sock, k⟩ := w
  obtain ⟨d', sock', sent, op, cl⟩ := t
  obtain ⟨h1, h2⟩ := h
  dsimp only at h1
  subst h1
  cases sock' with
  | absent => dsimp only at h2; subst h2; exact ⟨⟨rfl, rfl⟩, rfl⟩
  | unconnected => dsimp only at h2; subst h2; exact ⟨⟨rfl, rfl⟩, rfl⟩
  | connected q =>
    dsimp only at h2
    obtain ⟨h2, h3⟩ := h2
    subst h2 h3
    exact ⟨⟨rfl, rfl⟩, rfl⟩

theorem netConnect_same {σ} (srv : TcpServer σ) (w : NetWaited (σ × List Bytes)) (t : Tcp σ) (h : SameSocket w t) :
    SameEnd (netConnect (serverNet srv) w) (tcpConnect srv t) := by
  unfold netConnect tcpConnect
  obtain ⟨hd, _⟩ := netDisconnect_same srv w t h
  have hst := hd.1
  generalize netDisconnect (serverNet srv) w = w' at hd hst
  generalize tcpDisconnect t = t' at hd hst
  dsimp only
  have hw : (serverNet srv).connect w'.st = (((srv.accept w'.st.1).1, []), (srv.accept w'.st.1).2) := rfl
  rw [hw, hst]
  generalize srv.accept t'.dev = q
  obtain ⟨d, b⟩ := q
  cases b
  · exact ⟨⟨rfl, rfl⟩, rfl⟩
  · exact ⟨⟨rfl, rfl, rfl⟩, rfl⟩

theorem netWith_same {σ α} (srv : TcpServer σ) (w : NetWaited (σ × List Bytes)) (t : Tcp σ) (h : SameSocket w t)
    {f : NetWaited (σ × List Bytes) → NetWaited (σ × List Bytes) × Py α} {g : Tcp σ → Tcp σ × Py α}
    (hfg : ∀ w t, SameSocket w t → SameEnd (f w) (g t)) : SameEnd (netWith (serverNet srv) w f) (tcpWith srv t g) := by
  unfold netWith tcpWith
  have hc := same_cases h
  split
  · rename_i ha
    have ht := hc.1.1 ha
    rw [ht]
    dsimp only
    refine andThen_same (netConnect_same srv w t h) fun w t _ h => ?_
    obtain ⟨k1, k2⟩ := hfg w t h
    exact ⟨(netDisconnect_same srv _ _ k1).1, k2⟩
  · rename_i ha
    have ht : t.sock ≠ .absent := fun e => ha (hc.1.2 e)
    cases hs : t.sock with
    | absent => exact absurd hs ht
    | unconnected => exact hfg w t h
    | connected p => exact hfg w t h

end Verif
