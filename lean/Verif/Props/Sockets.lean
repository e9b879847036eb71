import Verif.Props.Tls
import Verif.Props.ReadOnly
import Verif.Props.Alike

/-!
# C86: a device never holds more than one socket
-/

namespace Verif
open Spec

namespace Spec

/-- The sockets created and not closed are exactly the one the device holds, if any: none has been lost. -/
def Accounted {σ} (t : Tcp σ) : Prop :=
  (t.sock = .absent ∧ t.opened = t.closed) ∨ (t.sock ≠ .absent ∧ t.opened = t.closed + 1)

end Spec

theorem disconnect_accounted {σ} (t : Tcp σ) (h : Accounted t) : Accounted (tcpDisconnect t) ∧ (tcpDisconnect t).sock = .absent ∧
    (tcpDisconnect t).opened = (tcpDisconnect t).closed := by
  unfold tcpDisconnect
  rcases h with ⟨h1, h2⟩ | ⟨h1, h2⟩
  · rw [h1]
    exact ⟨.inl ⟨h1, h2⟩, h1, h2⟩
  · split
    · rename_i h; exact absurd h h1
    · exact ⟨.inl ⟨rfl, h2⟩, rfl, h2⟩

theorem connect_accounted {σ} (srv : TcpServer σ) (t : Tcp σ) (h : Accounted t) : Accounted (tcpConnect srv t).1 := by
  obtain ⟨_, _, h2⟩ := disconnect_accounted t h
  unfold tcpConnect
  dsimp only
  split <;> exact .inr ⟨(by simp), by dsimp only; rw [h2]⟩

theorem exchange_accounted {σ} (srv : TcpServer σ) (x : Exc) (t : Tcp σ) (req : Bytes) (h : Accounted t) :
    Accounted (tcpExchange srv x t req).1 := by
  unfold tcpExchange
  split
  · rename_i p hp
    have h2 : t.opened = t.closed + 1 := by
      rcases h with ⟨h1, _⟩ | ⟨_, h2⟩
      · rw [hp] at h1; cases h1
      · exact h2
    split
    · exact .inr ⟨by rw [hp]; simp, h2⟩
    · exact .inr ⟨by simp, h2⟩
  · exact h

theorem with_accounted {σ α} (srv : TcpServer σ) (t : Tcp σ) (body : Tcp σ → Tcp σ × Py α)
    (hb : ∀ t, Accounted t → Accounted (body t).1) (h : Accounted t) : Accounted (tcpWith srv t body).1 := by
  unfold tcpWith
  split
  · exact andThen_holds Accounted _ _ (connect_accounted srv t h) fun s _ hs => (disconnect_accounted _ (hb s hs)).1
  · exact hb t h

theorem read_accounted {σ} (srv : TcpServer σ) (t : Tcp σ) (sid op addr : Int) (count mc : Nat) (h : Accounted t) :
    Accounted (tcpRead srv t sid op addr count mc).1 := by
  unfold tcpRead
  exact with_accounted srv t _ (fun t ht => tcpReadF_holds srv Accounted (exchange_accounted srv) sid op mc _ _ _ _ t ht) h

theorem write_accounted {σ} (srv : TcpServer σ) (t : Tcp σ) (sid addr : Int) (data : Bytes) (mc : Nat) (h : Accounted t) :
    Accounted (tcpWrite srv t sid addr data mc).1 := by
  unfold tcpWrite
  exact with_accounted srv t _ (fun t ht => tcpWriteF_holds srv Accounted (exchange_accounted srv) sid addr mc data _ _ _ t ht) h

theorem tcpRun_accounted {σ} (srv : TcpServer σ) (sid : Int) (mc : Nat) (ops : List TcpOp) : ∀ t, Accounted t →
    Accounted (tcpRun srv sid mc t ops).1 := by
  induction ops with
  | nil => intro t h; exact h
  | cons o os ih =>
    intro t h
    rw [tcpRun]
    refine ih _ ?_
    cases o with
    | connect => exact andThen_holds Accounted _ _ (connect_accounted srv t h) fun _ _ h => h
    | close => exact (disconnect_accounted t h).1
    | read op addr count => exact read_accounted srv t sid op addr count mc h
    | write addr data => exact andThen_holds Accounted _ _ (write_accounted srv t sid addr data mc h) fun _ _ h => h

/-! ### With TLS -/

theorem tlsConnect_accounted {σ Cert} (W : TlsWorld σ Cert) (c : TlsConf) (t : Tcp (TlsSt σ Cert)) (h : Accounted t) :
    Accounted (tlsConnect W c t).1 := by
  obtain ⟨h1, _, h2⟩ := disconnect_accounted t h
  unfold tlsConnect
  dsimp only
  split
  · split
    · exact .inr ⟨by simp, by dsimp only; rw [h2]⟩
    · split
      · exact .inr ⟨by simp, by dsimp only; rw [h2]⟩
      · split
        · exact .inr ⟨by simp, by dsimp only; rw [h2]⟩
        · split
          · exact .inr ⟨by simp, by dsimp only; rw [h2]⟩
          · exact .inr ⟨by simp, by dsimp only; rw [h2]⟩
  · exact connect_accounted _ _ h1

theorem tlsWith_accounted {σ Cert α} (W : TlsWorld σ Cert) (c : TlsConf) (t : Tcp (TlsSt σ Cert))
    (body : Tcp (TlsSt σ Cert) → Tcp (TlsSt σ Cert) × Py α)
    (hb : ∀ t, Accounted t → Accounted (body t).1) (h : Accounted t) : Accounted (tlsWith W c t body).1 := by
  unfold tlsWith
  split
  · exact andThen_holds Accounted _ _ (tlsConnect_accounted W c t h) fun s _ hs => (disconnect_accounted _ (hb s hs)).1
  · exact hb t h

theorem tlsRun_accounted {σ Cert} (W : TlsWorld σ Cert) (c : TlsConf) (sid : Int) (mc : Nat) (ops : List TcpOp) : ∀ t, Accounted t →
    Accounted (tlsRun W c sid mc t ops).1 := by
  induction ops with
  | nil => intro t h; exact h
  | cons o os ih =>
    intro t h
    rw [tlsRun]
    refine ih _ ?_
    cases o with
    | connect => exact andThen_holds Accounted _ _ (tlsConnect_accounted W c t h) fun _ _ h => h
    | close => exact (disconnect_accounted t h).1
    | read op addr count =>
      exact tlsWith_accounted W c t _
        (fun t ht => tcpReadF_holds _ Accounted (exchange_accounted _) sid op mc _ _ _ _ t ht) h
    | write addr data =>
      exact andThen_holds Accounted _ _ (tlsWith_accounted W c t _
        (fun t ht => tcpWriteF_holds _ Accounted (exchange_accounted _) sid addr mc data _ _ _ t ht) h) fun _ _ h => h

/-! ### Whole programs -/

section
variable {σ : Type} {I : σ → Prop}

theorem alike_keeps {dev : MbDev σ} (hr : ∀ s a n, I s → I (dev.read s a n).1) (hw : ∀ s a d, I s → I (dev.write s a d).1) :
    Alike dev dev (fun s t => s = t ∧ I s) where
  read := by rintro s t a n ⟨rfl, h⟩; exact ⟨rfl, rfl, hr s a n h⟩
  write := by rintro s t a d ⟨rfl, h⟩; exact ⟨.inl rfl, rfl, hw s a d h⟩

/-- What reads, writes, connecting and disconnecting keep, every call keeps. -/
theorem perform_keeps {dev : ScanDev σ} (hr : ∀ s a n, I s → I (dev.read s a n).1) (hw : ∀ s a d, I s → I (dev.write s a d).1)
    (hc : ∀ f, dev.conn = some f → ∀ s, I s → I (f s).1) (hd : ∀ s, I s → I (dev.disc s))
    (fuel : Nat) (lib : Int → Py ModelType) (c : CliDev σ) (call : Call) (h : I c.st) : I (perform dev fuel lib c call).1.st := by
  have ha := alike_keeps hr hw
  cases call with
  | scan progress => exact scan_keeps hr hc hd lib progress fuel c h
  | readAll => exact readModels_keeps hr c.list c.st h
  | readModel i =>
    simp only [perform]
    split
    · exact h
    · exact readPoints_keeps hr c.st h _
  | writeModel i =>
    simp only [perform]
    split
    · exact h
    · rename_i m _
      exact (writePoints_alike ha m ⟨rfl, h⟩).1.2
  | writePoint i j k =>
    simp only [perform]
    split
    · exact h
    · split
      · exact h
      · split
        · exact h
        · rename_i p _
          exact (writePoint_alike ha p ⟨rfl, h⟩).1.2
  | edit f => exact h

theorem converse_keeps {dev : ScanDev σ} (hr : ∀ s a n, I s → I (dev.read s a n).1) (hw : ∀ s a d, I s → I (dev.write s a d).1)
    (hc : ∀ f, dev.conn = some f → ∀ s, I s → I (f s).1) (hd : ∀ s, I s → I (dev.disc s))
    (fuel : Nat) (lib : Int → Py ModelType) (next : Transcript → Option Call) (n : Nat) : ∀ (tr : Transcript) (c : CliDev σ), I c.st →
      I (converse dev fuel lib next n tr c).1.st := by
  induction n with
  | zero => intro tr c h; exact h
  | succ n ih =>
    intro tr c h
    rw [converse]
    split
    · exact h
    · exact ih _ _ (perform_keeps hr hw hc hd fuel lib c _ h)

end

/-- C86: after every history of calls of a new TCP device — connecting, closing, reading, writing, in any order, whatever the
server does, and whichever of the calls raise — at most one of the sockets it created is open, it is the one that `close()` closes, and
after `close()` none is open. -/
theorem C86_calls {σ} (srv : TcpServer σ) (sid : Int) (maxCount : Nat) (d : σ) (ops : List TcpOp) (t : Tcp σ)
    (ht : t = (tcpRun srv sid maxCount ⟨d, .absent, [], 0, 0⟩ ops).1) :
    t.closed ≤ t.opened ∧ t.opened ≤ t.closed + 1 ∧ (tcpDisconnect t).opened = (tcpDisconnect t).closed ∧
    (tcpDisconnect t).opened = t.opened := by
  have h := tcpRun_accounted srv sid maxCount ops ⟨d, .absent, [], 0, 0⟩ (.inl ⟨rfl, rfl⟩)
  rw [← ht] at h
  refine ⟨?_, ?_, (disconnect_accounted t h).2.2, by unfold tcpDisconnect; split <;> rfl⟩ <;>
    rcases h with ⟨_, h⟩ | ⟨_, h⟩ <;> omega

/-- C86 with TLS, whatever the files, the certificates and the handshakes. -/
theorem C86_tls {σ Cert} (W : TlsWorld σ Cert) (c : TlsConf) (sid : Int) (maxCount : Nat) (d : σ) (ops : List TcpOp) (t : Tcp (TlsSt σ Cert))
    (ht : t = (tlsRun W c sid maxCount (newTls Cert d) ops).1) :
    t.closed ≤ t.opened ∧ t.opened ≤ t.closed + 1 ∧ (tcpDisconnect t).opened = (tcpDisconnect t).closed ∧
    (tcpDisconnect t).opened = t.opened := by
  have h := tlsRun_accounted W c sid maxCount ops (newTls Cert d) (.inl ⟨rfl, rfl⟩)
  rw [← ht] at h
  refine ⟨?_, ?_, (disconnect_accounted t h).2.2, by unfold tcpDisconnect; split <;> rfl⟩ <;>
    rcases h with ⟨_, h⟩ | ⟨_, h⟩ <;> omega

/-- C86 for every program that scans the device, reads and writes its models and points, whatever the server, the model
definitions and the progress functions do, and whichever of the calls raise. -/
theorem C86_programs {σ} (srv : TcpServer σ) (sid : Int) (fuel : Nat) (lib : Int → Py ModelType) (next : Transcript → Option Call)
    (n : Nat) (d : σ) (t : Tcp σ)
    (ht : t = (converse (tcpScanDev srv sid) fuel lib next n [] { st := ⟨d, .absent, [], 0, 0⟩ }).1.st) :
    t.closed ≤ t.opened ∧ t.opened ≤ t.closed + 1 ∧ (tcpDisconnect t).opened = (tcpDisconnect t).closed ∧
    (tcpDisconnect t).opened = t.opened := by
  have h : Accounted t := by
    rw [ht]
    refine converse_keeps (I := Accounted) ?_ ?_ ?_ ?_ fuel lib next n [] _ (.inl ⟨rfl, rfl⟩)
    · intro s a n h; exact read_accounted srv s sid 3 a n.toNat 125 h
    · intro s a d h; exact write_accounted srv s sid a d 125 h
    · intro f hf s h
      simp only [tcpScanDev, Option.some.injEq] at hf
      subst hf
      exact connect_accounted srv s h
    · intro s h; exact (disconnect_accounted s h).1
  refine ⟨?_, ?_, (disconnect_accounted t h).2.2, by unfold tcpDisconnect; split <;> rfl⟩ <;>
    rcases h with ⟨_, h⟩ | ⟨_, h⟩ <;> omega

/-- Non-vacuity: a server that refuses the first connection; a read raises and leaves a socket behind, connecting again closes it; the
device then uses one socket for two reads. -/
example : (tcpRun (rebootingServer 1) 1 125 ⟨(1, fun _ => 7), .absent, [], 0, 0⟩
      [.read 3 100 1, .connect, .read 3 100 1, .read 3 101 1]).2 = [.error .modbusClientError, .ok [], .ok [0, 7], .ok [0, 7]] ∧
    (tcpRun (rebootingServer 1) 1 125 ⟨(1, fun _ => 7), .absent, [], 0, 0⟩ [.read 3 100 1, .connect, .read 3 100 1, .read 3 101 1]).1.opened = 2 ∧
    (tcpRun (rebootingServer 1) 1 125 ⟨(1, fun _ => 7), .absent, [], 0, 0⟩ [.read 3 100 1, .connect, .read 3 100 1, .read 3 101 1]).1.closed = 1 := by
  decide +kernel

/-- Non-vacuity with TLS: a handshake that fails, `close`, and the same again. -/
example : (tlsRun rogueWorld rogueConf 1 125 (newTls Unit ()) [.read 3 40000 1, .close, .read 3 40000 1]).1.opened = 2 ∧
    (tlsRun rogueWorld rogueConf 1 125 (newTls Unit ()) [.read 3 40000 1, .close, .read 3 40000 1]).1.closed = 1 := by decide +kernel

/-- Non-vacuity for programs: the program of C73 opens and closes several connections. -/
example : (converse (tcpScanDev (drippingServer 9) (9 : Byte).toNat) 9 exLib exProgram 8 [] { st := ⟨scanMem, .absent, [], 0, 0⟩ }).1.st.opened ≥ 2 := by
  decide +kernel

end Verif
