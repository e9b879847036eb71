import Verif.Props.Grouped
import Verif.Lemmas.AtomicDev
import Verif.Props.ReadOnly

/-!
# C76 over TCP
-/

namespace Verif
open Spec

/-- One write over an open connection, or none: the request is sent once, or not at all and the write raises. -/
theorem tcpWriteF_once {σ} (srv : TcpServer σ) (unit : Byte) (t : Tcp σ) (a : Int) (d : Bytes) (ha : 0 ≤ a ∧ a < 65536) (hd : 0 < d.length) :
    (tcpWriteF srv unit.toNat a 125 d (d.length + 1) 0 none t).1.sent = t.sent ++ [mbap 0 unit (writePdu a.toNat d)] ∨
    ((tcpWriteF srv unit.toNat a 125 d (d.length + 1) 0 none t).1.sent = t.sent ∧
      ∃ e, (tcpWriteF srv unit.toNat a 125 d (d.length + 1) 0 none t).2 = .error e) := by
  have hs := unit.isLt
  by_cases hl : d.length ≤ 2 * 125
  · rw [tcpWriteF_short srv t unit.toNat a d 125 hl, if_neg (by intro e; rw [e] at hd; exact absurd hd (by decide))]
    by_cases hc : ∃ p, t.sock = .connected p
    · obtain ⟨p, hp⟩ := hc
      obtain ⟨p', _, h2⟩ := tcpWrite1_sent srv t p hp unit.toNat a d ⟨⟨by omega, by omega⟩, ha, by omega⟩ _ rfl
      left
      rw [h2]
      simp only [Int.toNat_natCast, BitVec.ofNat_toNat, BitVec.setWidth_eq]
    · obtain ⟨e, e1, _⟩ := tcpWrite1_unconnected srv t (fun p hp => hc ⟨p, hp⟩) unit.toNat a d
      right
      rw [e1]
      exact ⟨rfl, e, rfl⟩
  · rw [tcpWriteF_long srv t unit.toNat a d 125 (by omega)]
    exact .inr ⟨rfl, _, rfl⟩

/-- C76 over TCP, whatever the server does, with an open connection or with a connection for each request: if the data of each run is
at an address that exists, the requests that go out are one write request for each of the first runs, and for all if `write_points`
returns. (A run of more than 125 registers cannot be sent in one request: nothing is sent for it and `write_points` raises.) -/
theorem C76_tcp {σ} (srv : TcpServer σ) (unit : Byte) (t : Tcp σ) (m : MdlObj) (gs : List (List PointObj)) (hgs : ModelGrouped m gs)
    (hfit : ∀ g ∈ gs, ∀ w, RunData g w → 0 ≤ w.1 ∧ w.1 < 65536 ∧ 0 < w.2.length) :
    ∃ k ws, List.Forall₂ RunData (gs.take k) ws ∧
      (writePoints (tcpDev srv unit.toNat) t m).1.sent = t.sent ++ ws.map (fun w => mbap 0 unit (writePdu w.1.toNat w.2)) ∧
      ((writePoints (tcpDev srv unit.toNat) t m).2.2 = .ok () → gs.length ≤ k) := by
  rw [modelGrouped_eq] at hgs
  subst hgs
  have h : Records (tcpDev srv unit.toNat) (fun x => x.sent) (fun w => 0 ≤ w.1 ∧ w.1 < 65536 ∧ 0 < w.2.length)
      (fun w => mbap 0 unit (writePdu w.1.toNat w.2)) := by
    intro t a d ⟨h1, h2, h3⟩
    dsimp only at h1 h2 h3
    show (tcpWrite srv t unit.toNat a d 125).1.sent = _ ∨ ((tcpWrite srv t unit.toNat a d 125).1.sent = _ ∧
      ∃ e, (tcpWrite srv t unit.toNat a d 125).2 = .error e)
    unfold tcpWrite
    by_cases hs : t.sock = .absent
    · cases ha : (srv.accept t.dev).2 with
      | true =>
        rw [tcpWith_absent srv t _ hs ha]
        dsimp only
        rw [(tcpDisconnect_sent _).1]
        exact tcpWriteF_once srv unit { t with dev := (srv.accept t.dev).1, sock := .connected [], opened := t.opened + 1 } a d ⟨h1, h2⟩ h3
      | false =>
        rw [tcpWith_refused srv t _ hs ha]
        exact .inr ⟨rfl, _, rfl⟩
    · rw [tcpWith_present srv t _ hs]
      exact tcpWriteF_once srv unit t a d ⟨h1, h2⟩ h3
  exact wpBlocks_records h m.blocks t hfit

/-- Non-vacuity: three requests over one connection; with a connection that the server refuses, none. -/
example := C76_tcp (idealServer 1) 1 ⟨exMem, .connected [], [], 0, 0⟩ (mapPts allSet exModel) _ (modelGrouped_eq.2 rfl)
  (fun g hg w hw => ⟨(allSet_fit g hg w hw).1, (allSet_fit g hg w hw).2.1, (allSet_fit g hg w hw).2.2.1⟩)

example : (writePoints (tcpDev (idealServer 1) 1) ⟨exMem, .connected [], [], 0, 0⟩ (mapPts allSet exModel)).1.sent =
    [mbap 0 1 (writePdu 40002 [0, 5]), mbap 0 1 (writePdu 40005 [0, 5, 0, 5]), mbap 0 1 (writePdu 40007 [0, 5, 0, 5])] := by decide +kernel

end Verif
