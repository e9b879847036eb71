import Verif.Spec.Broken
import Verif.Lemmas.Wire
import Verif.Lemmas.WireSame

/-!
# While the line works, the client does the same as on a line that never breaks
-/

namespace Verif
open Verif.Spec

/-! ## RTU -/

/-- The port is in a working state, and what is connected to it is as in `v`. -/
def PortAs {τ σ} (Good : τ → Prop) (on : τ → σ × List Bytes) (w : Waited τ) (v : Waited (σ × List Bytes)) : Prop :=
  Good w.st ∧ on w.st = v.st ∧ w.waits = v.waits

/-- The same outcome in corresponding states. -/
def PortEnd {τ σ α} (Good : τ → Prop) (on : τ → σ × List Bytes) (x : Waited τ × Py α) (y : Waited (σ × List Bytes) × Py α) : Prop :=
  PortAs Good on x.1 y.1 ∧ x.2 = y.2

section
variable {τ σ : Type} {p : PortX τ} {Good : τ → Prop} {slave : Slave σ} {on : τ → σ × List Bytes}

theorem portRecvX_works (h : Works p Good slave on) (total : Bytes → Int) : ∀ (fuel : Nat) (remaining : Int) (found : Bool) (resp : Bytes)
    (exc : Option Nat) (w : Waited τ) (v : Waited (σ × List Bytes)), PortAs Good on w v →
    PortEnd Good on (portRecvX p total fuel remaining found resp exc w) (portRecvF (slavePort slave) total fuel remaining found resp exc v) := by
  intro fuel
  induction fuel with
  | zero => intro remaining found resp exc w v hw; exact ⟨hw, rfl⟩
  | succ fuel ih =>
    intro remaining found resp exc w v hw
    obtain ⟨g1, g2, g3⟩ := hw
    rw [portRecvX, portRecvF]
    by_cases hr : remaining > 0
    · rw [if_pos hr, if_pos hr]
      obtain ⟨k1, k2, k3⟩ := h.read w.st remaining.toNat g1
      unfold portRead
      rw [g2] at k2 k3
      generalize p.read w.st remaining.toNat = q at k1 k2 k3
      obtain ⟨t, r⟩ := q
      dsimp only at k1 k2 k3
      subst k3
      generalize (slavePort slave).read v.st remaining.toNat = q' at k2
      obtain ⟨t', c⟩ := q'
      dsimp only at k2 ⊢
      have hn : PortAs Good on ⟨t, w.waits + 1⟩ ⟨t', v.waits + 1⟩ := ⟨k1, k2, by dsimp only; rw [g3]⟩
      by_cases hc : 0 < c.length
      · rw [if_pos hc, if_pos hc]
        by_cases h1 : found = false ∧ (resp ++ c).length ≥ 5
        · rw [if_pos h1, if_pos h1]
          by_cases h2 : ((resp ++ c).getD 1 0) &&& 0x80 = 0
          · rw [if_pos h2, if_pos h2]
            exact ih _ _ _ _ _ _ hn
          · rw [if_neg h2, if_neg h2]
            exact ih _ _ _ _ _ _ hn
        · rw [if_neg h1, if_neg h1]
          exact ih _ _ _ _ _ _ hn
      · rw [if_neg hc, if_neg hc]
        exact ⟨hn, rfl⟩
    · rw [if_neg hr, if_neg hr]
      exact ⟨⟨g1, g2, g3⟩, rfl⟩

theorem portExchangeX_works (h : Works p Good slave on) (N : Nat) (total : Bytes → Int) (w : Waited τ) (v : Waited (σ × List Bytes))
    (hw : PortAs Good on w v) (req : Bytes) :
    PortEnd Good on (portExchangeX p N total w req) (portExchange (slavePort slave) N total v req) := by
  obtain ⟨g1, g2, g3⟩ := hw
  unfold portExchangeX portExchange
  obtain ⟨k1, k2, k3⟩ := h.flush w.st g1
  rw [g2] at k3
  generalize p.flush w.st = q at k1 k2 k3
  obtain ⟨t, r⟩ := q
  dsimp only at k1 k2 k3
  subst k2
  dsimp only
  obtain ⟨l1, l2, l3⟩ := h.write t req k1
  rw [k3] at l2 l3
  generalize p.write t req = q at l1 l2 l3
  obtain ⟨t1, r⟩ := q
  generalize (slavePort slave).write ((slavePort slave).flush v.st) req = q' at l2 l3
  obtain ⟨t', b⟩ := q'
  dsimp only at l1 l2 l3
  cases r with
  | ok u =>
    have : b = true := l3.1 rfl
    subst this
    exact portRecvX_works h total N 5 false [] none _ _ ⟨l1, l2, g3⟩
  | error e =>
    have : b = false := by
      cases b with
      | false => rfl
      | true => have := l3.2 rfl; cases this
    subst this
    exact ⟨⟨l1, l2, g3⟩, rfl⟩

theorem portRead1X_works (h : Works p Good slave on) (N : Nat) (w : Waited τ) (v : Waited (σ × List Bytes)) (hw : PortAs Good on w v)
    (sid op addr count : Int) :
    PortEnd Good on (portRead1X p N w sid op addr count) (portRead1 (slavePort slave) N v sid op addr count) := by
  unfold portRead1X portRead1
  generalize packBBHH sid op addr count = r
  cases r with
  | error e => exact ⟨hw, rfl⟩
  | ok body =>
    obtain ⟨h1, h2⟩ := portExchangeX_works h N readTotal w v hw (body ++ crcField body)
    exact ⟨h1, congrArg rtuReadReply h2⟩

theorem portWrite1X_works (h : Works p Good slave on) (N : Nat) (w : Waited τ) (v : Waited (σ × List Bytes)) (hw : PortAs Good on w v)
    (sid addr : Int) (data : Bytes) :
    PortEnd Good on (portWrite1X p N w sid addr data) (portWrite1 (slavePort slave) N v sid addr data) := by
  unfold portWrite1X portWrite1
  generalize packBBHHB sid 16 addr (data.length / 2 : Nat) data.length = r
  cases r with
  | error e => exact ⟨hw, rfl⟩
  | ok hdr =>
    obtain ⟨h1, h2⟩ := portExchangeX_works h N writeTotal w v hw (hdr ++ data ++ crcField (hdr ++ data))
    exact ⟨h1, congrArg (rtuWriteReply _ _ _) h2⟩

theorem portReadFX_works (h : Works p Good slave on) (N : Nat) (sid op : Int) (max : Nat) : ∀ (fuel : Nat) (addr : Int) (count : Nat)
    (resp : Bytes) (w : Waited τ) (v : Waited (σ × List Bytes)), PortAs Good on w v →
    PortEnd Good on (portReadFX p N sid op max fuel addr count resp w) (portReadF (slavePort slave) N sid op max fuel addr count resp v) := by
  intro fuel
  induction fuel with
  | zero => intro addr count resp w v hw; exact ⟨hw, rfl⟩
  | succ fuel ih =>
    intro addr count resp w v hw
    rw [portReadFX, portReadF]
    by_cases hc : count > 0
    · rw [if_pos hc, if_pos hc]
      dsimp only
      generalize (if count > max then max else count) = rc
      have hx := portRead1X_works h N w v hw sid op addr rc
      generalize portRead1X p N w sid op addr rc = x at hx ⊢
      generalize portRead1 (slavePort slave) N v sid op addr rc = y at hx ⊢
      obtain ⟨x1, x2⟩ := x
      obtain ⟨y1, y2⟩ := y
      obtain ⟨h1, h2⟩ := hx
      dsimp only at h1 h2
      subst h2
      cases x2 with
      | error e => exact ⟨h1, rfl⟩
      | ok data =>
        dsimp only
        by_cases hd : data.length > 0
        · rw [if_pos hd, if_pos hd]
          exact ih _ _ _ _ _ h1
        · rw [if_neg hd, if_neg hd]
          exact ⟨h1, rfl⟩
    · rw [if_neg hc, if_neg hc]
      exact ⟨hw, rfl⟩

theorem portWriteFX_works (h : Works p Good slave on) (N : Nat) (sid : Int) (max : Nat) : ∀ (fuel : Nat) (addr : Int) (data : Bytes)
    (w : Waited τ) (v : Waited (σ × List Bytes)), PortAs Good on w v →
    PortEnd Good on (portWriteFX p N sid max fuel addr data w) (portWriteF (slavePort slave) N sid max fuel addr data v) := by
  intro fuel
  induction fuel with
  | zero => intro addr data w v hw; exact ⟨hw, rfl⟩
  | succ fuel ih =>
    intro addr data w v hw
    rw [portWriteFX, portWriteF]
    by_cases hc : data.length > 0
    · rw [if_pos hc, if_pos hc]
      dsimp only
      generalize (if data.length > 2 * max then 2 * max else data.length) = n
      have hx := portWrite1X_works h N w v hw sid addr (data.take n)
      generalize portWrite1X p N w sid addr (data.take n) = x at hx ⊢
      generalize portWrite1 (slavePort slave) N v sid addr (data.take n) = y at hx ⊢
      obtain ⟨x1, x2⟩ := x
      obtain ⟨y1, y2⟩ := y
      obtain ⟨h1, h2⟩ := hx
      dsimp only at h1 h2
      subst h2
      cases x2 with
      | error e => exact ⟨h1, rfl⟩
      | ok u => exact ih _ _ _ _ h1
    · rw [if_neg hc, if_neg hc]
      exact ⟨hw, rfl⟩

end

/-! ## TCP -/

def NetAs {τ σ} (Good : τ → Prop) (on : τ → σ × List Bytes) (w : NetWaited τ) (v : NetWaited (σ × List Bytes)) : Prop :=
  Good w.st ∧ on w.st = v.st ∧ w.sock = v.sock ∧ w.waits = v.waits

def NetEnd {τ σ α} (Good : τ → Prop) (on : τ → σ × List Bytes) (x : NetWaited τ × Py α) (y : NetWaited (σ × List Bytes) × Py α) : Prop :=
  NetAs Good on x.1 y.1 ∧ x.2 = y.2

section
variable {τ σ : Type} {net : NetX τ} {Good : τ → Prop} {srv : TcpServer σ} {on : τ → σ × List Bytes}

theorem andThen_as {α β} {x : NetWaited τ × Py α} {y : NetWaited (σ × List Bytes) × Py α} (h : NetEnd Good on x y)
    {f : NetWaited τ → α → NetWaited τ × Py β} {g : NetWaited (σ × List Bytes) → α → NetWaited (σ × List Bytes) × Py β}
    (hfg : ∀ w v a, NetAs Good on w v → NetEnd Good on (f w a) (g v a)) : NetEnd Good on (andThen x f) (andThen y g) := by
  obtain ⟨w, r⟩ := x
  obtain ⟨v, r'⟩ := y
  obtain ⟨h1, h2⟩ := h
  dsimp only at h1 h2
  subst h2
  cases r with
  | error e => exact ⟨h1, rfl⟩
  | ok a => exact hfg w v a h1

theorem netDisconnectX_works (h : NetWorks net Good srv on) (w : NetWaited τ) (v : NetWaited (σ × List Bytes)) (hw : NetAs Good on w v) :
    NetAs Good on (netDisconnectX net w) (netDisconnect (serverNet srv) v) := by
  obtain ⟨g1, g2, g3, g4⟩ := hw
  unfold netDisconnectX netDisconnect
  rw [← g3]
  by_cases hs : w.sock = .absent
  · rw [if_pos hs, if_pos hs]
    exact ⟨g1, g2, g3, g4⟩
  · rw [if_neg hs, if_neg hs]
    obtain ⟨k1, k2, k3⟩ := h.close w.st g1
    rw [g2] at k3
    generalize net.close w.st = q at k1 k2 k3
    obtain ⟨t, r⟩ := q
    dsimp only at k1 k2 k3
    subst k2
    exact ⟨k1, k3, rfl, g4⟩

theorem netConnectX_works (h : NetWorks net Good srv on) (w : NetWaited τ) (v : NetWaited (σ × List Bytes)) (hw : NetAs Good on w v) :
    NetEnd Good on (netConnectX net w) (netConnect (serverNet srv) v) := by
  unfold netConnectX netConnect
  have hd := netDisconnectX_works h w v hw
  generalize netDisconnectX net w = w1 at hd ⊢
  generalize netDisconnect (serverNet srv) v = v1 at hd ⊢
  obtain ⟨g1, g2, g3, g4⟩ := hd
  dsimp only
  obtain ⟨k1, k2, k3⟩ := h.socket w1.st g1
  rw [g2] at k3
  generalize net.socket w1.st = q at k1 k2 k3
  obtain ⟨t, r⟩ := q
  dsimp only at k1 k2 k3
  subst k2
  dsimp only
  obtain ⟨l1, l2, l3⟩ := h.connect t k1
  rw [k3] at l2 l3
  generalize net.connect t = q at l1 l2 l3
  obtain ⟨t1, r⟩ := q
  generalize (serverNet srv).connect v1.st = q' at l2 l3
  obtain ⟨t', b⟩ := q'
  dsimp only at l1 l2 l3
  cases r with
  | ok u =>
    have : b = true := l3.1 rfl
    subst this
    exact ⟨⟨l1, l2, rfl, g4⟩, rfl⟩
  | error e =>
    have : b = false := by
      cases b with
      | false => rfl
      | true => have := l3.2 rfl; cases this
    subst this
    exact ⟨⟨l1, l2, rfl, g4⟩, rfl⟩

theorem netRecvX_works (h : NetWorks net Good srv on) (x : Exc) : ∀ (fuel : Nat) (remaining : Int) (resp : Bytes)
    (w : NetWaited τ) (v : NetWaited (σ × List Bytes)), NetAs Good on w v →
    NetEnd Good on (netRecvX net x fuel remaining resp w) (netRecvF (serverNet srv) x fuel remaining resp v) := by
  intro fuel
  induction fuel with
  | zero => intro remaining resp w v hw; exact ⟨hw, rfl⟩
  | succ fuel ih =>
    intro remaining resp w v hw
    obtain ⟨g1, g2, g3, g4⟩ := hw
    rw [netRecvX, netRecvF]
    by_cases hr : remaining > 0
    · rw [if_pos hr, if_pos hr]
      obtain ⟨k1, k2, k3⟩ := h.recv w.st remaining.toNat g1
      rw [g2] at k2 k3
      generalize net.recv w.st remaining.toNat = q at k1 k2 k3
      obtain ⟨t, r⟩ := q
      generalize (serverNet srv).recv v.st remaining.toNat = q' at k2 k3
      obtain ⟨t', o⟩ := q'
      dsimp only at k1 k2 k3
      subst k3
      have hn : NetAs Good on { w with st := t, waits := w.waits + 1 } { v with st := t', waits := v.waits + 1 } :=
        ⟨k1, k2, g3, by dsimp only; rw [g4]⟩
      cases o with
      | none => exact ⟨hn, rfl⟩
      | some c =>
        dsimp only
        by_cases hc : c.length = 0
        · rw [if_pos hc, if_pos hc]
          exact ⟨hn, rfl⟩
        · rw [if_neg hc, if_neg hc]
          by_cases h1 : (resp ++ c).length ≥ 9
          · rw [if_pos h1, if_pos h1]
            exact ih _ _ _ _ hn
          · rw [if_neg h1, if_neg h1]
            exact ih _ _ _ _ hn
    · rw [if_neg hr, if_neg hr]
      exact ⟨⟨g1, g2, g3, g4⟩, rfl⟩

theorem netExchangeX_works (h : NetWorks net Good srv on) (N : Nat) (x : Exc) (w : NetWaited τ) (v : NetWaited (σ × List Bytes))
    (hw : NetAs Good on w v) (req : Bytes) :
    NetEnd Good on (netExchangeX net N x w req) (netExchange (serverNet srv) N x v req) := by
  obtain ⟨g1, g2, g3, g4⟩ := hw
  unfold netExchangeX netExchange
  rw [← g3]
  by_cases hs : w.sock = .connected
  · rw [if_pos hs, if_pos hs]
    obtain ⟨l1, l2, l3⟩ := h.send w.st req g1
    rw [g2] at l2 l3
    generalize net.send w.st req = q at l1 l2 l3
    obtain ⟨t, r⟩ := q
    generalize (serverNet srv).send v.st req = q' at l2 l3
    obtain ⟨t', b⟩ := q'
    dsimp only at l1 l2 l3
    cases r with
    | ok u =>
      have : b = true := l3.1 rfl
      subst this
      exact netRecvX_works h x N 9 [] _ _ ⟨l1, l2, rfl, g4⟩
    | error e =>
      have : b = false := by
        cases b with
        | false => rfl
        | true => have := l3.2 rfl; cases this
      subst this
      exact ⟨⟨l1, l2, rfl, g4⟩, rfl⟩
  · rw [if_neg hs, if_neg hs]
    exact ⟨⟨g1, g2, g3, g4⟩, rfl⟩

theorem netRead1X_works (h : NetWorks net Good srv on) (N : Nat) (w : NetWaited τ) (v : NetWaited (σ × List Bytes))
    (hw : NetAs Good on w v) (sid op addr count : Int) :
    NetEnd Good on (netRead1X net N w sid op addr count) (netRead1 (serverNet srv) N v sid op addr count) := by
  unfold netRead1X netRead1
  generalize packTcpRead sid op addr count = r
  refine andThen_as (x := (w, r)) (y := (v, r)) ⟨hw, rfl⟩ fun w v req hw => ?_
  exact andThen_as (netExchangeX_works h N _ w v hw req) fun w v resp hw => ⟨hw, rfl⟩

theorem netWrite1X_works (h : NetWorks net Good srv on) (N : Nat) (w : NetWaited τ) (v : NetWaited (σ × List Bytes))
    (hw : NetAs Good on w v) (sid addr : Int) (data : Bytes) :
    NetEnd Good on (netWrite1X net N w sid addr data) (netWrite1 (serverNet srv) N v sid addr data) := by
  unfold netWrite1X netWrite1
  generalize packTcpWrite sid addr (data.length / 2 : Nat) data.length = r
  refine andThen_as (x := (w, r)) (y := (v, r)) ⟨hw, rfl⟩ fun w v req hw => ?_
  refine andThen_as (netExchangeX_works h N _ w v hw _) fun w v resp hw => ?_
  exact andThen_as (x := (w, tcpReply resp)) (y := (v, tcpReply resp)) ⟨hw, rfl⟩ fun w v _ hw => ⟨hw, rfl⟩

theorem netReadFX_works (h : NetWorks net Good srv on) (N : Nat) (sid op : Int) (max : Nat) : ∀ (fuel : Nat) (addr : Int) (count : Nat)
    (resp : Bytes) (w : NetWaited τ) (v : NetWaited (σ × List Bytes)), NetAs Good on w v →
    NetEnd Good on (netReadFX net N sid op max fuel addr count resp w) (netReadF (serverNet srv) N sid op max fuel addr count resp v) := by
  intro fuel
  induction fuel with
  | zero => intro addr count resp w v hw; exact ⟨hw, rfl⟩
  | succ fuel ih =>
    intro addr count resp w v hw
    rw [netReadFX, netReadF]
    by_cases hc : count > 0
    · rw [if_pos hc, if_pos hc]
      dsimp only
      generalize (if count > max then max else count) = rc
      refine andThen_as (netRead1X_works h N w v hw sid op addr rc) fun w v data hw => ?_
      by_cases hd : data.length > 0
      · rw [if_pos hd, if_pos hd]
        exact ih _ _ _ _ _ hw
      · rw [if_neg hd, if_neg hd]
        exact ⟨hw, rfl⟩
    · rw [if_neg hc, if_neg hc]
      exact ⟨hw, rfl⟩

theorem netWriteFX_works (h : NetWorks net Good srv on) (N : Nat) (sid addr : Int) (max : Nat) (data : Bytes) : ∀ (fuel : Nat)
    (written : Nat) (se : Option (Nat × Nat)) (w : NetWaited τ) (v : NetWaited (σ × List Bytes)), NetAs Good on w v →
    NetEnd Good on (netWriteFX net N sid addr max data fuel written se w) (netWriteF (serverNet srv) N sid addr max data fuel written se v) := by
  intro fuel
  induction fuel with
  | zero => intro written se w v hw; exact ⟨hw, rfl⟩
  | succ fuel ih =>
    intro written se w v hw
    rw [netWriteFX, netWriteF]
    by_cases hc : data.length - written > 0
    · rw [if_pos hc, if_pos hc]
      dsimp only
      generalize (if data.length - written > 2 * max then 2 * max else data.length - written) = n
      generalize (if data.length - written > 2 * max then se else some (written, written + n)) = se'
      cases se' with
      | none => exact ⟨hw, rfl⟩
      | some x =>
        obtain ⟨a, b⟩ := x
        exact andThen_as (netWrite1X_works h N w v hw sid _ _) fun w v _ hw => ih _ _ _ _ hw
    · rw [if_neg hc, if_neg hc]
      exact ⟨hw, rfl⟩

theorem netWithX_works {α} (h : NetWorks net Good srv on) (w : NetWaited τ) (v : NetWaited (σ × List Bytes)) (hw : NetAs Good on w v)
    {f : NetWaited τ → NetWaited τ × Py α} {g : NetWaited (σ × List Bytes) → NetWaited (σ × List Bytes) × Py α}
    (hfg : ∀ w v, NetAs Good on w v → NetEnd Good on (f w) (g v)) :
    NetEnd Good on (netWithX net w f) (netWith (serverNet srv) v g) := by
  unfold netWithX netWith
  rw [← hw.2.2.1]
  by_cases hs : w.sock = .absent
  · rw [if_pos hs, if_pos hs]
    refine andThen_as (netConnectX_works h w v hw) fun w v _ hw => ?_
    obtain ⟨h1, h2⟩ := hfg w v hw
    exact ⟨netDisconnectX_works h _ _ h1, h2⟩
  · rw [if_neg hs, if_neg hs]
    exact hfg w v hw

end

end Verif
