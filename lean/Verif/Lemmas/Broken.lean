import Verif.Spec.Broken
import Verif.Lemmas.Wire
import Verif.Lemmas.WireSame
import Verif.Lemmas.Errors

/-!
# A line that may break seen as one that may fall silent

An exception of `serial.read` or `socket.recv` ends a call just as a timeout does. So the client on a port that may raise does the
same as on a port that returns nothing instead, and remembers the exception.
-/

namespace Verif
open Verif.Spec

/-- The port that remembers the exception instead of raising it. -/
def mutePort {τ} (p : PortX τ) : Port (τ × Option Exc) where
  flush s :=
    match p.flush s.1 with
    | (t, .ok _) => (t, none)
    | (t, .error e) => (t, some e)
  write s req :=
    match s.2 with
    | some _ => (s, false)
    | none =>
      match p.write s.1 req with
      | (t, .ok _) => ((t, none), true)
      | (t, .error _) => ((t, none), false)
  read s n :=
    match s.2 with
    | some _ => (s, [])
    | none =>
      match p.read s.1 n with
      | (t, .ok c) => ((t, none), c)
      | (t, .error e) => ((t, some e), [])

/-- The result of a call, given that on the mute port. -/
def back {τ α} (r : Waited (τ × Option Exc) × Py α) : Waited τ × Py α :=
  (⟨r.1.st.1, r.1.waits⟩, match r.1.st.2 with | some e => .error e | none => r.2)

def lift {τ} (w : Waited τ) : Waited (τ × Option Exc) := ⟨(w.st, none), w.waits⟩

/-- `x` is the result of a call, `r` that of the call on the mute port. -/
structure MutePort {τ α} (p : PortX τ) (x : Waited τ × Py α) (r : Waited (τ × Option Exc) × Py α) : Prop where
  eq : x = back r
  clean : ∀ a, r.2 = .ok a → r.1.st.2 = none
  raised : ∀ e, r.1.st.2 = some e → PortRaises p e

theorem MutePort.plain {τ α} (p : PortX τ) (w : Waited τ) (r : Py α) : MutePort p (w, r) (lift w, r) :=
  ⟨rfl, fun _ _ => rfl, fun e h => by cases h⟩

theorem recv_mute {τ} (p : PortX τ) (total : Bytes → Int) : ∀ (fuel : Nat) (remaining : Int) (found : Bool) (resp : Bytes)
    (exc : Option Nat) (w : Waited τ),
    MutePort p (portRecvX p total fuel remaining found resp exc w) (portRecvF (mutePort p) total fuel remaining found resp exc (lift w)) := by
  intro fuel
  induction fuel with
  | zero => intro remaining found resp exc w; exact .plain p w _
  | succ fuel ih =>
    intro remaining found resp exc w
    rw [portRecvX, portRecvF]
    by_cases hr : remaining > 0
    · rw [if_pos hr, if_pos hr]
      have hpr : portRead (mutePort p) (lift w) remaining.toNat =
          match p.read w.st remaining.toNat with
          | (t, .ok c) => (⟨(t, none), w.waits + 1⟩, c)
          | (t, .error e) => (⟨(t, some e), w.waits + 1⟩, []) := by
        unfold portRead mutePort lift
        dsimp only
        generalize p.read w.st remaining.toNat = q
        obtain ⟨t, r⟩ := q
        cases r <;> rfl
      rw [hpr]
      generalize hq : p.read w.st remaining.toNat = q
      obtain ⟨t, r⟩ := q
      cases r with
      | error e =>
        dsimp only
        rw [if_neg (by simp)]
        refine ⟨rfl, fun a h => by simp at h, fun e' h => ?_⟩
        have : e = e' := by simpa using h
        subst this
        exact ⟨w.st, .inr ⟨_, by rw [hq]⟩⟩
      | ok c =>
        dsimp only
        by_cases hc : 0 < c.length
        · rw [if_pos hc, if_pos hc]
          by_cases h1 : found = false ∧ (resp ++ c).length ≥ 5
          · rw [if_pos h1, if_pos h1]
            by_cases h2 : ((resp ++ c).getD 1 0) &&& 0x80 = 0
            · rw [if_pos h2, if_pos h2]
              exact ih _ _ _ _ _
            · rw [if_neg h2, if_neg h2]
              exact ih _ _ _ _ _
          · rw [if_neg h1, if_neg h1]
            exact ih _ _ _ _ _
        · rw [if_neg hc, if_neg hc]
          exact .plain p ⟨t, w.waits + 1⟩ _
    · rw [if_neg hr, if_neg hr]
      exact .plain p w _

theorem exchange_mute {τ} (p : PortX τ) (N : Nat) (total : Bytes → Int) (w : Waited τ) (req : Bytes) :
    MutePort p (portExchangeX p N total w req) (portExchange (mutePort p) N total (lift w) req) := by
  unfold portExchangeX portExchange
  have hw : (mutePort p).write ((mutePort p).flush (lift w).st) req =
      match p.flush w.st with
      | (t, .error e) => ((t, some e), false)
      | (t, .ok _) =>
        match p.write t req with
        | (t, .ok _) => ((t, none), true)
        | (t, .error _) => ((t, none), false) := by
    unfold mutePort lift
    dsimp only
    generalize p.flush w.st = q
    obtain ⟨t, r⟩ := q
    cases r <;> rfl
  rw [hw]
  generalize hq : p.flush w.st = q
  obtain ⟨t, r⟩ := q
  cases r with
  | error e =>
    refine ⟨rfl, fun a h => by simp at h, fun e' h => ?_⟩
    have : e = e' := by simpa using h
    subst this
    exact ⟨w.st, .inl (by rw [hq])⟩
  | ok u =>
    dsimp only
    generalize p.write t req = q
    obtain ⟨t, r⟩ := q
    cases r with
    | error e => exact .plain p ⟨t, w.waits⟩ _
    | ok u => exact recv_mute p total N 5 false [] none ⟨t, w.waits⟩

theorem MutePort.map {τ α β} {p : PortX τ} {x : Waited τ × Py α} {r : Waited (τ × Option Exc) × Py α} (h : MutePort p x r)
    (f : Py α → Py β) (hf : ∀ e, f (.error e) = .error e) : MutePort p (x.1, f x.2) (r.1, f r.2) := by
  refine ⟨?_, fun a ha => ?_, h.raised⟩
  · rw [h.eq]
    unfold back
    cases r.1.st.2 with
    | none => rfl
    | some e => simp [hf]
  · cases hr : r.2 with
    | ok b => exact h.clean b hr
    | error e => rw [hr, hf] at ha; simp at ha

theorem read1_mute {τ} (p : PortX τ) (N : Nat) (w : Waited τ) (sid op addr count : Int) :
    MutePort p (portRead1X p N w sid op addr count) (portRead1 (mutePort p) N (lift w) sid op addr count) := by
  unfold portRead1X portRead1
  generalize packBBHH sid op addr count = r
  cases r with
  | error e => exact .plain p w _
  | ok body => exact (exchange_mute p N readTotal w _).map rtuReadReply fun _ => rfl

theorem write1_mute {τ} (p : PortX τ) (N : Nat) (w : Waited τ) (sid addr : Int) (data : Bytes) :
    MutePort p (portWrite1X p N w sid addr data) (portWrite1 (mutePort p) N (lift w) sid addr data) := by
  unfold portWrite1X portWrite1
  generalize packBBHHB sid 16 addr (data.length / 2 : Nat) data.length = r
  cases r with
  | error e => exact .plain p w _
  | ok body => exact (exchange_mute p N writeTotal w _).map (rtuWriteReply _ _ _) fun _ => rfl

theorem lift_back {τ α} (r : Waited (τ × Option Exc) × Py α) (h : r.1.st.2 = none) : lift (back r).1 = r.1 ∧ (back r).2 = r.2 := by
  obtain ⟨⟨⟨t, o⟩, k⟩, x⟩ := r
  dsimp only at h
  subst h
  exact ⟨rfl, rfl⟩

theorem back_error {τ α} (r : Waited (τ × Option Exc) × Py α) (e : Exc) (h : r.2 = .error e) : ∃ e', (back r).2 = .error e' := by
  unfold back
  cases r.1.st.2 with
  | none => exact ⟨e, h⟩
  | some e' => exact ⟨e', rfl⟩

theorem readF_mute {τ} (p : PortX τ) (N : Nat) (sid op : Int) (max : Nat) : ∀ (fuel : Nat) (addr : Int) (count : Nat) (resp : Bytes) (w : Waited τ),
    MutePort p (portReadFX p N sid op max fuel addr count resp w) (portReadF (mutePort p) N sid op max fuel addr count resp (lift w)) := by
  intro fuel
  induction fuel with
  | zero => intro addr count resp w; exact .plain p w _
  | succ fuel ih =>
    intro addr count resp w
    rw [portReadFX, portReadF]
    by_cases hc : count > 0
    · rw [if_pos hc, if_pos hc]
      dsimp only
      generalize (if count > max then max else count) = rc
      have h := read1_mute p N w sid op addr rc
      generalize portRead1X p N w sid op addr rc = x at h ⊢
      generalize portRead1 (mutePort p) N (lift w) sid op addr rc = r at h ⊢
      obtain ⟨w', r⟩ := r
      cases r with
      | error e =>
        dsimp only
        obtain ⟨e', he⟩ := back_error _ e (show (w', (Except.error e : Py Bytes)).2 = .error e from rfl)
        have hx := h.eq
        refine ⟨?_, fun a h => by simp at h, h.raised⟩
        rw [hx]
        unfold back
        dsimp only
        cases w'.st.2 <;> rfl
      | ok data =>
        have hn := h.clean data rfl
        obtain ⟨h1, h2⟩ := lift_back _ hn
        have hx := h.eq
        obtain ⟨x1, x2⟩ := x
        rw [← hx] at h1 h2
        dsimp only at h1 h2
        subst h1 h2
        dsimp only
        by_cases hd : data.length > 0
        · rw [if_pos hd, if_pos hd]
          exact ih _ _ _ _
        · rw [if_neg hd, if_neg hd]
          exact .plain p x1 _
    · rw [if_neg hc, if_neg hc]
      exact .plain p w _

theorem writeF_mute {τ} (p : PortX τ) (N : Nat) (sid : Int) (max : Nat) : ∀ (fuel : Nat) (addr : Int) (data : Bytes) (w : Waited τ),
    MutePort p (portWriteFX p N sid max fuel addr data w) (portWriteF (mutePort p) N sid max fuel addr data (lift w)) := by
  intro fuel
  induction fuel with
  | zero => intro addr data w; exact .plain p w _
  | succ fuel ih =>
    intro addr data w
    rw [portWriteFX, portWriteF]
    by_cases hc : data.length > 0
    · rw [if_pos hc, if_pos hc]
      dsimp only
      generalize (if data.length > 2 * max then 2 * max else data.length) = n
      have h := write1_mute p N w sid addr (data.take n)
      generalize portWrite1X p N w sid addr (data.take n) = x at h ⊢
      generalize portWrite1 (mutePort p) N (lift w) sid addr (data.take n) = r at h ⊢
      obtain ⟨w', r⟩ := r
      cases r with
      | error e =>
        dsimp only
        have hx := h.eq
        refine ⟨?_, fun a h => by simp at h, h.raised⟩
        rw [hx]
        unfold back
        dsimp only
        cases w'.st.2 <;> rfl
      | ok u =>
        have hn := h.clean u rfl
        obtain ⟨h1, h2⟩ := lift_back _ hn
        have hx := h.eq
        obtain ⟨x1, x2⟩ := x
        rw [← hx] at h1 h2
        dsimp only at h1 h2
        subst h1 h2
        exact ih _ _ _
    · rw [if_neg hc, if_neg hc]
      exact .plain p w _

/-! ## TCP -/

/-- The network that remembers the exception of `recv` instead of raising it. (Connecting and closing are not used below.) -/
def muteNet {τ} (net : NetX τ) : Net (τ × Option Exc) where
  connect s := (s, true)
  close := id
  send s req :=
    match s.2 with
    | some _ => (s, false)
    | none =>
      match net.send s.1 req with
      | (t, .ok _) => ((t, none), true)
      | (t, .error _) => ((t, none), false)
  recv s n :=
    match s.2 with
    | some _ => (s, none)
    | none =>
      match net.recv s.1 n with
      | (t, .ok c) => ((t, none), some c)
      | (t, .error e) => ((t, some e), none)

def backNet {τ α} (r : NetWaited (τ × Option Exc) × Py α) : NetWaited τ × Py α :=
  (⟨r.1.st.1, r.1.sock, r.1.waits⟩, match r.1.st.2 with | some e => .error e | none => r.2)

def liftNet {τ} (w : NetWaited τ) : NetWaited (τ × Option Exc) := ⟨(w.st, none), w.sock, w.waits⟩

/-- `x` is the result of a call, `r` that of the call on the mute network. -/
structure MuteNet {τ α} (net : NetX τ) (x : NetWaited τ × Py α) (r : NetWaited (τ × Option Exc) × Py α) : Prop where
  eq : x = backNet r
  clean : ∀ a, r.2 = .ok a → r.1.st.2 = none
  raised : ∀ e, r.1.st.2 = some e → NetRaises net e

theorem MuteNet.plain {τ α} (net : NetX τ) (w : NetWaited τ) (r : Py α) : MuteNet net (w, r) (liftNet w, r) :=
  ⟨rfl, fun _ _ => rfl, fun e h => by cases h⟩

theorem MuteNet.andThen {τ α β} {net : NetX τ} {x : NetWaited τ × Py α} {r : NetWaited (τ × Option Exc) × Py α} (h : MuteNet net x r)
    {f : NetWaited τ → α → NetWaited τ × Py β} {g : NetWaited (τ × Option Exc) → α → NetWaited (τ × Option Exc) × Py β}
    (hfg : ∀ w a, MuteNet net (f w a) (g (liftNet w) a)) : MuteNet net (andThen x f) (andThen r g) := by
  obtain ⟨w', r⟩ := r
  cases r with
  | error e =>
    refine ⟨?_, fun a h => by simp [Verif.andThen] at h, h.raised⟩
    rw [h.eq]
    obtain ⟨⟨t, o⟩, k, n⟩ := w'
    cases o <;> rfl
  | ok a =>
    have hn := h.clean a rfl
    have hx := h.eq
    obtain ⟨⟨t, o⟩, k, n⟩ := w'
    dsimp only at hn
    subst hn
    rw [hx]
    exact hfg ⟨t, k, n⟩ a

theorem recvN_mute {τ} (net : NetX τ) (x : Exc) : ∀ (fuel : Nat) (remaining : Int) (resp : Bytes) (w : NetWaited τ),
    MuteNet net (netRecvX net x fuel remaining resp w) (netRecvF (muteNet net) x fuel remaining resp (liftNet w)) := by
  intro fuel
  induction fuel with
  | zero => intro remaining resp w; exact .plain net w _
  | succ fuel ih =>
    intro remaining resp w
    rw [netRecvX, netRecvF]
    by_cases hr : remaining > 0
    · rw [if_pos hr, if_pos hr]
      have hpr : (muteNet net).recv (liftNet w).st remaining.toNat =
          match net.recv w.st remaining.toNat with
          | (t, .ok c) => ((t, none), some c)
          | (t, .error e) => ((t, some e), none) := rfl
      rw [hpr]
      generalize hq : net.recv w.st remaining.toNat = q
      obtain ⟨t, r⟩ := q
      cases r with
      | error e =>
        refine ⟨rfl, fun a h => by simp at h, fun e' h => ?_⟩
        have : e = e' := by simpa using h
        subst this
        exact ⟨w.st, _, by rw [hq]⟩
      | ok c =>
        dsimp only
        by_cases hc : c.length = 0
        · rw [if_pos hc, if_pos hc]
          exact .plain net { w with st := t, waits := w.waits + 1 } _
        · rw [if_neg hc, if_neg hc]
          by_cases h1 : (resp ++ c).length ≥ 9
          · rw [if_pos h1, if_pos h1]
            exact ih _ _ { w with st := t, waits := w.waits + 1 }
          · rw [if_neg h1, if_neg h1]
            exact ih _ _ { w with st := t, waits := w.waits + 1 }
    · rw [if_neg hr, if_neg hr]
      exact .plain net w _

theorem exchangeN_mute {τ} (net : NetX τ) (N : Nat) (x : Exc) (w : NetWaited τ) (req : Bytes) :
    MuteNet net (netExchangeX net N x w req) (netExchange (muteNet net) N x (liftNet w) req) := by
  unfold netExchangeX netExchange
  have e : (liftNet w).sock = w.sock := rfl
  rw [e]
  by_cases hs : w.sock = .connected
  · rw [if_pos hs, if_pos hs]
    have hpr : (muteNet net).send (liftNet w).st req =
        match net.send w.st req with
        | (t, .ok _) => ((t, none), true)
        | (t, .error _) => ((t, none), false) := rfl
    rw [hpr]
    generalize net.send w.st req = q
    obtain ⟨t, r⟩ := q
    cases r with
    | error e => exact .plain net { w with st := t } _
    | ok u => exact recvN_mute net x N 9 [] { w with st := t }
  · rw [if_neg hs, if_neg hs]
    exact .plain net w _

theorem readN1_mute {τ} (net : NetX τ) (N : Nat) (w : NetWaited τ) (sid op addr count : Int) :
    MuteNet net (netRead1X net N w sid op addr count) (netRead1 (muteNet net) N (liftNet w) sid op addr count) := by
  unfold netRead1X netRead1
  generalize packTcpRead sid op addr count = r
  refine (MuteNet.plain net w r).andThen fun w req => ?_
  exact (exchangeN_mute net N _ w req).andThen fun w resp => .plain net w _

theorem writeN1_mute {τ} (net : NetX τ) (N : Nat) (w : NetWaited τ) (sid addr : Int) (data : Bytes) :
    MuteNet net (netWrite1X net N w sid addr data) (netWrite1 (muteNet net) N (liftNet w) sid addr data) := by
  unfold netWrite1X netWrite1
  generalize packTcpWrite sid addr (data.length / 2 : Nat) data.length = r
  refine (MuteNet.plain net w r).andThen fun w req => ?_
  refine (exchangeN_mute net N _ w _).andThen fun w resp => ?_
  exact (MuteNet.plain net w (tcpReply resp)).andThen fun w _ => .plain net w _

theorem readNF_mute {τ} (net : NetX τ) (N : Nat) (sid op : Int) (max : Nat) : ∀ (fuel : Nat) (addr : Int) (count : Nat) (resp : Bytes) (w : NetWaited τ),
    MuteNet net (netReadFX net N sid op max fuel addr count resp w) (netReadF (muteNet net) N sid op max fuel addr count resp (liftNet w)) := by
  intro fuel
  induction fuel with
  | zero => intro addr count resp w; exact .plain net w _
  | succ fuel ih =>
    intro addr count resp w
    rw [netReadFX, netReadF]
    by_cases hc : count > 0
    · rw [if_pos hc, if_pos hc]
      dsimp only
      generalize (if count > max then max else count) = rc
      refine (readN1_mute net N w sid op addr rc).andThen fun w data => ?_
      by_cases hd : data.length > 0
      · rw [if_pos hd, if_pos hd]
        exact ih _ _ _ _
      · rw [if_neg hd, if_neg hd]
        exact .plain net w _
    · rw [if_neg hc, if_neg hc]
      exact .plain net w _

theorem writeNF_mute {τ} (net : NetX τ) (N : Nat) (sid addr : Int) (max : Nat) (data : Bytes) : ∀ (fuel : Nat) (written : Nat)
    (se : Option (Nat × Nat)) (w : NetWaited τ),
    MuteNet net (netWriteFX net N sid addr max data fuel written se w) (netWriteF (muteNet net) N sid addr max data fuel written se (liftNet w)) := by
  intro fuel
  induction fuel with
  | zero => intro written se w; exact .plain net w _
  | succ fuel ih =>
    intro written se w
    rw [netWriteFX, netWriteF]
    by_cases hc : data.length - written > 0
    · rw [if_pos hc, if_pos hc]
      dsimp only
      generalize (if data.length - written > 2 * max then 2 * max else data.length - written) = n
      generalize (if data.length - written > 2 * max then se else some (written, written + n)) = se'
      cases se' with
      | none => exact .plain net w _
      | some x =>
        obtain ⟨a, b⟩ := x
        exact (writeN1_mute net N w sid _ _).andThen fun w _ => ih _ _ _
    · rw [if_neg hc, if_neg hc]
      exact .plain net w _

end Verif
