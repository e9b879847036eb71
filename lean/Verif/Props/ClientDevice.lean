import Verif.Props.Wrapper
import Verif.Spec.ClientDevice
import Verif.Props.Registry

/-!
# C64: creating client devices
-/

namespace Verif
open Spec

/-- A failed attempt to open a port changes nothing. -/
theorem rtuClientFor_failed {s s' : Ports} {name : String} {baud : Option Int} {parity : Option String} {ok : Bool} {e : Exc}
    (h : rtuClientFor s name baud parity ok = (s', .error e)) : s' = s := by
  unfold rtuClientFor at h
  cases hr : dictGet s.registry name with
  | some c =>
    rw [hr] at h
    dsimp only at h
    cases hc : s.clients[c]? with
    | none => rw [hc] at h; cases h; rfl
    | some cl =>
      rw [hc] at h
      dsimp only at h
      split at h
      · cases h; rfl
      · split at h
        · cases h; rfl
        · cases h
  | none =>
    rw [hr] at h
    dsimp only at h
    split at h
    · cases h
    · cases h; rfl

/-- ... and is a `ModbusClientError` if the registry is consistent. -/
theorem rtuClientFor_error {s s' : Ports} {name : String} {baud : Option Int} {parity : Option String} {ok : Bool} {e : Exc}
    (hs : ∀ c, dictGet s.registry name = some c → c < s.clients.length)
    (h : rtuClientFor s name baud parity ok = (s', .error e)) : e = .modbusClientError := by
  unfold rtuClientFor at h
  cases hr : dictGet s.registry name with
  | some c =>
    rw [hr] at h
    dsimp only at h
    rw [List.getElem?_eq_getElem (hs c hr)] at h
    dsimp only at h
    split at h
    · cases h; rfl
    · split at h
      · cases h; rfl
      · cases h
  | none =>
    rw [hr] at h
    dsimp only at h
    split at h
    · cases h
    · cases h; rfl

theorem rtuOpen_failed {s s' : Ports} {slave : Int} {name : String} {baud : Option Int} {parity : Option String} {ok : Bool} {e : Exc}
    (hs : ∀ c, dictGet s.registry name = some c → c < s.clients.length)
    (h : rtuOpen s slave name baud parity ok = (s', .error e)) : s' = s ∧ e = .modbusClientError := by
  unfold rtuOpen at h
  rcases hc : rtuClientFor s name baud parity ok with ⟨s1, r⟩
  rw [hc] at h
  cases r with
  | error e' =>
    dsimp only at h
    cases h
    exact ⟨rtuClientFor_failed hc, rtuClientFor_error hs hc⟩
  | ok c => cases h

/-- Registered clients exist in every state that can be reached. -/
theorem portRun_registered (ops : List PortOp) (s : Ports) (hs : ∀ n c, dictGet s.registry n = some c → c < s.clients.length) :
    ∀ n c, dictGet (portRun s ops).registry n = some c → c < (portRun s ops).clients.length := by
  induction ops generalizing s with
  | nil => exact hs
  | cons o os ih =>
    apply ih
    cases o with
    | opn slave name baud parity ok =>
      show ∀ n c, dictGet (rtuOpen s slave name baud parity ok).1.registry n = some c → c < (rtuOpen s slave name baud parity ok).1.clients.length
      unfold rtuOpen
      have hc : ∀ n c, dictGet (rtuClientFor s name baud parity ok).1.registry n = some c →
          c < (rtuClientFor s name baud parity ok).1.clients.length := by
        unfold rtuClientFor
        cases hr : dictGet s.registry name with
        | some c =>
          dsimp only
          cases s.clients[c]? with
          | none => exact hs
          | some cl =>
            dsimp only
            split
            · exact hs
            · split <;> exact hs
        | none =>
          dsimp only
          split
          · intro n c h
            dsimp only at h ⊢
            rw [dictGet_set] at h
            rw [List.length_append, List.length_singleton]
            split at h
            · cases h; omega
            · have := hs n c h; omega
          · exact hs
      rcases hx : rtuClientFor s name baud parity ok with ⟨s1, r⟩
      rw [hx] at hc
      cases r with
      | error e => exact hc
      | ok c => dsimp only; intro n c h; rw [List.length_modify]; exact hc n c h
    | cls d =>
      show ∀ n c, dictGet (rtuClose s d).registry n = some c → c < (rtuClose s d).clients.length
      unfold rtuClose
      cases s.devs[d]? with
      | none => exact hs
      | some dv =>
        dsimp only
        unfold rtuRemoveDevice
        cases s.clients[dv.client]? with
        | none => exact hs
        | some cl =>
          dsimp only
          split
          · intro n c h
            dsimp only at h ⊢
            rw [dictGet_del] at h
            rw [List.length_set]
            split at h
            · cases h
            · exact hs n c h
          · intro n c h; dsimp only at h ⊢; rw [List.length_set]; exact hs n c h

/-- The serial ports in a program: any history of calls. -/
def Lines.Reached (s : Lines) : Prop := ∃ ops, s.ports = portRun Ports.init ops

theorem Lines.Reached.registered {s : Lines} (h : s.Reached) : ∀ n c, dictGet s.ports.registry n = some c → c < s.ports.clients.length := by
  obtain ⟨ops, h⟩ := h
  rw [h]
  exact portRun_registered ops _ (by simp [Ports.init, dictGet])

/-- The cases of `rtuDeviceNew`. -/
theorem rtuDeviceNew_failed {portOk : String → Bool} {s s' : Lines} {slave : Int} {name : String} {baud : Option Int} {parity : Option String}
    {timeout : Option Rat} {e : Exc} (hs : s.Reached) (h : rtuDeviceNew portOk s slave name baud parity timeout = (s', .error e)) :
    s' = s ∧ e = .modbusClientError := by
  unfold rtuDeviceNew at h
  rcases ho : rtuOpen s.ports slave name baud parity (portOk name) with ⟨p, r⟩
  rw [ho] at h
  cases r with
  | error e' =>
    dsimp only at h
    obtain ⟨h1, h2⟩ := rtuOpen_failed (hs.registered name) ho
    cases h
    exact ⟨by rw [h1], h2⟩
  | ok d =>
    dsimp only at h
    cases hd : p.devs[d]? with
    | none => rw [hd] at h; cases h
    | some dv => rw [hd] at h; cases h

theorem rtuDeviceNew_ok {portOk : String → Bool} {s s' : Lines} {slave : Int} {name : String} {baud : Option Int} {parity : Option String}
    {timeout : Option Rat} {d : Nat} (h : rtuDeviceNew portOk s slave name baud parity timeout = (s', .ok d)) :
    rtuOpen s.ports slave name baud parity (portOk name) = (s'.ports, .ok d) := by
  unfold rtuDeviceNew at h
  rcases ho : rtuOpen s.ports slave name baud parity (portOk name) with ⟨p, r⟩
  rw [ho] at h
  cases r with
  | error e' => cases h
  | ok d' =>
    dsimp only at h
    cases hd : p.devs[d']? with
    | none => rw [hd] at h; cases h; rfl
    | some dv => rw [hd] at h; cases h; rfl

/-- C64, full statement: creating a device gives the device asked for, or raises `SunSpecClientError` and leaves the serial ports as they are. -/
def C64_full : Prop :=
  ∀ (Map : Type) (loadMap : String → Py Map) (portOk : String → Bool) (s : Lines), s.Reached → ∀ (a : DevArgs) (s' : Lines),
    (∀ o, clientDeviceNew loadMap portOk s a = (s', .ok o) → Asked loadMap a s'.ports o) ∧
    (∀ e, clientDeviceNew loadMap portOk s a = (s', .error e) → e = .sunSpecClientError ∧ s' = s)

/-- C64 for the documented device types and readable map files. -/
theorem C64_created_partial {Map} (loadMap : String → Py Map) (portOk : String → Bool) (s : Lines) (hs : s.Reached) (a : DevArgs)
    (ht : a.type = "RTU" ∨ a.type = "TCP" ∨ a.type = "Mapped")
    (hm : a.type = "Mapped" → ∀ n, a.name = some n → ∃ m, loadMap n = .ok m) (s' : Lines) :
    (∀ o, clientDeviceNew loadMap portOk s a = (s', .ok o) → Asked loadMap a s'.ports o) ∧
    (∀ e, clientDeviceNew loadMap portOk s a = (s', .error e) → e = .sunSpecClientError ∧ s' = s) := by
  unfold clientDeviceNew
  rcases ht with ht | ht | ht
  · rw [if_pos ht]
    rcases hr : rtuDeviceNew portOk s a.slave (a.name.getD "") a.baud a.parity a.timeout with ⟨s1, r⟩
    cases r with
    | error e =>
      obtain ⟨h1, h2⟩ := rtuDeviceNew_failed hs hr
      subst h1 h2
      refine ⟨?_, ?_⟩
      · intro o h; cases h
      · intro e h; cases h; exact ⟨rfl, rfl⟩
    | ok d =>
      refine ⟨?_, ?_⟩
      · intro o h
        cases h
        obtain ⟨dv, cl, h1, h2, h3, h4, h5, h6, h7, -⟩ := C22_parameters _ _ _ _ _ _ _ _ (rtuDeviceNew_ok hr)
        exact ⟨ht, dv, cl, h1, h2, h3, h4, h5, h6, h7⟩
      · intro e h; cases h
  · rw [if_neg (by rw [ht]; decide), if_pos ht]
    refine ⟨?_, ?_⟩
    · intro o h
      cases h
      refine ⟨ht, rfl, rfl, ?_, ?_, ?_, ?_⟩
      · intro x hx; rw [hx]; rfl
      · intro hx; rw [hx]; rfl
      · intro x hx; rw [hx]; rfl
      · intro hx; rw [hx]; rfl
    · intro e h; cases h
  · rw [if_neg (by rw [ht]; decide), if_neg (by rw [ht]; decide), if_pos ht]
    cases hn : a.name with
    | none =>
      refine ⟨?_, ?_⟩
      · intro o h; cases h
      · intro e h; cases h; exact ⟨rfl, rfl⟩
    | some n =>
      obtain ⟨m, hm⟩ := hm ht n hn
      dsimp only
      rw [hm]
      refine ⟨?_, ?_⟩
      · intro o h; cases h; exact ⟨ht, rfl, n, hn, hm⟩
      · intro e h; cases h

/-- C64: an RTU device can be created exactly if its port is in use with the line parameters asked for, or can be opened. -/
theorem C64_rtu_possible {Map} (loadMap : String → Py Map) (portOk : String → Bool) (s : Lines) (hs : s.Reached) (a : DevArgs) (ht : a.type = "RTU") :
    (∃ o, (clientDeviceNew loadMap portOk s a).2 = .ok o) ↔
      (∃ (c : Nat) (cl : RtuClient), dictGet s.ports.registry (a.name.getD "") = some c ∧ s.ports.clients[c]? = some cl ∧
        (∀ b, a.baud = some b → b = cl.baud) ∧ (∀ q, a.parity = some q → q = cl.parity)) ∨
      (dictGet s.ports.registry (a.name.getD "") = none ∧ portOk (a.name.getD "") = true) := by
  have hiff : (∃ o, (clientDeviceNew loadMap portOk s a).2 = .ok o) ↔
      ∃ c, (rtuClientFor s.ports (a.name.getD "") a.baud a.parity (portOk (a.name.getD ""))).2 = .ok c := by
    unfold clientDeviceNew rtuDeviceNew rtuOpen
    rw [if_pos ht]
    rcases rtuClientFor s.ports (a.name.getD "") a.baud a.parity (portOk (a.name.getD "")) with ⟨s1, r⟩
    cases r with
    | error e => exact ⟨fun ⟨_, h⟩ => (nomatch h), fun ⟨_, h⟩ => (nomatch h)⟩
    | ok c =>
      refine ⟨fun _ => ⟨c, rfl⟩, fun _ => ?_⟩
      dsimp only
      rw [List.getElem?_append_right (Nat.le_refl _), Nat.sub_self]
      exact ⟨_, rfl⟩
  rw [hiff]
  unfold rtuClientFor
  cases hr : dictGet s.ports.registry (a.name.getD "") with
  | none =>
    dsimp only
    by_cases hp : portOk (a.name.getD "") = true
    · rw [if_pos hp]; exact ⟨fun _ => .inr ⟨rfl, hp⟩, fun _ => ⟨_, rfl⟩⟩
    · rw [if_neg hp]
      refine ⟨fun ⟨_, h⟩ => (nomatch h), ?_⟩
      rintro (⟨c, cl, h, -⟩ | ⟨-, h⟩)
      · cases h
      · exact absurd h hp
  | some c =>
    have hlt := hs.registered _ _ hr
    dsimp only
    rw [List.getElem?_eq_getElem hlt]
    dsimp only
    by_cases hb : a.baud ≠ none ∧ a.baud ≠ some s.ports.clients[c].baud
    · rw [if_pos hb]
      refine ⟨fun ⟨_, h⟩ => (nomatch h), ?_⟩
      rintro (⟨c', cl, h, h1, h2, -⟩ | ⟨h, -⟩)
      · cases h
        rw [List.getElem?_eq_getElem hlt] at h1
        cases h1
        cases hab : a.baud with
        | none => exact absurd hab hb.1
        | some b => exact absurd (by rw [hab, h2 b hab]) hb.2
      · cases h
    · rw [if_neg hb]
      by_cases hq : a.parity ≠ none ∧ a.parity ≠ some s.ports.clients[c].parity
      · rw [if_pos hq]
        refine ⟨fun ⟨_, h⟩ => (nomatch h), ?_⟩
        rintro (⟨c', cl, h, h1, -, h2⟩ | ⟨h, -⟩)
        · cases h
          rw [List.getElem?_eq_getElem hlt] at h1
          cases h1
          cases hab : a.parity with
          | none => exact absurd hab hq.1
          | some b => exact absurd (by rw [hab, h2 b hab]) hq.2
        · cases h
      · rw [if_neg hq]
        refine ⟨fun _ => .inl ⟨c, _, rfl, List.getElem?_eq_getElem hlt, ?_, ?_⟩, fun _ => ⟨_, rfl⟩⟩
        · intro b hab
          apply Classical.byContradiction
          intro hne
          exact hb ⟨by rw [hab]; simp, by rw [hab]; simpa using hne⟩
        · intro b hab
          apply Classical.byContradiction
          intro hne
          exact hq ⟨by rw [hab]; simp, by rw [hab]; simpa using hne⟩

/-- C64: creating a TCP device never fails (the connection is made later), a mapped one exactly if there is no file. -/
theorem C64_others_possible {Map} (loadMap : String → Py Map) (portOk : String → Bool) (s : Lines) (a : DevArgs) :
    (a.type = "TCP" → ∃ o, clientDeviceNew loadMap portOk s a = (s, .ok o)) ∧
    (a.type = "Mapped" → ((∃ o, (clientDeviceNew loadMap portOk s a).2 = .ok o) ↔ ∃ n m, a.name = some n ∧ loadMap n = .ok m)) := by
  constructor
  · intro ht
    unfold clientDeviceNew
    rw [if_neg (by rw [ht]; decide), if_pos ht]
    exact ⟨_, rfl⟩
  · intro ht
    unfold clientDeviceNew
    rw [if_neg (by rw [ht]; decide), if_neg (by rw [ht]; decide), if_pos ht]
    cases hn : a.name with
    | none => exact ⟨fun ⟨_, h⟩ => (nomatch h), fun ⟨_, _, h, _⟩ => (nomatch h)⟩
    | some n =>
      dsimp only
      cases hm : loadMap n with
      | ok m => exact ⟨fun _ => ⟨n, m, rfl, hm⟩, fun _ => ⟨_, rfl⟩⟩
      | error e =>
        refine ⟨fun ⟨_, h⟩ => (nomatch h), ?_⟩
        rintro ⟨n', m, h, h2⟩
        cases h
        rw [hm] at h2
        cases h2

/-- C64 is violated: the errors of the map file are not translated. -/
theorem C64_map_error {Map} (loadMap : String → Py Map) (portOk : String → Bool) (s : Lines) (a : DevArgs) (ht : a.type = "Mapped") (n : String)
    (hn : a.name = some n) (e : Exc) (he : loadMap n = .error e) (hc : e.isModbusClient = false) :
    clientDeviceNew loadMap portOk s a = (s, .error e) := by
  unfold clientDeviceNew
  rw [if_neg (by rw [ht]; decide), if_neg (by rw [ht]; decide), if_pos ht, hn]
  dsimp only
  rw [he]
  simp only [devError, hc]
  rfl

/-- C64 is violated: an unknown device type is accepted, and the device fails when it is used. -/
theorem C64_unknown_type {Map} (loadMap : String → Py Map) (portOk : String → Bool) (s : Lines) (a : DevArgs)
    (h1 : a.type ≠ "RTU") (h2 : a.type ≠ "TCP") (h3 : a.type ≠ "Mapped") :
    clientDeviceNew loadMap portOk s a = (s, .ok none) ∧
    (∀ {σ} (dev : MbObj Map → MbDev σ) (st : σ) (addr count : Int), clientDeviceRead dev none st addr count = (st, .error .sunSpecClientError)) ∧
    (∀ {σ} (dev : MbObj Map → MbDev σ) (st : σ) (addr : Int) (d : Bytes), clientDeviceWrite dev none st addr d = (st, .error .sunSpecClientError)) := by
  refine ⟨?_, fun _ _ _ _ => rfl, fun _ _ _ _ => rfl⟩
  unfold clientDeviceNew
  rw [if_neg h1, if_neg h2, if_neg h3]

theorem C64_violated : ¬ C64_full := by
  intro h
  have h1 := (h Unit (fun _ => .error .modbusMapError) (fun _ => true) ⟨Ports.init, []⟩ ⟨[], rfl⟩ { type := "Mapped", name := some "map.xml" } ⟨Ports.init, []⟩).2
    .modbusMapError (C64_map_error _ _ _ _ rfl "map.xml" rfl _ rfl rfl)
  cases h1.1

/-- C64: a successful creation uses the port `name`, new or already open. -/
theorem rtuDeviceNew_timeout {portOk : String → Bool} {s s' : Lines} {slave : Int} {name : String} {baud : Option Int} {parity : Option String}
    {timeout : Option Rat} {d : Nat} (hs : s.Reached) (h : rtuDeviceNew portOk s slave name baud parity timeout = (s', .ok d)) :
    ∃ dv : RtuDev, s'.ports.devs[d]? = some dv ∧ (∀ c, dictGet s.ports.registry name = some c → dv.client = c) ∧
      (∀ x, timeout = some x → dictGet s'.timeouts dv.client = some x) ∧
      (timeout = none → dictGet s.ports.registry name = none → dictGet s'.timeouts dv.client = some (1 / 2)) ∧
      (timeout = none → dictGet s.ports.registry name ≠ none → dictGet s'.timeouts dv.client = dictGet s.timeouts dv.client) ∧
      (∀ c, c ≠ dv.client → dictGet s'.timeouts c = dictGet s.timeouts c) := by
  unfold rtuDeviceNew at h
  rcases ho : rtuOpen s.ports slave name baud parity (portOk name) with ⟨p, r⟩
  rw [ho] at h
  cases r with
  | error e' => cases h
  | ok d' =>
    have hcl : ∃ dv : RtuDev, p.devs[d']? = some dv ∧ (∀ c, dictGet s.ports.registry name = some c → dv.client = c) ∧
        (dictGet s.ports.registry name = none → dv.client = s.ports.clients.length) := by
      unfold rtuOpen at ho
      rcases hc : rtuClientFor s.ports name baud parity (portOk name) with ⟨s1, r⟩
      rw [hc] at ho
      cases r with
      | error e => cases ho
      | ok c =>
        cases ho
        refine ⟨⟨slave, name, c, true⟩, ?_, ?_, ?_⟩
        · dsimp only
          rw [List.getElem?_append_right (Nat.le_refl _), Nat.sub_self]
          rfl
        · intro c' hr
          unfold rtuClientFor at hc
          rw [hr] at hc
          dsimp only at hc
          rw [List.getElem?_eq_getElem (hs.registered _ _ hr)] at hc
          dsimp only at hc
          split at hc
          · cases hc
          · split at hc <;> cases hc; rfl
        · intro hr
          unfold rtuClientFor at hc
          rw [hr] at hc
          dsimp only at hc
          split at hc <;> cases hc
          rfl
    obtain ⟨dv, h1, h2, h3⟩ := hcl
    dsimp only at h
    rw [h1] at h
    cases h
    refine ⟨dv, h1, h2, ?_, ?_, ?_, ?_⟩
    · intro x hx
      subst hx
      dsimp only
      rw [dictGet_set, if_pos rfl]
    · intro hx hr
      subst hx
      dsimp only
      rw [if_pos (h3 hr), dictGet_set, if_pos rfl]
    · intro hx hr
      subst hx
      dsimp only
      obtain ⟨c, hc⟩ := Option.ne_none_iff_exists'.1 hr
      rw [if_neg]
      have := hs.registered _ _ hc
      rw [h2 c hc]
      omega
    · intro c hc
      have hd : ∀ x : Rat, dictGet (dictSet s.timeouts dv.client x) c = dictGet s.timeouts c := by
        intro x; rw [dictGet_set, if_neg hc]
      cases timeout with
      | none =>
        dsimp only
        split
        · exact hd _
        · rfl
      | some x =>
        dsimp only
        rw [dictGet_set, if_neg hc]
        split
        · exact hd _
        · rfl

/-- C64: the timeout asked for is set on the port of the device when it is created (0.5 s if it is new and none is asked for). -/
theorem C64_timeout {Map} (loadMap : String → Py Map) (portOk : String → Bool) (s s' : Lines) (hs : s.Reached) (a : DevArgs) (d : Nat)
    (h : clientDeviceNew loadMap portOk s a = (s', .ok (some (.rtu d)))) :
    (∀ x, a.timeout = some x → timeoutOf s' d = some x) ∧
    (a.timeout = none → dictGet s.ports.registry (a.name.getD "") = none → timeoutOf s' d = some (1 / 2)) := by
  unfold clientDeviceNew at h
  split at h
  · rcases hr : rtuDeviceNew portOk s a.slave (a.name.getD "") a.baud a.parity a.timeout with ⟨s1, r⟩
    rw [hr] at h
    cases r with
    | error e => cases h
    | ok d' =>
      cases h
      obtain ⟨dv, h1, h2, h3, h4, -⟩ := rtuDeviceNew_timeout hs hr
      unfold timeoutOf
      rw [h1]
      exact ⟨h3, h4⟩
  · split at h
    · cases h
    · split at h
      · split at h
        · split at h
          · cases h
          · cases h
        · cases h
      · cases h

/-- C64: but it is that of the port, not of the device: creating another device on the port with a timeout changes the timeout of all
devices on it. -/
theorem C64_timeout_shared {Map} (loadMap : String → Py Map) (portOk : String → Bool) (s s' : Lines) (hs : s.Reached) (a : DevArgs) (d d2 : Nat)
    (dv : RtuDev) (hd : s.ports.devs[d]? = some dv) (hreg : dictGet s.ports.registry dv.name = some dv.client)
    (hn : a.name.getD "" = dv.name) (x : Rat) (hx : a.timeout = some x)
    (h : clientDeviceNew loadMap portOk s a = (s', .ok (some (.rtu d2)))) : timeoutOf s' d = some x := by
  unfold clientDeviceNew at h
  split at h
  · rcases hr : rtuDeviceNew portOk s a.slave (a.name.getD "") a.baud a.parity a.timeout with ⟨s1, r⟩
    rw [hr] at h
    cases r with
    | error e => cases h
    | ok d' =>
      cases h
      obtain ⟨dv2, h1, h2, h3, -⟩ := rtuDeviceNew_timeout hs hr
      have ho := rtuDeviceNew_ok hr
      have hk : s'.ports.devs[d]? = some dv := by
        have hl := lt_of_get hd
        unfold rtuOpen at ho
        have hsame : ∀ n b p k, (rtuClientFor s.ports n b p k).1.devs = s.ports.devs := by
          intro n b p k
          unfold rtuClientFor
          cases dictGet s.ports.registry n with
          | some c =>
            dsimp only
            cases s.ports.clients[c]? with
            | none => rfl
            | some cl => dsimp only; split; rfl; split <;> rfl
          | none => dsimp only; split <;> rfl
        have := hsame (a.name.getD "") a.baud a.parity (portOk (a.name.getD ""))
        rcases hc : rtuClientFor s.ports (a.name.getD "") a.baud a.parity (portOk (a.name.getD "")) with ⟨s2, r⟩
        rw [hc] at ho this
        dsimp only at this
        cases r with
        | error e => cases ho
        | ok c =>
          rw [← (Prod.mk.inj ho).1]
          dsimp only
          rw [this, List.getElem?_append_left hl, hd]
      unfold timeoutOf
      rw [hk]
      dsimp only
      rw [← h2 dv.client (by rw [hn]; exact hreg)]
      exact h3 x hx
  · split at h
    · cases h
    · split at h
      · split at h
        · split at h
          · cases h
          · cases h
        · cases h
      · cases h

/-- The devices of the program: `PortOpen` after a legal history. -/
theorem portOpen_iff (ops : List PortOp) (hl : LegalRun Ports.init ops) (name : String) :
    PortOpen (portRun Ports.init ops) name ↔ ∃ dv ∈ (portRun Ports.init ops).devs, dv.live = true ∧ dv.name = name :=
  (C22_sharing_partial ops hl).2.2.1 name

theorem legalRun_append {s : Ports} {ops ops' : List PortOp} (h1 : LegalRun s ops) (h2 : LegalRun (portRun s ops) ops') : LegalRun s (ops ++ ops') := by
  induction ops generalizing s with
  | nil => exact h2
  | cons o os ih => exact ⟨h1.1, ih h1.2 h2⟩

/-- C64: closing the device gives back its serial port: the open ports are the same as before it was created. -/
theorem C64_released {Map} (loadMap : String → Py Map) (portOk : String → Bool) (s s' : Lines) (ops : List PortOp) (hl : LegalRun Ports.init ops)
    (hs : s.ports = portRun Ports.init ops) (a : DevArgs)
    (hfree : a.type = "RTU" → ∀ dv ∈ s.ports.devs, dv.live = true → ¬ (dv.name = a.name.getD "" ∧ dv.slave = a.slave))
    (o : Option (MbObj Map)) (h : clientDeviceNew loadMap portOk s a = (s', .ok o)) (name : String) :
    PortOpen (clientDeviceClose s' o).ports name ↔ PortOpen s.ports name := by
  unfold clientDeviceNew at h
  split at h
  · rename_i ht
    rcases hr : rtuDeviceNew portOk s a.slave (a.name.getD "") a.baud a.parity a.timeout with ⟨s1, r⟩
    rw [hr] at h
    cases r with
    | error e => cases h
    | ok d =>
      cases h
      have ho := rtuDeviceNew_ok hr
      have e1 : portRun Ports.init (ops ++ [.opn a.slave (a.name.getD "") a.baud a.parity (portOk (a.name.getD "")), .cls d]) =
          (clientDeviceClose s' (some (.rtu d) : Option (MbObj Map))).ports := by
        unfold portRun
        rw [List.foldl_append]
        have hs' : List.foldl portStep Ports.init ops = s.ports := hs.symm
        rw [hs']
        show rtuClose (rtuOpen s.ports a.slave (a.name.getD "") a.baud a.parity (portOk (a.name.getD ""))).1 d = _
        rw [ho]
        rfl
      obtain ⟨dv, cl, k1, k2, k3, k4, -⟩ := C22_parameters _ _ _ _ _ _ _ _ ho
      have e2 : portStep s.ports (.opn a.slave (a.name.getD "") a.baud a.parity (portOk (a.name.getD ""))) = s'.ports := by
        show (rtuOpen s.ports a.slave (a.name.getD "") a.baud a.parity (portOk (a.name.getD ""))).1 = _
        rw [ho]
      have hl2 : LegalRun Ports.init (ops ++ [.opn a.slave (a.name.getD "") a.baud a.parity (portOk (a.name.getD "")), .cls d]) := by
        apply legalRun_append hl
        rw [← hs]
        refine ⟨hfree ht, ?_, trivial⟩
        rw [e2]
        exact ⟨dv, k1, k4⟩
      rw [← e1, portOpen_iff _ hl2, hs, portOpen_iff _ hl, e1]
      -- the live devices are the same
      have hdevs : ∃ dv' : RtuDev, d = s.ports.devs.length ∧ dv'.live = false ∧
          (clientDeviceClose s' (some (.rtu d) : Option (MbObj Map))).ports.devs = s.ports.devs ++ [dv'] := by
        have hopen : s'.ports.devs = s.ports.devs ++ [dv] ∧ d = s.ports.devs.length := by
          unfold rtuOpen at ho
          have hsame : (rtuClientFor s.ports (a.name.getD "") a.baud a.parity (portOk (a.name.getD ""))).1.devs = s.ports.devs := by
            unfold rtuClientFor
            cases dictGet s.ports.registry (a.name.getD "") with
            | some c =>
              dsimp only
              cases s.ports.clients[c]? with
              | none => rfl
              | some cl => dsimp only; split; rfl; split <;> rfl
            | none => dsimp only; split <;> rfl
          rcases hc : rtuClientFor s.ports (a.name.getD "") a.baud a.parity (portOk (a.name.getD "")) with ⟨s2, r⟩
          rw [hc] at ho hsame
          dsimp only at hsame
          cases r with
          | error e => cases ho
          | ok c =>
            have q1 := (Prod.mk.inj ho).1
            have q2 := Except.ok.inj (Prod.mk.inj ho).2
            rw [hsame] at q2
            refine ⟨?_, q2.symm⟩
            rw [← q1, ← q2] at k1
            dsimp only at k1
            rw [hsame, List.getElem?_append_right (Nat.le_refl _), Nat.sub_self] at k1
            cases k1
            rw [← q1, ← hsame]
        obtain ⟨g1, g2⟩ := hopen
        refine ⟨{ dv with live := false }, g2, rfl, ?_⟩
        show (rtuClose s'.ports d).devs = _
        unfold rtuClose
        rw [k1]
        dsimp only
        have hrem : (rtuRemoveDevice s'.ports dv.client dv.slave).devs = s'.ports.devs := by
          unfold rtuRemoveDevice
          cases s'.ports.clients[dv.client]? with
          | none => rfl
          | some cl => dsimp only; split <;> rfl
        rw [hrem, g1, g2, List.set_append_right _ _ (Nat.le_refl _), Nat.sub_self]
        rfl
      obtain ⟨dv', -, g2, g3⟩ := hdevs
      rw [g3, ← hs]
      constructor
      · rintro ⟨x, hx, hx2, hx3⟩
        rcases List.mem_append.1 hx with hx | hx
        · exact ⟨x, hx, hx2, hx3⟩
        · rw [List.mem_singleton.1 hx, g2] at hx2
          cases hx2
      · rintro ⟨x, hx, hx2, hx3⟩
        exact ⟨x, List.mem_append_left _ hx, hx2, hx3⟩
  · have : s' = s ∧ ∀ d, o ≠ some (.rtu d) := by
      split at h
      · cases h; exact ⟨rfl, fun d hd => by cases hd⟩
      · split at h
        · split at h
          · split at h
            · cases h; exact ⟨rfl, fun d hd => by cases hd⟩
            · cases h
          · cases h
        · cases h; exact ⟨rfl, fun d hd => by cases hd⟩
    obtain ⟨h1, h2⟩ := this
    subst h1
    unfold clientDeviceClose
    split
    · rename_i d; exact absurd rfl (h2 d)
    · exact Iff.rfl

/-- C64: a `SunSpecClientDevice` that cannot be created leaves no serial port open (if scanning or wrapping raises, for whatever reason, unless
a model has taken the place of the attribute `device`, C47). -/
theorem C64_failed_scan {Map α} (loadMap : String → Py Map) (portOk : String → Bool) (s s' : Lines) (ops : List PortOp) (hl : LegalRun Ports.init ops)
    (hs : s.ports = portRun Ports.init ops) (a : DevArgs)
    (hfree : a.type = "RTU" → ∀ dv ∈ s.ports.devs, dv.live = true → ¬ (dv.name = a.name.getD "" ∧ dv.slave = a.slave))
    (body : Option (MbObj Map) → Bool × Py α) (hbody : ∀ o, (body o).1 = true) (e : Exc)
    (h : sunspecDeviceNew loadMap portOk s a body = (s', .error e)) (name : String) : PortOpen s'.ports name ↔ PortOpen s.ports name := by
  unfold sunspecDeviceNew at h
  rcases hc : clientDeviceNew loadMap portOk s a with ⟨s1, r⟩
  rw [hc] at h
  cases r with
  | error e' =>
    cases h
    by_cases ht : a.type = "RTU" ∨ a.type = "TCP"
    · rw [((C64_created_partial loadMap portOk s ⟨ops, hs⟩ a (ht.imp_right .inl)
        (fun hm => by rcases ht with ht | ht <;> rw [ht] at hm <;> exact absurd hm (by decide)) s').2 e hc).2]
    · obtain ⟨t1, t2⟩ := not_or.1 ht
      unfold clientDeviceNew at hc
      rw [if_neg t1, if_neg t2] at hc
      have : s' = s := by
        split at hc
        · split at hc
          · split at hc
            · cases hc
            · cases hc; rfl
          · cases hc; rfl
        · cases hc
      rw [this]
  | ok o =>
    dsimp only at h
    have hb := hbody o
    rcases hbo : body o with ⟨b, r⟩
    rw [hbo] at h hb
    dsimp only at hb
    subst hb
    cases r with
    | ok x => cases h
    | error e' =>
      cases h
      exact C64_released loadMap portOk s s1 ops hl hs a hfree o hc name

/-! ### Non-vacuity -/

def exLines : Lines := ⟨Ports.init, []⟩

/-- Two devices on one port, the second with another timeout, which the first one then has as well. -/
theorem exLines_shared :
    let s1 := clientDeviceNew (Map := Unit) (fun _ => .error .osError) (fun _ => true) exLines { type := "RTU", slave := 1, name := some "com1", timeout := some 1 }
    let s2 := clientDeviceNew (Map := Unit) (fun _ => .error .osError) (fun _ => true) s1.1 { type := "RTU", slave := 2, name := some "com1", timeout := some 5 }
    timeoutOf s1.1 0 = some 1 ∧ timeoutOf s2.1 0 = some 5 := by decide +kernel

/-- A port in use with other parameters. -/
example :
    let s1 := clientDeviceNew (Map := Unit) (fun _ => .error .osError) (fun _ => true) exLines { type := "RTU", slave := 1, name := some "com1", baud := some 19200 }
    ((clientDeviceNew (Map := Unit) (fun _ => .error .osError) (fun _ => true) s1.1 { type := "RTU", slave := 2, name := some "com1", baud := some 9600 }).2.isOk = false) := by
  decide +kernel

example := C64_created_partial (Map := Unit) (fun _ => .ok ()) (fun _ => true) exLines ⟨[], rfl⟩ { type := "Mapped", name := some "map.xml" } (by decide)
  (fun _ _ _ => ⟨(), rfl⟩) exLines

/-- What `SunSpecClientDevice.__init__` does after the scan with the models `ms` (client.py:819-845): whether `self.device` still is the device, and the result. -/
def wrapBody (lib : FloatLib) (ms : List MdlObj) : Bool × Py Unit :=
  (match (wrapDevice lib ms).1.item (t!"device") with
    | some (.one .dev) => true
    | _ => false, (wrapDevice lib ms).2)

/-- C64, the exception: if one of the models is called `device`, and a later one makes the constructor raise, the serial port stays open. -/
theorem C64_device_name :
    let ms := [(mdlLoad (.ok { readType with name := t!"device" }) (mdlNew 900 40002 3)).1, (mdlLoad (.ok (clashType (t!"points") .int16 1)) (mdlNew 901 40007 1)).1]
    let s := sunspecDeviceNew (Map := Unit) (fun _ => .error .osError) (fun _ => true) exLines { type := "RTU", slave := 1, name := some "com1" } (fun _ => wrapBody exactLib ms)
    s.2 = .error .attributeError ∧ PortOpen s.1.ports "com1" ∧ ¬ PortOpen exLines.ports "com1" := by
  have h : ∀ s : Lines, (s.ports.clients[0]?.map fun c => decide (c.name = "com1" ∧ c.isOpen = true)) = some true → PortOpen s.ports "com1" := by
    intro s hs
    rw [Option.map_eq_some_iff] at hs
    obtain ⟨c, h1, h2⟩ := hs
    have h2 := of_decide_eq_true h2
    exact ⟨0, c, h1, h2.1, h2.2⟩
  refine ⟨?_, h _ ?_, ?_⟩
  · have : ∀ r : Py (Option (MbObj Unit) × Unit), (match r with | .error .attributeError => true | _ => false) = true → r = .error .attributeError := by
      intro r hr
      split at hr
      · rfl
      · cases hr
    apply this
    decide +kernel
  · decide +kernel
  · rintro ⟨c, cl, h1, _⟩
    simp [exLines, Ports.init] at h1

end Verif
