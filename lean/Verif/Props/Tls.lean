import Verif.Spec.Tls
import Verif.Props.Tcp

/-!
# C62, C63: TLS
-/

namespace Verif
open Spec

/-! ## Exchanges -/

theorem andThen_holds {σ α β} (Q : σ → Prop) (r : σ × Py α) (f : σ → α → σ × Py β) (h : Q r.1) (hf : ∀ s a, Q s → Q (f s a).1) :
    Q (andThen r f).1 := by
  obtain ⟨s, x⟩ := r
  cases x with
  | error e => exact h
  | ok a => exact hf s a h

theorem tcpRead1_holds {σ} (srv : TcpServer σ) (Q : Tcp σ → Prop) (h : ∀ x t req, Q t → Q (tcpExchange srv x t req).1)
    (t : Tcp σ) (sid op addr count : Int) (ht : Q t) : Q (tcpRead1 srv t sid op addr count).1 := by
  unfold tcpRead1
  refine andThen_holds Q _ _ ht fun s req hs => ?_
  exact andThen_holds Q _ _ (h _ _ _ hs) fun s resp hs => hs

theorem tcpWrite1_holds {σ} (srv : TcpServer σ) (Q : Tcp σ → Prop) (h : ∀ x t req, Q t → Q (tcpExchange srv x t req).1)
    (t : Tcp σ) (sid addr : Int) (data : Bytes) (ht : Q t) : Q (tcpWrite1 srv t sid addr data).1 := by
  unfold tcpWrite1
  refine andThen_holds Q _ _ ht fun s req hs => ?_
  refine andThen_holds Q _ _ (h _ _ _ hs) fun s resp hs => ?_
  exact andThen_holds Q _ _ hs fun s resp hs => hs

theorem andThen_raised {σ α β} (r : σ × Py α) (f : σ → α → σ × Py β) (e : Exc) (h : r.2 = .error e) : andThen r f = (r.1, .error e) := by
  obtain ⟨s, x⟩ := r
  cases h
  rfl

theorem tcpReadF_holds {σ} (srv : TcpServer σ) (Q : Tcp σ → Prop) (h : ∀ x t req, Q t → Q (tcpExchange srv x t req).1)
    (sid op : Int) (mc : Nat) : ∀ (fuel : Nat) (addr : Int) (count : Nat) (resp : Bytes) (t : Tcp σ), Q t →
      Q (tcpReadF srv sid op mc fuel addr count resp t).1 := by
  intro fuel
  induction fuel with
  | zero => intro _ _ _ t ht; exact ht
  | succ fuel ih =>
    intro addr count resp t ht
    rw [tcpReadF]
    by_cases hc : count > 0
    · rw [if_pos hc]
      refine andThen_holds Q _ _ (tcpRead1_holds srv Q h t sid op addr _ ht) ?_
      intro s a hs
      split
      · exact ih _ _ _ _ hs
      · exact hs
    · rw [if_neg hc]; exact ht

theorem tcpWriteF_holds {σ} (srv : TcpServer σ) (Q : Tcp σ → Prop) (h : ∀ x t req, Q t → Q (tcpExchange srv x t req).1)
    (sid addr : Int) (mc : Nat) (data : Bytes) : ∀ (fuel written : Nat) (se : Option (Nat × Nat)) (t : Tcp σ), Q t →
      Q (tcpWriteF srv sid addr mc data fuel written se t).1 := by
  intro fuel
  induction fuel with
  | zero => intro _ _ t ht; exact ht
  | succ fuel ih =>
    intro written se t ht
    rw [tcpWriteF]
    by_cases hc : data.length - written > 0
    · rw [if_pos hc]
      dsimp only
      generalize (if data.length - written > 2 * mc then se else some _) = se'
      cases se' with
      | none => exact ht
      | some p =>
        obtain ⟨a, b⟩ := p
        refine andThen_holds Q _ _ (tcpWrite1_holds srv Q h t sid _ _ ht) ?_
        intro s _ hs
        exact ih _ _ _ hs
    · rw [if_neg hc]; exact ht

/-! ## C62 -/

/-- Everything sent so far was protected, and so will be what is sent on the present connection. -/
structure Safe {σ Cert} (W : TlsWorld σ Cert) (c : TlsConf) (t : Tcp (TlsSt σ Cert)) : Prop where
  wire : ∀ e ∈ t.dev.wire, Protected W c e
  conn : ∀ p, t.sock = .connected p → ∃ cert, t.dev.chan = some cert ∧ Authenticated W c cert

theorem exchange_safe {σ Cert} (W : TlsWorld σ Cert) (c : TlsConf) (x : Exc) (t : Tcp (TlsSt σ Cert)) (req : Bytes) (h : Safe W c t) :
    Safe W c (tcpExchange (tlsServer W) x t req).1 := by
  unfold tcpExchange
  cases hs : t.sock with
  | absent => exact h
  | unconnected => exact h
  | connected p =>
    obtain ⟨cert, h1, h2⟩ := h.conn p hs
    have hw : ∀ e ∈ t.dev.wire ++ [(t.dev.chan, req)], Protected W c e := by
      intro e he
      rcases List.mem_append.1 he with he | he
      · exact h.wire e he
      · rw [List.mem_singleton.1 he]; exact ⟨cert, h1, h2⟩
    simp only [tlsServer]
    cases (W.react t.dev.dev t.dev.chan req).2 with
    | none => exact ⟨hw, fun p' _ => ⟨cert, h1, h2⟩⟩
    | some chunks => exact ⟨hw, fun p' _ => ⟨cert, h1, h2⟩⟩

theorem disconnect_safe {σ Cert} (W : TlsWorld σ Cert) (c : TlsConf) (t : Tcp (TlsSt σ Cert)) (h : ∀ e ∈ t.dev.wire, Protected W c e) :
    Safe W c (tcpDisconnect t) := by
  unfold tcpDisconnect
  cases hs : t.sock with
  | absent => exact ⟨h, fun p hp => by rw [hs] at hp; cases hp⟩
  | unconnected => exact ⟨h, fun p hp => by cases hp⟩
  | connected p => exact ⟨h, fun p hp => by cases hp⟩

theorem disconnect_dev {σ} (t : Tcp σ) : (tcpDisconnect t).dev = t.dev := by
  unfold tcpDisconnect
  cases t.sock <;> rfl

theorem connect_wire {σ Cert} (W : TlsWorld σ Cert) (c : TlsConf) (t : Tcp (TlsSt σ Cert)) : (tlsConnect W c t).1.dev.wire = t.dev.wire := by
  unfold tlsConnect
  dsimp only
  rw [← disconnect_dev t]
  cases hc : c.tls with
  | false =>
    rw [if_neg (by simp)]
    unfold tcpConnect tlsServer
    dsimp only
    rw [disconnect_dev]
    cases (W.accept (tcpDisconnect t).dev.dev).2 <;> rfl
  | true =>
    rw [if_pos rfl]
    cases tlsContext W c with
    | error e => rfl
    | ok _ =>
      dsimp only
      rcases W.accept (tcpDisconnect t).dev.dev with ⟨d, b⟩
      cases b with
      | false => rfl
      | true =>
        dsimp only
        rcases W.hello d with ⟨d', cert, left⟩
        cases cert with
        | none => rfl
        | some cert => dsimp only; split <;> rfl

theorem ca_eq (c : TlsConf) : c.ca = trustFile c := by
  unfold TlsConf.ca trustFile
  cases h : c.cafile with
  | none => simp
  | some f => cases f <;> simp

/-- A connection that has been established is to an authenticated server. -/
theorem connect_ok {σ Cert} (W : TlsWorld σ Cert) (c : TlsConf) (hc : c.tls = true) (t t' : Tcp (TlsSt σ Cert))
    (h : tlsConnect W c t = (t', .ok ())) :
    (∃ p, t'.sock = .connected p) ∧ ∃ cert, t'.dev.chan = some cert ∧ Authenticated W c cert := by
  unfold tlsConnect at h
  dsimp only at h
  rw [if_pos hc] at h
  cases hx : tlsContext W c with
  | error e => rw [hx] at h; cases h
  | ok _ =>
    rw [hx] at h
    dsimp only at h
    rcases ha : W.accept (tcpDisconnect t).dev.dev with ⟨d, b⟩
    rw [ha] at h
    cases b with
    | false => cases h
    | true =>
      dsimp only at h
      rcases hh : W.hello d with ⟨d', cert, left⟩
      rw [hh] at h
      cases cert with
      | none => cases h
      | some cert =>
        dsimp only at h
        by_cases hv : tlsAccepts W c cert = true
        · rw [if_pos hv] at h
          cases h
          refine ⟨⟨_, rfl⟩, cert, rfl, ?_⟩
          unfold tlsAccepts at hv
          rw [ca_eq] at hv
          rw [Bool.and_eq_true, Bool.or_eq_true] at hv
          refine ⟨hv.1, fun hk => ?_⟩
          rcases hv.2 with h2 | h2
          · rw [hk] at h2; cases h2
          · exact h2
        · rw [if_neg hv] at h; cases h

theorem accepts_iff {σ Cert} (W : TlsWorld σ Cert) (c : TlsConf) (cert : Cert) : tlsAccepts W c cert = true ↔ Authenticated W c cert := by
  unfold tlsAccepts Authenticated
  rw [ca_eq]
  cases c.skip <;> cases W.trusted (trustFile c) cert <;> cases W.forHost c.ipaddr cert <;> simp

theorem filesOK_context {σ Cert} (W : TlsWorld σ Cert) (c : TlsConf) (h : FilesOK W c) : tlsContext W c = .ok () := by
  obtain ⟨h1, f, h2, h3⟩ := h
  unfold tlsContext
  rw [h2, ca_eq]
  cases hca : trustFile c with
  | none => exact h3
  | some g => simp only [h1 g hca]; exact h3

/-- After a call the state is safe, or the call raised an exception and only what was sent so far is. -/
theorem step_safe {σ Cert} (W : TlsWorld σ Cert) (c : TlsConf) (hc : c.tls = true) (sid : Int) (mc : Nat) (t : Tcp (TlsSt σ Cert)) (o : TcpOp)
    (h : Safe W c t ∨ ((∀ e ∈ t.dev.wire, Protected W c e) ∧ (o = .close ∨ o = .connect))) :
    Safe W c (tlsStep W c sid mc t o).1 ∨
      ((∀ e ∈ (tlsStep W c sid mc t o).1.dev.wire, Protected W c e) ∧ ∃ e, (tlsStep W c sid mc t o).2 = .error e) := by
  have hw : ∀ e ∈ t.dev.wire, Protected W c e := by
    rcases h with h | h
    · exact h.wire
    · exact h.1
  have hwith : ∀ {α} (body : Tcp (TlsSt σ Cert) → Tcp (TlsSt σ Cert) × Py α), (∀ t, Safe W c t → Safe W c (body t).1) → Safe W c t →
      Safe W c (tlsWith W c t body).1 ∨ ((∀ e ∈ (tlsWith W c t body).1.dev.wire, Protected W c e) ∧ ∃ e, (tlsWith W c t body).2 = .error e) := by
    intro α body hb hs
    unfold tlsWith
    cases hk : t.sock with
    | absent =>
      dsimp only
      cases hr : tlsConnect W c t with
      | mk t1 r =>
        have hw1 := connect_wire W c t
        rw [hr] at hw1
        cases r with
        | error e => exact .inr ⟨by intro e' he'; exact hw e' (by rw [← hw1]; exact he'), e, rfl⟩
        | ok _ =>
          left
          have h2 := connect_ok W c hc t t1 hr
          have h3 : Safe W c t1 := ⟨fun e he => hw e (by rw [← hw1]; exact he), fun _ _ => h2.2⟩
          exact disconnect_safe W c _ (hb t1 h3).wire
    | unconnected => exact .inl (hb t hs)
    | connected p => exact .inl (hb t hs)
  cases o with
  | connect =>
    unfold tlsStep
    cases hr : tlsConnect W c t with
    | mk t1 r =>
      have hw1 := connect_wire W c t
      rw [hr] at hw1
      cases r with
      | error e => exact .inr ⟨by intro e' he'; exact hw e' (by rw [← hw1]; exact he'), e, rfl⟩
      | ok _ =>
        left
        have h2 := connect_ok W c hc t t1 hr
        exact ⟨fun e he => hw e (by rw [← hw1]; exact he), fun _ _ => h2.2⟩
  | close => exact .inl (disconnect_safe W c t hw)
  | read op addr count =>
    have hs : Safe W c t := by
      rcases h with h | h
      · exact h
      · rcases h.2 with h | h <;> cases h
    exact hwith _ (fun t ht => tcpReadF_holds _ (Safe W c) (exchange_safe W c) sid op mc _ _ _ _ t ht) hs
  | write addr data =>
    have hs : Safe W c t := by
      rcases h with h | h
      · exact h
      · rcases h.2 with h | h <;> cases h
    rcases hwith _ (fun t ht => tcpWriteF_holds _ (Safe W c) (exchange_safe W c) sid addr mc data _ _ _ t ht) hs with h1 | ⟨h1, e, he⟩
    · exact .inl (andThen_holds (Safe W c) _ _ h1 fun _ _ h => h)
    · right
      have he' : tlsStep W c sid mc t (.write addr data) = _ := andThen_raised _ (fun t _ => (t, .ok [])) e he
      exact ⟨by rw [he']; exact h1, e, by rw [he']⟩

/-- C62, full statement: with TLS all requests are sent in sessions with an authenticated server. -/
def C62_full : Prop :=
  ∀ (σ Cert : Type) (W : TlsWorld σ Cert) (c : TlsConf), c.tls = true → ∀ (sid : Int) (mc : Nat) (d : σ) (ops : List TcpOp),
    ∀ e ∈ (tlsRun W c sid mc (newTls Cert d) ops).1.dev.wire, Protected W c e

/-- C62 for programs that close or reconnect the device after an exception. -/
theorem C62_careful_partial {σ Cert} (W : TlsWorld σ Cert) (c : TlsConf) (hc : c.tls = true) (sid : Int) (mc : Nat) (d : σ) (ops : List TcpOp)
    (hcare : Careful ops (tlsRun W c sid mc (newTls Cert d) ops).2) :
    ∀ e ∈ (tlsRun W c sid mc (newTls Cert d) ops).1.dev.wire, Protected W c e := by
  have key : ∀ (ops : List TcpOp) (t : Tcp (TlsSt σ Cert)), Careful ops (tlsRun W c sid mc t ops).2 →
      (Safe W c t ∨ ((∀ e ∈ t.dev.wire, Protected W c e) ∧ (ops = [] ∨ (∃ os', ops = .close :: os') ∨ ∃ os', ops = .connect :: os'))) →
      ∀ e ∈ (tlsRun W c sid mc t ops).1.dev.wire, Protected W c e := by
    intro ops
    induction ops with
    | nil =>
      intro t _ h
      rcases h with h | h
      · exact h.wire
      · exact h.1
    | cons o os ih =>
      intro t hk h
      rw [tlsRun] at hk ⊢
      dsimp only at hk ⊢
      obtain ⟨k1, k2⟩ := hk
      apply ih _ k2
      have h' : Safe W c t ∨ ((∀ e ∈ t.dev.wire, Protected W c e) ∧ (o = .close ∨ o = .connect)) := by
        rcases h with h | ⟨h1, h2⟩
        · exact .inl h
        · right
          refine ⟨h1, ?_⟩
          rcases h2 with h2 | ⟨_, h2⟩ | ⟨_, h2⟩
          · cases h2
          · cases h2; exact .inl rfl
          · cases h2; exact .inr rfl
      rcases step_safe W c hc sid mc t o h' with h1 | ⟨h1, h2⟩
      · exact .inl h1
      · exact .inr ⟨h1, k1 h2⟩
  exact key ops _ hcare (.inl ⟨by intro e he; simp [newTls] at he, by intro p hp; cases hp⟩)

/-- C62 for single calls without a connection. -/
theorem C62_single_partial {σ Cert} (W : TlsWorld σ Cert) (c : TlsConf) (hc : c.tls = true) (sid : Int) (mc : Nat) (d : σ) (o : TcpOp) :
    ∀ e ∈ (tlsStep W c sid mc (newTls Cert d) o).1.dev.wire, Protected W c e := by
  have := C62_careful_partial W c hc sid mc d [o] ⟨fun _ => .inl rfl, trivial⟩
  exact this

/-- A server that accepts connections, presents a certificate nobody trusts, does not close the connection when the handshake fails, and
then answers a read request in clear. -/
def rogueWorld : TlsWorld Unit Unit where
  accept s := (s, true)
  hello s := (s, some (), [])
  react s _ _ := (s, some [[0, 0, 0, 0, 0, 5, 1, 3, 2, 0xba, 0xd0]])
  loadCa _ := .ok ()
  loadCert _ _ := .ok ()
  trusted _ _ := false
  forHost _ _ := false

def rogueConf : TlsConf where
  ipaddr := t!"10.0.0.1"
  tls := true
  cafile := some (t!"ca.pem")
  certfile := some (t!"client.pem")

theorem rogue_reads : (tlsRun rogueWorld rogueConf 1 125 (newTls Unit ()) [.read 3 40000 1, .read 3 40000 1]).2 =
      [.error .modbusClientError, .ok [0xba, 0xd0]] ∧
    (tlsRun rogueWorld rogueConf 1 125 (newTls Unit ()) [.read 3 40000 1, .read 3 40000 1]).1.dev.wire =
      [(none, [0, 0, 0, 0, 0, 6, 1, 3, 0x9c, 0x40, 0, 1])] := by decide +kernel

/-- C62 is violated: if the certificate of the server is not valid, the first read raises an exception, but leaves the connection
in place, without TLS; the second read is sent in clear on it, and whatever the server answers is taken as the data. -/
theorem C62_violated : ¬ C62_full := by
  intro h
  obtain ⟨cert, h1, -⟩ := h Unit Unit rogueWorld rogueConf rfl 1 125 () [.read 3 40000 1, .read 3 40000 1]
    (none, [0, 0, 0, 0, 0, 6, 1, 3, 0x9c, 0x40, 0, 1]) (by rw [rogue_reads.2]; simp)
  cases h1

/-- C62: the same in general. After any call that failed in the handshake, the next request goes out in clear. -/
theorem C62_clear_text {σ Cert} (W : TlsWorld σ Cert) (c : TlsConf) (hc : c.tls = true) (hf : FilesOK W c) (d d1 d2 : σ)
    (ha : W.accept d = (d1, true)) (cert : Option Cert) (left : List Bytes) (hh : W.hello d1 = (d2, cert, left))
    (hv : ∀ x, cert = some x → ¬ Authenticated W c x) (sid op addr : Int) (count mc : Nat) (hcount : 0 < count)
    (op2 addr2 : Int) (req : Bytes) (hreq : packTcpRead sid op2 addr2 (min count mc : Nat) = .ok req) :
    ∃ t, tlsStep W c sid mc (newTls Cert d) (.read op addr count) = (t, .error .modbusClientError) ∧
      ∃ rest, (tlsStep W c sid mc t (.read op2 addr2 count)).1.dev.wire = (none, req) :: rest := by
  have hctx := filesOK_context W c hf
  have hcon : ∃ t, tlsConnect W c (newTls Cert d) = (t, .error .modbusClientError) ∧ t.sock = .connected left ∧ t.dev.chan = none ∧ t.dev.wire = [] := by
    unfold tlsConnect
    have e : tcpDisconnect (newTls Cert d) = newTls Cert d := rfl
    have e2 : (newTls Cert d).dev.dev = d := rfl
    simp only [e, e2, hc, if_true, hctx, ha, hh]
    cases cert with
    | none => exact ⟨_, rfl, rfl, rfl, rfl⟩
    | some x =>
      have hx := hv x rfl
      rw [← accepts_iff] at hx
      simp only [hx]
      exact ⟨_, rfl, rfl, rfl, rfl⟩
  obtain ⟨t, h1, h2, h3, h4⟩ := hcon
  refine ⟨t, ?_, ?_⟩
  · unfold tlsStep tlsWith
    have e : (newTls Cert d).sock = .absent := rfl
    simp only [e, h1]
    rfl
  · unfold tlsStep tlsWith
    simp only [h2]
    rw [tcpReadF, if_pos hcount]
    refine andThen_holds (fun t : Tcp (TlsSt σ Cert) => ∃ rest, t.dev.wire = (none, req) :: rest) _ _ ?_ ?_
    · have hm : (if count > mc then mc else count) = min count mc := by split <;> omega
      unfold tcpRead1
      rw [hm, hreq]
      show ∃ rest, (andThen (tcpExchange (tlsServer W) .modbusClientError t req) fun t resp => (t, tcpReply resp)).1.dev.wire = (none, req) :: rest
      refine andThen_holds (fun t : Tcp (TlsSt σ Cert) => ∃ rest, t.dev.wire = (none, req) :: rest) _ _ ?_ fun _ _ h => h
      refine ⟨[], ?_⟩
      unfold tcpExchange
      simp only [h2, tlsServer, h3, h4]
      cases (W.react t.dev.dev none req).2 <;> rfl
    · intro s a hs
      split
      · refine tcpReadF_holds _ (fun t : Tcp (TlsSt σ Cert) => ∃ rest, t.dev.wire = (none, req) :: rest) ?_ _ _ _ _ _ _ _ s hs
        rintro x u r ⟨rest, hu⟩
        unfold tcpExchange
        cases hk : u.sock with
        | absent => exact ⟨rest, hu⟩
        | unconnected => exact ⟨rest, hu⟩
        | connected p =>
          refine ⟨rest ++ [(u.dev.chan, r)], ?_⟩
          simp only [tlsServer]
          cases (W.react u.dev.dev u.dev.chan r).2 <;> simp [hu]
      · exact hs

/-- Non-vacuity. -/
example := C62_clear_text rogueWorld rogueConf rfl ⟨fun _ _ => rfl, _, rfl, rfl⟩ () () () rfl (some ()) [] rfl
  (fun _ _ h => by have := h.1; cases this) 1 3 40000 2 125 (by decide) 3 40000 [0, 0, 0, 0, 0, 6, 1, 3, 0x9c, 0x40, 0, 2] (by decide +kernel)

/-- A server with a good certificate, in front of a memory. -/
def honestWorld : TlsWorld Unit Unit := { rogueWorld with trusted := fun _ _ => true, forHost := fun _ _ => true }

/-- Non-vacuity of `C62_careful_partial`: reads and writes with and without connection; a failing call followed by `close`. -/
example : (tlsRun honestWorld rogueConf 1 125 (newTls Unit ()) [.read 3 40000 1, .connect, .read 3 40001 1, .close]).1.dev.wire =
    [(some (), [0, 0, 0, 0, 0, 6, 1, 3, 0x9c, 0x40, 0, 1]), (some (), [0, 0, 0, 0, 0, 6, 1, 3, 0x9c, 0x41, 0, 1])] := by decide +kernel
example := C62_careful_partial honestWorld rogueConf rfl 1 125 () [.read 3 40000 1, .connect, .read 3 40001 1, .close] (by
  have h : (tlsRun honestWorld rogueConf 1 125 (newTls Unit ()) [.read 3 40000 1, .connect, .read 3 40001 1, .close]).2 =
      [.ok [0xba, 0xd0], .ok [], .ok [0xba, 0xd0], .ok []] := by decide +kernel
  rw [h]
  refine ⟨?_, ?_, ?_, ?_, trivial⟩ <;> rintro ⟨e, he⟩ <;> cases he)
example := C62_careful_partial rogueWorld rogueConf rfl 1 125 () [.read 3 40000 1, .close, .read 3 40000 1] (by
  have h : (tlsRun rogueWorld rogueConf 1 125 (newTls Unit ()) [.read 3 40000 1, .close, .read 3 40000 1]).2 =
      [.error .modbusClientError, .ok [], .error .modbusClientError] := by decide +kernel
  rw [h]
  exact ⟨fun _ => .inr (.inl ⟨_, rfl⟩), fun ⟨e, he⟩ => (nomatch he), fun _ => .inl rfl, trivial⟩)

/-! ## C63 -/

/-- C63, full statement: with TLS, `connect` succeeds if and only if the server accepts the connection and has a certificate that is
valid (unless `insecure_skip_tls_verify`); files that are given must be readable, a client certificate is optional. -/
def C63_full : Prop :=
  ∀ (σ Cert : Type) (W : TlsWorld σ Cert) (c : TlsConf), c.tls = true → (∀ f, trustFile c = some f → W.loadCa f = .ok ()) →
    (∀ f, c.certfile = some f → W.loadCert f c.keyfile = .ok ()) → ∀ (t : Tcp (TlsSt σ Cert)),
    ((tlsConnect W c t).2 = .ok () ↔ (W.accept t.dev.dev).2 = true ∧ ∃ cert, (W.hello (W.accept t.dev.dev).1).2.1 = some cert ∧
      (c.skip = true ∨ W.trusted (trustFile c) cert = true ∧ W.forHost c.ipaddr cert = true))

/-- C63 with a client certificate: `connect` succeeds exactly if the server accepts the connection and has a certificate that
verifies, and (unless `insecure_skip_tls_verify`) is for the host. -/
theorem C63_connect_partial {σ Cert} (W : TlsWorld σ Cert) (c : TlsConf) (hc : c.tls = true) (hf : FilesOK W c) (t : Tcp (TlsSt σ Cert)) :
    (tlsConnect W c t).2 = .ok () ↔ (W.accept t.dev.dev).2 = true ∧ ∃ cert, (W.hello (W.accept t.dev.dev).1).2.1 = some cert ∧
      Authenticated W c cert := by
  have hctx := filesOK_context W c hf
  unfold tlsConnect
  simp only [disconnect_dev, hc, if_true, hctx]
  rcases W.accept t.dev.dev with ⟨d, b⟩
  cases b with
  | false => simp
  | true =>
    dsimp only
    rcases W.hello d with ⟨d', cert, left⟩
    cases cert with
    | none => simp
    | some x =>
      dsimp only
      by_cases hx : tlsAccepts W c x = true
      · rw [if_pos hx]
        simp [(accepts_iff W c x).1 hx]
      · rw [if_neg hx]
        rw [accepts_iff] at hx
        simp [hx]

/-- C63: without a client certificate a TLS device never connects: every call of `connect` raises, before the server is contacted. -/
theorem C63_no_certificate {σ Cert} (W : TlsWorld σ Cert) (c : TlsConf) (hc : c.tls = true) (hn : c.certfile = none) (t : Tcp (TlsSt σ Cert)) :
    (tlsConnect W c t).2 = .error .modbusClientError ∧ (tlsConnect W c t).1.dev = t.dev := by
  have hctx : ∃ e, tlsContext W c = .error e := by
    unfold tlsContext
    rw [hn]
    split
    · exact ⟨_, rfl⟩
    · exact ⟨_, rfl⟩
  obtain ⟨e, he⟩ := hctx
  unfold tlsConnect
  simp only [disconnect_dev, hc, if_true, he]
  exact ⟨trivial, trivial⟩

/-- C63: `insecure_skip_tls_verify` does not skip the verification of the certificate, only that of the host name. -/
theorem C63_skip_verifies {σ Cert} (W : TlsWorld σ Cert) (c : TlsConf) (hc : c.tls = true) (t : Tcp (TlsSt σ Cert))
    (hu : ∀ cert, W.trusted (trustFile c) cert = false) : (tlsConnect W c t).2 ≠ .ok () := by
  intro h
  obtain ⟨_, cert, _, h1, _⟩ := connect_ok W c hc t (tlsConnect W c t).1 (Prod.ext rfl h)
  rw [hu] at h1
  cases h1

theorem C63_violated : ¬ C63_full := by
  intro h
  have h1 := (h Unit Unit honestWorld { rogueConf with certfile := none } rfl (fun _ _ => rfl) (fun f hf => by cases hf) (newTls Unit ())).2
    ⟨rfl, (), rfl, .inr ⟨rfl, rfl⟩⟩
  rw [(C63_no_certificate honestWorld { rogueConf with certfile := none } rfl rfl (newTls Unit ())).1] at h1
  cases h1

/-- C63 is violated in both ways: `insecure_skip_tls_verify` with a self-signed certificate. -/
theorem C63_skip_violated : (tlsConnect rogueWorld { rogueConf with skip := true } (newTls Unit ())).2 = .error .modbusClientError := by
  decide +kernel

/-- C63: without TLS, the device is the one of C15-C21 (`Model/Tcp.lean`), whatever the other options are. -/
theorem C63_plain {σ Cert} (W : TlsWorld σ Cert) (c : TlsConf) (hc : c.tls = false) (sid : Int) (mc : Nat) (t : Tcp (TlsSt σ Cert)) (o : TcpOp) :
    tlsStep W c sid mc t o = tcpStep (tlsServer W) sid mc t o := by
  have hcon : ∀ t, tlsConnect W c t = tcpConnect (tlsServer W) t := by
    intro t
    unfold tlsConnect
    simp only [hc, Bool.false_eq_true, if_false]
    unfold tcpConnect
    have e : tcpDisconnect (tcpDisconnect t) = tcpDisconnect t := by
      unfold tcpDisconnect
      cases hs : t.sock <;> simp [hs]
    simp only [e]
  have hw : ∀ {α} (body : Tcp (TlsSt σ Cert) → Tcp (TlsSt σ Cert) × Py α), tlsWith W c t body = tcpWith (tlsServer W) t body := by
    intro α body
    unfold tlsWith tcpWith
    rw [hcon]
    cases t.sock <;> rfl
  cases o with
  | connect => unfold tlsStep tcpStep; rw [hcon]
  | close => rfl
  | read op addr count => exact hw _
  | write addr data =>
    show andThen (tlsWith W c t _) _ = andThen (tcpWith (tlsServer W) t _) _
    rw [hw]

/-- C63: with TLS, if all servers that accept a connection authenticate, the device is that of C15-C21 as well (with the server
`secured`): TLS is transparent. -/
theorem C63_transparent {σ Cert} (W : TlsWorld σ Cert) (c : TlsConf) (hc : c.tls = true) (hf : FilesOK W c)
    (hh : ∀ d d1, W.accept d = (d1, true) → ∃ cert, (W.hello d1).2.1 = some cert ∧ Authenticated W c cert)
    (sid : Int) (mc : Nat) (t : Tcp (TlsSt σ Cert)) (o : TcpOp) :
    tlsStep W c sid mc t o = tcpStep (secured W) sid mc t o := by
  have hctx := filesOK_context W c hf
  have hcon : ∀ t, tlsConnect W c t = tcpConnect (secured W) t := by
    intro t
    unfold tlsConnect tcpConnect secured
    simp only [hc, if_true, hctx]
    rcases hd : W.accept (tcpDisconnect t).dev.dev with ⟨d, b⟩
    cases b with
    | false => rfl
    | true =>
      obtain ⟨cert, h1, h2⟩ := hh _ _ hd
      rcases hhe : W.hello d with ⟨d', x, left⟩
      rw [hhe] at h1
      cases h1
      rw [← accepts_iff] at h2
      simp only [hhe, h2, if_true]
  have hserver : ∀ x t req, tcpExchange (secured W) x t req = tcpExchange (tlsServer W) x t req := fun _ _ _ => rfl
  have hr : ∀ (sid op : Int) (mc fuel : Nat) (addr : Int) (count : Nat) (resp : Bytes) (t : Tcp (TlsSt σ Cert)),
      tcpReadF (tlsServer W) sid op mc fuel addr count resp t = tcpReadF (secured W) sid op mc fuel addr count resp t := by
    intro sid op mc fuel
    induction fuel with
    | zero => intros; rfl
    | succ fuel ih =>
      intro addr count resp t
      rw [tcpReadF, tcpReadF]
      simp only [ih]
      rfl
  have hwr : ∀ (sid addr : Int) (mc : Nat) (data : Bytes) (fuel written : Nat) (se : Option (Nat × Nat)) (t : Tcp (TlsSt σ Cert)),
      tcpWriteF (tlsServer W) sid addr mc data fuel written se t = tcpWriteF (secured W) sid addr mc data fuel written se t := by
    intro sid addr mc data fuel
    induction fuel with
    | zero => intros; rfl
    | succ fuel ih =>
      intro written se t
      rw [tcpWriteF, tcpWriteF]
      simp only [ih]
      rfl
  have hw : ∀ {α} (body : Tcp (TlsSt σ Cert) → Tcp (TlsSt σ Cert) × Py α), tlsWith W c t body = tcpWith (secured W) t body := by
    intro α body
    unfold tlsWith tcpWith
    rw [hcon]
    cases t.sock <;> rfl
  cases o with
  | connect => unfold tlsStep tcpStep; rw [hcon]
  | close => rfl
  | read op addr count =>
    show tlsWith W c t _ = tcpWith (secured W) t _
    rw [hw, show tcpReadF (tlsServer W) sid op mc (count + 1) addr count [] = tcpReadF (secured W) sid op mc (count + 1) addr count [] from
      funext fun t => hr _ _ _ _ _ _ _ t]
  | write addr data =>
    show andThen (tlsWith W c t _) _ = andThen (tcpWith (secured W) t _) _
    rw [hw, show tcpWriteF (tlsServer W) sid addr mc data (data.length + 1) 0 none = tcpWriteF (secured W) sid addr mc data (data.length + 1) 0 none from
      funext fun t => hwr _ _ _ _ _ _ _ t]

/-- Non-vacuity of C63. -/
example := (C63_connect_partial honestWorld rogueConf rfl ⟨fun _ _ => rfl, _, rfl, rfl⟩ (newTls Unit ())).2 ⟨rfl, (), rfl, rfl, fun _ => rfl⟩
example := C63_transparent honestWorld rogueConf rfl ⟨fun _ _ => rfl, _, rfl, rfl⟩ (fun _ _ _ => ⟨(), rfl, rfl, fun _ => rfl⟩) 1 125 (newTls Unit ()) (.read 3 0 1)
example := C63_skip_verifies rogueWorld { rogueConf with skip := true } rfl (newTls Unit ()) (fun _ => rfl)

end Verif
