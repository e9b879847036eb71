import Verif.Lemmas.TcpConform

/-! Lemmas: the TCP client with an arbitrary server. -/

namespace Verif
open Verif.Spec

theorem stream_cons {c : Bytes} (hc : c ≠ []) (p : List Bytes) :
    stream (c :: p) = (c ++ (stream p).1, (stream p).2) := by
  unfold stream
  rw [received_cons hc]
  simp [Ne.symm hc]

theorem stream_append (p q : List Bytes) : stream (p ++ q) = streamAppend (stream p) (stream q) := by
  induction p with
  | nil => simp [stream, streamAppend, received]
  | cons c p ih =>
    by_cases hc : c = []
    · subst hc
      simp [stream, streamAppend, received_cons_nil]
    · rw [List.cons_append, stream_cons hc, stream_cons hc, ih]
      generalize stream p = x
      obtain ⟨x1, x2⟩ := x
      cases x2 <;> simp [streamAppend]

/-- What a request makes of the stream that can be received after it. -/
def tcpOutcome (ce : Exc) : Option (Bytes × Bool) → Py Bytes
  | none => .error .modbusClientError
  | some v =>
    match (tcpFlat ce v.1 v.2).2 with
    | .error e => .error e
    | .ok r => tcpReply r

theorem tcpFrameLen_eq {b : Bytes} (h : 6 ≤ b.length) : tcpFrameLen b = max 9 (6 + tcpDataLen b) := by
  unfold tcpFrameLen tcpDataLen
  match b, h with
  | _ :: _ :: _ :: _ :: x :: y :: r, _ => simp [beDec_two]

theorem tcpFlat_eq (ce : Exc) (b : Bytes) (cl : Bool) : tcpFlat ce b cl =
    if b.length < tcpFrameLen b then ([], .error (if cl then ce else .socketTimeout))
    else (b.drop (tcpFrameLen b), .ok (b.take (tcpFrameLen b))) := by
  unfold tcpFlat
  dsimp only
  by_cases h9 : b.length < 9
  · have h9' : b.length < tcpFrameLen b := by unfold tcpFrameLen; omega
    rw [if_pos (Or.inl h9), if_pos h9']
  · rw [tcpFrameLen_eq (by omega)]
    by_cases hl : b.length < max 9 (6 + tcpDataLen b)
    · rw [if_pos (Or.inr hl), if_pos hl]
    · rw [if_neg hl, if_neg (by omega)]

/-- What is left on the connection after a request. -/
theorem tcpFlat_rest (ce : Exc) (b : Bytes) (cl : Bool) :
    (tcpFlat ce b cl).1 = b.drop (tcpFrameLen b) := by
  rw [tcpFlat_eq]
  split
  · exact (List.drop_eq_nil_of_le (by omega)).symm
  · rfl

/-- One exchange on a connection. -/
theorem tcpExchange_eq {σ} (srv : TcpServer σ) (ce : Exc) (t : Tcp σ) (p : List Bytes)
    (ht : t.sock = .connected p) (req : Bytes) :
    ∃ p', tcpExchange srv ce t req =
        ({ t with dev := (srv.react t.dev req).1, sent := t.sent ++ [req], sock := .connected p' },
          match (srv.react t.dev req).2 with
          | none => .error .modbusClientError
          | some chunks => (tcpFlat ce (stream (p ++ chunks)).1 (stream (p ++ chunks)).2).2) ∧
      stream p' = match (srv.react t.dev req).2 with
        | none => stream p
        | some chunks => ((stream (p ++ chunks)).1.drop (tcpFrameLen (stream (p ++ chunks)).1),
            (stream (p ++ chunks)).2) := by
  unfold tcpExchange
  rw [ht]
  rcases hr : srv.react t.dev req with ⟨d, _ | chunks⟩
  · refine ⟨p, ?_, rfl⟩
    dsimp only
  · dsimp only
    obtain ⟨r1, r2, r3⟩ := tcpRecv_eq ce (p ++ chunks)
    refine ⟨_, by rw [r1]; rfl, ?_⟩
    unfold stream
    rw [r2, tcpFlat_rest]
    simp only [r3]

/-- The view after one request. -/
def viewOf {σ} (srv : TcpServer σ) (d : σ) (v : Bytes × Bool) (req : Bytes) : Option (Bytes × Bool) :=
  (srv.react d req).2.map fun chunks => streamAppend v (stream chunks)

/-- What is left after one request. -/
def restOf (v : Bytes × Bool) : Option (Bytes × Bool) → Bytes × Bool
  | none => v
  | some w => (w.1.drop (tcpFrameLen w.1), w.2)

theorem views_cons {σ} (srv : TcpServer σ) (d : σ) (v : Bytes × Bool) (req : Bytes) (rs : List Bytes) :
    views srv.react d v (req :: rs) =
      viewOf srv d v req :: views srv.react (srv.react d req).1 (restOf v (viewOf srv d v req)) rs := by
  rw [views, viewOf]
  cases (srv.react d req).2 <;> rfl

/-- One read request on a connection. -/
theorem tcpRead1_eq {σ} (srv : TcpServer σ) (t : Tcp σ) (p : List Bytes)
    (ht : t.sock = .connected p) (sid op addr : Int) (q : Nat) :
    if (0 ≤ sid ∧ sid < 256) ∧ (0 ≤ op ∧ op < 256) ∧ (0 ≤ addr ∧ addr < 65536) ∧ q < 65536 then
      let req := mbap 0 (BitVec.ofNat 8 sid.toNat) (readPdu (BitVec.ofNat 8 op.toNat) addr.toNat q)
      ∃ p', stream p' = restOf (stream p) (viewOf srv t.dev (stream p) req) ∧
        tcpRead1 srv t sid op addr q =
          ({ t with dev := (srv.react t.dev req).1, sent := t.sent ++ [req], sock := .connected p' },
            tcpOutcome .modbusClientError (viewOf srv t.dev (stream p) req))
    else tcpRead1 srv t sid op addr q = (t, .error .structError) := by
  unfold tcpRead1
  rw [packTcpRead_eq]
  by_cases hr : (0 ≤ sid ∧ sid < 256) ∧ (0 ≤ op ∧ op < 256) ∧ (0 ≤ addr ∧ addr < 65536) ∧ q < 65536
  · have hr' : (0 ≤ sid ∧ sid < 256) ∧ (0 ≤ op ∧ op < 256) ∧ (0 ≤ addr ∧ addr < 65536) ∧
      (0 ≤ (q : Int) ∧ (q : Int) < 65536) := by omega
    rw [if_pos hr, if_pos hr', Int.toNat_natCast, andThen_ok]
    dsimp only
    generalize mbap 0 (BitVec.ofNat 8 sid.toNat)
      (readPdu (BitVec.ofNat 8 op.toNat) addr.toNat q) = req
    obtain ⟨p', h1, h2⟩ := tcpExchange_eq srv .modbusClientError t p ht req
    refine ⟨p', ?_, ?_⟩
    · rw [h2, viewOf]
      cases (srv.react t.dev req).2 with
      | none => rfl
      | some chunks => simp only [stream_append, Option.map_some, restOf]
    · rw [h1, viewOf]
      cases (srv.react t.dev req).2 with
      | none => rfl
      | some chunks =>
        simp only [stream_append, Option.map_some, tcpOutcome]
        generalize (tcpFlat Exc.modbusClientError _ _).2 = o
        cases o with
        | error e => rfl
        | ok r => rfl
  · have hr' : ¬ ((0 ≤ sid ∧ sid < 256) ∧ (0 ≤ op ∧ op < 256) ∧ (0 ≤ addr ∧ addr < 65536) ∧
      (0 ≤ (q : Int) ∧ (q : Int) < 65536)) := by omega
    rw [if_neg hr, if_neg hr']
    rfl

theorem tcpRead1_unconnected {σ} (srv : TcpServer σ) (t : Tcp σ)
    (ht : ∀ p, t.sock ≠ .connected p) (sid op addr q : Int) :
    ∃ e, tcpRead1 srv t sid op addr q = (t, .error e) ∧ (e = .modbusClientError ∨ e = .structError) := by
  unfold tcpRead1
  rw [packTcpRead_eq]
  split
  · rw [andThen_ok]
    have : ∀ req, tcpExchange srv .modbusClientError t req = (t, .error .modbusClientError) := by
      intro req
      unfold tcpExchange
      cases hs : t.sock with
      | connected p => exact absurd hs (ht p)
      | absent => rfl
      | unconnected => rfl
    rw [this]
    exact ⟨_, rfl, Or.inl rfl⟩
  · exact ⟨_, rfl, Or.inr rfl⟩

theorem tcpOutcome_ok {ce : Exc} {v : Option (Bytes × Bool)} {d : Bytes}
    (h : tcpOutcome ce v = .ok d) :
    ∃ w, v = some w ∧ tcpFrameLen w.1 ≤ w.1.length ∧ d = (w.1.take (tcpFrameLen w.1)).drop 9 ∧
      (w.1.getD 7 0 &&& 0x80 = 0 ∨ w.1.getD 8 0 = 0) := by
  cases v with
  | none => simp [tcpOutcome] at h
  | some w =>
    refine ⟨w, rfl, ?_⟩
    simp only [tcpOutcome] at h
    rw [tcpFlat_eq] at h
    by_cases hl : w.1.length < tcpFrameLen w.1
    · rw [if_pos hl] at h; simp at h
    · rw [if_neg hl] at h
      simp only at h
      have h9 : 9 ≤ tcpFrameLen w.1 := by unfold tcpFrameLen; omega
      unfold tcpReply at h
      rw [getD_take _ _ _ _ (by omega), getD_take _ _ _ _ (by omega)] at h
      refine ⟨by omega, ?_⟩
      by_cases h7 : w.1.getD 7 0 &&& 0x80 = 0
      · rw [if_pos h7] at h
        simp only [Except.ok.injEq] at h
        exact ⟨h.symm, Or.inl h7⟩
      · rw [if_neg h7] at h
        by_cases h8 : (w.1.getD 8 0).toNat ≠ 0
        · rw [if_pos h8] at h; simp at h
        · rw [if_neg h8] at h
          simp only [Except.ok.injEq] at h
          exact ⟨h.symm, Or.inr (BitVec.eq_of_toNat_eq (by simpa using h8))⟩

/-- The read loop with an arbitrary server. -/
theorem tcpReadF_spec {σ} (srv : TcpServer σ) (sid op : Int) (maxCount : Nat) (fuel : Nat)
    (addr : Int) (count : Nat) (resp : Bytes) (t t' : Tcp σ) (p : List Bytes)
    (ht : t.sock = .connected p) (res : Py Bytes)
    (h : tcpReadF srv sid op maxCount fuel addr count resp t = (t', res)) :
    (t'.opened = t.opened ∧ t'.closed = t.closed ∧ ∃ p', t'.sock = .connected p') ∧
    ∃ rs : List (Int × Nat),
      t'.sent = t.sent ++ rs.map (fun r => mbap 0 (BitVec.ofNat 8 sid.toNat)
        (readPdu (BitVec.ofNat 8 op.toNat) r.1.toNat r.2)) ∧
      Consecutive addr rs ∧
      (∀ r ∈ rs, r.2 ≤ maxCount ∧ (0 < maxCount → 1 ≤ r.2) ∧ 0 ≤ r.1 ∧ r.1 < 65536 ∧ r.2 < 65536) ∧
      (rs ≠ [] → 0 ≤ sid ∧ sid < 256 ∧ 0 ≤ op ∧ op < 256) ∧
      covered rs ≤ count ∧
      (∀ v ∈ views srv.react t.dev (stream p) (rs.map (fun r => mbap 0 (BitVec.ofNat 8 sid.toNat)
          (readPdu (BitVec.ofNat 8 op.toNat) r.1.toNat r.2))),
        ∀ e, tcpOutcome .modbusClientError v = .error e → res = .error e) := by
  induction fuel generalizing addr count resp t p with
  | zero =>
    simp only [tcpReadF, Prod.mk.injEq] at h
    obtain ⟨rfl, rfl⟩ := h
    exact ⟨⟨rfl, rfl, p, ht⟩, [], by simp, trivial, by simp, by simp, by simp [covered], by simp [views]⟩
  | succ fuel ih =>
    rw [tcpReadF] at h
    by_cases hc : count > 0
    · rw [if_pos hc] at h
      simp only at h
      generalize hq : (if count > maxCount then maxCount else count) = q at h
      have hq1 : q ≤ count ∧ q ≤ maxCount ∧ (0 < maxCount → 1 ≤ q) := by split at hq <;> omega
      have h1 := tcpRead1_eq srv t p ht sid op addr q
      by_cases hr : (0 ≤ sid ∧ sid < 256) ∧ (0 ≤ op ∧ op < 256) ∧ (0 ≤ addr ∧ addr < 65536) ∧ q < 65536
      · rw [if_pos hr] at h1
        simp only at h1
        generalize hreq : mbap 0 (BitVec.ofNat 8 sid.toNat)
          (readPdu (BitVec.ofNat 8 op.toNat) addr.toNat q) = req at h1
        obtain ⟨p', hp', h1⟩ := h1
        rw [h1] at h
        have hone : ∀ (r : Int × Nat), r ∈ [(addr, q)] → r.2 ≤ maxCount ∧
            (0 < maxCount → 1 ≤ r.2) ∧ 0 ≤ r.1 ∧ r.1 < 65536 ∧ r.2 < 65536 := by
          intro r hrm; simp only [List.mem_singleton] at hrm; subst hrm
          exact ⟨hq1.2.1, hq1.2.2, hr.2.2.1.1, hr.2.2.1.2, hr.2.2.2⟩
        have hviews1 : views srv.react t.dev (stream p) [req] = [viewOf srv t.dev (stream p) req] := by
          rw [views_cons]; rfl
        generalize hv : viewOf srv t.dev (stream p) req = v at *
        cases ho : tcpOutcome .modbusClientError v with
        | error e =>
          rw [ho, andThen_error] at h
          simp only [Prod.mk.injEq] at h
          obtain ⟨rfl, rfl⟩ := h
          refine ⟨⟨rfl, rfl, p', rfl⟩, [(addr, q)], by simp [hreq], ⟨rfl, trivial⟩, hone,
            fun _ => ⟨hr.1.1, hr.1.2, hr.2.1.1, hr.2.1.2⟩, by simp [covered]; omega, ?_⟩
          simp only [List.map_cons, List.map_nil, hreq, hviews1, List.mem_singleton]
          rintro _ rfl e' he'
          rw [ho] at he'; simpa using he'
        | ok data =>
          rw [ho, andThen_ok] at h
          by_cases hdl : data.length > 0
          · rw [if_pos hdl] at h
            obtain ⟨⟨h0a, h0b, h0c⟩, rs, h2, h3, h4, h5, h6, h7⟩ := ih _ _ _ _ p' rfl h
            refine ⟨⟨h0a, h0b, h0c⟩, (addr, q) :: rs, ?_, ⟨rfl, h3⟩, ?_,
              fun _ => ⟨hr.1.1, hr.1.2, hr.2.1.1, hr.2.1.2⟩, ?_, ?_⟩
            · rw [h2]; simp [hreq]
            · intro r hrm
              rcases List.mem_cons.1 hrm with rfl | hrm
              · exact hone _ (by simp)
              · exact h4 r hrm
            · simp only [covered, List.map_cons, List.sum_cons]
              have : covered rs ≤ count - q := h6
              simp only [covered] at this; omega
            · rw [List.map_cons, hreq, views_cons, hv]
              rw [hp'] at h7
              intro w hw e' he'
              rcases List.mem_cons.1 hw with rfl | hw
              · rw [ho] at he'; simp at he'
              · exact h7 w hw e' he'
          · rw [if_neg hdl] at h
            simp only [Prod.mk.injEq] at h
            obtain ⟨rfl, rfl⟩ := h
            refine ⟨⟨rfl, rfl, p', rfl⟩, [(addr, q)], by simp [hreq], ⟨rfl, trivial⟩, hone,
              fun _ => ⟨hr.1.1, hr.1.2, hr.2.1.1, hr.2.1.2⟩, by simp [covered]; omega, ?_⟩
            simp only [List.map_cons, List.map_nil, hreq, hviews1, List.mem_singleton]
            rintro _ rfl e' he'
            rw [ho] at he'; simp at he'
      · rw [if_neg hr] at h1
        rw [h1, andThen_error] at h
        simp only [Prod.mk.injEq] at h
        obtain ⟨rfl, rfl⟩ := h
        exact ⟨⟨rfl, rfl, p, ht⟩, [], by simp, trivial, by simp, by simp, by simp [covered],
          by simp [views]⟩
    · rw [if_neg hc] at h
      simp only [Prod.mk.injEq] at h
      obtain ⟨rfl, rfl⟩ := h
      exact ⟨⟨rfl, rfl, p, ht⟩, [], by simp, trivial, by simp, by simp, by simp [covered],
        by simp [views]⟩

/-- On a socket that is not connected, nothing is sent and nothing changes. -/
theorem tcpReadF_unconnected {σ} (srv : TcpServer σ) (t : Tcp σ)
    (ht : ∀ p, t.sock ≠ .connected p) (sid op : Int) (maxCount fuel : Nat) (addr : Int) (count : Nat)
    (resp : Bytes) :
    (tcpReadF srv sid op maxCount fuel addr count resp t).1 = t ∧
    (0 < count → 0 < fuel → ∃ e, (tcpReadF srv sid op maxCount fuel addr count resp t).2 = .error e ∧
      (e = .modbusClientError ∨ e = .structError)) := by
  cases fuel with
  | zero => exact ⟨rfl, fun _ h => absurd h (by omega)⟩
  | succ fuel =>
    rw [tcpReadF]
    by_cases hc : count > 0
    · rw [if_pos hc]
      simp only
      obtain ⟨e, h1, h2⟩ := tcpRead1_unconnected srv t ht sid op addr
        ((if count > maxCount then maxCount else count : Nat) : Int)
      rw [h1, andThen_error]
      exact ⟨rfl, fun _ _ => ⟨e, rfl, h2⟩⟩
    · rw [if_neg hc]
      exact ⟨rfl, fun h => absurd h hc⟩

/-- One write request on a connection. -/
theorem tcpWrite1_eq {σ} (srv : TcpServer σ) (t : Tcp σ) (p : List Bytes)
    (ht : t.sock = .connected p) (sid addr : Int) (data : Bytes) :
    if (0 ≤ sid ∧ sid < 256) ∧ (0 ≤ addr ∧ addr < 65536) ∧ data.length < 256 then
      let req := mbap 0 (BitVec.ofNat 8 sid.toNat) (writePdu addr.toNat data)
      ∃ p', stream p' = restOf (stream p) (viewOf srv t.dev (stream p) req) ∧
        tcpWrite1 srv t sid addr data =
          ({ t with dev := (srv.react t.dev req).1, sent := t.sent ++ [req], sock := .connected p' },
            (tcpOutcome .modbusClientTimeout (viewOf srv t.dev (stream p) req)).map fun _ => ())
    else tcpWrite1 srv t sid addr data = (t, .error .structError) := by
  unfold tcpWrite1
  rw [packTcpWrite_eq]
  by_cases hr : (0 ≤ sid ∧ sid < 256) ∧ (0 ≤ addr ∧ addr < 65536) ∧ data.length < 256
  · rw [if_pos hr, if_pos hr, andThen_ok]
    rw [mbap_writePdu]
    dsimp only
    generalize mbap 0 (BitVec.ofNat 8 sid.toNat) (writePdu addr.toNat data) = req
    obtain ⟨p', h1, h2⟩ := tcpExchange_eq srv .modbusClientTimeout t p ht req
    refine ⟨p', ?_, ?_⟩
    · rw [h2, viewOf]
      cases (srv.react t.dev req).2 with
      | none => rfl
      | some chunks => simp only [stream_append, Option.map_some, restOf]
    · rw [h1, viewOf]
      cases (srv.react t.dev req).2 with
      | none => rfl
      | some chunks =>
        simp only [stream_append, Option.map_some, tcpOutcome]
        generalize (tcpFlat Exc.modbusClientTimeout _ _).2 = o
        cases o with
        | error e => rfl
        | ok r =>
          rw [andThen_ok]
          dsimp only
          generalize tcpReply r = o
          cases o <;> rfl
  · rw [if_neg hr, if_neg hr]
    rfl

theorem tcpWrite1_unconnected {σ} (srv : TcpServer σ) (t : Tcp σ)
    (ht : ∀ p, t.sock ≠ .connected p) (sid addr : Int) (data : Bytes) :
    ∃ e, tcpWrite1 srv t sid addr data = (t, .error e) ∧ (e = .modbusClientError ∨ e = .structError) := by
  unfold tcpWrite1
  rw [packTcpWrite_eq]
  split
  · rw [andThen_ok]
    have : ∀ req, tcpExchange srv .modbusClientTimeout t req = (t, .error .modbusClientError) := by
      intro req
      unfold tcpExchange
      cases hs : t.sock with
      | connected p => exact absurd hs (ht p)
      | absent => rfl
      | unconnected => rfl
    rw [this]
    exact ⟨_, rfl, Or.inl rfl⟩
  · exact ⟨_, rfl, Or.inr rfl⟩

/-- A write on a connection: the connection stays. -/
theorem tcpWriteF_conn {σ} (srv : TcpServer σ) (t : Tcp σ) (p : List Bytes)
    (ht : t.sock = .connected p) (sid addr : Int) (data : Bytes) (maxCount : Nat) :
    let t' := (tcpWriteF srv sid addr maxCount data (data.length + 1) 0 none t).1
    t'.opened = t.opened ∧ t'.closed = t.closed ∧ ∃ p', t'.sock = .connected p' := by
  dsimp only
  by_cases h : data.length ≤ 2 * maxCount
  · rw [tcpWriteF_short srv t sid addr data maxCount h]
    by_cases h0 : data = []
    · rw [if_pos h0]; exact ⟨rfl, rfl, p, ht⟩
    · rw [if_neg h0]
      have h1 := tcpWrite1_eq srv t p ht sid addr data
      split at h1
      · obtain ⟨p', _, h1⟩ := h1
        rw [h1]; exact ⟨rfl, rfl, p', rfl⟩
      · rw [h1]; exact ⟨rfl, rfl, p, ht⟩
  · rw [tcpWriteF_long srv t sid addr data maxCount (by omega)]
    exact ⟨rfl, rfl, p, ht⟩

/-! ### Fragmentation -/

/-- States that differ only in the fragmentation of unread data. -/
structure SameTcp {σ} (t1 t2 : Tcp σ) : Prop where
  dev : t1.dev = t2.dev
  sent : t1.sent = t2.sent
  opened : t1.opened = t2.opened
  closed : t1.closed = t2.closed
  sock : (t1.sock = t2.sock ∧ ∀ p, t1.sock ≠ .connected p) ∨
    ∃ p1 p2, t1.sock = .connected p1 ∧ t2.sock = .connected p2 ∧ stream p1 = stream p2

/-- Servers that differ only in the fragmentation of their replies. -/
def SameServer {σ} (s1 s2 : TcpServer σ) : Prop :=
  s1.accept = s2.accept ∧ ∀ s r, (s1.react s r).1 = (s2.react s r).1 ∧
    (s1.react s r).2.map stream = (s2.react s r).2.map stream

theorem viewOf_same {σ} {s1 s2 : TcpServer σ} (h : SameServer s1 s2) (d : σ) (v : Bytes × Bool) (r : Bytes) :
    viewOf s1 d v r = viewOf s2 d v r := by
  have := (h.2 d r).2
  unfold viewOf
  cases h1 : (s1.react d r).2 <;> cases h2 : (s2.react d r).2 <;> simp_all

theorem tcpRead1_same {σ} {s1 s2 : TcpServer σ} (h : SameServer s1 s2) {t1 t2 : Tcp σ}
    (ht : SameTcp t1 t2) (sid op addr : Int) (q : Nat) :
    (tcpRead1 s1 t1 sid op addr q).2 = (tcpRead1 s2 t2 sid op addr q).2 ∧
    SameTcp (tcpRead1 s1 t1 sid op addr q).1 (tcpRead1 s2 t2 sid op addr q).1 := by
  rcases ht.sock with ⟨hs, hn⟩ | ⟨p1, p2, hp1, hp2, hp⟩
  · have h1 : tcpRead1 s1 t1 sid op addr q = (t1, (tcpRead1 s1 t1 sid op addr q).2) := by
      obtain ⟨e, h1, _⟩ := tcpRead1_unconnected s1 t1 hn sid op addr q
      rw [h1]
    have h2 : (tcpRead1 s1 t1 sid op addr q).2 = (tcpRead1 s2 t2 sid op addr q).2 ∧
        (tcpRead1 s2 t2 sid op addr q).1 = t2 := by
      have e1 : ∀ (s : TcpServer σ) (t : Tcp σ) req, (∀ p, t.sock ≠ .connected p) →
          tcpExchange s .modbusClientError t req = (t, .error .modbusClientError) := by
        intro s t req hn
        unfold tcpExchange
        cases hs : t.sock with
        | connected p => exact absurd hs (hn p)
        | absent => rfl
        | unconnected => rfl
      unfold tcpRead1
      cases packTcpRead sid op addr q with
      | error e => exact ⟨rfl, rfl⟩
      | ok req =>
        rw [andThen_ok, andThen_ok, e1 s1 t1 req hn, e1 s2 t2 req (by rw [← hs]; exact hn)]
        exact ⟨rfl, rfl⟩
    refine ⟨h2.1, ?_⟩
    rw [h2.2, h1]
    exact ht
  · have h1 := tcpRead1_eq s1 t1 p1 hp1 sid op addr q
    have h2 := tcpRead1_eq s2 t2 p2 hp2 sid op addr q
    by_cases hr : (0 ≤ sid ∧ sid < 256) ∧ (0 ≤ op ∧ op < 256) ∧ (0 ≤ addr ∧ addr < 65536) ∧ q < 65536
    · rw [if_pos hr] at h1 h2
      obtain ⟨q1, hq1, h1⟩ := h1
      obtain ⟨q2, hq2, h2⟩ := h2
      rw [h1, h2]
      rw [viewOf_same h, ht.dev, hp] at hq1 ⊢
      refine ⟨rfl, ?_, ?_, ht.opened, ht.closed, Or.inr ⟨q1, q2, rfl, rfl, by rw [hq1, hq2]⟩⟩
      · dsimp only; rw [(h.2 _ _).1]
      · dsimp only; rw [ht.sent]
    · rw [if_neg hr] at h1 h2
      rw [h1, h2]
      exact ⟨rfl, ht⟩

theorem tcpReadF_same {σ} {s1 s2 : TcpServer σ} (h : SameServer s1 s2) (sid op : Int)
    (maxCount fuel : Nat) (addr : Int) (count : Nat) (resp : Bytes) {t1 t2 : Tcp σ}
    (ht : SameTcp t1 t2) :
    (tcpReadF s1 sid op maxCount fuel addr count resp t1).2 =
      (tcpReadF s2 sid op maxCount fuel addr count resp t2).2 ∧
    SameTcp (tcpReadF s1 sid op maxCount fuel addr count resp t1).1
      (tcpReadF s2 sid op maxCount fuel addr count resp t2).1 := by
  induction fuel generalizing addr count resp t1 t2 with
  | zero => exact ⟨rfl, ht⟩
  | succ fuel ih =>
    rw [tcpReadF, tcpReadF]
    by_cases hc : count > 0
    · rw [if_pos hc, if_pos hc]
      simp only
      generalize (if count > maxCount then maxCount else count) = q
      obtain ⟨h1, h2⟩ := tcpRead1_same h ht sid op addr q
      rcases hx : tcpRead1 s1 t1 sid op addr q with ⟨u1, r1⟩
      rcases hy : tcpRead1 s2 t2 sid op addr q with ⟨u2, r2⟩
      rw [hx, hy] at h1 h2
      dsimp only at h1 h2
      subst h1
      cases r1 with
      | error e => exact ⟨rfl, h2⟩
      | ok data =>
        rw [andThen_ok, andThen_ok]
        by_cases hd : data.length > 0
        · rw [if_pos hd, if_pos hd]
          exact ih _ _ _ h2
        · rw [if_neg hd, if_neg hd]
          exact ⟨rfl, h2⟩
    · rw [if_neg hc, if_neg hc]
      exact ⟨rfl, ht⟩

theorem tcpWrite1_same {σ} {s1 s2 : TcpServer σ} (h : SameServer s1 s2) {t1 t2 : Tcp σ}
    (ht : SameTcp t1 t2) (sid addr : Int) (data : Bytes) :
    (tcpWrite1 s1 t1 sid addr data).2 = (tcpWrite1 s2 t2 sid addr data).2 ∧
    SameTcp (tcpWrite1 s1 t1 sid addr data).1 (tcpWrite1 s2 t2 sid addr data).1 := by
  rcases ht.sock with ⟨hs, hn⟩ | ⟨p1, p2, hp1, hp2, hp⟩
  · have e1 : ∀ (s : TcpServer σ) (t : Tcp σ) req, (∀ p, t.sock ≠ .connected p) →
        tcpExchange s .modbusClientTimeout t req = (t, .error .modbusClientError) := by
      intro s t req hn
      unfold tcpExchange
      cases hs : t.sock with
      | connected p => exact absurd hs (hn p)
      | absent => rfl
      | unconnected => rfl
    unfold tcpWrite1
    cases packTcpWrite sid addr (data.length / 2 : Nat) data.length with
    | error e => exact ⟨rfl, ht⟩
    | ok hdr =>
      rw [andThen_ok, andThen_ok, e1 s1 t1 _ hn, e1 s2 t2 _ (by rw [← hs]; exact hn)]
      exact ⟨rfl, ht⟩
  · have h1 := tcpWrite1_eq s1 t1 p1 hp1 sid addr data
    have h2 := tcpWrite1_eq s2 t2 p2 hp2 sid addr data
    by_cases hr : (0 ≤ sid ∧ sid < 256) ∧ (0 ≤ addr ∧ addr < 65536) ∧ data.length < 256
    · rw [if_pos hr] at h1 h2
      obtain ⟨q1, hq1, h1⟩ := h1
      obtain ⟨q2, hq2, h2⟩ := h2
      rw [h1, h2]
      rw [viewOf_same h, ht.dev, hp] at hq1 ⊢
      refine ⟨rfl, ?_, ?_, ht.opened, ht.closed, Or.inr ⟨q1, q2, rfl, rfl, by rw [hq1, hq2]⟩⟩
      · dsimp only; rw [(h.2 _ _).1]
      · dsimp only; rw [ht.sent]
    · rw [if_neg hr] at h1 h2
      rw [h1, h2]
      exact ⟨rfl, ht⟩

theorem tcpWriteF_same {σ} {s1 s2 : TcpServer σ} (h : SameServer s1 s2) {t1 t2 : Tcp σ}
    (ht : SameTcp t1 t2) (sid addr : Int) (data : Bytes) (maxCount : Nat) :
    (tcpWriteF s1 sid addr maxCount data (data.length + 1) 0 none t1).2 =
      (tcpWriteF s2 sid addr maxCount data (data.length + 1) 0 none t2).2 ∧
    SameTcp (tcpWriteF s1 sid addr maxCount data (data.length + 1) 0 none t1).1
      (tcpWriteF s2 sid addr maxCount data (data.length + 1) 0 none t2).1 := by
  by_cases hl : data.length ≤ 2 * maxCount
  · rw [tcpWriteF_short _ _ _ _ _ _ hl, tcpWriteF_short _ _ _ _ _ _ hl]
    by_cases h0 : data = []
    · rw [if_pos h0, if_pos h0]; exact ⟨rfl, ht⟩
    · rw [if_neg h0, if_neg h0]; exact tcpWrite1_same h ht sid addr data
  · rw [tcpWriteF_long _ _ _ _ _ _ (by omega), tcpWriteF_long _ _ _ _ _ _ (by omega)]
    exact ⟨rfl, ht⟩

theorem tcpDisconnect_same {σ} {t1 t2 : Tcp σ} (ht : SameTcp t1 t2) :
    SameTcp (tcpDisconnect t1) (tcpDisconnect t2) := by
  obtain ⟨h1, h2, h3, h4, h5⟩ := ht
  unfold tcpDisconnect
  rcases h5 with ⟨hs, hn⟩ | ⟨p1, p2, hp1, hp2, hp⟩
  · rw [← hs]
    cases hk : t1.sock with
    | absent => exact ⟨h1, h2, h3, h4, Or.inl ⟨hs, hn⟩⟩
    | unconnected => exact ⟨h1, h2, h3, by dsimp only; rw [h4], Or.inl ⟨rfl, by simp⟩⟩
    | connected p => exact absurd hk (hn p)
  · rw [hp1, hp2]
    exact ⟨h1, h2, h3, by dsimp only; rw [h4], Or.inl ⟨rfl, by simp⟩⟩

theorem tcpWith_same {σ α} {s1 s2 : TcpServer σ} (h : SameServer s1 s2) {t1 t2 : Tcp σ}
    (ht : SameTcp t1 t2) {b1 b2 : Tcp σ → Tcp σ × Py α}
    (hb : ∀ t1 t2, SameTcp t1 t2 → (b1 t1).2 = (b2 t2).2 ∧ SameTcp (b1 t1).1 (b2 t2).1) :
    (tcpWith s1 t1 b1).2 = (tcpWith s2 t2 b2).2 ∧
    SameTcp (tcpWith s1 t1 b1).1 (tcpWith s2 t2 b2).1 := by
  rcases ht.sock with ⟨hs, hn⟩ | ⟨p1, p2, hp1, hp2, hp⟩
  · unfold tcpWith
    rw [← hs]
    cases hk : t1.sock with
    | connected p => exact absurd hk (hn p)
    | unconnected => exact hb _ _ ht
    | absent =>
      dsimp only
      have d1 : tcpDisconnect t1 = t1 := by unfold tcpDisconnect; rw [hk]
      have d2 : tcpDisconnect t2 = t2 := by unfold tcpDisconnect; rw [← hs, hk]
      unfold tcpConnect
      dsimp only
      rw [d1, d2, h.1, ht.dev]
      rcases hacc : s2.accept t2.dev with ⟨d, _ | _⟩
      · dsimp only
        rw [andThen_error, andThen_error]
        exact ⟨rfl, rfl, ht.sent, by dsimp only; rw [ht.opened], ht.closed, Or.inl ⟨rfl, by simp⟩⟩
      · dsimp only
        rw [andThen_ok, andThen_ok]
        have := hb { t1 with dev := d, sock := .connected [], opened := t1.opened + 1 }
          { t2 with dev := d, sock := .connected [], opened := t2.opened + 1 }
          ⟨rfl, ht.sent, by dsimp only; rw [ht.opened], ht.closed, Or.inr ⟨[], [], rfl, rfl, rfl⟩⟩
        exact ⟨this.1, tcpDisconnect_same this.2⟩
  · have e : ∀ (s : TcpServer σ) (t : Tcp σ) (p) (b : Tcp σ → Tcp σ × Py α),
        t.sock = .connected p → tcpWith s t b = b t := by
      intro s t p b hp; unfold tcpWith; rw [hp]
    rw [e s1 t1 p1 b1 hp1, e s2 t2 p2 b2 hp2]
    exact hb _ _ ht

end Verif
