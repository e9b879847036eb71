import Verif.Lemmas.TcpAny

/-! Lemmas: successful TCP reads, idle connections, connection handling. -/

namespace Verif
open Verif.Spec

/-- A successful read: one complete reply per request. -/
theorem tcpReadF_ok {σ} (srv : TcpServer σ) (sid op : Int) (maxCount : Nat) (fuel : Nat)
    (addr : Int) (count : Nat) (resp : Bytes) (t t' : Tcp σ) (p : List Bytes)
    (ht : t.sock = .connected p) (r : Bytes)
    (h : tcpReadF srv sid op maxCount fuel addr count resp t = (t', .ok r)) :
    ∃ (rs : List (Int × Nat)) (ps : List Bytes),
      t'.sent = t.sent ++ rs.map (fun r => mbap 0 (BitVec.ofNat 8 sid.toNat)
        (readPdu (BitVec.ofNat 8 op.toNat) r.1.toNat r.2)) ∧
      Consecutive addr rs ∧ covered rs ≤ count ∧
      r = resp ++ ps.flatten ∧ ps.length = rs.length ∧
      (∀ i (_ : i < ps.length), ∃ w,
        (views srv.react t.dev (stream p) (rs.map (fun r => mbap 0 (BitVec.ofNat 8 sid.toNat)
          (readPdu (BitVec.ofNat 8 op.toNat) r.1.toNat r.2))))[i]? = some (some w) ∧
        tcpFrameLen w.1 ≤ w.1.length ∧ ps[i] = (w.1.take (tcpFrameLen w.1)).drop 9 ∧
        (w.1.getD 7 0 &&& 0x80 = 0 ∨ w.1.getD 8 0 = 0)) ∧
      (covered rs = count ∨ [] ∈ ps) ∧ (0 < maxCount → ∀ x ∈ rs, 1 ≤ x.2) := by
  induction fuel generalizing addr count resp t p with
  | zero => simp [tcpReadF] at h
  | succ fuel ih =>
    rw [tcpReadF] at h
    by_cases hc : count > 0
    · rw [if_pos hc] at h
      simp only at h
      generalize hq : (if count > maxCount then maxCount else count) = q at h
      have hq1 : q ≤ count := by split at hq <;> omega
      have hq2 : 0 < maxCount → 1 ≤ q := by split at hq <;> omega
      have h1 := tcpRead1_eq srv t p ht sid op addr q
      by_cases hr : (0 ≤ sid ∧ sid < 256) ∧ (0 ≤ op ∧ op < 256) ∧ (0 ≤ addr ∧ addr < 65536) ∧ q < 65536
      · rw [if_pos hr] at h1
        simp only at h1
        generalize hreq : mbap 0 (BitVec.ofNat 8 sid.toNat)
          (readPdu (BitVec.ofNat 8 op.toNat) addr.toNat q) = req at h1
        obtain ⟨p', hp', h1⟩ := h1
        rw [h1] at h
        generalize hv : viewOf srv t.dev (stream p) req = v at *
        cases ho : tcpOutcome .modbusClientError v with
        | error e => rw [ho, andThen_error] at h; simp at h
        | ok data =>
          rw [ho, andThen_ok] at h
          obtain ⟨w, hw1, hw2, hw3, hw4⟩ := tcpOutcome_ok ho
          by_cases hdl : data.length > 0
          · rw [if_pos hdl] at h
            obtain ⟨rs, ps, h2, h3, h4, h5, h6, h7, h8, h9⟩ := ih _ _ _ _ p' rfl h
            refine ⟨(addr, q) :: rs, data :: ps, ?_, ⟨rfl, h3⟩, ?_, ?_, by simp [h6], ?_, ?_, ?_⟩
            · rw [h2]; simp [hreq]
            · simp only [covered, List.map_cons, List.sum_cons] at h4 ⊢; omega
            · rw [h5]; simp
            · rw [List.map_cons, hreq, views_cons, hv]
              rw [hp'] at h7
              intro i hi
              cases i with
              | zero => exact ⟨w, by simp [hw1], hw2, hw3, hw4⟩
              | succ i => exact h7 i (by simpa using hi)
            · rcases h8 with h8 | h8
              · left; simp only [covered, List.map_cons, List.sum_cons] at h8 ⊢; omega
              · right; exact List.mem_cons_of_mem _ h8
            · intro hm x hx
              rcases List.mem_cons.1 hx with rfl | hx
              · exact hq2 hm
              · exact h9 hm x hx
          · rw [if_neg hdl] at h
            have hd0 : data = [] := List.length_eq_zero_iff.1 (by omega)
            simp only [Prod.mk.injEq, Except.ok.injEq] at h
            obtain ⟨rfl, rfl⟩ := h
            refine ⟨[(addr, q)], [data], by simp [hreq], ⟨rfl, trivial⟩, by simp [covered]; omega,
              by simp [hd0], rfl, ?_, Or.inr (by simp [hd0]), by simpa using hq2⟩
            rw [List.map_cons, List.map_nil, hreq, views_cons, hv]
            intro i hi
            have : i = 0 := by simpa using hi
            subst this
            exact ⟨w, by simp [hw1], hw2, hw3, hw4⟩
      · rw [if_neg hr] at h1
        rw [h1, andThen_error] at h
        simp at h
    · rw [if_neg hc] at h
      simp only [Prod.mk.injEq, Except.ok.injEq] at h
      obtain ⟨rfl, rfl⟩ := h
      exact ⟨[], [], by simp, trivial, by simp [covered], by simp, rfl, by simp,
        Or.inl (by simp [covered]; omega), by simp⟩

/-- The read loop ends. -/
theorem tcpReadF_no_diverge {σ} (srv : TcpServer σ) (sid op : Int) (maxCount : Nat)
    (hm : 0 < maxCount) (fuel : Nat) (addr : Int) (count : Nat) (resp : Bytes) (t : Tcp σ)
    (hf : count < fuel) :
    (tcpReadF srv sid op maxCount fuel addr count resp t).2 ≠ .error .diverge := by
  induction fuel generalizing addr count resp t with
  | zero => omega
  | succ fuel ih =>
    rw [tcpReadF]
    by_cases hc : count > 0
    · rw [if_pos hc]
      simp only
      generalize hq : (if count > maxCount then maxCount else count) = q
      have hq1 : 1 ≤ q := by split at hq <;> omega
      have h1 : ∀ e, (tcpRead1 srv t sid op addr q).2 = .error e → e ≠ .diverge := by
        intro e he
        by_cases hs : ∃ p, t.sock = .connected p
        · obtain ⟨p, hs⟩ := hs
          have h1 := tcpRead1_eq srv t p hs sid op addr q
          split at h1
          · obtain ⟨p', _, h1⟩ := h1
            rw [h1] at he
            dsimp only at he
            cases hv : viewOf srv t.dev (stream p) (mbap 0 (BitVec.ofNat 8 sid.toNat)
              (readPdu (BitVec.ofNat 8 op.toNat) addr.toNat q)) with
            | none => rw [hv] at he; simp [tcpOutcome] at he; rw [← he]; simp
            | some w =>
              rw [hv] at he
              simp only [tcpOutcome, tcpFlat_eq] at he
              by_cases hl : w.1.length < tcpFrameLen w.1
              · rw [if_pos hl] at he
                simp only [Except.error.injEq] at he
                rw [← he]; split <;> simp
              · rw [if_neg hl] at he
                simp only [tcpReply] at he
                split at he
                · simp at he
                · split at he
                  · simp only [Except.error.injEq] at he; rw [← he]; simp
                  · simp at he
          · rw [h1] at he
            simp only [Except.error.injEq] at he
            rw [← he]; simp
        · obtain ⟨e', h1, h2⟩ := tcpRead1_unconnected srv t (by simpa using hs) sid op addr q
          rw [h1] at he
          simp only [Except.error.injEq] at he
          rw [← he]
          rcases h2 with h | h <;> rw [h] <;> simp
      rcases hx : tcpRead1 srv t sid op addr q with ⟨t1, e | d⟩
      · rw [hx] at h1
        have := h1 e rfl
        rw [andThen_error]
        simpa using this
      · rw [andThen_ok]
        by_cases hd : d.length > 0
        · rw [if_pos hd]
          exact ih _ _ _ _ (by omega)
        · rw [if_neg hd]; simp
    · rw [if_neg hc]; simp

/-- Reading from a conforming server leaves an idle connection idle and the memory unchanged. -/
theorem tcpReadF_idle {σ} {srv : TcpServer σ} {abs : σ → Mem} {unit : Byte}
    (hc : ConformsTcp srv.accept srv.react abs unit) (op : Int)
    (maxCount : Nat) (fuel : Nat) (a : Int) (count : Nat) (resp : Bytes) (t : Tcp σ)
    (ht : t.sock = .connected []) :
    let t' := (tcpReadF srv unit.toNat op maxCount fuel a count resp t).1
    t'.sock = .connected [] ∧ abs t'.dev = abs t.dev := by
  dsimp only
  induction fuel generalizing a count resp t with
  | zero => exact ⟨ht, rfl⟩
  | succ fuel ih =>
    rw [tcpReadF]
    by_cases hcz : count > 0
    · rw [if_pos hcz]
      simp only
      generalize (if count > maxCount then maxCount else count) = q
      obtain ⟨t1, h1, h2, h3, _, _⟩ := conform_tcpRead1 hc t ht op a q
      rw [h1]
      generalize (if (0 ≤ op ∧ op < 256) ∧ (0 ≤ a ∧ a < 65536) ∧ q < 65536 then _ else _ : Py Bytes) = x
      cases x with
      | error e => rw [andThen_error]; exact ⟨h3, h2⟩
      | ok d =>
        rw [andThen_ok]
        by_cases hd : d.length > 0
        · rw [if_pos hd]
          obtain ⟨h4, h5⟩ := ih (a + q) (count - q) (resp ++ d) t1 h3
          exact ⟨h4, by rw [h5, h2]⟩
        · rw [if_neg hd]; exact ⟨h3, h2⟩
    · rw [if_neg hcz]; exact ⟨ht, rfl⟩

/-! ### Connection handling -/

theorem tcpWith_absent {σ α} (srv : TcpServer σ) (t : Tcp σ) (body : Tcp σ → Tcp σ × Py α)
    (h : t.sock = .absent) (ha : (srv.accept t.dev).2 = true) :
    tcpWith srv t body =
      (tcpDisconnect (body { t with dev := (srv.accept t.dev).1, sock := .connected [],
                                    opened := t.opened + 1 }).1,
       (body { t with dev := (srv.accept t.dev).1, sock := .connected [],
                      opened := t.opened + 1 }).2) := by
  have d1 : tcpDisconnect t = t := by unfold tcpDisconnect; rw [h]
  unfold tcpWith
  rw [h]
  dsimp only
  unfold tcpConnect
  dsimp only
  rw [d1]
  rcases hacc : srv.accept t.dev with ⟨d, _ | _⟩
  · rw [hacc] at ha; simp at ha
  · dsimp only; rw [andThen_ok]

theorem tcpWith_refused {σ α} (srv : TcpServer σ) (t : Tcp σ) (body : Tcp σ → Tcp σ × Py α)
    (h : t.sock = .absent) (ha : (srv.accept t.dev).2 = false) :
    tcpWith srv t body =
      ({ t with dev := (srv.accept t.dev).1, sock := .unconnected, opened := t.opened + 1 },
        .error .modbusClientError) := by
  have d1 : tcpDisconnect t = t := by unfold tcpDisconnect; rw [h]
  unfold tcpWith
  rw [h]
  dsimp only
  unfold tcpConnect
  dsimp only
  rw [d1]
  rcases hacc : srv.accept t.dev with ⟨d, _ | _⟩
  · dsimp only; rw [andThen_error]
  · rw [hacc] at ha; simp at ha

theorem tcpWith_present {σ α} (srv : TcpServer σ) (t : Tcp σ) (body : Tcp σ → Tcp σ × Py α)
    (h : t.sock ≠ .absent) : tcpWith srv t body = body t := by
  unfold tcpWith
  cases hs : t.sock with
  | absent => exact absurd hs h
  | unconnected => rfl
  | connected p => rfl

theorem tcpDisconnect_connected {σ} (t : Tcp σ) (p : List Bytes) (h : t.sock = .connected p) :
    tcpDisconnect t = { t with sock := .absent, closed := t.closed + 1 } := by
  unfold tcpDisconnect; rw [h]

end Verif
