import Verif.Spec.TcpThreads
import Verif.Lemmas.Threads
import Verif.Lemmas.TcpAny

/-! Lemmas for C107. -/

namespace Verif
open Verif.Spec

theorem netRecvF_inv {τ} (net : Net τ) (I : τ → Prop) (hI : ∀ s n, I s → I (net.recv s n).1) (ce : Exc) :
    ∀ (fuel : Nat) (r : Int) (resp : Bytes) (w : NetWaited τ), I w.st →
      I (netRecvF net ce fuel r resp w).1.st ∧ (netRecvF net ce fuel r resp w).1.sock = w.sock := by
  intro fuel
  induction fuel with
  | zero => intro r resp w h; exact ⟨h, rfl⟩
  | succ fuel ih =>
    intro r resp w h
    rw [netRecvF]
    by_cases hr : r > 0
    · rw [if_pos hr]
      have h1 := hI w.st r.toNat h
      generalize net.recv w.st r.toNat = o at *
      obtain ⟨s, o⟩ := o
      cases o with
      | none => exact ⟨h1, rfl⟩
      | some got =>
        dsimp only
        split
        · exact ⟨h1, rfl⟩
        · split <;> exact ih _ _ { w with st := s, waits := w.waits + 1 } h1
    · rw [if_neg hr]; exact ⟨h, rfl⟩

theorem netAct_harmless {τ} {net : Net τ} {abs : τ → Mem} {unit : Byte} (hp : NetExecutes net abs unit) {D : Int → Prop} (l : List NetAct)
    (hl : ∀ req, NetAct.send req ∈ l → NetHarmless unit D req) : ∀ (s : τ) (x : Int), D x → regMem (abs (l.foldl (netAct net) s)) x = regMem (abs s) x := by
  induction l with
  | nil => intro s x _; rfl
  | cons o l ih =>
    intro s x hx
    rw [List.foldl_cons, ih (fun req h => hl req (by simp [h])) _ x hx]
    cases o with
    | recv n => show regMem (abs (net.recv s n).1) x = _; rw [hp.recv]
    | send req =>
      show regMem (abs (net.send s req).1) x = _
      cases hb : (net.send s req).2 with
      | true => rw [hp.sent _ _ hb]; exact hl req (by simp) _ x hx
      | false => rw [hp.unsent _ _ hb]

theorem netTurn_harmless {τ} {net : Net τ} {abs : τ → Mem} {unit : Byte} (hp : NetExecutes net abs unit) {D : Int → Prop} {s : τ × List (List NetAct)}
    (hs : NetHarmlessThreads unit D s.2) : NetHarmlessThreads unit D s.2.tail ∧ ∀ x, D x → regMem (abs (netTurn net s)) x = regMem (abs s.1) x := by
  obtain ⟨s, l⟩ := s
  refine ⟨fun o ho => hs o (List.mem_of_mem_tail ho), ?_⟩
  cases l with
  | nil => intro x _; rfl
  | cons o l => exact netAct_harmless hp o (hs o (by simp)) s

/-- The registers `D` hold `mem`, and the other threads will not change that. -/
def NetThreadMem {τ} (abs : τ → Mem) (unit : Byte) (D : Int → Prop) (s : τ × List (List NetAct)) (mem : RegMem) : Prop :=
  NetHarmlessThreads unit D s.2 ∧ mem = within D (regMem (abs s.1))

theorem netExchange_threads {τ} {net : Net τ} {abs : τ → Mem} {unit : Byte} (hp : NetExecutes net abs unit) {D : Int → Prop} (N : Nat) (ce : Exc)
    (w : NetWaited (τ × List (List NetAct))) (hk : w.sock = .connected) (mem : RegMem) (hw : NetThreadMem abs unit D w.st mem) (req : Bytes) (a : Int)
    (rs : List Reg) (hreq : ∀ m, within D (regMem m) = mem → regMem (serveTcp unit m req).1 = stored (regMem m) a rs)
    (hD : ∀ x, a ≤ x → x < a + rs.length → D x) :
    (netExchange (sharedNet net) N ce w req).1.sock = .connected ∧
    (NetThreadMem abs unit D (netExchange (sharedNet net) N ce w req).1.st (stored mem a rs) ∨
      (∃ e, (netExchange (sharedNet net) N ce w req).2 = .error e) ∧ NetThreadMem abs unit D (netExchange (sharedNet net) N ce w req).1.st mem) := by
  obtain ⟨f1, f2⟩ := hw
  unfold netExchange
  rw [if_pos hk]
  obtain ⟨t1, t2⟩ := netTurn_harmless hp f1
  have hm : within D (regMem (abs (netTurn net w.st))) = mem := by rw [f2]; exact within_ext t2
  have hwr : (sharedNet net).send w.st req = (((net.send (netTurn net w.st) req).1, w.st.2.tail), (net.send (netTurn net w.st) req).2) := rfl
  rw [hwr]
  cases hb : (net.send (netTurn net w.st) req).2 with
  | false =>
    refine ⟨hk, .inr ⟨⟨_, rfl⟩, t1, ?_⟩⟩
    show mem = within D (regMem (abs (net.send (netTurn net w.st) req).1))
    rw [hp.unsent _ _ hb, hm]
  | true =>
    dsimp only
    have := netRecvF_inv (sharedNet net) (fun s => NetThreadMem abs unit D s (stored mem a rs)) ?_ ce N 9 []
      { w with st := ((net.send (netTurn net w.st) req).1, w.st.2.tail) } ?_
    · exact ⟨this.2.trans hk, .inl this.1⟩
    · intro s n hs
      obtain ⟨u1, u2⟩ := netTurn_harmless hp hs.1
      refine ⟨u1, ?_⟩
      rw [hs.2]
      apply within_ext
      intro x hx
      show _ = regMem (abs (net.recv (netTurn net s) n).1) x
      rw [hp.recv, u2 x hx]
    · refine ⟨t1, ?_⟩
      show stored mem a rs = within D (regMem (abs (net.send (netTurn net w.st) req).1))
      rw [hp.sent _ _ hb, hreq _ hm, ← hm]
      funext x
      unfold stored within
      by_cases hx : a ≤ x ∧ x < a + rs.length
      · rw [if_pos hx]
        have := hD x hx.1 hx.2
        simp only [this, if_true]
        rw [if_pos hx]
      · rw [if_neg hx]
        split
        · dsimp only; rw [if_neg hx]
        · rfl

theorem netWriteF_short {τ} (net : Net τ) (N : Nat) (w : NetWaited τ) (sid addr : Int) (data : Bytes) (h : data.length ≤ 250) (h0 : 0 < data.length) :
    netWriteF net N sid addr 125 data (data.length + 1) 0 none w = netWrite1 net N w sid addr data := by
  rw [netWriteF]
  have hA : data.length - 0 > 0 := by omega
  have hB : ¬ data.length - 0 > 2 * 125 := by omega
  rw [if_pos hA]
  dsimp only
  rw [if_neg hB, if_neg hB]
  dsimp only
  have e1 : (data.drop 0).take (0 + (data.length - 0) - 0) = data := by
    rw [List.drop_zero]; exact List.take_of_length_le (by omega)
  rw [e1]
  have e2 : addr + ((0 / 2 : Nat) : Int) = addr := by simp
  rw [e2]
  match h1 : netWrite1 net N w sid addr data with
  | (w', .error e) => rfl
  | (w', .ok ()) =>
    rw [andThen_ok]
    have hC : ¬ data.length - (0 + (data.length - 0)) > 0 := by omega
    obtain ⟨f, hf⟩ : ∃ f, data.length = f + 1 := ⟨data.length - 1, by omega⟩
    have key : ∀ g, g = f + 1 → netWriteF net N sid addr 125 data g (0 + (data.length - 0))
        (some (0, 0 + (data.length - 0))) w' = (w', .ok ()) := by
      intro g hg; subst hg; rw [netWriteF, if_neg hC]
    exact key _ hf

theorem net_threads_atomic {τ} {net : Net τ} {abs : τ → Mem} {unit : Byte} (hp : NetExecutes net abs unit) (N : Nat) (D : Int → Prop) :
    AtomicMem (netDev (sharedNet net) N unit.toNat).toMbDev (fun w mem => w.sock = .connected ∧ NetThreadMem abs unit D w.st mem) (fun _ => True)
      (fun n => n ≤ 123) := by
  intro w mem a rs hR _ h0 hl hx
  obtain ⟨hk, hR⟩ := hR
  have hd : (regBytes rs).length = 2 * rs.length := regBytes_length rs
  have hR2 := hR.2
  have hin : ∀ x, a ≤ x → x < a + rs.length → D x ∧ regMem (abs w.st.1) x ≠ none := by
    intro x x1 x2
    have := hx x x1 x2
    rw [hR2] at this
    obtain ⟨k1, k2⟩ := within_some this
    exact ⟨k1, by rw [← k2]; exact this⟩
  obtain ⟨⟨r1, r2⟩, _⟩ := serve_store (m := abs w.st.1) h0 (by omega) (fun x x1 x2 => (hin x x1 x2).2)
  have hs := unit.isLt
  have key := netExchange_threads hp N .modbusClientTimeout w hk mem hR (mbap 0 unit (writePdu a.toNat (regBytes rs))) a rs (by
    intro m hm
    have hxm : ∀ x, a ≤ x → x < a + rs.length → regMem m x ≠ none := by
      intro x x1 x2
      have := hx x x1 x2
      rw [← hm] at this
      obtain ⟨_, k2⟩ := within_some this
      rw [← k2]; exact this
    obtain ⟨_, s2, s3⟩ := serve_store h0 (by omega) hxm
    rw [serveTcp_mbap, s2, if_neg (show ¬ 123 < rs.length from Nat.not_lt.mpr hl)]
    exact s3) (fun x x1 x2 => (hin x x1 x2).1)
  have hw1 : netWrite1 (sharedNet net) N w unit.toNat a (regBytes rs) =
      andThen (netExchange (sharedNet net) N .modbusClientTimeout w (mbap 0 unit (writePdu a.toNat (regBytes rs)))) fun w resp =>
        andThen (w, tcpReply resp) fun w _ => (w, .ok ()) := by
    unfold netWrite1
    rw [packTcpWrite_eq, if_pos (by omega), andThen_ok, mbap_writePdu]
    simp only [Int.toNat_natCast, BitVec.ofNat_toNat, BitVec.setWidth_eq]
  have hwF : (netDev (sharedNet net) N unit.toNat).toMbDev.write w a (regBytes rs) = netWrite1 (sharedNet net) N w unit.toNat a (regBytes rs) := by
    show netWith (sharedNet net) w (netWriteF (sharedNet net) N unit.toNat a 125 (regBytes rs) ((regBytes rs).length + 1) 0 none) = _
    unfold netWith
    rw [if_neg (by rw [hk]; simp), netWriteF_short _ _ _ _ _ _ (by omega) (by omega)]
  rw [hwF, hw1]
  generalize netExchange (sharedNet net) N .modbusClientTimeout w (mbap 0 unit (writePdu a.toNat (regBytes rs))) = o at key
  obtain ⟨w1, x⟩ := o
  obtain ⟨k0, key⟩ := key
  dsimp only at k0 key
  cases x with
  | error e =>
    refine ⟨w1, .error e, rfl, .inr ⟨by simp, ?_⟩⟩
    rcases key with k | ⟨_, k⟩
    · exact .inl ⟨k0, k⟩
    · exact .inr ⟨k0, k⟩
  | ok resp =>
    have k : NetThreadMem abs unit D w1.st (stored mem a rs) := by
      rcases key with k | ⟨⟨e, k1⟩, _⟩
      · exact k
      · cases k1
    rw [andThen_ok]
    cases tcpReply resp with
    | error e => exact ⟨w1, .error e, rfl, .inr ⟨by simp, .inl ⟨k0, k⟩⟩⟩
    | ok d => exact ⟨w1, .ok (), rfl, .inl ⟨rfl, trivial, k0, k⟩⟩

/-! ## Reads -/

theorem netRecvF_reply {τ} (net : Net τ) (hle : ∀ s n s' c, net.recv s n = (s', some c) → c.length ≤ n) (ce : Exc) :
    ∀ (fuel : Nat) (r : Int) (resp : Bytes) (w w' : NetWaited τ) (b : Bytes),
      (resp.length < 9 → r + resp.length = 9) → (9 ≤ resp.length → r + resp.length = 6 + tcpDataLen resp ∧ (resp.length : Int) ≤ max 9 (6 + tcpDataLen resp)) →
      netRecvF net ce fuel r resp w = (w', .ok b) →
      w'.sock = w.sock ∧ b.length = tcpFrameLen b ∧ ∃ chunks, b = resp ++ chunks.flatten ∧ NetReceiving net w.st chunks w'.st := by
  intro fuel
  induction fuel with
  | zero => intro r resp w w' b _ _ h; cases h
  | succ fuel ih =>
    intro r resp w w' b h1 h2 h
    rw [netRecvF] at h
    by_cases hr : r > 0
    · rw [if_pos hr] at h
      generalize hq : net.recv w.st r.toNat = o at h
      obtain ⟨s, o⟩ := o
      cases o with
      | none => cases h
      | some got =>
        dsimp only at h
        have hl := hle _ _ _ _ hq
        have hla : (resp ++ got).length = resp.length + got.length := List.length_append
        by_cases h0 : got.length = 0
        · rw [if_pos h0] at h; cases h
        · rw [if_neg h0] at h
          by_cases h9 : (resp ++ got).length ≥ 9
          · rw [if_pos h9] at h
            obtain ⟨i1, i2, chunks, i3, i4⟩ := ih _ _ _ _ _ (by intro; omega) (by
              intro _
              refine ⟨by omega, ?_⟩
              by_cases hr9 : 9 ≤ resp.length
              · obtain ⟨k1, k2⟩ := h2 hr9
                rw [tcpDataLen_append (by omega)]
                omega
              · have := h1 (by omega)
                omega) h
            refine ⟨i1, i2, got :: chunks, by rw [i3, List.flatten_cons, List.append_assoc], .cons _ _ _ _ _ _ hq i4⟩
          · rw [if_neg h9] at h
            obtain ⟨i1, i2, chunks, i3, i4⟩ := ih _ _ _ _ _ (by
              intro _
              have := h1 (by omega)
              omega) (by intro; omega) h
            refine ⟨i1, i2, got :: chunks, by rw [i3, List.flatten_cons, List.append_assoc], .cons _ _ _ _ _ _ hq i4⟩
    · rw [if_neg hr] at h
      cases h
      have h9 : 9 ≤ resp.length := by
        by_contra hn
        have := h1 (by omega)
        omega
      obtain ⟨k1, k2⟩ := h2 h9
      refine ⟨rfl, ?_, [], by simp, .nil _⟩
      rw [tcpFrameLen_eq (by omega)]
      omega

theorem netRead1_reply {τ} (net : Net τ) (hle : ∀ s n s' c, net.recv s n = (s', some c) → c.length ≤ n) (N : Nat) (w w' : NetWaited τ) (unit : Byte) (a : Int)
    (q : Nat) (d : Bytes) (h : netRead1 net N w unit.toNat 3 a q = (w', .ok d)) :
    w'.sock = w.sock ∧ ∃ s1 chunks, net.send w.st (mbap 0 unit (readPdu 3 a.toNat q)) = (s1, true) ∧ NetReceiving net s1 chunks w'.st ∧ OneReply chunks.flatten d := by
  unfold netRead1 at h
  rw [packTcpRead_eq] at h
  split at h
  · rw [andThen_ok] at h
    simp only [Int.toNat_natCast, BitVec.ofNat_toNat, BitVec.setWidth_eq] at h
    have e3 : BitVec.ofNat 8 (3 : Int).toNat = 3 := rfl
    rw [e3] at h
    generalize mbap 0 unit (readPdu 3 a.toNat q) = req at h ⊢
    unfold netExchange at h
    by_cases hk : w.sock = .connected
    · rw [if_pos hk] at h
      generalize hq : net.send w.st req = o at h
      obtain ⟨s1, b⟩ := o
      cases b with
      | false => cases h
      | true =>
        dsimp only at h
        generalize hx : netRecvF net .modbusClientError N 9 [] { w with st := s1 } = o at h
        obtain ⟨w1, x⟩ := o
        cases x with
        | error e => cases h
        | ok b =>
          rw [andThen_ok] at h
          simp only [Prod.mk.injEq] at h
          obtain ⟨rfl, h⟩ := h
          obtain ⟨k1, k2, chunks, k3, k4⟩ := netRecvF_reply net hle _ _ _ _ _ _ _ (by intro; rfl) (by intro h; simp at h) hx
          rw [List.nil_append] at k3
          subst k3
          refine ⟨k1, s1, chunks, rfl, k4, k2, ?_⟩
          unfold tcpReply at h
          split at h
          · rename_i h7; cases h; exact ⟨.inl h7, rfl⟩
          · split at h
            · cases h
            · rename_i h8; cases h
              refine ⟨.inr ?_, rfl⟩
              apply BitVec.eq_of_toNat_eq
              simpa using h8
    · rw [if_neg hk] at h
      cases h
  · cases h

theorem netReadF_calls {τ} (net : Net τ) (hle : ∀ s n s' c, net.recv s n = (s', some c) → c.length ≤ n) (N : Nat) (unit : Byte) :
    ∀ (fuel : Nat) (a : Int) (count : Nat) (resp : Bytes) (w w' : NetWaited τ) (d : Bytes), netReadF net N unit.toNat 3 125 fuel a count resp w = (w', .ok d) →
    w'.sock = w.sock ∧ ∃ rest, d = resp ++ rest ∧ NetReadCalls net unit w.st a count rest w'.st := by
  intro fuel
  induction fuel with
  | zero => intro a count resp w w' d h; cases h
  | succ fuel ih =>
    intro a count resp w w' d h
    rw [netReadF] at h
    by_cases hc : count > 0
    · rw [if_pos hc] at h
      dsimp only at h
      have hq : (if count > 125 then 125 else count) = min 125 count := by split <;> omega
      rw [hq] at h
      generalize hx : netRead1 net N w unit.toNat 3 a (min 125 count : Nat) = o at h
      obtain ⟨w1, x⟩ := o
      cases x with
      | error e => cases h
      | ok x =>
        rw [andThen_ok] at h
        obtain ⟨k0, s1, chunks, k1, k2, k3⟩ := netRead1_reply net hle N w w1 unit a (min 125 count) x hx
        by_cases h0 : x.length > 0
        · rw [if_pos h0] at h
          obtain ⟨i0, rest, r1, r2⟩ := ih _ _ _ _ _ _ h
          refine ⟨i0.trans k0, x ++ rest, by rw [r1, List.append_assoc], ?_⟩
          exact .step _ s1 w1.st _ _ _ chunks x rest hc k1 k2 k3 (List.length_pos_iff.1 h0) r2
        · rw [if_neg h0] at h
          have hx0 : x = [] := List.length_eq_zero_iff.1 (by omega)
          subst hx0
          cases h
          exact ⟨k0, [], by simp, .short _ s1 _ _ _ chunks hc k1 k2 k3⟩
    · rw [if_neg hc] at h
      cases h
      refine ⟨rfl, [], by simp, ?_⟩
      have : count = 0 := by omega
      subst this
      exact .done _ _

end Verif
