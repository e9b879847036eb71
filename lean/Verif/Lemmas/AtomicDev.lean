import Verif.Lemmas.Atomic
import Verif.Lemmas.Alike

/-! Lemmas for C95: Modbus devices execute write requests completely or not at all. -/

namespace Verif
open Verif.Spec

theorem serve_store {m : Mem} {a : Int} {rs : List Reg} (h0 : 0 < rs.length) (hl : rs.length ≤ 125)
    (hx : ∀ x, a ≤ x → x < a + rs.length → regMem m x ≠ none) :
    (0 ≤ a ∧ a + rs.length ≤ 65536) ∧
    serve m (writePdu a.toNat (regBytes rs)) =
      (if 123 < rs.length then (m, [0x90, 3]) else (memWrite m a.toNat (regBytes rs), 0x10 :: (field16 a.toNat ++ field16 rs.length))) ∧
    regMem (memWrite m a.toNat (regBytes rs)) = stored (regMem m) a rs := by
  obtain ⟨old, ho⟩ := memRegs_exists hx
  obtain ⟨r1, r2⟩ := memRegs_regMem ho h0
  have hd : (regBytes rs).length = 2 * rs.length := regBytes_length rs
  have ha : ((a.toNat : Nat) : Int) = a := by omega
  refine ⟨⟨r1, r2⟩, ?_, ?_⟩
  · rw [serve_write m (by omega) (by omega)]
    have e : (regBytes rs).length / 2 = rs.length := by omega
    rw [e]
    by_cases c : 123 < rs.length
    · rw [if_pos (by omega), if_pos c]
    · rw [if_neg (by omega), if_neg (by omega), if_neg c]
  · have h1 : memRegs (regMem m) (a.toNat : Int) rs.length ≠ none := by rw [ha, ho]; simp
    rw [regMem_write m a.toNat rs h1, memStore_all rs _ _ h1, ha]
    rfl

theorem regBytes_take' (rs : List Reg) (n : Nat) : (regBytes rs).take (2 * n) = regBytes (rs.take n) := (regBytes_take rs n).symm

theorem writeOutcome_ok {sid : Byte} {a : Int} {q : Nat} (ha : 0 ≤ a) {r : Option (List Bytes)}
    (h : writeOutcome sid.toNat a q (r.map received) = .ok ()) : ∃ chunks, r = some chunks ∧ IsWriteEcho sid a.toNat q (received chunks) := by
  cases r with
  | none => simp [writeOutcome] at h
  | some chunks =>
    refine ⟨chunks, rfl, ?_⟩
    have := rtuWriteReply_ok ha h
    simpa using this

theorem rtu_write1 {σ} {slave : Slave σ} {abs : σ → Mem} {sid : Byte} (hu : UnreliableRtu slave abs sid) (l : Line σ) (a : Int) (rs : List Reg)
    (h0 : 0 < rs.length) (hl : rs.length ≤ 125) (hx : ∀ x, a ≤ x → x < a + rs.length → regMem (abs l.dev) x ≠ none) :
    ∃ l' r, rtuWrite1 slave l sid.toNat a (regBytes rs) = (l', r) ∧
      (r = .ok () → rs.length ≤ 123 ∧ regMem (abs l'.dev) = stored (regMem (abs l.dev)) a rs) ∧
      (regMem (abs l'.dev) = stored (regMem (abs l.dev)) a rs ∧ rs.length ≤ 123 ∨ regMem (abs l'.dev) = regMem (abs l.dev)) := by
  obtain ⟨⟨r1, r2⟩, r3, r4⟩ := serve_store h0 hl hx
  have hd : (regBytes rs).length = 2 * rs.length := regBytes_length rs
  have hs := sid.isLt
  rw [rtuWrite1_eq, if_pos (by omega)]
  simp only [Int.toNat_natCast, BitVec.ofNat_toNat, BitVec.setWidth_eq]
  have hf := serveRtu_frame sid (abs l.dev) (writePdu a.toNat (regBytes rs))
  rw [r3] at hf
  have h1 := hu.executed l.dev (rtuFrame sid (writePdu a.toNat (regBytes rs)))
  have h2 := fun chunks => hu.honest l.dev a.toNat (regBytes rs) chunks (by omega) (by omega)
  have e : (regBytes rs).length / 2 = rs.length := by omega
  rw [e] at h2 ⊢
  rw [hf] at h1 h2
  refine ⟨_, _, rfl, ?_, ?_⟩
  · intro hok
    obtain ⟨chunks, c1, c2⟩ := writeOutcome_ok r1 hok
    obtain ⟨g1, g2⟩ := h2 chunks c1 c2
    by_cases c : 123 < rs.length
    · rw [if_pos c] at g2
      have := congrArg List.length (Option.some.inj g2)
      simp [rtuFrame, crcBytes, field16] at this
    · rw [if_neg c] at g1
      exact ⟨by omega, by rw [g1]; exact r4⟩
  · dsimp only
    rcases h1 with h1 | h1
    · by_cases c : 123 < rs.length
      · rw [if_pos c] at h1
        exact .inr (by rw [h1])
      · rw [if_neg c] at h1
        exact .inl ⟨by rw [h1]; exact r4, by omega⟩
    · exact .inr (by rw [h1])

theorem rtu_atomic {σ} {slave : Slave σ} {abs : σ → Mem} {sid : Byte} (hu : UnreliableRtu slave abs sid) :
    AtomicMem (rtuDev slave sid.toNat) (fun l mem => mem = regMem (abs l.dev)) (fun _ => True) (fun _ => True) := by
  intro l mem a rs hR _ h0 _ hx
  subst hR
  show ∃ s' r, rtuWrite slave l sid.toNat a (regBytes rs) 125 = (s', r) ∧ _
  have hd : (regBytes rs).length = 2 * rs.length := regBytes_length rs
  by_cases hl : rs.length ≤ 125
  · obtain ⟨l', r, k1, k2, k3⟩ := rtu_write1 hu l a rs h0 hl hx
    refine ⟨l', r, ?_, ?_⟩
    · rw [rtuWrite_short slave l sid.toNat a _ (by omega), if_neg (by intro h; have := congrArg List.length h; rw [hd] at this; simp only [List.length_nil] at this; omega)]
      exact k1
    · by_cases hok : r = .ok ()
      · exact .inl ⟨hok, trivial, (k2 hok).2.symm⟩
      · refine .inr ⟨hok, ?_⟩
        rcases k3 with ⟨k3, _⟩ | k3
        · exact .inl k3.symm
        · exact .inr k3.symm
  · have hl' : (rs.take 125).length = 125 := by rw [List.length_take]; omega
    obtain ⟨l', r, k1, k2, k3⟩ := rtu_write1 hu l a (rs.take 125) (by omega) (by omega) (fun x x1 x2 => hx x x1 (by rw [hl'] at x2; omega))
    have hok : r ≠ .ok () := fun h => by have := (k2 h).1; omega
    obtain ⟨e, rfl⟩ : ∃ e, r = .error e := by
      cases r with
      | ok u => exact absurd rfl hok
      | error e => exact ⟨e, rfl⟩
    refine ⟨l', .error e, ?_, .inr ⟨hok, .inr ?_⟩⟩
    · unfold rtuWrite
      rw [rtuWriteF, if_pos (by omega)]
      dsimp only
      rw [if_pos (by omega), regBytes_take', k1]
    · rcases k3 with ⟨_, k3⟩ | k3
      · omega
      · exact k3.symm

/-! ## TCP -/

theorem tcpWrite1_sent {σ} (srv : TcpServer σ) (t : Tcp σ) (p : List Bytes) (ht : t.sock = .connected p) (sid addr : Int) (data : Bytes)
    (hr : (0 ≤ sid ∧ sid < 256) ∧ (0 ≤ addr ∧ addr < 65536) ∧ data.length < 256) (req : Bytes)
    (hreq : req = mbap 0 (BitVec.ofNat 8 sid.toNat) (writePdu addr.toNat data)) :
    ∃ p', stream p' = restOf (stream p) (viewOf srv t.dev (stream p) req) ∧
      tcpWrite1 srv t sid addr data = ({ t with dev := (srv.react t.dev req).1, sent := t.sent ++ [req], sock := .connected p' },
        (tcpOutcome .modbusClientTimeout (viewOf srv t.dev (stream p) req)).map fun _ => ()) := by
  subst hreq
  have := tcpWrite1_eq srv t p ht sid addr data
  rw [if_pos hr] at this
  exact this

theorem prefix_getD {w r : Bytes} (h : w <+: r) {i : Nat} (hi : i < w.length) : w.getD i 0 = r.getD i 0 := by
  obtain ⟨tl, rfl⟩ := h
  rw [List.getD_eq_getElem?_getD, List.getD_eq_getElem?_getD, List.getElem?_append_left hi]

/-- The beginning of a reply to a write request that is complete for the client. -/
theorem write_reply {unit : Byte} {n : Nat} {f : Bytes} {w : Bytes} (hf : f.length = 4)
    (hw : w <+: mbap 0 unit (if 123 < n then [0x90, 3] else 0x10 :: f))
    (h1 : tcpFrameLen w ≤ w.length) (h2 : w.getD 7 0 &&& 0x80 = 0 ∨ w.getD 8 0 = 0) : n ≤ 123 ∧ w.drop (tcpFrameLen w) = [] := by
  have h9 : 9 ≤ tcpFrameLen w := Nat.le_max_left _ _
  have g4 := prefix_getD hw (i := 4) (by omega)
  have g5 := prefix_getD hw (i := 5) (by omega)
  have g7 := prefix_getD hw (i := 7) (by omega)
  have g8 := prefix_getD hw (i := 8) (by omega)
  have gl := hw.length_le
  by_cases c : 123 < n
  · rw [if_pos c] at g7 g8
    rw [g7, g8] at h2
    rcases h2 with h2 | h2
    · exact absurd h2 (by simp [mbap, field16])
    · exact absurd h2 (by simp [mbap, field16])
  · rw [if_neg c] at g4 g5 gl
    refine ⟨by omega, ?_⟩
    have hl : (mbap 0 unit (0x10 :: f)).length = 12 := by simp [mbap, field16, hf]
    have e4 : (mbap 0 unit (0x10 :: f)).getD 4 0 = 0 := by simp [mbap, field16, hf]
    have e5 : (mbap 0 unit (0x10 :: f)).getD 5 0 = 6 := by simp [mbap, field16, hf]
    have : tcpFrameLen w = 12 := by
      unfold tcpFrameLen
      rw [g4, g5, e4, e5]
      simp
    rw [List.drop_eq_nil_iff]
    omega

theorem tcp_write1 {σ} {srv : TcpServer σ} {abs : σ → Mem} {unit : Byte} (hu : UnreliableTcp srv abs unit) (t : Tcp σ) (p : List Bytes)
    (ht : t.sock = .connected p) (hp : received p = []) (a : Int) (rs : List Reg)
    (h0 : 0 < rs.length) (hl : rs.length ≤ 125) (hx : ∀ x, a ≤ x → x < a + rs.length → regMem (abs t.dev) x ≠ none) :
    ∃ t' r, tcpWrite1 srv t unit.toNat a (regBytes rs) = (t', r) ∧
      (r = .ok () → regMem (abs t'.dev) = stored (regMem (abs t.dev)) a rs ∧ ∀ p', t'.sock = .connected p' → received p' = []) ∧
      (regMem (abs t'.dev) = stored (regMem (abs t.dev)) a rs ∨ regMem (abs t'.dev) = regMem (abs t.dev)) := by
  obtain ⟨⟨r1, r2⟩, r3, r4⟩ := serve_store h0 hl hx
  have hd : (regBytes rs).length = 2 * rs.length := regBytes_length rs
  have hs := unit.isLt
  obtain ⟨p', k1, k2⟩ := tcpWrite1_sent srv t p ht unit.toNat a (regBytes rs) (by omega) (mbap 0 unit (writePdu a.toNat (regBytes rs)))
    (by simp only [Int.toNat_natCast, BitVec.ofNat_toNat, BitVec.setWidth_eq])
  have hf := serveTcp_mbap unit (abs t.dev) (writePdu a.toNat (regBytes rs))
  rw [r3] at hf
  have h1 := hu.executed t.dev (mbap 0 unit (writePdu a.toNat (regBytes rs)))
  have h2 := hu.honest t.dev (mbap 0 unit (writePdu a.toNat (regBytes rs)))
  rw [hf] at h1 h2
  generalize mbap 0 unit (writePdu a.toNat (regBytes rs)) = req at *
  rw [k2]
  refine ⟨_, _, rfl, ?_, ?_⟩
  · intro hok
    obtain ⟨d, hd⟩ : ∃ d, tcpOutcome .modbusClientTimeout (viewOf srv t.dev (stream p) req) = .ok d := by
      generalize tcpOutcome _ _ = o at hok
      cases o with
      | error e => cases hok
      | ok d => exact ⟨d, rfl⟩
    obtain ⟨w, w1, w2, _, w4⟩ := tcpOutcome_ok hd
    rw [w1] at k1
    unfold viewOf at w1
    generalize hre : srv.react t.dev req = re at *
    obtain ⟨s', c⟩ := re
    cases c with
    | none => cases w1
    | some chunks =>
      obtain ⟨g1, g2⟩ := h2 chunks rfl
      have hw : w = streamAppend (stream p) (stream chunks) := (Option.some.inj w1).symm
      have h9 : 9 ≤ tcpFrameLen w.1 := Nat.le_max_left _ _
      have hw1 : w.1 = received chunks := by
        have hne : (stream p).2 = false := by
          cases hc : (stream p).2 with
          | false => rfl
          | true =>
            have : w.1 = [] := by rw [hw, streamAppend, if_pos hc]; exact hp
            rw [this] at w2 h9
            simp at w2
            omega
        rw [hw, streamAppend, hne, if_neg (by simp)]
        show received p ++ received chunks = _
        rw [hp]; rfl
      have hne : received chunks ≠ [] := by
        intro h
        rw [hw1, h] at w2 h9
        simp at w2
        omega
      have hrep := g1
      have hex := g2 hne
      have hz : (if 123 < rs.length then (abs t.dev, [(0x90 : Byte), 3])
          else (memWrite (abs t.dev) a.toNat (regBytes rs), 0x10 :: (field16 a.toNat ++ field16 rs.length))).2 =
          if 123 < rs.length then [0x90, 3] else 0x10 :: (field16 a.toNat ++ field16 rs.length) := by
        split <;> rfl
      rw [hz, ← hw1] at hrep
      obtain ⟨q1, q2⟩ := write_reply (by simp [field16]) hrep w2 w4
      rw [if_neg (by omega)] at hex
      refine ⟨by rw [show abs s' = _ from hex]; exact r4, ?_⟩
      intro p'' hp''
      cases hp''
      have : received p' = (stream p').1 := rfl
      rw [this, k1]
      exact q2
  · dsimp only
    rcases h1 with h1 | h1
    · by_cases c : 123 < rs.length
      · rw [if_pos c] at h1
        exact .inr (by rw [h1])
      · rw [if_neg c] at h1
        exact .inl (by rw [h1]; exact r4)
    · exact .inr (by rw [h1])

theorem tcp_atomic {σ} {srv : TcpServer σ} {abs : σ → Mem} {unit : Byte} (hu : UnreliableTcp srv abs unit) :
    AtomicMem (tcpDev srv unit.toNat) (fun t mem => mem = regMem (abs t.dev)) (fun t => ∀ p, t.sock = .connected p → received p = [])
      (fun _ => True) := by
  intro t mem a rs hR hready h0 _ hx
  subst hR
  show ∃ s' r, tcpWrite srv t unit.toNat a (regBytes rs) 125 = (s', r) ∧ _
  have hd : (regBytes rs).length = 2 * rs.length := regBytes_length rs
  have body : ∀ t1 : Tcp σ, abs t1.dev = abs t.dev → (∀ p, t1.sock = .connected p → received p = []) →
      ∃ t' r, tcpWriteF srv unit.toNat a 125 (regBytes rs) ((regBytes rs).length + 1) 0 none t1 = (t', r) ∧
        (r = .ok () → regMem (abs t'.dev) = stored (regMem (abs t.dev)) a rs ∧ ∀ p', t'.sock = .connected p' → received p' = []) ∧
        (regMem (abs t'.dev) = stored (regMem (abs t.dev)) a rs ∨ regMem (abs t'.dev) = regMem (abs t.dev)) := by
    intro t1 ht1 hr1
    by_cases hl : rs.length ≤ 125
    · rw [tcpWriteF_short srv t1 unit.toNat a (regBytes rs) 125 (by omega),
        if_neg (by intro h; have := congrArg List.length h; rw [hd] at this; simp only [List.length_nil] at this; omega)]
      by_cases hc : ∃ p, t1.sock = .connected p
      · obtain ⟨p, hp⟩ := hc
        have := tcp_write1 hu t1 p hp (hr1 p hp) a rs h0 hl (by rw [ht1]; exact hx)
        rw [ht1] at this
        exact this
      · obtain ⟨e, e1, _⟩ := tcpWrite1_unconnected srv t1 (fun p hp => hc ⟨p, hp⟩) unit.toNat a (regBytes rs)
        exact ⟨t1, .error e, e1, (fun h => by cases h), .inr (by rw [ht1])⟩
    · rw [tcpWriteF_long srv t1 unit.toNat a (regBytes rs) 125 (by omega)]
      exact ⟨t1, _, rfl, (fun h => by cases h), .inr (by rw [ht1])⟩
  have fin : ∀ (t' : Tcp σ) (r : Py Unit), (r = .ok () → regMem (abs t'.dev) = stored (regMem (abs t.dev)) a rs ∧
      ∀ p', t'.sock = .connected p' → received p' = []) →
      (regMem (abs t'.dev) = stored (regMem (abs t.dev)) a rs ∨ regMem (abs t'.dev) = regMem (abs t.dev)) →
      (r = .ok () ∧ (∀ p', t'.sock = .connected p' → received p' = []) ∧ stored (regMem (abs t.dev)) a rs = regMem (abs t'.dev) ∨
        r ≠ .ok () ∧ (stored (regMem (abs t.dev)) a rs = regMem (abs t'.dev) ∨ regMem (abs t.dev) = regMem (abs t'.dev))) := by
    intro t' r h1 h2
    by_cases hok : r = .ok ()
    · exact .inl ⟨hok, (h1 hok).2, (h1 hok).1.symm⟩
    · exact .inr ⟨hok, h2.imp Eq.symm Eq.symm⟩
  unfold tcpWrite
  by_cases hs : t.sock = .absent
  · cases hacc : (srv.accept t.dev).2 with
    | true =>
      rw [tcpWith_absent srv t _ hs hacc]
      obtain ⟨t', r, k1, k2, k3⟩ := body { t with dev := (srv.accept t.dev).1, sock := .connected [], opened := t.opened + 1 }
        (hu.accept t.dev) (fun p hp => by cases hp; rfl)
      rw [k1]
      obtain ⟨d1, d2⟩ := tcpDisconnect_dev t'
      refine ⟨_, _, rfl, fin _ _ (fun h => ⟨?_, ?_⟩) ?_⟩
      · dsimp only; rw [d1]; exact (k2 h).1
      · intro p' hp'
        dsimp only at hp'
        rw [d2] at hp'
        cases hp'
      · dsimp only; rw [d1]; exact k3
    | false =>
      rw [tcpWith_refused srv t _ hs hacc]
      refine ⟨_, _, rfl, fin _ _ (fun h => by cases h) (.inr ?_)⟩
      dsimp only
      rw [hu.accept]
  · rw [tcpWith_present srv t _ hs]
    obtain ⟨t', r, k1, k2, k3⟩ := body t rfl hready
    rw [k1]
    exact ⟨_, _, rfl, fin _ _ k2 k3⟩

end Verif
