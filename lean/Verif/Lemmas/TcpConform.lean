import Verif.Lemmas.Tcp

/-! Lemmas: the TCP client's requests; conforming servers; fragmentation; connection state. -/

namespace Verif
open Verif.Spec

theorem andThen_ok {σ α β} (s : σ) (a : α) (f : σ → α → σ × Py β) : andThen (s, .ok a) f = f s a := rfl
theorem andThen_error {σ α β} (s : σ) (e : Exc) (f : σ → α → σ × Py β) :
    andThen (s, .error e) f = (s, .error e) := rfl

theorem mbap_readPdu (unit op : Byte) (a q : Nat) :
    mbap 0 unit (readPdu op a q) = [0, 0, 0, 0, 0, 6] ++ unit :: readPdu op a q := by
  simp [mbap, readPdu, field16]

theorem packTcpRead_eq (sid op addr count : Int) : packTcpRead sid op addr count =
    if (0 ≤ sid ∧ sid < 256) ∧ (0 ≤ op ∧ op < 256) ∧ (0 ≤ addr ∧ addr < 65536) ∧
        (0 ≤ count ∧ count < 65536) then
      .ok (mbap 0 (BitVec.ofNat 8 sid.toNat)
        (readPdu (BitVec.ofNat 8 op.toNat) addr.toNat count.toNat))
    else .error .structError := by
  unfold packTcpRead
  have h0 : packU 2 0 = .ok [0, 0] := by decide
  have h6 : packU 2 6 = .ok [0, 6] := by decide
  rw [h0, h6, packBBHH_eq]
  by_cases hr : (0 ≤ sid ∧ sid < 256) ∧ (0 ≤ op ∧ op < 256) ∧ (0 ≤ addr ∧ addr < 65536) ∧
        (0 ≤ count ∧ count < 65536)
  · rw [if_pos hr, if_pos hr, mbap_readPdu]; simp [packFields]
  · rw [if_neg hr, if_neg hr]; rfl

theorem packU2_eq (v : Int) : packU 2 v =
    if 0 ≤ v ∧ v < 65536 then .ok (field16 v.toNat) else .error .structError := by
  unfold packU
  simp only [Int.reducePow, beEnc2]

theorem packTcpWrite_eq (sid addr : Int) (data : Bytes) :
    packTcpWrite sid addr (data.length / 2 : Nat) data.length =
    if (0 ≤ sid ∧ sid < 256) ∧ (0 ≤ addr ∧ addr < 65536) ∧ data.length < 256 then
      .ok ([0, 0, 0, 0] ++ field16 (7 + data.length) ++
        (BitVec.ofNat 8 sid.toNat :: 0x10 ::
        (field16 addr.toNat ++ field16 (data.length / 2) ++ [BitVec.ofNat 8 data.length])))
    else .error .structError := by
  unfold packTcpWrite
  have h0 : packU 2 0 = .ok [0, 0] := by decide
  rw [h0, packBBHHB_eq, packU2_eq]
  have hn : (7 + (data.length : Int)).toNat = 7 + data.length := by omega
  rw [hn]
  generalize hn2 : data.length / 2 = n2
  generalize data.length = n at *
  by_cases hr : (0 ≤ sid ∧ sid < 256) ∧ (0 ≤ addr ∧ addr < 65536) ∧ n < 256
  · have hA : 0 ≤ 7 + (n : Int) ∧ 7 + (n : Int) < 65536 := by omega
    have hB : (0 ≤ sid ∧ sid < 256) ∧ (0 ≤ addr ∧ addr < 65536) ∧
      (0 ≤ (n2 : Int) ∧ (n2 : Int) < 65536) ∧ 0 ≤ (n : Int) ∧ (n : Int) < 256 := by omega
    rw [if_pos hr, if_pos hA, if_pos hB]
    simp only [packFields, Int.toNat_natCast]
    simp only [List.cons_append, List.nil_append, List.append_assoc, List.append_nil]
  · have hB : ¬ ((0 ≤ sid ∧ sid < 256) ∧ (0 ≤ addr ∧ addr < 65536) ∧
      (0 ≤ (n2 : Int) ∧ (n2 : Int) < 65536) ∧ 0 ≤ (n : Int) ∧ (n : Int) < 256) := by omega
    rw [if_neg hr, if_neg hB]
    by_cases hA : 0 ≤ 7 + (n : Int) ∧ 7 + (n : Int) < 65536
    · rw [if_pos hA]; rfl
    · rw [if_neg hA]; rfl

theorem mbap_writePdu (unit : Byte) (a : Nat) (data : Bytes) :
    [0, 0, 0, 0] ++ field16 (7 + data.length) ++
        (unit :: 0x10 :: (field16 a ++ field16 (data.length / 2) ++ [BitVec.ofNat 8 data.length])) ++ data =
    mbap 0 unit (writePdu a data) := by
  have : (writePdu a data).length + 1 = 7 + data.length := by simp [writePdu, field16]; omega
  unfold mbap
  rw [this]
  simp [writePdu, field16]

/-! ### A conforming server -/

theorem serveTcp_mbap (unit : Byte) (m : Mem) (pdu : Bytes) :
    serveTcp unit m (mbap 0 unit pdu) = ((serve m pdu).1, mbap 0 unit (serve m pdu).2) := by
  have h1 : (mbap 0 unit pdu).drop 7 = pdu := by simp [mbap, field16]
  have h2 : ((mbap 0 unit pdu).getD 0 0).toNat * 256 + ((mbap 0 unit pdu).getD 1 0).toNat = 0 := by
    simp [mbap, field16]
  unfold serveTcp
  simp only [h1, h2, if_true]

theorem received_of_nonempty {p : List Bytes} (h : ∀ c ∈ p, c ≠ []) : received p = p.flatten := by
  have := received_append_of h []
  simpa [received] using this

theorem nil_of_received {p : List Bytes} (h1 : received p = []) (h2 : ([] : Bytes) ∉ p) : p = [] := by
  cases p with
  | nil => rfl
  | cons c p =>
    have hc : c ≠ [] := fun h => h2 (by simp [h])
    rw [received_cons hc] at h1
    simp at h1
    exact absurd h1.1 hc

/-- One exchange with a conforming server on an idle connection. -/
theorem conform_exchange {σ} {srv : TcpServer σ} {abs : σ → Mem} {unit : Byte}
    (hc : ConformsTcp srv.accept srv.react abs unit) (ce : Exc) (t : Tcp σ)
    (ht : t.sock = .connected []) (pdu : Bytes) (h2 : 2 ≤ (serve (abs t.dev) pdu).2.length)
    (h3 : (serve (abs t.dev) pdu).2.length < 65535) :
    ∃ d, tcpExchange srv ce t (mbap 0 unit pdu) =
        ({ t with dev := d, sent := t.sent ++ [mbap 0 unit pdu], sock := .connected [] },
          .ok (mbap 0 unit (serve (abs t.dev) pdu).2)) ∧
      abs d = (serve (abs t.dev) pdu).1 := by
  obtain ⟨_, hr⟩ := hc
  obtain ⟨h4, chunks, h5, h6, h7⟩ := hr t.dev (mbap 0 unit pdu)
  rw [serveTcp_mbap] at h4 h7
  refine ⟨(srv.react t.dev (mbap 0 unit pdu)).1, ?_, h4⟩
  unfold tcpExchange
  rw [ht]
  simp only [List.nil_append]
  have hpair : srv.react t.dev (mbap 0 unit pdu) =
      ((srv.react t.dev (mbap 0 unit pdu)).1, some chunks) := by rw [← h5]
  rw [hpair]
  dsimp only at h7 ⊢
  generalize hrep : (serve (abs t.dev) pdu).2 = rep at *
  obtain ⟨r1, r2, r3⟩ := tcpRecv_eq ce chunks
  have hno : ([] : Bytes) ∉ chunks := fun h => h6 _ h rfl
  have hrec : received chunks = mbap 0 unit rep := by rw [received_of_nonempty h6, h7]
  have hlen : (mbap 0 unit rep).length = rep.length + 7 := by simp [mbap, field16]
  have hdl : tcpDataLen (mbap 0 unit rep) = rep.length + 1 := by
    simp only [tcpDataLen, mbap, field16, List.cons_append, List.nil_append, List.drop_succ_cons,
      List.drop_zero, List.take_succ_cons, List.take_zero, beDec_two]
    exact field16_toNat (by omega)
  have hflat : ∀ cl, tcpFlat ce (received chunks) cl = ([], .ok (mbap 0 unit rep)) := by
    intro cl
    unfold tcpFlat
    rw [hrec, hdl]
    have hm : max 9 (6 + (rep.length + 1)) = rep.length + 7 := by omega
    simp only [hm]
    rw [if_neg (by omega), List.drop_eq_nil_of_le (by omega), List.take_of_length_le (by omega)]
  rw [hflat] at r1 r2
  have hp : (tcpRecvF ce (bytesLeft chunks + 1) 9 [] chunks).1 = [] :=
    nil_of_received r2 (fun h => hno (r3.1 h))
  rw [hp, r1]

theorem tcpReply_mbap (unit f c : Byte) (rest : Bytes) : tcpReply (mbap 0 unit (f :: c :: rest)) =
    if f &&& 0x80 = 0 then .ok rest
    else if c ≠ 0 then .error (.modbusClientException c.toNat) else .ok rest := by
  have h7 : (mbap 0 unit (f :: c :: rest)).getD 7 0 = f := by simp [mbap, field16]
  have h8 : (mbap 0 unit (f :: c :: rest)).getD 8 0 = c := by simp [mbap, field16]
  have h9 : (mbap 0 unit (f :: c :: rest)).drop 9 = rest := by simp [mbap, field16]
  unfold tcpReply
  rw [h7, h8, h9]
  have : c.toNat ≠ 0 ↔ c ≠ 0 := by
    constructor
    · intro h h0; subst h0; exact h rfl
    · intro h h0; exact h (BitVec.eq_of_toNat_eq (by simpa using h0))
  simp only [this]

/-- The outcome of one read exchange with a conforming server. -/
theorem conform_tcpRead1 {σ} {srv : TcpServer σ} {abs : σ → Mem} {unit : Byte}
    (hc : ConformsTcp srv.accept srv.react abs unit) (t : Tcp σ)
    (ht : t.sock = .connected []) (op addr : Int) (q : Nat) :
    ∃ t', (tcpRead1 srv t unit.toNat op addr q) = (t',
        if (0 ≤ op ∧ op < 256) ∧ (0 ≤ addr ∧ addr < 65536) ∧ q < 65536 then
          if op = 3 ∨ op = 4 then
            if q < 1 ∨ 125 < q then .error (.modbusClientException 3)
            else if 65536 < addr + q then .error (.modbusClientException 2)
            else .ok (memRead (abs t.dev) addr.toNat q)
          else if op = 16 then .error (.modbusClientException 3)
          else .error (.modbusClientException 1)
        else .error .structError) ∧ abs t'.dev = abs t.dev ∧ t'.sock = .connected [] ∧
        t'.opened = t.opened ∧ t'.closed = t.closed := by
  unfold tcpRead1
  rw [packTcpRead_eq]
  by_cases hr : (0 ≤ op ∧ op < 256) ∧ (0 ≤ addr ∧ addr < 65536) ∧ q < 65536
  · have hu := unit.isLt
    rw [if_pos hr, if_pos (by omega)]
    simp only [Int.toNat_natCast, BitVec.ofNat_toNat, BitVec.setWidth_eq]
    have hopn : ∀ k : Nat, k < 256 → ((BitVec.ofNat 8 op.toNat : Byte) = BitVec.ofNat 8 k ↔ op = k) := by
      intro k hk
      constructor
      · intro h
        have := congrArg BitVec.toNat h
        simp only [BitVec.toNat_ofNat] at this; omega
      · intro h; subst h; simp
    have h3 : (BitVec.ofNat 8 op.toNat : Byte) = 3 ↔ op = 3 := hopn 3 (by decide)
    have h4 : (BitVec.ofNat 8 op.toNat : Byte) = 4 ↔ op = 4 := hopn 4 (by decide)
    have h16 : (BitVec.ofNat 8 op.toNat : Byte) = 16 ↔ op = 16 := hopn 16 (by decide)
    generalize (BitVec.ofNat 8 op.toNat : Byte) = opb at *
    have hserve : serve (abs t.dev) (readPdu opb addr.toNat q) = (abs t.dev,
        if op = 3 ∨ op = 4 then
          if q < 1 ∨ 125 < q then [opb ||| 0x80, 3]
          else if 65536 < addr + q then [opb ||| 0x80, 2]
          else opb :: BitVec.ofNat 8 (2 * q) :: memRead (abs t.dev) addr.toNat q
        else if op = 16 then [opb ||| 0x80, 3] else [opb ||| 0x80, 1]) := by
      by_cases hop : op = 3 ∨ op = 4
      · rw [if_pos hop, serve_read _ _ (by rw [h3, h4]; exact hop) (by omega) hr.2.2]
        have : 65536 < addr.toNat + q ↔ 65536 < addr + (q : Int) := by omega
        simp only [this]
      · rw [if_neg hop]
        rw [← h3, ← h4] at hop
        by_cases h : op = 16
        · rw [if_pos h]
          have := h16.2 h
          subst this
          unfold serve readPdu
          simp [field16]
        · rw [if_neg h]
          unfold serve readPdu
          simp only [if_neg hop, if_neg (mt h16.1 h)]
    have h8 : ∀ o : Byte, ¬ (o ||| 0x80) &&& 0x80 = 0 := by decide +kernel
    have hml := memRead_length (abs t.dev) addr.toNat q
    obtain ⟨d, hd1, hd2⟩ := conform_exchange hc .modbusClientError t ht (readPdu opb addr.toNat q)
      (by rw [hserve]; dsimp only; repeat' split
          all_goals simp)
      (by rw [hserve]; dsimp only; repeat' split
          all_goals simp only [List.length_cons, List.length_nil, hml]
          all_goals omega)
    rw [andThen_ok, hd1, andThen_ok, hserve]
    refine ⟨{ t with dev := d, sent := t.sent ++ [mbap 0 unit (readPdu opb addr.toNat q)],
                     sock := .connected [] }, ?_, ?_, rfl, rfl, rfl⟩
    · dsimp only
      congr 1
      by_cases hop : op = 3 ∨ op = 4
      · rw [if_pos hop, if_pos hop]
        have hb : opb &&& 0x80 = 0 := by
          rcases hop with h | h
          · rw [h3.2 h]; decide
          · rw [h4.2 h]; decide
        by_cases hq : q < 1 ∨ 125 < q
        · rw [if_pos hq, if_pos hq, tcpReply_mbap, if_neg (h8 opb)]; rfl
        · rw [if_neg hq, if_neg hq]
          by_cases hl : 65536 < addr + (q : Int)
          · rw [if_pos hl, if_pos hl, tcpReply_mbap, if_neg (h8 opb)]; rfl
          · rw [if_neg hl, if_neg hl, tcpReply_mbap, if_pos hb]
      · rw [if_neg hop, if_neg hop]
        by_cases h : op = 16
        · rw [if_pos h, if_pos h, tcpReply_mbap, if_neg (h8 opb)]; rfl
        · rw [if_neg h, if_neg h, tcpReply_mbap, if_neg (h8 opb)]; rfl
    · show abs d = abs t.dev
      rw [hd2, hserve]
  · rw [if_neg hr, if_neg (by omega)]
    exact ⟨t, rfl, rfl, ht, rfl, rfl⟩

/-- Reading from a conforming server. -/
theorem tcpReadF_conform {σ} {srv : TcpServer σ} {abs : σ → Mem} {unit : Byte}
    (hc : ConformsTcp srv.accept srv.react abs unit) (op : Int) (hop : op = 3 ∨ op = 4)
    (maxCount : Nat) (hm : 0 < maxCount) (fuel a count : Nat) (resp : Bytes) (t : Tcp σ)
    (ht : t.sock = .connected []) (hf : count < fuel)
    (hq : maxCount ≤ 125 ∨ count ≤ 125) (ha : a + count ≤ 65536) :
    ∃ t', tcpReadF srv unit.toNat op maxCount fuel a count resp t =
        (t', .ok (resp ++ memRead (abs t.dev) a count)) ∧ abs t'.dev = abs t.dev ∧
        t'.sock = .connected [] := by
  induction fuel generalizing a count resp t with
  | zero => omega
  | succ fuel ih =>
    rw [tcpReadF]
    by_cases hcz : count > 0
    · rw [if_pos hcz]
      simp only
      generalize hqq : (if count > maxCount then maxCount else count) = q
      have hq1 : q ≤ count ∧ 1 ≤ q ∧ q ≤ 125 := by split at hqq <;> omega
      obtain ⟨t1, h1, h2, h3, _, _⟩ := conform_tcpRead1 hc t ht op a q
      rw [if_pos (by omega), if_pos hop, if_neg (by omega), if_neg (by omega)] at h1
      rw [h1]
      simp only [andThen_ok, memRead_length, Int.toNat_natCast]
      rw [if_pos (by omega)]
      obtain ⟨t', h4, h5, h6⟩ := ih (a + q) (count - q) (resp ++ memRead (abs t.dev) a q) t1 h3
        (by omega) (by omega) (by omega)
      rw [Int.natCast_add] at h4
      refine ⟨t', ?_, by rw [h5, h2], h6⟩
      rw [h4, h2, List.append_assoc, ← memRead_add, show q + (count - q) = count by omega]
    · rw [if_neg hcz]
      have : count = 0 := by omega
      subst this
      exact ⟨t, by simp [memRead], rfl, ht⟩

theorem tcpReadF_sound {σ} {srv : TcpServer σ} {abs : σ → Mem} {unit : Byte}
    (hc : ConformsTcp srv.accept srv.react abs unit) (op : Int)
    (maxCount : Nat) (fuel : Nat) (a : Int) (count : Nat) (resp : Bytes) (t t' : Tcp σ)
    (ht : t.sock = .connected []) (r : Bytes)
    (h : tcpReadF srv unit.toNat op maxCount fuel a count resp t = (t', .ok r)) :
    r = resp ++ memRead (abs t.dev) a.toNat count := by
  induction fuel generalizing a count resp t with
  | zero => simp [tcpReadF] at h
  | succ fuel ih =>
    rw [tcpReadF] at h
    by_cases hcz : count > 0
    · rw [if_pos hcz] at h
      simp only at h
      generalize hqq : (if count > maxCount then maxCount else count) = q at h
      have hq1 : q ≤ count := by split at hqq <;> omega
      obtain ⟨t1, h1, h2, h3, _, _⟩ := conform_tcpRead1 hc t ht op a q
      rw [h1] at h
      clear h1
      by_cases hr : (0 ≤ op ∧ op < 256) ∧ (0 ≤ a ∧ a < 65536) ∧ q < 65536
      · simp only [if_pos hr] at h
        by_cases hop : op = 3 ∨ op = 4
        · simp only [if_pos hop] at h
          by_cases hq : q < 1 ∨ 125 < q
          · simp only [if_pos hq, andThen_error] at h; simp at h
          · simp only [if_neg hq] at h
            by_cases hl : 65536 < a + (q : Int)
            · simp only [if_pos hl, andThen_error] at h; simp at h
            · simp only [if_neg hl, andThen_ok, memRead_length] at h
              rw [if_pos (by omega)] at h
              have := ih _ _ _ _ h3 h
              rw [this, h2, List.append_assoc, show (a + (q : Int)).toNat = a.toNat + q by omega,
                ← memRead_add, show q + (count - q) = count by omega]
        · simp only [if_neg hop] at h
          by_cases h16 : op = 16
          · simp only [if_pos h16, andThen_error] at h; simp at h
          · simp only [if_neg h16, andThen_error] at h; simp at h
      · simp only [if_neg hr, andThen_error] at h; simp at h
    · rw [if_neg hcz] at h
      have : count = 0 := by omega
      subst this
      simp only [Prod.mk.injEq, Except.ok.injEq] at h
      rw [← h.2]; simp [memRead]

/-- One write exchange with a conforming server. -/
theorem conform_tcpWrite1 {σ} {srv : TcpServer σ} {abs : σ → Mem} {unit : Byte}
    (hc : ConformsTcp srv.accept srv.react abs unit) (t : Tcp σ)
    (ht : t.sock = .connected []) (addr : Int) (data : Bytes) :
    ∃ t' e, t'.sock = .connected [] ∧ (abs t'.dev, e) =
        (if (0 ≤ addr ∧ addr < 65536) ∧ data.length < 256 then
          if data.length / 2 < 1 ∨ 123 < data.length / 2 ∨ data.length % 2 = 1 then
            (abs t.dev, .error (.modbusClientException 3))
          else if 65536 < addr + (data.length / 2 : Nat) then
            (abs t.dev, .error (.modbusClientException 2))
          else (memWrite (abs t.dev) addr.toNat data, .ok ())
        else (abs t.dev, .error .structError)) ∧
      tcpWrite1 srv t unit.toNat addr data = (t', e) := by
  unfold tcpWrite1
  rw [packTcpWrite_eq]
  by_cases hr : (0 ≤ addr ∧ addr < 65536) ∧ data.length < 256
  · have hu := unit.isLt
    have hB : (0 ≤ (unit.toNat : Int) ∧ (unit.toNat : Int) < 256) ∧ (0 ≤ addr ∧ addr < 65536) ∧
      data.length < 256 := by omega
    rw [if_pos hr, if_pos hB]
    simp only [Int.toNat_natCast, BitVec.ofNat_toNat, BitVec.setWidth_eq]
    rw [andThen_ok, mbap_writePdu]
    have hserve := serve_write (abs t.dev) (a := addr.toNat) (data := data) (by omega) hr.2
    obtain ⟨d, hd1, hd2⟩ := conform_exchange hc .modbusClientTimeout t ht (writePdu addr.toNat data)
      (by rw [hserve]; repeat' split
          all_goals simp [field16])
      (by rw [hserve]; repeat' split
          all_goals simp [field16])
    rw [hd1, andThen_ok]
    rw [hserve] at hd2 ⊢
    have h90 : ¬ (0x90 : Byte) &&& 0x80 = 0 := by decide
    have h10 : (0x10 : Byte) &&& 0x80 = 0 := by decide
    have h3 : (3 : Byte) ≠ 0 := by decide
    have h2 : (2 : Byte) ≠ 0 := by decide
    by_cases hA : data.length / 2 < 1 ∨ 123 < data.length / 2 ∨ data.length % 2 = 1
    · rw [if_pos hA] at hd2 ⊢
      rw [if_pos hA, tcpReply_mbap, if_neg h90, if_pos h3]
      exact ⟨_, _, rfl, congrArg (·, _) hd2, rfl⟩
    · rw [if_neg hA] at hd2 ⊢
      have : 65536 < addr.toNat + data.length / 2 ↔ 65536 < addr + ((data.length / 2 : Nat) : Int) := by
        omega
      simp only [this] at hd2 ⊢
      rw [if_neg hA]
      by_cases hB : 65536 < addr + ((data.length / 2 : Nat) : Int)
      · rw [if_pos hB] at hd2 ⊢
        rw [if_pos hB, tcpReply_mbap, if_neg h90, if_pos h2]
        exact ⟨_, _, rfl, congrArg (·, _) hd2, rfl⟩
      · rw [if_neg hB] at hd2 ⊢
        rw [if_neg hB]
        simp only [field16, List.cons_append, List.nil_append]
        rw [tcpReply_mbap, if_pos h10]
        exact ⟨_, _, rfl, congrArg (·, _) hd2, rfl⟩
  · have hB : ¬ ((0 ≤ (unit.toNat : Int) ∧ (unit.toNat : Int) < 256) ∧ (0 ≤ addr ∧ addr < 65536) ∧
      data.length < 256) := by omega
    rw [if_neg hr, if_neg hB]
    exact ⟨t, _, ht, rfl, rfl⟩

/-- A write that fits in one request. -/
theorem tcpWriteF_short {σ} (srv : TcpServer σ) (t : Tcp σ) (sid addr : Int) (data : Bytes)
    (maxCount : Nat) (h : data.length ≤ 2 * maxCount) :
    tcpWriteF srv sid addr maxCount data (data.length + 1) 0 none t =
      if data = [] then (t, .ok ()) else tcpWrite1 srv t sid addr data := by
  rw [tcpWriteF]
  by_cases h0 : data = []
  · subst h0; rfl
  · have hl : 0 < data.length := List.length_pos_iff.2 h0
    have hA : data.length - 0 > 0 := by omega
    have hB : ¬ data.length - 0 > 2 * maxCount := by omega
    rw [if_neg h0, if_pos hA]
    dsimp only
    rw [if_neg hB, if_neg hB]
    dsimp only
    have e1 : (data.drop 0).take (0 + (data.length - 0) - 0) = data := by
      rw [List.drop_zero]; exact List.take_of_length_le (by omega)
    rw [e1]
    have e2 : addr + ((0 / 2 : Nat) : Int) = addr := by simp
    rw [e2]
    match h1 : tcpWrite1 srv t sid addr data with
    | (t', .error e) => rfl
    | (t', .ok ()) =>
      rw [andThen_ok]
      have hC : ¬ data.length - (0 + (data.length - 0)) > 0 := by omega
      obtain ⟨f, hf⟩ : ∃ f, data.length = f + 1 := ⟨data.length - 1, by omega⟩
      have key : ∀ g, g = f + 1 → tcpWriteF srv sid addr maxCount data g (0 + (data.length - 0))
          (some (0, 0 + (data.length - 0))) t' = (t', .ok ()) := by
        intro g hg; subst hg; rw [tcpWriteF, if_neg hC]
      exact key _ hf

/-- A longer write fails before anything is sent. -/
theorem tcpWriteF_long {σ} (srv : TcpServer σ) (t : Tcp σ) (sid addr : Int) (data : Bytes)
    (maxCount : Nat) (h : 2 * maxCount < data.length) :
    tcpWriteF srv sid addr maxCount data (data.length + 1) 0 none t = (t, .error .unboundLocal) := by
  have hA : data.length - 0 > 0 := by omega
  have hB : data.length - 0 > 2 * maxCount := by omega
  rw [tcpWriteF, if_pos hA]
  dsimp only
  rw [if_pos hB]

end Verif
