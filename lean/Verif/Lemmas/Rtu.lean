import Verif.Model.Rtu
import Verif.Spec.Modbus
import Verif.Lemmas.Crc
import Verif.Lemmas.Codec

/-! Lemmas about the RTU client. -/

namespace Verif
open Verif.Spec

/-! ### Receiving -/

theorem bytesLeft_cons (c : Bytes) (r : List Bytes) : bytesLeft (c :: r) = c.length + bytesLeft r := by
  simp [bytesLeft]

theorem received_cons_nil (r : List Bytes) : received ([] :: r) = [] := by simp [received]

theorem received_cons {c : Bytes} (hc : c ≠ []) (r : List Bytes) :
    received (c :: r) = c ++ received r := by
  simp [received, hc]

/-- Either a read delivers nothing and nothing more is received, or it delivers a non-empty prefix
of what is received. -/
theorem serialRead_cases (n : Nat) (hn : 0 < n) (chunks : List Bytes) :
    ((serialRead n chunks).1 = [] ∧ received chunks = []) ∨
    (0 < (serialRead n chunks).1.length ∧ (serialRead n chunks).1.length ≤ n ∧
      received chunks = (serialRead n chunks).1 ++ received (serialRead n chunks).2 ∧
      bytesLeft chunks = (serialRead n chunks).1.length + bytesLeft (serialRead n chunks).2) := by
  cases chunks with
  | nil => left; exact ⟨rfl, rfl⟩
  | cons c r =>
    by_cases hc : c = []
    · left; subst hc; exact ⟨by simp [serialRead], received_cons_nil r⟩
    · right
      have hcl : 0 < c.length := List.length_pos_iff.2 hc
      by_cases hle : c.length ≤ n
      · have e : serialRead n (c :: r) = (c, r) := by simp [serialRead, hle]
        rw [e]
        exact ⟨hcl, hle, received_cons hc r, bytesLeft_cons c r⟩
      · have e : serialRead n (c :: r) = (c.take n, c.drop n :: r) := by simp [serialRead, hle]
        rw [e]
        have hd : c.drop n ≠ [] := by
          intro h0; have := congrArg List.length h0; simp at this; omega
        refine ⟨by simp; omega, by simp; omega, ?_, ?_⟩
        · rw [received_cons hc, received_cons hd, ← List.append_assoc, List.take_append_drop]
        · rw [bytesLeft_cons, bytesLeft_cons]; simp; omega

/-- The receive loop after the length is known. -/
theorem recvLoopF_found (total : Bytes → Int) (fuel : Nat) (r : Nat) (resp : Bytes)
    (exc : Option Nat) (chunks : List Bytes) (hf : bytesLeft chunks < fuel) :
    recvLoopF total fuel r true resp exc chunks =
      if (received chunks).length < r then .error .modbusClientTimeout
      else .ok (resp ++ (received chunks).take r, exc) := by
  induction fuel generalizing r resp chunks with
  | zero => omega
  | succ fuel ih =>
    rw [recvLoopF]
    by_cases hr : (r : Int) > 0
    · rw [if_pos hr]
      have hr' : 0 < r := by omega
      simp only [Int.toNat_natCast]
      rcases serialRead_cases r hr' chunks with ⟨h1, h2⟩ | ⟨h1, h2, h3, h4⟩
      · rw [h1, h2]; simp [hr']
      · rw [if_pos h1]
        simp only [Bool.true_eq_false, false_and, if_false]
        have : (r : Int) - ((serialRead r chunks).1.length : Int) =
            ((r - (serialRead r chunks).1.length : Nat) : Int) := by omega
        rw [this, ih _ _ _ (by omega), h3]
        generalize (serialRead r chunks).1 = c at *
        generalize received (serialRead r chunks).2 = d at *
        simp only [List.length_append]
        by_cases hlt : c.length + d.length < r
        · rw [if_pos (by omega), if_pos hlt]
        · rw [if_neg (by omega), if_neg hlt, List.take_append, List.take_of_length_le h2,
            List.append_assoc]
    · rw [if_neg hr]
      have : r = 0 := by omega
      subst this
      simp

/-- What the receive loop makes of the received bytes: `total` is the reply length as a function
of the first five bytes. -/
def recvFlat (total : Bytes → Int) (b : Bytes) : Py (Bytes × Option Nat) :=
  if b.length < 5 then .error .modbusClientTimeout
  else if (b.getD 1 0) &&& 0x80 = 0 then
    if (b.length : Int) < total (b.take 5) then .error .modbusClientTimeout
    else .ok (b.take (total (b.take 5)).toNat, none)
  else .ok (b.take 5, some (b.getD 2 0).toNat)

theorem getD_take {α} (l : List α) (n i : Nat) (d : α) (h : i < n) : (l.take n).getD i d = l.getD i d := by
  rw [List.getD_eq_getElem?_getD, List.getD_eq_getElem?_getD, List.getElem?_take, if_pos h]

theorem recvLoopF_header (total : Bytes → Int) (htot : ∀ b, 5 ≤ total b) (fuel : Nat) (r : Nat)
    (resp : Bytes) (hr : 0 < r) (hresp : resp.length + r = 5) (chunks : List Bytes)
    (hf : bytesLeft chunks < fuel) :
    recvLoopF total fuel r false resp none chunks = recvFlat total (resp ++ received chunks) := by
  induction fuel generalizing r resp chunks with
  | zero => omega
  | succ fuel ih =>
    rw [recvLoopF, if_pos (by omega)]
    simp only [Int.toNat_natCast]
    rcases serialRead_cases r hr chunks with ⟨h1, h2⟩ | ⟨h1, h2, h3, h4⟩
    · rw [h1, h2]
      simp only [List.length_nil, Nat.lt_irrefl, if_false, List.append_nil]
      rw [recvFlat, if_pos (by omega)]
    · rw [if_pos h1, h3]
      generalize hc : (serialRead r chunks).1 = c at *
      generalize hd : (serialRead r chunks).2 = d at *
      by_cases h5 : r = c.length
      · -- the header is complete
        have hlen : (resp ++ c).length = 5 := by simp; omega
        have htake : (resp ++ (c ++ received d)).take 5 = resp ++ c := by
          rw [← List.append_assoc, List.take_append, List.take_of_length_le (by omega), hlen]
          simp
        have hg1 : (resp ++ (c ++ received d)).getD 1 0 = (resp ++ c).getD 1 0 := by
          rw [← htake, getD_take _ _ _ _ (by omega)]
        have hg2 : (resp ++ (c ++ received d)).getD 2 0 = (resp ++ c).getD 2 0 := by
          rw [← htake, getD_take _ _ _ _ (by omega)]
        rw [if_pos ⟨trivial, by omega⟩]
        have hnl : ¬ (resp ++ (c ++ received d)).length < 5 := by simp at hlen ⊢; omega
        rw [recvFlat, if_neg hnl, hg1, hg2, htake]
        split
        · obtain ⟨t, ht⟩ : ∃ t : Nat, total (resp ++ c) = (t + 5 : Nat) :=
            ⟨(total (resp ++ c) - 5).toNat, by have := htot (resp ++ c); omega⟩
          have : total (resp ++ c) - ((resp ++ c).length : Int) = (t : Int) := by omega
          rw [this, recvLoopF_found _ _ _ _ _ _ (by omega), ht]
          simp only [List.length_append] at hlen ⊢
          by_cases hlt : (received d).length < t
          · rw [if_pos hlt, if_pos (by omega)]
          · rw [if_neg hlt, if_neg (by omega)]
            congr 2
            rw [Int.toNat_natCast, ← List.append_assoc, List.take_append,
              List.take_of_length_le (l := resp ++ c) (by rw [List.length_append]; omega),
              List.length_append, show t + 5 - (resp.length + c.length) = t by omega]
        · have : (r : Int) - (c.length : Int) = 0 := by omega
          rw [this]
          cases fuel with
          | zero => omega
          | succ fuel => rw [recvLoopF]; simp
      · have h5' : ¬ (True ∧ (resp ++ c).length ≥ 5) := by
          simp; omega
        rw [if_neg h5']
        have : (r : Int) - (c.length : Int) = ((r - c.length : Nat) : Int) := by omega
        rw [this, ih _ _ (by omega) (by simp; omega) _ (by omega), List.append_assoc]

theorem recvLoop_eq (total : Bytes → Int) (htot : ∀ b, 5 ≤ total b) (chunks : List Bytes) :
    recvLoop total chunks = recvFlat total (received chunks) := by
  have := recvLoopF_header total htot (bytesLeft chunks + 1) 5 [] (by decide) rfl chunks (by omega)
  simpa [recvLoop] using this

theorem readTotal_ge (b : Bytes) : 5 ≤ readTotal b := by unfold readTotal; omega
theorem writeTotal_ge (b : Bytes) : 5 ≤ writeTotal b := by unfold writeTotal; omega

end Verif

namespace Verif
open Verif.Spec

theorem beEnc2 (n : Nat) : beEnc 2 n = field16 n := by simp [beEnc, field16]
theorem beEnc1 (n : Nat) : beEnc 1 n = [BitVec.ofNat 8 n] := by simp [beEnc]

/-- `struct.pack('>BBHH')` in range. -/
theorem packBBHH_eq (a b c d : Int) : packBBHH a b c d =
    if (0 ≤ a ∧ a < 256) ∧ (0 ≤ b ∧ b < 256) ∧ (0 ≤ c ∧ c < 65536) ∧ (0 ≤ d ∧ d < 65536) then
      .ok (BitVec.ofNat 8 a.toNat :: readPdu (BitVec.ofNat 8 b.toNat) c.toNat d.toNat)
    else .error .structError := by
  unfold packBBHH packU
  simp only [Int.reducePow, beEnc2, beEnc1]
  by_cases ha : 0 ≤ a ∧ a < 256 <;> by_cases hb : 0 ≤ b ∧ b < 256 <;>
    by_cases hc : 0 ≤ c ∧ c < 65536 <;> by_cases hd : 0 ≤ d ∧ d < 65536 <;>
    simp [ha, hb, hc, hd, readPdu]

/-- What a read makes of the received bytes (`none`: the request could not be sent). -/
def readOutcome : Option Bytes → Py Bytes
  | none => .error .modbusClientError
  | some b => rtuReadReply (recvFlat readTotal b)

/-- The outcome of one read exchange. -/
theorem rtuRead1_eq {σ} (slave : Slave σ) (l : Line σ) (sid op addr count : Int) :
    rtuRead1 slave l sid op addr count =
    if (0 ≤ sid ∧ sid < 256) ∧ (0 ≤ op ∧ op < 256) ∧ (0 ≤ addr ∧ addr < 65536) ∧
        (0 ≤ count ∧ count < 65536) then
      let req := rtuFrame (BitVec.ofNat 8 sid.toNat)
        (readPdu (BitVec.ofNat 8 op.toNat) addr.toNat count.toNat)
      (⟨(slave l.dev req).1, l.sent ++ [req]⟩,
        readOutcome ((slave l.dev req).2.map received))
    else (l, .error .structError) := by
  unfold rtuRead1
  rw [packBBHH_eq]
  by_cases hr : (0 ≤ sid ∧ sid < 256) ∧ (0 ≤ op ∧ op < 256) ∧ (0 ≤ addr ∧ addr < 65536) ∧
        (0 ≤ count ∧ count < 65536)
  · rw [if_pos hr, if_pos hr]
    simp only [crcField_eq]
    have hreq : ∀ q, (BitVec.ofNat 8 sid.toNat :: q) ++ crcBytes (BitVec.ofNat 8 sid.toNat :: q) =
        rtuFrame (BitVec.ofNat 8 sid.toNat) q := fun q => rfl
    rw [hreq]
    generalize rtuFrame (BitVec.ofNat 8 sid.toNat)
      (readPdu (BitVec.ofNat 8 op.toNat) addr.toNat count.toNat) = req
    unfold lineSend
    rcases hs : slave l.dev req with ⟨d, _ | chunks⟩
    · rfl
    · simp only [Option.map_some, readOutcome, recvLoop_eq _ readTotal_ge]
  · rw [if_neg hr, if_neg hr]

theorem rtuReadReply_ok {b d : Bytes} (h : rtuReadReply (recvFlat readTotal b) = .ok d)
    (hd : d ≠ []) : IsReadReply b d := by
  unfold recvFlat at h
  split at h
  · simp [rtuReadReply] at h
  · rename_i h5
    split at h
    · rename_i hbit
      split at h
      · simp [rtuReadReply] at h
      · rename_i hlen
        simp only [rtuReadReply, truthy] at h
        split at h
        · simp at h
        · rename_i hcrc
          simp only [Bool.false_eq_true, if_false, Except.ok.injEq] at h
          have hv := (frameCrcOk_iff _).1 (by simpa using hcrc)
          obtain ⟨q, hq⟩ := hv
          have hn : readTotal (b.take 5) = ((b.getD 2 0).toNat + 5 : Nat) := by
            unfold readTotal; rw [getD_take _ _ _ _ (by omega)]; omega
          rw [hn, Int.toNat_natCast] at hq h
          rw [hn] at hlen
          have hbn := (b.getD 2 0).isLt
          generalize hnn : (b.getD 2 0).toNat = n at *
          have hql : q.length = n + 3 := by
            have := congrArg List.length hq
            simp [crcBytes] at this; omega
          match q, hql with
          | x :: y :: z :: p, hql =>
            have hpl : p.length = n := by simpa using hql
            have hdp : d = p := by
              rw [← h, hq]
              simp [crcBytes, hpl]
            have hb : b = (x :: y :: z :: p) ++ crcBytes (x :: y :: z :: p) ++ b.drop (n + 5) := by
              rw [← hq, List.take_append_drop]
            have hz : z = BitVec.ofNat 8 n := by
              have : b.getD 2 0 = z := by rw [hb]; rfl
              rw [← hnn, this]; simp
            refine ⟨x, y, b.drop (n + 5), ?_, ?_, ?_⟩
            · have : b.getD 1 0 = y := by rw [hb]; rfl
              rw [← this]; exact hbit
            · rw [hdp, hpl]; exact hbn
            · rw [hdp, hpl, ← hz]; exact hb
    · exfalso
      simp only [rtuReadReply] at h
      split at h
      · simp at h
      · split at h
        · simp at h
        · simp only [Except.ok.injEq] at h
          have h1 : (b.take 5).length - 5 = 0 := by simp; omega
          rw [h1] at h
          exact hd (by rw [← h]; simp)

/-- Any number of iterations of the read loop against any slave. -/
theorem rtuReadF_spec {σ} (slave : Slave σ) (sid op : Int) (maxCount : Nat) (fuel : Nat)
    (addr : Int) (count : Nat) (resp : Bytes) (l l' : Line σ) (res : Py (Option Bytes))
    (h : rtuReadF slave sid op maxCount fuel addr count resp l = (l', res)) :
    ∃ rs : List (Int × Nat),
      l'.sent = l.sent ++ rs.map (fun r => rtuFrame (BitVec.ofNat 8 sid.toNat)
        (readPdu (BitVec.ofNat 8 op.toNat) r.1.toNat r.2)) ∧
      Consecutive addr rs ∧
      (∀ r ∈ rs, r.2 ≤ maxCount ∧ (0 < maxCount → 1 ≤ r.2) ∧ 0 ≤ r.1 ∧ r.1 < 65536 ∧ r.2 < 65536) ∧
      (rs ≠ [] → 0 ≤ sid ∧ sid < 256 ∧ 0 ≤ op ∧ op < 256) ∧
      covered rs ≤ count ∧
      (∀ d, res = .ok (some d) → covered rs = count ∧
        ∃ ps : List Bytes, d = resp ++ ps.flatten ∧ ps.length = rs.length ∧
          ∀ i (_ : i < ps.length), ps[i] ≠ [] ∧ ∃ b,
            (exchange slave l.dev (rs.map (fun r => rtuFrame (BitVec.ofNat 8 sid.toNat)
              (readPdu (BitVec.ofNat 8 op.toNat) r.1.toNat r.2))))[i]? = some (some b) ∧
            IsReadReply b ps[i]) := by
  induction fuel generalizing addr count resp l with
  | zero =>
    simp only [rtuReadF, Prod.mk.injEq] at h
    obtain ⟨rfl, rfl⟩ := h
    exact ⟨[], by simp, trivial, by simp, by simp, by simp [covered], by simp⟩
  | succ fuel ih =>
    rw [rtuReadF] at h
    by_cases hc : count > 0
    · rw [if_pos hc] at h
      simp only at h
      generalize hq : (if count > maxCount then maxCount else count) = q at h
      have hq1 : q ≤ count ∧ q ≤ maxCount ∧ (0 < maxCount → 1 ≤ q) := by split at hq <;> omega
      rw [rtuRead1_eq] at h
      by_cases hr : (0 ≤ sid ∧ sid < 256) ∧ (0 ≤ op ∧ op < 256) ∧ (0 ≤ addr ∧ addr < 65536) ∧
        (0 ≤ (q : Int) ∧ (q : Int) < 65536)
      · rw [if_pos hr] at h
        simp only [Int.toNat_natCast] at h
        generalize hreq : rtuFrame (BitVec.ofNat 8 sid.toNat)
          (readPdu (BitVec.ofNat 8 op.toNat) addr.toNat q) = req at h
        have hone : ∀ (r : Int × Nat), r ∈ [(addr, q)] → r.2 ≤ maxCount ∧
            (0 < maxCount → 1 ≤ r.2) ∧ 0 ≤ r.1 ∧ r.1 < 65536 ∧ r.2 < 65536 := by
          intro r hrm; simp only [List.mem_singleton] at hrm; subst hrm
          exact ⟨hq1.2.1, hq1.2.2, hr.2.2.1.1, hr.2.2.1.2, by omega⟩
        generalize hrep : Option.map received (slave l.dev req).2 = rep at h
        cases hread : readOutcome rep with
        | error e =>
          rw [hread] at h
          simp only [Prod.mk.injEq] at h
          obtain ⟨rfl, rfl⟩ := h
          exact ⟨[(addr, q)], by simp [hreq], ⟨rfl, trivial⟩, hone,
            fun _ => ⟨hr.1.1, hr.1.2, hr.2.1.1, hr.2.1.2⟩, by simp [covered]; omega, by simp⟩
        | ok data =>
          rw [hread] at h
          simp only at h
          by_cases hdl : data.length > 0
          · rw [if_pos hdl] at h
            obtain ⟨rs, h1, h2, h3, h4, h5, h6⟩ := ih _ _ _ _ h
            refine ⟨(addr, q) :: rs, ?_, ⟨rfl, h2⟩, ?_, ?_, ?_, ?_⟩
            · rw [h1]; simp [hreq]
            · intro r hrm
              rcases List.mem_cons.1 hrm with rfl | hrm
              · exact hone _ (by simp)
              · exact h3 r hrm
            · exact fun _ => ⟨hr.1.1, hr.1.2, hr.2.1.1, hr.2.1.2⟩
            · simp only [covered, List.map_cons, List.sum_cons]
              have : covered rs ≤ count - q := h5
              simp only [covered] at this; omega
            · intro d hd
              obtain ⟨h7, ps, h8, h9, h10⟩ := h6 d hd
              refine ⟨?_, data :: ps, ?_, by simp [h9], ?_⟩
              · simp only [covered, List.map_cons, List.sum_cons] at h7 ⊢; omega
              · rw [h8]; simp
              · intro i hi
                have hex : exchange slave l.dev (((addr, q) :: rs).map (fun r =>
                    rtuFrame (BitVec.ofNat 8 sid.toNat)
                      (readPdu (BitVec.ofNat 8 op.toNat) r.1.toNat r.2))) =
                    rep :: exchange slave (slave l.dev req).1 (rs.map (fun r =>
                      rtuFrame (BitVec.ofNat 8 sid.toNat)
                      (readPdu (BitVec.ofNat 8 op.toNat) r.1.toNat r.2))) := by
                  simp only [List.map_cons, exchange, hreq, hrep]
                rw [hex]
                cases i with
                | zero =>
                  have hdn : data ≠ [] := List.length_pos_iff.1 hdl
                  refine ⟨hdn, ?_⟩
                  cases rep with
                  | none => simp [readOutcome] at hread
                  | some b => exact ⟨b, by simp, rtuReadReply_ok hread hdn⟩
                | succ i =>
                  simpa using h10 i (by simpa using hi)
          · rw [if_neg hdl] at h
            simp only [Prod.mk.injEq] at h
            obtain ⟨rfl, rfl⟩ := h
            exact ⟨[(addr, q)], by simp [hreq], ⟨rfl, trivial⟩, hone,
              fun _ => ⟨hr.1.1, hr.1.2, hr.2.1.1, hr.2.1.2⟩, by simp [covered]; omega, by simp⟩
      · rw [if_neg hr] at h
        simp only [Prod.mk.injEq] at h
        obtain ⟨rfl, rfl⟩ := h
        exact ⟨[], by simp, trivial, by simp, by simp, by simp [covered], by simp⟩
    · rw [if_neg hc] at h
      simp only [Prod.mk.injEq] at h
      obtain ⟨rfl, rfl⟩ := h
      refine ⟨[], by simp, trivial, by simp, by simp, by simp [covered], ?_⟩
      intro d hd
      simp only [Except.ok.injEq, Option.some.injEq] at hd
      exact ⟨by simp [covered]; omega, [], by simp [hd], rfl, by simp⟩

theorem recvFlat_err {total : Bytes → Int} {b : Bytes} {e : Exc} (h : recvFlat total b = .error e) :
    e = .modbusClientTimeout := by
  unfold recvFlat at h
  repeat' split at h
  all_goals simp at h
  all_goals exact h.symm

theorem readOutcome_no_diverge (r : Option Bytes) : readOutcome r ≠ .error .diverge := by
  cases r with
  | none => simp [readOutcome]
  | some b =>
    simp only [readOutcome]
    cases hr : recvFlat readTotal b with
    | error e => rw [recvFlat_err hr]; simp [rtuReadReply]
    | ok p =>
      obtain ⟨f, exc⟩ := p
      simp only [rtuReadReply]
      repeat' split
      all_goals simp

/-- The read loop never runs out of fuel. -/
theorem rtuReadF_no_diverge {σ} (slave : Slave σ) (sid op : Int) (maxCount : Nat) (hm : 0 < maxCount)
    (fuel : Nat) (addr : Int) (count : Nat) (resp : Bytes) (l : Line σ) (hf : count < fuel) :
    (rtuReadF slave sid op maxCount fuel addr count resp l).2 ≠ .error .diverge := by
  induction fuel generalizing addr count resp l with
  | zero => omega
  | succ fuel ih =>
    rw [rtuReadF]
    by_cases hc : count > 0
    · rw [if_pos hc]
      simp only
      generalize hq : (if count > maxCount then maxCount else count) = q
      have hq1 : q ≤ count ∧ 1 ≤ q := by split at hq <;> omega
      have hne : (rtuRead1 slave l sid op addr q).2 ≠ .error .diverge := by
        rw [rtuRead1_eq]
        split
        · exact readOutcome_no_diverge _
        · simp
      match hres : rtuRead1 slave l sid op addr q with
      | (l', .error e) => rw [hres] at hne; simpa using hne
      | (l', .ok data) =>
        simp only
        split
        · exact ih _ _ _ _ (by omega)
        · simp
    · rw [if_neg hc]; simp

end Verif
