import Verif.Model.Tcp
import Verif.Spec.Tcp
import Verif.Lemmas.RtuConform

/-! Lemmas about the TCP client. -/

namespace Verif
open Verif.Spec

/-- What the receive loop makes of the bytes that can be received: the reply and what is left. -/
def tcpFlat (closedExc : Exc) (b : Bytes) (closed : Bool) : Bytes × Py Bytes :=
  let total := max 9 (6 + tcpDataLen b)
  if b.length < 9 ∨ b.length < total then
    ([], .error (if closed then closedExc else .socketTimeout))
  else (b.drop total, .ok (b.take total))

theorem received_append_of {p : List Bytes} (h : ∀ c ∈ p, c ≠ []) (q : List Bytes) :
    received (p ++ q) = p.flatten ++ received q := by
  induction p with
  | nil => rfl
  | cons c p ih =>
    rw [List.cons_append, received_cons (h c (by simp)), ih (fun c hc => h c (by simp [hc]))]
    simp

theorem tcpDataLen_append {a b : Bytes} (h : 6 ≤ a.length) : tcpDataLen (a ++ b) = tcpDataLen a := by
  unfold tcpDataLen
  rw [List.drop_append_of_le_length (by omega), List.take_append_of_le_length (by simp; omega)]

/-- One `recv`: facts about `serialRead` for a non-empty first chunk. -/
theorem serialRead_cons (n : Nat) (hn : 0 < n) (c : Bytes) (hc : c ≠ []) (r : List Bytes) :
    let got := (serialRead n (c :: r)).1
    let rest := (serialRead n (c :: r)).2
    0 < got.length ∧ got.length ≤ n ∧ received (c :: r) = got ++ received rest ∧
      bytesLeft (c :: r) = got.length + bytesLeft rest ∧ ([] ∈ rest ↔ [] ∈ c :: r) := by
  have hcl : 0 < c.length := List.length_pos_iff.2 hc
  by_cases hle : c.length ≤ n
  · have e : serialRead n (c :: r) = (c, r) := by simp [serialRead, hle]
    rw [e]
    refine ⟨hcl, hle, received_cons hc r, bytesLeft_cons c r, ?_⟩
    simp [hc.symm]
  · have e : serialRead n (c :: r) = (c.take n, c.drop n :: r) := by simp [serialRead, hle]
    rw [e]
    have hd : c.drop n ≠ [] := by
      intro h0; have := congrArg List.length h0; simp at this; omega
    refine ⟨by simp; omega, by simp; omega, ?_, ?_, ?_⟩
    · rw [received_cons hc, received_cons hd, ← List.append_assoc, List.take_append_drop]
    · rw [bytesLeft_cons, bytesLeft_cons]; simp; omega
    · simp only [List.mem_cons]
      constructor
      · rintro (h | h)
        · exact absurd h.symm hd
        · exact Or.inr h
      · rintro (h | h)
        · exact absurd h.symm hc
        · exact Or.inr h

/-- The receive loop after at least nine bytes. -/
theorem tcpRecvF_body (ce : Exc) (fuel : Nat) (resp : Bytes) (hresp : 9 ≤ resp.length)
    (r : Int) (hr : r = (tcpDataLen resp : Int) - ((resp.length : Int) - 6)) (p : List Bytes)
    (hf : bytesLeft p < fuel) :
    (tcpRecvF ce fuel r resp p).2 =
      (if (received p).length < r.toNat then .error (if [] ∈ p then ce else .socketTimeout)
       else .ok (resp ++ (received p).take r.toNat)) ∧
    received (tcpRecvF ce fuel r resp p).1 = (received p).drop r.toNat ∧
    ([] ∈ (tcpRecvF ce fuel r resp p).1 ↔ [] ∈ p) := by
  induction fuel generalizing resp r p with
  | zero => omega
  | succ fuel ih =>
    rw [tcpRecvF.eq_def]
    dsimp only
    by_cases hr0 : r > 0
    · rw [if_pos hr0]
      match p with
      | [] =>
        simp only [received]
        simp [hr0]
      | c :: rest =>
        dsimp only
        by_cases hc : c = []
        · subst hc
          rw [if_pos (by rfl)]
          have h0 : received ([] :: rest) = [] := received_cons_nil rest
          rw [h0]
          simp [hr0]
        · have hcl : ¬ c.length = 0 := by simpa using hc
          rw [if_neg hcl]
          obtain ⟨h1, h2, h3, h4, h5⟩ := serialRead_cons r.toNat (by omega) c hc rest
          generalize hgot : (serialRead r.toNat (c :: rest)).1 = got at *
          generalize hrest : (serialRead r.toNat (c :: rest)).2 = rest' at *
          rw [if_pos (by rw [List.length_append]; omega)]
          have hdl : tcpDataLen (resp ++ got) = tcpDataLen resp := tcpDataLen_append (by omega)
          have hr' : r - got.length = (tcpDataLen (resp ++ got) : Int) - (((resp ++ got).length : Int) - 6) := by
            rw [hdl, List.length_append]; omega
          rw [← hr']
          obtain ⟨i1, i2, i3⟩ := ih (resp ++ got) (by rw [List.length_append]; omega)
            (r - got.length) hr' rest' (by omega)
          have ht : (r - (got.length : Int)).toNat = r.toNat - got.length := by omega
          rw [i1, i2, i3, h3, ht]
          generalize received rest' = d at *
          refine ⟨?_, ?_, h5⟩
          · rw [List.length_append]
            by_cases hlt : got.length + d.length < r.toNat
            · rw [if_pos (by omega), if_pos hlt]
              simp only [h5]
            · rw [if_neg (by omega), if_neg hlt, List.take_append, List.take_of_length_le h2,
                List.append_assoc]
          · rw [List.drop_append, List.drop_eq_nil_of_le h2, List.nil_append]
    · rw [if_neg hr0]
      have : r.toNat = 0 := by omega
      rw [this]
      simp

theorem tcpRecvF_header (ce : Exc) (fuel : Nat) (resp : Bytes) (r : Nat) (hr : 0 < r)
    (hresp : resp.length + r = 9) (p : List Bytes) (hf : bytesLeft p < fuel) :
    (tcpRecvF ce fuel r resp p).2 = (tcpFlat ce (resp ++ received p) (decide ([] ∈ p))).2 ∧
    received (tcpRecvF ce fuel r resp p).1 = (tcpFlat ce (resp ++ received p) (decide ([] ∈ p))).1 ∧
    ([] ∈ (tcpRecvF ce fuel r resp p).1 ↔ [] ∈ p) := by
  induction fuel generalizing resp r p with
  | zero => omega
  | succ fuel ih =>
    rw [tcpRecvF.eq_def]
    dsimp only
    rw [if_pos (by omega)]
    match p with
    | [] =>
      have h0 : received ([] : List Bytes) = [] := rfl
      rw [h0, List.append_nil]
      unfold tcpFlat
      simp only
      rw [if_pos (by omega)]
      simp
    | c :: rest =>
      dsimp only
      by_cases hc : c = []
      · subst hc
        rw [if_pos (by rfl), received_cons_nil, List.append_nil]
        unfold tcpFlat
        simp only
        rw [if_pos (by omega)]
        simp
      · have hcl : ¬ c.length = 0 := by simpa using hc
        rw [if_neg hcl]
        simp only [Int.toNat_natCast]
        obtain ⟨h1, h2, h3, h4, h5⟩ := serialRead_cons r hr c hc rest
        generalize hgot : (serialRead r (c :: rest)).1 = got at *
        generalize hrest : (serialRead r (c :: rest)).2 = rest' at *
        rw [h3, ← List.append_assoc]
        by_cases h9 : got.length = r
        · have hl : (resp ++ got).length = 9 := by rw [List.length_append]; omega
          rw [if_pos (by omega)]
          obtain ⟨i1, i2, i3⟩ := tcpRecvF_body ce fuel (resp ++ got) (by omega) _ rfl rest' (by omega)
          rw [i1, i2, i3]
          rw [hl]
          unfold tcpFlat
          simp only
          rw [tcpDataLen_append (a := resp ++ got) (b := received rest') (by omega)]
          generalize hT : tcpDataLen (resp ++ got) = T
          generalize hR : ((T : Int) - ((9 : Nat) - 6 : Int)).toNat = R
          have hmax : max 9 (6 + T) = 9 + R := by omega
          rw [hmax, List.length_append, hl]
          refine ⟨?_, ?_, h5⟩
          · by_cases hlt : (received rest').length < R
            · have hA : 9 + (received rest').length < 9 ∨ 9 + (received rest').length < 9 + R := by omega
              rw [if_pos hlt, if_pos hA]
              simp only [h5, decide_eq_true_eq]
            · rw [if_neg hlt, if_neg (by omega)]
              simp only
              rw [List.take_append, List.take_of_length_le (l := resp ++ got) (by omega), hl,
                show 9 + R - 9 = R by omega]
          · by_cases hlt : (received rest').length < R
            · rw [if_pos (by omega)]
              simp only
              exact List.drop_eq_nil_of_le (by omega)
            · rw [if_neg (by omega)]
              simp only
              rw [List.drop_append, List.drop_eq_nil_of_le (as := resp ++ got) (by omega), hl,
                show 9 + R - 9 = R by omega, List.nil_append]
        · rw [if_neg (by rw [List.length_append]; omega)]
          have : (r : Int) - (got.length : Int) = ((r - got.length : Nat) : Int) := by omega
          rw [this]
          obtain ⟨i1, i2, i3⟩ := ih (resp ++ got) (r - got.length) (by omega)
            (by rw [List.length_append]; omega) rest' (by omega)
          have hd : decide (([] : Bytes) ∈ rest') = decide (([] : Bytes) ∈ c :: rest) := by
            simp only [h5]
          rw [i1, i2, i3, hd]
          exact ⟨rfl, rfl, h5⟩

/-- The receive loop. -/
theorem tcpRecv_eq (ce : Exc) (p : List Bytes) :
    let r := tcpRecvF ce (bytesLeft p + 1) 9 [] p
    r.2 = (tcpFlat ce (received p) (decide ([] ∈ p))).2 ∧
    received r.1 = (tcpFlat ce (received p) (decide ([] ∈ p))).1 ∧ ([] ∈ r.1 ↔ [] ∈ p) := by
  have := tcpRecvF_header ce (bytesLeft p + 1) [] 9 (by decide) rfl p (by omega)
  simpa using this

end Verif
