import Verif.Model.Wire
import Verif.Props.Cost
import Verif.Lemmas.Errors

/-!
# Lemmas on the clients call by call
-/

namespace Verif
open Verif.Spec

/-! ## RTU -/

theorem portRecvF_tail {τ} (p : Port τ) (total : Bytes → Int) :
    ∀ (fuel : Nat) (remaining : Int) (resp : Bytes) (exc : Option Nat) (w : Waited τ), remaining.toNat < fuel →
      (portRecvF p total fuel remaining true resp exc w).2 ≠ .error .diverge ∧
      (portRecvF p total fuel remaining true resp exc w).1.waits ≤ w.waits + remaining.toNat ∧
      ∀ fuel', fuel ≤ fuel' → portRecvF p total fuel' remaining true resp exc w = portRecvF p total fuel remaining true resp exc w := by
  intro fuel
  induction fuel with
  | zero => intro remaining resp exc w h; omega
  | succ fuel ih =>
    intro remaining resp exc w h
    by_cases hr : remaining > 0
    · have step : ∀ f, portRecvF p total (f + 1) remaining true resp exc w =
          if 0 < (p.read w.st remaining.toNat).2.length then
            portRecvF p total f (remaining - (p.read w.st remaining.toNat).2.length) true (resp ++ (p.read w.st remaining.toNat).2) exc
              ⟨(p.read w.st remaining.toNat).1, w.waits + 1⟩
          else (⟨(p.read w.st remaining.toNat).1, w.waits + 1⟩, .error .modbusClientTimeout) := by
        intro f
        rw [portRecvF, if_pos hr]
        simp [portRead]
      generalize p.read w.st remaining.toNat = q at step
      obtain ⟨s, c⟩ := q
      dsimp only at step
      by_cases hc : 0 < c.length
      · simp only [if_pos hc] at step
        have hlt : (remaining - (c.length : Int)).toNat < fuel := by omega
        obtain ⟨h1, h2, h3⟩ := ih (remaining - c.length) (resp ++ c) exc ⟨s, w.waits + 1⟩ hlt
        rw [step fuel]
        refine ⟨h1, ?_, ?_⟩
        · have e : (Waited.mk s (w.waits + 1)).waits = w.waits + 1 := rfl
          rw [e] at h2
          omega
        · intro fuel' hf
          obtain ⟨f, rfl⟩ : ∃ f, fuel' = f + 1 := ⟨fuel' - 1, by omega⟩
          rw [step f]
          exact h3 f (by omega)
      · simp only [if_neg hc] at step
        rw [step fuel]
        refine ⟨by simp, ?_, ?_⟩
        · show w.waits + 1 ≤ _; omega
        · intro fuel' hf
          obtain ⟨f, rfl⟩ : ∃ f, fuel' = f + 1 := ⟨fuel' - 1, by omega⟩
          exact step f
    · have step : ∀ f, portRecvF p total (f + 1) remaining true resp exc w = (w, .ok (resp, exc)) := by
        intro f; rw [portRecvF, if_neg hr]
      rw [step fuel]
      refine ⟨by simp, by exact Nat.le_add_right _ _, ?_⟩
      intro fuel' hf
      obtain ⟨f, rfl⟩ : ∃ f, fuel' = f + 1 := ⟨fuel' - 1, by omega⟩
      exact step f

/-- A reply that is no longer than `M` is received in at most `M` calls. -/
theorem portRecvF_head {τ} (p : Port τ) (total : Bytes → Int) (M : Nat) (hM : 5 ≤ M) (htot : ∀ r, total r ≤ M) :
    ∀ (fuel : Nat) (remaining : Int) (resp : Bytes) (w : Waited τ), remaining + resp.length = 5 →
      remaining.toNat + (M - 5) < fuel →
      (portRecvF p total fuel remaining false resp none w).2 ≠ .error .diverge ∧
      (portRecvF p total fuel remaining false resp none w).1.waits ≤ w.waits + remaining.toNat + (M - 5) ∧
      ∀ fuel', fuel ≤ fuel' → portRecvF p total fuel' remaining false resp none w = portRecvF p total fuel remaining false resp none w := by
  intro fuel
  induction fuel with
  | zero => intro remaining resp w _ h; omega
  | succ fuel ih =>
    intro remaining resp w hlen h
    by_cases hr : remaining > 0
    · have step : ∀ f, portRecvF p total (f + 1) remaining false resp none w =
          if 0 < (p.read w.st remaining.toNat).2.length then
            if (resp ++ (p.read w.st remaining.toNat).2).length ≥ 5 then
              if ((resp ++ (p.read w.st remaining.toNat).2).getD 1 0) &&& 0x80 = 0 then
                portRecvF p total f (total (resp ++ (p.read w.st remaining.toNat).2) - (resp ++ (p.read w.st remaining.toNat).2).length) true
                  (resp ++ (p.read w.st remaining.toNat).2) none ⟨(p.read w.st remaining.toNat).1, w.waits + 1⟩
              else portRecvF p total f (remaining - (p.read w.st remaining.toNat).2.length) false (resp ++ (p.read w.st remaining.toNat).2)
                  (some ((resp ++ (p.read w.st remaining.toNat).2).getD 2 0).toNat) ⟨(p.read w.st remaining.toNat).1, w.waits + 1⟩
            else portRecvF p total f (remaining - (p.read w.st remaining.toNat).2.length) false (resp ++ (p.read w.st remaining.toNat).2) none
              ⟨(p.read w.st remaining.toNat).1, w.waits + 1⟩
          else (⟨(p.read w.st remaining.toNat).1, w.waits + 1⟩, .error .modbusClientTimeout) := by
        intro f
        rw [portRecvF, if_pos hr]
        simp only [portRead, true_and]
        rfl
      generalize p.read w.st remaining.toNat = q at step
      obtain ⟨s, c⟩ := q
      dsimp only at step
      have hrl : (resp ++ c).length = resp.length + c.length := List.length_append
      by_cases hc : 0 < c.length
      · simp only [if_pos hc] at step
        by_cases h5 : (resp ++ c).length ≥ 5
        · simp only [if_pos h5] at step
          by_cases hx : ((resp ++ c).getD 1 0) &&& 0x80 = 0
          · simp only [if_pos hx] at step
            have ht := htot (resp ++ c)
            have hlt : (total (resp ++ c) - ((resp ++ c).length : Int)).toNat < fuel := by omega
            obtain ⟨h1, h2, h3⟩ := portRecvF_tail p total fuel _ (resp ++ c) none ⟨s, w.waits + 1⟩ hlt
            rw [step fuel]
            refine ⟨h1, ?_, ?_⟩
            · have e : (Waited.mk s (w.waits + 1)).waits = w.waits + 1 := rfl
              rw [e] at h2
              omega
            · intro fuel' hf
              obtain ⟨f, rfl⟩ : ∃ f, fuel' = f + 1 := ⟨fuel' - 1, by omega⟩
              rw [step f]
              exact h3 f (by omega)
          · simp only [if_neg hx] at step
            have hdone : ∀ f, portRecvF p total (f + 1) (remaining - (c.length : Int)) false (resp ++ c)
                (some ((resp ++ c).getD 2 0).toNat) ⟨s, w.waits + 1⟩ = (⟨s, w.waits + 1⟩, .ok (resp ++ c, some ((resp ++ c).getD 2 0).toNat)) := by
              intro f; rw [portRecvF, if_neg (by omega)]
            obtain ⟨g, rfl⟩ : ∃ g, fuel = g + 1 := ⟨fuel - 1, by omega⟩
            rw [step (g + 1), hdone g]
            refine ⟨by simp, ?_, ?_⟩
            · show w.waits + 1 ≤ _; omega
            · intro fuel' hf
              obtain ⟨f, rfl⟩ : ∃ f, fuel' = f + 1 + 1 := ⟨fuel' - 2, by omega⟩
              rw [step (f + 1), hdone f]
        · simp only [if_neg h5] at step
          have hlt : (remaining - (c.length : Int)).toNat + (M - 5) < fuel := by omega
          obtain ⟨h1, h2, h3⟩ := ih (remaining - c.length) (resp ++ c) ⟨s, w.waits + 1⟩ (by omega) hlt
          rw [step fuel]
          refine ⟨h1, ?_, ?_⟩
          · have e : (Waited.mk s (w.waits + 1)).waits = w.waits + 1 := rfl
            rw [e] at h2
            omega
          · intro fuel' hf
            obtain ⟨f, rfl⟩ : ∃ f, fuel' = f + 1 := ⟨fuel' - 1, by omega⟩
            rw [step f]
            exact h3 f (by omega)
      · simp only [if_neg hc] at step
        rw [step fuel]
        refine ⟨by simp, ?_, ?_⟩
        · show w.waits + 1 ≤ _; omega
        · intro fuel' hf
          obtain ⟨f, rfl⟩ : ∃ f, fuel' = f + 1 := ⟨fuel' - 1, by omega⟩
          exact step f
    · have step : ∀ f, portRecvF p total (f + 1) remaining false resp none w = (w, .ok (resp, none)) := by
        intro f; rw [portRecvF, if_neg hr]
      rw [step fuel]
      refine ⟨by simp, ?_, ?_⟩
      · show w.waits ≤ _; omega
      · intro fuel' hf
        obtain ⟨f, rfl⟩ : ∃ f, fuel' = f + 1 := ⟨fuel' - 1, by omega⟩
        exact step f

theorem portExchange_waits {τ} (p : Port τ) (N : Nat) (total : Bytes → Int) (M : Nat) (hM : 5 ≤ M) (htot : ∀ r, total r ≤ M)
    (hN : M < N) (w : Waited τ) (req : Bytes) :
    (portExchange p N total w req).2 ≠ .error .diverge ∧ (portExchange p N total w req).1.waits ≤ w.waits + M ∧
    portExchange p N total w req = portExchange p (M + 1) total w req := by
  unfold portExchange
  generalize p.write (p.flush w.st) req = q
  obtain ⟨s, b⟩ := q
  cases b with
  | false => exact ⟨by simp, by exact Nat.le_add_right _ _, rfl⟩
  | true =>
    dsimp only
    obtain ⟨h1, h2, h3⟩ := portRecvF_head p total M hM htot (M + 1) 5 [] ⟨s, w.waits⟩ (by simp) (by omega)
    have h4 := h3 N (by omega)
    rw [h4]
    refine ⟨h1, ?_, rfl⟩
    have e : (Waited.mk s w.waits).waits = w.waits := rfl
    rw [e] at h2
    omega

theorem readTotal_le (r : Bytes) : readTotal r ≤ (260 : Nat) := by
  unfold readTotal
  have := (r.getD 2 0).isLt
  omega

theorem writeTotal_le (r : Bytes) : writeTotal r ≤ (8 : Nat) := by unfold writeTotal; omega

theorem rtuReadReply_no_diverge {r : Py (Bytes × Option Nat)} (h : r ≠ .error .diverge) : rtuReadReply r ≠ .error .diverge := by
  cases r with
  | error e =>
    intro h'
    apply h
    simpa [rtuReadReply] using h'
  | ok x =>
    obtain ⟨resp, exc⟩ := x
    unfold rtuReadReply
    dsimp only
    split
    · simp
    · split <;> simp

theorem rtuWriteReply_no_diverge (sid addr count : Int) {r : Py (Bytes × Option Nat)} (h : r ≠ .error .diverge) :
    rtuWriteReply sid addr count r ≠ .error .diverge := by
  cases r with
  | error e =>
    intro h'
    apply h
    simpa [rtuWriteReply] using h'
  | ok x =>
    obtain ⟨resp, exc⟩ := x
    unfold rtuWriteReply
    dsimp only
    split
    · simp
    · split
      · simp
      · split
        · simp
        · split <;> simp

theorem packBBHH_err {a b c d : Int} {e : Exc} (h : packBBHH a b c d = .error e) : e = .structError := by
  unfold packBBHH at h
  split at h
  · simp at h
  · simpa using h.symm

theorem packBBHHB_err {a b c d f : Int} {e : Exc} (h : packBBHHB a b c d f = .error e) : e = .structError := by
  unfold packBBHHB at h
  split at h
  · simp at h
  · simpa using h.symm

theorem portRead1_waits {τ} (p : Port τ) (N : Nat) (hN : 260 < N) (w : Waited τ) (sid op addr count : Int) :
    (portRead1 p N w sid op addr count).2 ≠ .error .diverge ∧ (portRead1 p N w sid op addr count).1.waits ≤ w.waits + 260 ∧
    portRead1 p N w sid op addr count = portRead1 p 261 w sid op addr count := by
  unfold portRead1
  generalize hp : packBBHH sid op addr count = r
  cases r with
  | error e =>
    have := packBBHH_err hp
    subst this
    exact ⟨by simp, by exact Nat.le_add_right _ _, rfl⟩
  | ok body =>
    obtain ⟨h1, h2, h3⟩ := portExchange_waits p N readTotal 260 (by decide) readTotal_le hN w (body ++ crcField body)
    exact ⟨rtuReadReply_no_diverge h1, h2, by dsimp only; rw [h3]⟩

theorem portWrite1_waits {τ} (p : Port τ) (N : Nat) (hN : 8 < N) (w : Waited τ) (sid addr : Int) (data : Bytes) :
    (portWrite1 p N w sid addr data).2 ≠ .error .diverge ∧ (portWrite1 p N w sid addr data).1.waits ≤ w.waits + 8 ∧
    portWrite1 p N w sid addr data = portWrite1 p 9 w sid addr data := by
  unfold portWrite1
  generalize hp : packBBHHB sid 16 addr (data.length / 2 : Nat) data.length = r
  cases r with
  | error e =>
    have := packBBHHB_err hp
    subst this
    exact ⟨by simp, by exact Nat.le_add_right _ _, rfl⟩
  | ok hdr =>
    obtain ⟨h1, h2, h3⟩ := portExchange_waits p N writeTotal 8 (by decide) writeTotal_le hN w (hdr ++ data ++ crcField (hdr ++ data))
    exact ⟨rtuWriteReply_no_diverge _ _ _ h1, h2, by dsimp only; rw [h3]⟩

theorem portReadF_waits {τ} (p : Port τ) (N : Nat) (hN : 260 < N) (sid op : Int) (max : Nat) (hmax : 0 < max) :
    ∀ (fuel : Nat) (addr : Int) (count : Nat) (resp : Bytes) (w : Waited τ), count < fuel →
      (portReadF p N sid op max fuel addr count resp w).2 ≠ .error .diverge ∧
      (portReadF p N sid op max fuel addr count resp w).1.waits ≤ w.waits + 260 * requestsFor' count max ∧
      portReadF p N sid op max fuel addr count resp w = portReadF p 261 sid op max fuel addr count resp w := by
  intro fuel
  induction fuel with
  | zero => intro addr count resp w h; omega
  | succ fuel ih =>
    intro addr count resp w hf
    rw [portReadF, portReadF]
    by_cases hc : count > 0
    · rw [if_pos hc, if_pos hc]
      dsimp only
      have hs := requestsFor_step count max hmax hc
      have hrc : 0 < (if count > max then max else count) := by split <;> omega
      generalize (if count > max then max else count) = rc at hs hrc ⊢
      obtain ⟨h1, h2, h3⟩ := portRead1_waits p N hN w sid op addr rc
      rw [← h3]
      generalize portRead1 p N w sid op addr rc = q at h1 h2 ⊢
      obtain ⟨w', r⟩ := q
      dsimp only at h1 h2
      cases r with
      | error e => exact ⟨by intro h; exact h1 (by simpa using h), by dsimp only; omega, rfl⟩
      | ok data =>
        dsimp only
        by_cases hd : data.length > 0
        · rw [if_pos hd, if_pos hd]
          obtain ⟨g1, g2, g3⟩ := ih (addr + rc) (count - rc) (resp ++ data) w' (by omega)
          exact ⟨g1, by omega, g3⟩
        · rw [if_neg hd, if_neg hd]
          exact ⟨by simp, by dsimp only; omega, rfl⟩
    · rw [if_neg hc, if_neg hc]
      exact ⟨by simp, by exact Nat.le_add_right _ _, rfl⟩

theorem portWriteF_waits {τ} (p : Port τ) (N : Nat) (hN : 8 < N) (sid : Int) (max : Nat) (hmax : 0 < max) :
    ∀ (fuel : Nat) (addr : Int) (data : Bytes) (w : Waited τ), data.length < fuel →
      (portWriteF p N sid max fuel addr data w).2 ≠ .error .diverge ∧
      (portWriteF p N sid max fuel addr data w).1.waits ≤ w.waits + 8 * requestsFor' data.length (2 * max) ∧
      portWriteF p N sid max fuel addr data w = portWriteF p 9 sid max fuel addr data w := by
  intro fuel
  induction fuel with
  | zero => intro addr data w h; omega
  | succ fuel ih =>
    intro addr data w hf
    rw [portWriteF, portWriteF]
    by_cases hc : data.length > 0
    · rw [if_pos hc, if_pos hc]
      dsimp only
      have hs := requestsFor_step data.length (2 * max) (by omega) hc
      have hrc : 0 < (if data.length > 2 * max then 2 * max else data.length) := by split <;> omega
      generalize (if data.length > 2 * max then 2 * max else data.length) = rc at hs hrc ⊢
      obtain ⟨h1, h2, h3⟩ := portWrite1_waits p N hN w sid addr (data.take rc)
      rw [← h3]
      generalize portWrite1 p N w sid addr (data.take rc) = q at h1 h2 ⊢
      obtain ⟨w', r⟩ := q
      dsimp only at h1 h2
      cases r with
      | error e => exact ⟨by intro h; exact h1 (by simpa using h), by dsimp only; omega, rfl⟩
      | ok u =>
        dsimp only
        have hl : (data.drop rc).length = data.length - rc := List.length_drop
        obtain ⟨g1, g2, g3⟩ := ih (addr + max) (data.drop rc) w' (by omega)
        rw [hl] at g2
        exact ⟨g1, by omega, g3⟩
    · rw [if_neg hc, if_neg hc]
      exact ⟨by simp, by exact Nat.le_add_right _ _, rfl⟩

/-! ## TCP -/

theorem tcpDataLen_lt (r : Bytes) : tcpDataLen r ≤ 65535 := by
  unfold tcpDataLen
  have h := beDec_lt ((r.drop 4).take 2)
  have h2 : ((r.drop 4).take 2).length ≤ 2 := by rw [List.length_take]; omega
  have h3 : 256 ^ ((r.drop 4).take 2).length ≤ 256 ^ 2 := Nat.pow_le_pow_right (by decide) h2
  have h4 : (256 : Nat) ^ 2 = 65536 := by decide
  omega

theorem netRecvF_tail {τ} (net : Net τ) (x : Exc) (hx : x ≠ .diverge) :
    ∀ (fuel : Nat) (remaining : Int) (resp : Bytes) (w : NetWaited τ), 9 ≤ resp.length →
      remaining = (tcpDataLen resp : Int) - ((resp.length : Int) - 6) → remaining.toNat < fuel →
      (netRecvF net x fuel remaining resp w).2 ≠ .error .diverge ∧
      (netRecvF net x fuel remaining resp w).1.waits ≤ w.waits + remaining.toNat ∧
      ∀ fuel', fuel ≤ fuel' → netRecvF net x fuel' remaining resp w = netRecvF net x fuel remaining resp w := by
  intro fuel
  induction fuel with
  | zero => intro remaining resp w _ _ h; omega
  | succ fuel ih =>
    intro remaining resp w h9 hrem h
    by_cases hr : remaining > 0
    · have step : ∀ f, netRecvF net x (f + 1) remaining resp w =
          match net.recv w.st remaining.toNat with
          | (s, none) => ({ w with st := s, waits := w.waits + 1 }, .error .socketTimeout)
          | (s, some got) =>
            if got.length = 0 then ({ w with st := s, waits := w.waits + 1 }, .error x)
            else netRecvF net x f ((tcpDataLen (resp ++ got) : Int) - (((resp ++ got).length : Int) - 6)) (resp ++ got)
              { w with st := s, waits := w.waits + 1 } := by
        intro f
        rw [netRecvF, if_pos hr]
        have : ∀ got : Bytes, (resp ++ got).length ≥ 9 := by intro got; rw [List.length_append]; omega
        simp only [if_pos (this _)]
        rfl
      generalize net.recv w.st remaining.toNat = q at step
      obtain ⟨s, c⟩ := q
      cases c with
      | none =>
        dsimp only at step
        rw [step fuel]
        refine ⟨by simp, ?_, ?_⟩
        · show w.waits + 1 ≤ _; omega
        · intro fuel' hf
          obtain ⟨f, rfl⟩ : ∃ f, fuel' = f + 1 := ⟨fuel' - 1, by omega⟩
          exact step f
      | some c =>
        dsimp only at step
        by_cases hc : c.length = 0
        · simp only [if_pos hc] at step
          rw [step fuel]
          refine ⟨by simpa using hx, ?_, ?_⟩
          · show w.waits + 1 ≤ _; omega
          · intro fuel' hf
            obtain ⟨f, rfl⟩ : ∃ f, fuel' = f + 1 := ⟨fuel' - 1, by omega⟩
            exact step f
        · simp only [if_neg hc] at step
          have hl : (resp ++ c).length = resp.length + c.length := List.length_append
          have hd := tcpDataLen_append (a := resp) (b := c) (by omega)
          have hlt : ((tcpDataLen (resp ++ c) : Int) - (((resp ++ c).length : Int) - 6)).toNat < fuel := by omega
          obtain ⟨h1, h2, h3⟩ := ih _ (resp ++ c) { w with st := s, waits := w.waits + 1 } (by omega) rfl hlt
          rw [step fuel]
          refine ⟨h1, ?_, ?_⟩
          · have e : ({ w with st := s, waits := w.waits + 1 } : NetWaited τ).waits = w.waits + 1 := rfl
            rw [e] at h2
            omega
          · intro fuel' hf
            obtain ⟨f, rfl⟩ : ∃ f, fuel' = f + 1 := ⟨fuel' - 1, by omega⟩
            rw [step f]
            exact h3 f (by omega)
    · have step : ∀ f, netRecvF net x (f + 1) remaining resp w = (w, .ok resp) := by
        intro f; rw [netRecvF, if_neg hr]
      rw [step fuel]
      refine ⟨by simp, by exact Nat.le_add_right _ _, ?_⟩
      intro fuel' hf
      obtain ⟨f, rfl⟩ : ∃ f, fuel' = f + 1 := ⟨fuel' - 1, by omega⟩
      exact step f

theorem netRecvF_head {τ} (net : Net τ) (x : Exc) (hx : x ≠ .diverge) :
    ∀ (fuel : Nat) (remaining : Int) (resp : Bytes) (w : NetWaited τ), remaining + resp.length = 9 →
      remaining.toNat + 65532 < fuel →
      (netRecvF net x fuel remaining resp w).2 ≠ .error .diverge ∧
      (netRecvF net x fuel remaining resp w).1.waits ≤ w.waits + remaining.toNat + 65532 ∧
      ∀ fuel', fuel ≤ fuel' → netRecvF net x fuel' remaining resp w = netRecvF net x fuel remaining resp w := by
  intro fuel
  induction fuel with
  | zero => intro remaining resp w _ h; omega
  | succ fuel ih =>
    intro remaining resp w hlen h
    by_cases hr : remaining > 0
    · have step : ∀ f, netRecvF net x (f + 1) remaining resp w =
          match net.recv w.st remaining.toNat with
          | (s, none) => ({ w with st := s, waits := w.waits + 1 }, .error .socketTimeout)
          | (s, some got) =>
            if got.length = 0 then ({ w with st := s, waits := w.waits + 1 }, .error x)
            else if (resp ++ got).length ≥ 9 then
              netRecvF net x f ((tcpDataLen (resp ++ got) : Int) - (((resp ++ got).length : Int) - 6)) (resp ++ got)
                { w with st := s, waits := w.waits + 1 }
            else netRecvF net x f (remaining - got.length) (resp ++ got) { w with st := s, waits := w.waits + 1 } := by
        intro f
        rw [netRecvF, if_pos hr]
        rfl
      generalize net.recv w.st remaining.toNat = q at step
      obtain ⟨s, c⟩ := q
      cases c with
      | none =>
        dsimp only at step
        rw [step fuel]
        refine ⟨by simp, ?_, ?_⟩
        · show w.waits + 1 ≤ _; omega
        · intro fuel' hf
          obtain ⟨f, rfl⟩ : ∃ f, fuel' = f + 1 := ⟨fuel' - 1, by omega⟩
          exact step f
      | some c =>
        dsimp only at step
        by_cases hc : c.length = 0
        · simp only [if_pos hc] at step
          rw [step fuel]
          refine ⟨by simpa using hx, ?_, ?_⟩
          · show w.waits + 1 ≤ _; omega
          · intro fuel' hf
            obtain ⟨f, rfl⟩ : ∃ f, fuel' = f + 1 := ⟨fuel' - 1, by omega⟩
            exact step f
        · simp only [if_neg hc] at step
          have hl : (resp ++ c).length = resp.length + c.length := List.length_append
          by_cases h9 : (resp ++ c).length ≥ 9
          · simp only [if_pos h9] at step
            have hd := tcpDataLen_lt (resp ++ c)
            have hlt : ((tcpDataLen (resp ++ c) : Int) - (((resp ++ c).length : Int) - 6)).toNat < fuel := by omega
            obtain ⟨h1, h2, h3⟩ := netRecvF_tail net x hx fuel _ (resp ++ c) { w with st := s, waits := w.waits + 1 } h9 rfl hlt
            rw [step fuel]
            refine ⟨h1, ?_, ?_⟩
            · have e : ({ w with st := s, waits := w.waits + 1 } : NetWaited τ).waits = w.waits + 1 := rfl
              rw [e] at h2
              omega
            · intro fuel' hf
              obtain ⟨f, rfl⟩ : ∃ f, fuel' = f + 1 := ⟨fuel' - 1, by omega⟩
              rw [step f]
              exact h3 f (by omega)
          · simp only [if_neg h9] at step
            have hlt : (remaining - (c.length : Int)).toNat + 65532 < fuel := by omega
            obtain ⟨h1, h2, h3⟩ := ih (remaining - c.length) (resp ++ c) { w with st := s, waits := w.waits + 1 } (by omega) hlt
            rw [step fuel]
            refine ⟨h1, ?_, ?_⟩
            · have e : ({ w with st := s, waits := w.waits + 1 } : NetWaited τ).waits = w.waits + 1 := rfl
              rw [e] at h2
              omega
            · intro fuel' hf
              obtain ⟨f, rfl⟩ : ∃ f, fuel' = f + 1 := ⟨fuel' - 1, by omega⟩
              rw [step f]
              exact h3 f (by omega)
    · have step : ∀ f, netRecvF net x (f + 1) remaining resp w = (w, .ok resp) := by
        intro f; rw [netRecvF, if_neg hr]
      rw [step fuel]
      refine ⟨by simp, ?_, ?_⟩
      · show w.waits ≤ _; omega
      · intro fuel' hf
        obtain ⟨f, rfl⟩ : ∃ f, fuel' = f + 1 := ⟨fuel' - 1, by omega⟩
        exact step f

theorem netExchange_waits {τ} (net : Net τ) (x : Exc) (hx : x ≠ .diverge) (K N N' : Nat) (hK : 65541 ≤ K) (hN : K < N) (hN' : K < N') (w : NetWaited τ) (req : Bytes) :
    (netExchange net N x w req).2 ≠ .error .diverge ∧ (netExchange net N x w req).1.waits ≤ w.waits + K ∧
    netExchange net N x w req = netExchange net N' x w req := by
  unfold netExchange
  by_cases hs : w.sock = .connected
  · rw [if_pos hs, if_pos hs]
    generalize net.send w.st req = q
    obtain ⟨s, b⟩ := q
    cases b with
    | false => exact ⟨by simp, by show w.waits ≤ _; omega, rfl⟩
    | true =>
      dsimp only
      obtain ⟨h1, h2, h3⟩ := netRecvF_head net x hx N 9 [] { w with st := s } (by simp) (by omega)
      obtain ⟨_, _, h3'⟩ := netRecvF_head net x hx N' 9 [] { w with st := s } (by simp) (by omega)
      have h4 := h3 (N + N') (by omega)
      have h5 := h3' (N + N') (by omega)
      refine ⟨h1, ?_, h4.symm.trans h5⟩
      have e : ({ w with st := s } : NetWaited τ).waits = w.waits := rfl
      have e9 : (9 : Int).toNat = 9 := rfl
      rw [e, e9] at h2
      omega
  · rw [if_neg hs, if_neg hs]
    exact ⟨by simp, by show w.waits ≤ _; omega, rfl⟩

theorem tcpReply_no_diverge (resp : Bytes) : tcpReply resp ≠ .error .diverge := by
  intro h
  have := tcpReply_err _ _ h
  simp [Exc.isModbusClient] at this

/-- Whatever a step costs, the rest costs at most `k`. -/
theorem netRead1_waits {τ} (net : Net τ) (K N N' : Nat) (hK : 65541 ≤ K) (hN : K < N) (hN' : K < N') (w : NetWaited τ) (sid op addr count : Int) :
    (netRead1 net N w sid op addr count).2 ≠ .error .diverge ∧ (netRead1 net N w sid op addr count).1.waits ≤ w.waits + K ∧
    netRead1 net N w sid op addr count = netRead1 net N' w sid op addr count := by
  unfold netRead1
  generalize hp : packTcpRead sid op addr count = r
  cases r with
  | error e =>
    have := (packTcpRead_err _ _ _ _ _ hp).1
    subst this
    exact ⟨by simp [andThen], by show w.waits ≤ _; omega, rfl⟩
  | ok req =>
    simp only [andThen_ok]
    obtain ⟨h1, h2, h3⟩ := netExchange_waits net .modbusClientError (by decide) K N N' hK hN hN' w req
    rw [← h3]
    generalize netExchange net N .modbusClientError w req = q at h1 h2 ⊢
    obtain ⟨w', r⟩ := q
    cases r with
    | error e => exact ⟨h1, h2, rfl⟩
    | ok resp => exact ⟨tcpReply_no_diverge resp, h2, rfl⟩

theorem netWrite1_waits {τ} (net : Net τ) (K N N' : Nat) (hK : 65541 ≤ K) (hN : K < N) (hN' : K < N') (w : NetWaited τ) (sid addr : Int) (data : Bytes) :
    (netWrite1 net N w sid addr data).2 ≠ .error .diverge ∧ (netWrite1 net N w sid addr data).1.waits ≤ w.waits + K ∧
    netWrite1 net N w sid addr data = netWrite1 net N' w sid addr data := by
  unfold netWrite1
  generalize hp : packTcpWrite sid addr (data.length / 2 : Nat) data.length = r
  cases r with
  | error e =>
    have := (packTcpWrite_err _ _ _ _ hp).1
    subst this
    exact ⟨by simp [andThen], by show w.waits ≤ _; omega, rfl⟩
  | ok hdr =>
    simp only [andThen_ok]
    obtain ⟨h1, h2, h3⟩ := netExchange_waits net .modbusClientTimeout (by decide) K N N' hK hN hN' w (hdr ++ data)
    rw [← h3]
    generalize netExchange net N .modbusClientTimeout w (hdr ++ data) = q at h1 h2 ⊢
    obtain ⟨w', r⟩ := q
    cases r with
    | error e => exact ⟨by simpa [andThen] using h1, h2, rfl⟩
    | ok resp =>
      rw [andThen_ok]
      have := tcpReply_no_diverge resp
      generalize tcpReply resp = z at this ⊢
      cases z with
      | error e => exact ⟨by simpa [andThen] using this, h2, rfl⟩
      | ok u => exact ⟨by simp [andThen], h2, rfl⟩

theorem netReadF_waits {τ} (net : Net τ) (K N N' : Nat) (hK : 65541 ≤ K) (hN : K < N) (hN' : K < N') (sid op : Int) (max : Nat) (hmax : 0 < max) :
    ∀ (fuel : Nat) (addr : Int) (count : Nat) (resp : Bytes) (w : NetWaited τ), count < fuel →
      (netReadF net N sid op max fuel addr count resp w).2 ≠ .error .diverge ∧
      (netReadF net N sid op max fuel addr count resp w).1.waits ≤ w.waits + K * requestsFor' count max ∧
      netReadF net N sid op max fuel addr count resp w = netReadF net N' sid op max fuel addr count resp w := by
  intro fuel
  induction fuel with
  | zero => intro addr count resp w h; omega
  | succ fuel ih =>
    intro addr count resp w hf
    rw [netReadF, netReadF]
    by_cases hc : count > 0
    · rw [if_pos hc, if_pos hc]
      dsimp only
      have hs := requestsFor_step count max hmax hc
      have hs := congrArg (K * ·) hs
      simp only [Nat.mul_add, Nat.mul_one] at hs
      have hrc : 0 < (if count > max then max else count) := by split <;> omega
      generalize (if count > max then max else count) = rc at hs hrc ⊢
      obtain ⟨h1, h2, h3⟩ := netRead1_waits net K N N' hK hN hN' w sid op addr rc
      rw [← h3]
      generalize netRead1 net N w sid op addr rc = q at h1 h2 ⊢
      obtain ⟨w', r⟩ := q
      dsimp only at h1 h2
      cases r with
      | error e => exact ⟨by intro h; exact h1 (by simpa [andThen] using h), by show w'.waits ≤ _; omega, by simp only [andThen]⟩
      | ok data =>
        simp only [andThen_ok]
        by_cases hd : data.length > 0
        · rw [if_pos hd, if_pos hd]
          obtain ⟨g1, g2, g3⟩ := ih (addr + rc) (count - rc) (resp ++ data) w' (by omega)
          exact ⟨g1, by omega, g3⟩
        · rw [if_neg hd, if_neg hd]
          exact ⟨by simp, by dsimp only; omega, rfl⟩
    · rw [if_neg hc, if_neg hc]
      exact ⟨by simp, by show w.waits ≤ _; omega, rfl⟩

theorem netWriteF_waits {τ} (net : Net τ) (K N N' : Nat) (hK : 65541 ≤ K) (hN : K < N) (hN' : K < N') (sid addr : Int) (max : Nat) (hmax : 0 < max) (data : Bytes) :
    ∀ (fuel : Nat) (written : Nat) (se : Option (Nat × Nat)) (w : NetWaited τ), data.length - written < fuel →
      (netWriteF net N sid addr max data fuel written se w).2 ≠ .error .diverge ∧
      (netWriteF net N sid addr max data fuel written se w).1.waits ≤ w.waits + K * requestsFor' (data.length - written) (2 * max) ∧
      netWriteF net N sid addr max data fuel written se w = netWriteF net N' sid addr max data fuel written se w := by
  intro fuel
  induction fuel with
  | zero => intro written se w h; omega
  | succ fuel ih =>
    intro written se w hf
    rw [netWriteF, netWriteF]
    by_cases hc : data.length - written > 0
    · rw [if_pos hc, if_pos hc]
      dsimp only
      have hs := requestsFor_step (data.length - written) (2 * max) (by omega) hc
      have hs := congrArg (K * ·) hs
      simp only [Nat.mul_add, Nat.mul_one] at hs
      have hrc : 0 < (if data.length - written > 2 * max then 2 * max else data.length - written) := by split <;> omega
      generalize (if data.length - written > 2 * max then 2 * max else data.length - written) = rc at hs hrc ⊢
      generalize (if data.length - written > 2 * max then se else some (written, written + rc)) = se'
      cases se' with
      | none => exact ⟨by simp, by show w.waits ≤ _; omega, rfl⟩
      | some x =>
        obtain ⟨a, b⟩ := x
        dsimp only
        obtain ⟨h1, h2, h3⟩ := netWrite1_waits net K N N' hK hN hN' w sid (addr + (written / 2 : Nat)) ((data.drop a).take (b - a))
        rw [← h3]
        generalize netWrite1 net N w sid (addr + (written / 2 : Nat)) ((data.drop a).take (b - a)) = q at h1 h2 ⊢
        obtain ⟨w', r⟩ := q
        dsimp only at h1 h2
        cases r with
        | error e => exact ⟨by intro h; exact h1 (by simpa [andThen] using h), by show w'.waits ≤ _; omega, by simp only [andThen]⟩
        | ok u =>
          simp only [andThen_ok]
          obtain ⟨g1, g2, g3⟩ := ih (written + rc) (some (a, b)) w' (by omega)
          have e : data.length - (written + rc) = data.length - written - rc := by omega
          rw [e] at g2
          exact ⟨g1, by omega, g3⟩
    · rw [if_neg hc, if_neg hc]
      exact ⟨by simp, by show w.waits ≤ _; omega, rfl⟩

theorem netDisconnect_waits {τ} (net : Net τ) (w : NetWaited τ) : (netDisconnect net w).waits = w.waits := by
  unfold netDisconnect; split <;> rfl

theorem netConnect_waits {τ} (net : Net τ) (w : NetWaited τ) :
    (netConnect net w).1.waits = w.waits ∧ (netConnect net w).2 ≠ .error .diverge := by
  unfold netConnect
  dsimp only
  have h := netDisconnect_waits net w
  generalize netDisconnect net w = w' at h ⊢
  generalize net.connect w'.st = q
  obtain ⟨s, b⟩ := q
  cases b
  · exact ⟨h, by simp⟩
  · exact ⟨h, by simp⟩

theorem netWith_waits {τ α} (net : Net τ) (K : Nat) (f g : NetWaited τ → NetWaited τ × Py α)
    (hf : ∀ w, (f w).2 ≠ .error .diverge ∧ (f w).1.waits ≤ w.waits + K ∧ f w = g w) (w : NetWaited τ) :
    (netWith net w f).2 ≠ .error .diverge ∧ (netWith net w f).1.waits ≤ w.waits + K ∧ netWith net w f = netWith net w g := by
  have e : f = g := funext fun w => (hf w).2.2
  subst e
  unfold netWith
  split
  · obtain ⟨h1, h2⟩ := netConnect_waits net w
    generalize netConnect net w = q at h1 h2 ⊢
    obtain ⟨w1, r⟩ := q
    cases r with
    | error e => exact ⟨by simpa [andThen] using h2, by show w1.waits ≤ _; dsimp only at h1; omega, rfl⟩
    | ok u =>
      rw [andThen_ok]
      obtain ⟨g1, g2, _⟩ := hf w1
      refine ⟨g1, ?_, rfl⟩
      dsimp only at h1 ⊢
      rw [netDisconnect_waits]; omega
  · exact ⟨(hf w).1, (hf w).2.1, rfl⟩

end Verif
