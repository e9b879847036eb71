import Verif.Spec.Noise
import Verif.Props.Crc
import Verif.Props.ClientRead

/-! Lemmas: the RTU client on a noisy line. -/

namespace Verif
open Verif.Spec

/-- Two valid frames that differ only by noise are the same. -/
theorem altered_valid {f g : Bytes} (h : Altered f g) (hf : frameCrcOk f = true) (hg : frameCrcOk g = true) : f = g := by
  rcases h with h | ⟨hl, ⟨start, hb⟩ | ⟨h256, h1, h3⟩ | hodd⟩
  · exact h
  · refine Classical.byContradiction fun hne => ?_
    rw [C08_burst_detected f g hl hf hne start hb] at hg
    cases hg
  · rw [C08_three_bit_errors_detected f g hl h256 hf h1 h3] at hg
    cases hg
  · rw [C08_odd_errors_detected f g hl hf hodd] at hg
    cases hg

theorem altered_length {f g : Bytes} (h : Altered f g) : f.length = g.length := by
  rcases h with rfl | h
  · rfl
  · exact h.1

theorem frame_valid (sid : Byte) (pdu : Bytes) : frameCrcOk (rtuFrame sid pdu) = true := (frameCrcOk_iff _).2 ⟨_, rfl⟩

theorem frame_length (sid : Byte) (pdu : Bytes) : (rtuFrame sid pdu).length = pdu.length + 3 := by simp [rtuFrame, crcBytes]

/-- An altered request is ignored. -/
theorem serveRtu_altered {sid : Byte} {m : Mem} {pdu req' : Bytes} (h : Altered (rtuFrame sid pdu) req' ∨ req' = []) :
    req' = rtuFrame sid pdu ∨ serveRtu sid m req' = (m, none) := by
  by_cases hv : req' = rtuFrame sid ((req'.drop 1).take (req'.length - 3))
  · left
    rcases h with h | h
    · refine (altered_valid h (frame_valid _ _) ?_).symm
      rw [hv]
      exact frame_valid _ _
    · have := congrArg List.length hv
      rw [frame_length, h] at this
      simp at this
  · right
    unfold serveRtu
    rw [if_neg hv]

/-- What a read makes of the beginning `b` of an altered normal reply: at most the registers asked for, and these if it is as much. -/
theorem readOutcome_noise {sid op : Byte} (hop : op &&& 0x80 = 0) {p g b d : Bytes} (hp : p.length < 256)
    (ha : Altered (rtuFrame sid (op :: BitVec.ofNat 8 p.length :: p)) g) (hb : b <+: g)
    (h : readOutcome (some b) = .ok d) :
    d.length ≤ p.length ∧ (d.length = p.length → d = p ∨ p = []) ∧
      (d.length = p.length ∨ ∃ k, k < g.length ∧ ValidFrame (g.take k)) := by
  have hgl := altered_length ha
  rw [frame_length] at hgl
  simp only [List.length_cons] at hgl
  have hbl := hb.length_le
  obtain ⟨t, ht⟩ := hb
  simp only [readOutcome] at h
  unfold recvFlat at h
  split at h
  · simp [rtuReadReply] at h
  · rename_i h5
    split at h
    · rename_i hbit
      split at h
      · simp [rtuReadReply] at h
      · rename_i hlen
        simp only [rtuReadReply, truthy] at h
        split at h
        · simp at h
        · rename_i hcrc
          simp only [Bool.false_eq_true, if_false, Except.ok.injEq] at h
          unfold readTotal at *
          have hn := ((b.take 5).getD 2 0).isLt
          generalize ((b.take 5).getD 2 0).toNat = n at *
          have e5 : ((n : Int) + 5).toNat = n + 5 := by omega
          rw [e5] at h hcrc
          have htl : (b.take (n + 5)).length = n + 5 := by rw [List.length_take]; omega
          have hdl : d.length = n := by
            rw [← h, List.length_take, List.length_drop, htl]; omega
          have hbt : b.take (n + 5) = g.take (n + 5) := by
            rw [← ht, List.take_append_of_le_length (by omega)]
          have hv : frameCrcOk (b.take (n + 5)) = true := by
            cases hx : frameCrcOk (b.take (n + 5)) with
            | true => rfl
            | false => exact absurd hx hcrc
          refine ⟨by omega, ?_, ?_⟩
          · intro hdp
            left
            have hg : b.take (n + 5) = g := by rw [hbt, List.take_of_length_le (by omega)]
            rw [hg] at hv
            have := altered_valid ha (frame_valid _ _) hv
            rw [hg, ← this] at h
            rw [← h]
            simp [rtuFrame, crcBytes]
          · by_cases hx : d.length = p.length
            · exact .inl hx
            · refine .inr ⟨n + 5, by omega, ?_⟩
              rw [← hbt]
              exact (frameCrcOk_iff _).1 hv
    · rename_i hbit
      simp only [rtuReadReply] at h
      split at h
      · simp at h
      · rename_i hcrc
        split at h
        · simp at h
        · simp only [Except.ok.injEq] at h
          have htl : (b.take 5).length = 5 := by rw [List.length_take]; omega
          have hd : d = [] := by rw [← h, htl]; simp
          have hbt : b.take 5 = g.take 5 := by
            rw [← ht, List.take_append_of_le_length (by omega)]
          have hv : frameCrcOk (b.take 5) = true := by
            cases hx : frameCrcOk (b.take 5) with
            | true => rfl
            | false => exact absurd hx hcrc
          subst hd
          refine ⟨by simp, ?_, ?_⟩
          · intro hp0
            exact .inr (List.length_eq_zero_iff.1 hp0.symm)
          · by_cases hx : p.length = 0
            · exact .inl (by simp [hx])
            · refine .inr ⟨5, by omega, ?_⟩
              rw [← hbt]
              exact (frameCrcOk_iff _).1 hv

/-- The beginning of an altered exception reply is never taken for data. -/
theorem readOutcome_noise_exc {sid op c : Byte} (hop : ¬ op &&& 0x80 = 0) (hc : c ≠ 0) {g b d : Bytes}
    (ha : Altered (rtuFrame sid [op, c]) g) (hb : b <+: g) : readOutcome (some b) ≠ .ok d := by
  intro h
  have hgl := altered_length ha
  rw [frame_length] at hgl
  simp only [List.length_cons, List.length_nil] at hgl
  have hbl := hb.length_le
  by_cases h5 : b.length < 5
  · simp only [readOutcome] at h
    unfold recvFlat at h
    rw [if_pos h5] at h
    simp [rtuReadReply] at h
  · have hbg : b = g := by
      obtain ⟨t, ht⟩ := hb
      have : t = [] := by
        have := congrArg List.length ht
        rw [List.length_append] at this
        exact List.length_eq_zero_iff.1 (by omega)
      rw [this, List.append_nil] at ht
      exact ht
    subst hbg
    have hv : frameCrcOk b = true := by
      simp only [readOutcome] at h
      unfold recvFlat at h
      rw [if_neg h5] at h
      have hx : ∀ k : Nat, 5 ≤ k → b.take k = b := fun k hk => List.take_of_length_le (by omega)
      split at h
      · split at h
        · simp [rtuReadReply] at h
        · rw [hx _ (by have := readTotal_ge (b.take 5); omega)] at h
          simp only [rtuReadReply] at h
          split at h
          · simp at h
          · rename_i hh
            cases hy : frameCrcOk b with
            | true => rfl
            | false => exact absurd hy hh
      · rw [hx 5 (by omega)] at h
        simp only [rtuReadReply] at h
        split at h
        · simp at h
        · rename_i hh
          cases hy : frameCrcOk b with
          | true => rfl
          | false => exact absurd hy hh
    have := altered_valid ha (frame_valid _ _) hv
    rw [← this] at h
    have h' := readOutcome_exception sid op c hop hc []
    rw [List.append_nil] at h'
    rw [h'] at h
    cases h

theorem readOutcome_nothing (d : Bytes) (o : Option Bytes) (ho : ∀ b, o = some b → b = []) : readOutcome o ≠ .ok d := by
  intro h
  cases o with
  | none => simp [readOutcome] at h
  | some b =>
    rw [ho b rfl] at h
    simp [readOutcome, recvFlat, rtuReadReply] at h

/-- One read exchange on a noisy line. -/
theorem noisy_read {σ} {slave : Slave σ} {abs : σ → Mem} {sid : Byte} {fits : Bytes → Prop} (hc : NoisyLine fits slave abs sid) (s : σ)
    {a q : Nat} (ha : a < 65536) (hq : q < 65536) :
    abs (slave s (rtuFrame sid (readPdu 3 a q))).1 = abs s ∧
    ∀ d, readOutcome ((slave s (rtuFrame sid (readPdu 3 a q))).2.map received) = .ok d →
      1 ≤ q ∧ q ≤ 125 ∧ a + q ≤ 65536 ∧ d.length ≤ 2 * q ∧ (d.length = 2 * q → d = memRead (abs s) a q) ∧
      (d.length = 2 * q ∨ ∃ g k, fits g ∧ k < g.length ∧ ValidFrame (g.take k)) := by
  obtain ⟨req', h1, h2, h3⟩ := hc s (rtuFrame sid (readPdu 3 a q))
  rcases serveRtu_altered (m := abs s) h1 with rfl | hx
  · rw [serveRtu_frame, serve_read _ _ (.inl rfl) ha hq] at h2 h3
    refine ⟨h2, ?_⟩
    intro d hd
    cases hsl : (slave s (rtuFrame sid (readPdu 3 a q))).2 with
    | none => rw [hsl] at hd; simp [readOutcome] at hd
    | some chunks =>
      rw [hsl] at hd
      obtain ⟨g, g1, g2, g3⟩ := h3 chunks hsl
      simp only [Option.map_some] at hd
      simp only [Option.getD_some] at g1
      split at g1
      · exact absurd hd (readOutcome_noise_exc (by decide) (by decide) g1 g3)
      · rename_i hq1
        split at g1
        · exact absurd hd (readOutcome_noise_exc (by decide) (by decide) g1 g3)
        · rename_i hq2
          have hml := memRead_length (abs s) a q
          have g1' : Altered (rtuFrame sid (3 :: BitVec.ofNat 8 (memRead (abs s) a q).length :: memRead (abs s) a q)) g := by
            rw [hml]; exact g1
          obtain ⟨r1, r2, r3⟩ := readOutcome_noise (by decide) (by rw [hml]; omega) g1' g3 hd
          rw [hml] at r1 r2 r3
          refine ⟨by omega, by omega, by omega, r1, ?_, ?_⟩
          · intro h
            rcases r2 h with h' | h'
            · exact h'
            · rw [h'] at hml; simp at hml; omega
          · rcases r3 with r3 | ⟨k, r3, r4⟩
            · exact .inl r3
            · exact .inr ⟨g, k, g2, r3, r4⟩
  · rw [hx] at h2 h3
    refine ⟨h2, ?_⟩
    intro d hd
    refine absurd hd (readOutcome_nothing d _ ?_)
    intro b hb
    cases hsl : (slave s (rtuFrame sid (readPdu 3 a q))).2 with
    | none => rw [hsl] at hb; cases hb
    | some chunks =>
      obtain ⟨g, g1, _, g3⟩ := h3 chunks hsl
      rw [hsl] at hb
      simp only [Option.map_some, Option.some.injEq] at hb
      have hl := altered_length g1
      have := g3.length_le
      simp at hl
      rw [← hb]
      exact List.length_eq_zero_iff.1 (by omega)

/-- One write exchange on a noisy line. -/
theorem noisy_write {σ} {slave : Slave σ} {abs : σ → Mem} {sid : Byte} {fits : Bytes → Prop} (hc : NoisyLine fits slave abs sid) (s : σ)
    {a : Nat} {d : Bytes} (ha : a < 65536) (hd : d.length < 256) :
    (abs (slave s (rtuFrame sid (writePdu a d))).1 = abs s ∨
      (d.length % 2 = 0 ∧ abs (slave s (rtuFrame sid (writePdu a d))).1 = memWrite (abs s) a d)) ∧
    (writeOutcome sid.toNat a (d.length / 2 : Nat) ((slave s (rtuFrame sid (writePdu a d))).2.map received) = .ok () →
      (1 ≤ d.length / 2 ∧ d.length / 2 ≤ 123 ∧ d.length % 2 = 0 ∧ a + d.length / 2 ≤ 65536) ∧
      abs (slave s (rtuFrame sid (writePdu a d))).1 = memWrite (abs s) a d) := by
  obtain ⟨req', h1, h2, h3⟩ := hc s (rtuFrame sid (writePdu a d))
  have hshort : ∀ {f : Bytes}, f.length < 8 → (∀ chunks, (slave s (rtuFrame sid (writePdu a d))).2 = some chunks → ∃ g, Altered f g ∧ fits g ∧
      received chunks <+: g) →
      writeOutcome sid.toNat a (d.length / 2 : Nat) ((slave s (rtuFrame sid (writePdu a d))).2.map received) ≠ .ok () := by
    intro f hf h3 hw
    cases hsl : (slave s (rtuFrame sid (writePdu a d))).2 with
    | none => rw [hsl] at hw; simp [writeOutcome] at hw
    | some chunks =>
      rw [hsl] at hw
      obtain ⟨g, g1, _, g3⟩ := h3 chunks hsl
      simp only [Option.map_some, writeOutcome] at hw
      obtain ⟨rest, hr⟩ := rtuWriteReply_ok (by omega) hw
      have h8 := congrArg List.length hr
      rw [List.length_append, frame_length] at h8
      simp only [List.length_cons, List.length_append, field16, List.length_nil] at h8
      have := g3.length_le
      have := altered_length g1
      omega
  rcases serveRtu_altered (m := abs s) h1 with rfl | hx
  · rw [serveRtu_frame, serve_write _ ha hd] at h2 h3
    by_cases c1 : d.length / 2 < 1 ∨ 123 < d.length / 2 ∨ d.length % 2 = 1
    · rw [if_pos c1] at h2 h3
      exact ⟨.inl h2, fun hw => absurd hw (hshort (by simp [frame_length]) h3)⟩
    · rw [if_neg c1] at h2 h3
      by_cases c2 : 65536 < a + d.length / 2
      · rw [if_pos c2] at h2 h3
        exact ⟨.inl h2, fun hw => absurd hw (hshort (by simp [frame_length]) h3)⟩
      · rw [if_neg c2] at h2
        exact ⟨.inr ⟨by omega, h2⟩, fun _ => ⟨by omega, h2⟩⟩
  · rw [hx] at h2 h3
    exact ⟨.inl h2, fun hw => absurd hw (hshort (by simp) h3)⟩

/-- The loop of a read on a noisy line. -/
theorem rtuReadF_noise {σ} {slave : Slave σ} {abs : σ → Mem} {sid : Byte} {fits : Bytes → Prop} (hc : NoisyLine fits slave abs sid)
    (maxCount : Nat) (fuel : Nat) (a : Int) (count : Nat) (resp : Bytes) (l l' : Line σ) (r : Py (Option Bytes))
    (h : rtuReadF slave sid.toNat 3 maxCount fuel a count resp l = (l', r)) :
    abs l'.dev = abs l.dev ∧
    (∀ d, r = .ok (some d) → d.length ≤ resp.length + 2 * count ∧
      (d.length = resp.length + 2 * count → (0 < count → 0 ≤ a ∧ a + count ≤ 65536) ∧ d = resp ++ memRead (abs l.dev) a.toNat count)) ∧
    ((∀ g k, fits g → k < g.length → ¬ ValidFrame (g.take k)) → ∀ d, r = .ok d → ∃ d', d = some d' ∧ d'.length = resp.length + 2 * count) := by
  induction fuel generalizing a count resp l with
  | zero =>
    simp only [rtuReadF, Prod.mk.injEq] at h
    obtain ⟨rfl, rfl⟩ := h
    exact ⟨rfl, by simp, by simp⟩
  | succ fuel ih =>
    rw [rtuReadF] at h
    by_cases hcz : count > 0
    · rw [if_pos hcz] at h
      simp only at h
      generalize hqq : (if count > maxCount then maxCount else count) = q at h
      have hq1 : q ≤ count := by split at hqq <;> omega
      rw [rtuRead1_eq] at h
      by_cases hr : (0 ≤ (sid.toNat : Int) ∧ (sid.toNat : Int) < 256) ∧ (0 ≤ (3 : Int) ∧ (3 : Int) < 256) ∧ (0 ≤ a ∧ a < 65536) ∧
          (0 ≤ (q : Int) ∧ (q : Int) < 65536)
      · rw [if_pos hr] at h
        simp only [Int.toNat_natCast, BitVec.ofNat_toNat, BitVec.setWidth_eq] at h
        have e3 : BitVec.ofNat 8 (Int.toNat 3) = (3 : Byte) := rfl
        rw [e3] at h
        obtain ⟨h1, h2⟩ := noisy_read hc l.dev (a := a.toNat) (q := q) (by omega) (by omega)
        generalize hsr : slave l.dev (rtuFrame sid (readPdu 3 a.toNat q)) = sr at *
        generalize hwo : readOutcome (Option.map received sr.2) = wo at *
        cases wo with
        | error e =>
          simp only [Prod.mk.injEq] at h
          obtain ⟨rfl, rfl⟩ := h
          exact ⟨h1, by simp, by simp⟩
        | ok data =>
          have ea : (a + (q : Int)).toNat = a.toNat + q := by omega
          obtain ⟨k1, k2, k3, k4, k5, k6⟩ := h2 data rfl
          simp only at h
          by_cases hdz : data.length > 0
          · rw [if_pos hdz] at h
            obtain ⟨i1, i2, i3⟩ := ih _ _ _ _ h
            dsimp only at i1 i2 i3
            rw [h1] at i1 i2
            simp only [List.length_append] at i2 i3
            refine ⟨i1, ?_, ?_⟩
            · intro d hd
              obtain ⟨j1, j2⟩ := i2 d hd
              refine ⟨by omega, ?_⟩
              intro hl
              obtain ⟨j3, j4⟩ := j2 (by omega)
              refine ⟨fun _ => ?_, ?_⟩
              · by_cases hz : 0 < count - q
                · have := j3 hz; omega
                · omega
              · rw [j4, k5 (by omega), ea, List.append_assoc, ← memRead_add,
                  show q + (count - q) = count by omega]
            · intro hcl d hd
              obtain ⟨d', e1, e2⟩ := i3 hcl d hd
              refine ⟨d', e1, ?_⟩
              rcases k6 with k6 | ⟨g, k, g1, g2, g3⟩
              · omega
              · exact absurd g3 (hcl g k g1 g2)
          · rw [if_neg hdz] at h
            simp only [Prod.mk.injEq] at h
            obtain ⟨rfl, rfl⟩ := h
            refine ⟨h1, by simp, ?_⟩
            intro hcl
            rcases k6 with k6 | ⟨g, k, g1, g2, g3⟩
            · omega
            · exact absurd g3 (hcl g k g1 g2)
      · rw [if_neg hr] at h
        simp only [Prod.mk.injEq] at h
        obtain ⟨rfl, rfl⟩ := h
        exact ⟨rfl, by simp, by simp⟩
    · rw [if_neg hcz] at h
      have : count = 0 := by omega
      subst this
      simp only [Prod.mk.injEq] at h
      obtain ⟨rfl, rfl⟩ := h
      refine ⟨rfl, ?_, ?_⟩
      · intro d hd
        cases hd
        refine ⟨by omega, fun _ => ⟨by omega, ?_⟩⟩
        simp [memRead]
      · intro _ d hd
        cases hd
        exact ⟨_, rfl, by omega⟩

/-- The loop of a write on a noisy line: a prefix of the data is stored, all of it if the write returns; then it also returns on a line without
noise. -/
theorem rtuWriteF_noise {σ} {slave : Slave σ} {abs : σ → Mem} {sid : Byte} {fits : Bytes → Prop} (hc : NoisyLine fits slave abs sid)
    (maxCount : Nat) (fuel : Nat) (a : Int)
    (data : Bytes) (l l' : Line σ) (res : Py Unit)
    (h : rtuWriteF slave sid.toNat maxCount fuel a data l = (l', res)) :
    (∃ k, k ≤ data.length ∧ k % 2 = 0 ∧ abs l'.dev = memWrite (abs l.dev) a.toNat (data.take k) ∧
      (res = .ok () → k = data.length)) ∧
    (res = .ok () → ∀ t : Line Mem, t.dev = abs l.dev →
      ∃ t', rtuWriteF (idealSlave sid) sid.toNat maxCount fuel a data t = (t', .ok ()) ∧ t'.dev = abs l'.dev) := by
  have hid : ConformsRtu (idealSlave sid) id sid := by
    intro s req
    refine ⟨rfl, _, rfl, ?_⟩
    by_cases hx : (serveRtu sid s req).2.getD [] = []
    · have : (serveRtu sid (id s) req).2.getD [] = [] := hx
      rw [this, hx]; rfl
    · unfold received
      rw [List.takeWhile_cons, if_pos (by simpa using hx)]
      simp
  induction fuel generalizing a data l with
  | zero =>
    simp only [rtuWriteF, Prod.mk.injEq] at h
    obtain ⟨rfl, rfl⟩ := h
    exact ⟨⟨0, by omega, rfl, by rw [List.take_zero, memWrite_nil], by simp⟩, by simp⟩
  | succ fuel ih =>
    rw [rtuWriteF] at h
    by_cases hcz : data.length > 0
    · rw [if_pos hcz] at h
      simp only at h
      generalize hqq : (if data.length > 2 * maxCount then 2 * maxCount else data.length) = n at h
      have hq1 : n ≤ data.length ∧ (n < data.length → n = 2 * maxCount) := by split at hqq <;> omega
      have hnl : (data.take n).length = n := by simp; omega
      rw [rtuWrite1_eq] at h
      by_cases hr : (0 ≤ (sid.toNat : Int) ∧ (sid.toNat : Int) < 256) ∧ (0 ≤ a ∧ a < 65536) ∧ (data.take n).length < 256
      · rw [if_pos hr] at h
        simp only [Int.toNat_natCast, BitVec.ofNat_toNat, BitVec.setWidth_eq] at h
        obtain ⟨hw1, hw2⟩ := noisy_write hc l.dev (a := a.toNat) (d := data.take n) (by omega) (by omega)
        rw [Int.toNat_of_nonneg hr.2.1.1] at hw2
        generalize hsr : slave l.dev (rtuFrame sid (writePdu a.toNat (data.take n))) = sr at *
        generalize hwo : writeOutcome (sid.toNat : Int) a ((data.take n).length / 2 : Nat)
          (Option.map received sr.2) = wo at *
        cases wo with
        | error e =>
          simp only [Prod.mk.injEq] at h
          obtain ⟨rfl, rfl⟩ := h
          refine ⟨?_, by simp⟩
          rcases hw1 with hw1 | ⟨h0, hw1⟩
          · exact ⟨0, by omega, rfl, by rw [List.take_zero, memWrite_nil]; exact hw1, by simp⟩
          · exact ⟨n, by omega, by omega, hw1, by simp⟩
        | ok u =>
          simp only at h
          obtain ⟨hb1, h1⟩ := hw2 rfl
          obtain ⟨⟨k, hk1, hk2, hk3, hk4⟩, hk5⟩ := ih _ _ _ h
          have hdl : (data.drop n).length = data.length - n := by simp
          refine ⟨⟨n + k, by omega, by omega, ?_, fun hres => by have := hk4 hres; omega⟩, ?_⟩
          · rw [hk3]
            dsimp only
            rw [h1]
            by_cases hlt : n < data.length
            · rw [show (a + (maxCount : Int)).toNat = a.toNat + (data.take n).length / 2 by omega,
                memWrite_append _ _ _ _ (by omega)]
              congr 1
              rw [List.take_add]
            · have h0 : data.drop n = [] := by simp; omega
              rw [h0, List.take_nil, memWrite_nil, List.take_of_length_le (by omega),
                List.take_of_length_le (by omega)]
          · intro hres t ht
            rw [rtuWriteF, if_pos hcz]
            simp only
            rw [hqq, rtuWrite1_eq, if_pos hr]
            simp only [Int.toNat_natCast, BitVec.ofNat_toNat, BitVec.setWidth_eq]
            have hw := conform_write hid t.dev (a := a.toNat) (d := data.take n) (by omega) (by omega)
            rw [Int.toNat_of_nonneg hr.2.1.1, if_neg (by omega), if_neg (by omega), Prod.mk.injEq] at hw
            obtain ⟨w1, w2⟩ := hw
            rw [w2]
            dsimp only
            refine hk5 hres _ ?_
            dsimp only
            rw [h1, ← ht]
            exact w1
      · rw [if_neg hr] at h
        simp only [Prod.mk.injEq] at h
        obtain ⟨rfl, rfl⟩ := h
        exact ⟨⟨0, by omega, rfl, by rw [List.take_zero, memWrite_nil], by simp⟩, by simp⟩
    · rw [if_neg hcz] at h
      simp only [Prod.mk.injEq] at h
      obtain ⟨rfl, rfl⟩ := h
      refine ⟨⟨0, by omega, rfl, by rw [List.take_zero, memWrite_nil], fun _ => by omega⟩, ?_⟩
      intro _ t ht
      exact ⟨t, by rw [rtuWriteF, if_neg hcz], ht⟩

end Verif
