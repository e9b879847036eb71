import Verif.Lemmas.Broken
import Verif.Lemmas.Repaired
import Verif.Lemmas.Alike
import Verif.Props.Wire
import Verif.Props.Errors

/-!
# C100: a line that breaks
-/

namespace Verif
open Verif.Spec

/-! ## Every call ends -/

theorem back_ends {τ α} {p : PortX τ} (hp : ProperPort p) {x : Waited τ × Py α} {r : Waited (τ × Option Exc) × Py α} (h : MutePort p x r)
    (hr : r.2 ≠ .error .diverge) : x.2 ≠ .error .diverge := by
  rw [h.eq]
  unfold back
  cases ho : r.1.st.2 with
  | none => exact hr
  | some e =>
    intro hd
    have : e = .diverge := Except.error.inj hd
    subst this
    obtain ⟨t, h1 | ⟨n, h1⟩⟩ := h.raised _ ho
    · exact hp.flush t h1
    · exact hp.read t n h1

theorem back_waits {τ α} {p : PortX τ} {x : Waited τ × Py α} {r : Waited (τ × Option Exc) × Py α} (h : MutePort p x r) :
    x.1.waits = r.1.waits := by rw [h.eq]; rfl

theorem port_ends_X {τ} (p : PortX τ) (hp : ProperPort p) (N : Nat) (hN : 260 < N) (sid : Int) :
    CallsEnd (portDevX p N sid) Waited.waits 260 8 := by
  have hr := fun (w : Waited τ) (a n : Int) => readF_mute p N sid 3 125 (n.toNat + 1) a n.toNat [] w
  have hr' := fun (w : Waited τ) (a n : Int) =>
    portReadF_waits (mutePort p) N hN sid 3 125 (by decide) (n.toNat + 1) a n.toNat [] (lift w) (by omega)
  have hw := fun (w : Waited τ) (a : Int) (d : Bytes) => writeF_mute p N sid 125 (d.length + 1) a d w
  have hw' := fun (w : Waited τ) (a : Int) (d : Bytes) =>
    portWriteF_waits (mutePort p) N (by omega) sid 125 (by decide) (d.length + 1) a d (lift w) (by omega)
  have hout : ∀ (w : Waited τ) (a n : Int), 0 < n → ¬ (0 ≤ a ∧ a < 65536) → ∃ e, ((portDevX p N sid).read w a n).2 = .error e := by
    intro w a n hn ha
    obtain ⟨e, he⟩ := portReadF_out (mutePort p) N sid 3 125 (n.toNat + 1) a n.toNat [] (lift w) (by omega) ha
    have h1 : ((portDevX p N sid).read w a n) = back _ := (hr w a n).eq
    rw [h1]
    exact back_error _ e he
  constructor
  · decide
  · intro w a n
    exact back_ends hp (hr w a n) (hr' w a n).1
  · intro w a n
    have := back_waits (hr w a n)
    have h2 := (hr' w a n).2.1
    rw [← this] at h2
    exact h2
  · refine ⟨fun w a d => back_ends hp (hw w a d) (hw' w a d).1, fun w a d => ?_⟩
    have := back_waits (hw w a d)
    have h2 := (hw' w a d).2.1
    rw [← this] at h2
    exact h2
  · intro f hf
    simp [portDevX] at hf
  · intro w
    rfl
  · exact ⟨fun w a ha => hout w a 1 (by decide) (by omega), fun w a ha => hout w a 3 (by decide) (by omega)⟩

theorem backNet_ends {τ α} {net : NetX τ} (hp : ProperNet net) {x : NetWaited τ × Py α} {r : NetWaited (τ × Option Exc) × Py α}
    (h : MuteNet net x r) (hr : r.2 ≠ .error .diverge) : x.2 ≠ .error .diverge := by
  rw [h.eq]
  unfold backNet
  cases ho : r.1.st.2 with
  | none => exact hr
  | some e =>
    intro hd
    have : e = .diverge := Except.error.inj hd
    subst this
    obtain ⟨t, n, h1⟩ := h.raised _ ho
    exact hp t n h1

theorem backNet_error {τ α} {net : NetX τ} {x : NetWaited τ × Py α} {r : NetWaited (τ × Option Exc) × Py α} (h : MuteNet net x r)
    (e : Exc) (he : r.2 = .error e) : ∃ e', x.2 = .error e' := by
  rw [h.eq]
  unfold backNet
  cases r.1.st.2 with
  | none => exact ⟨e, he⟩
  | some e' => exact ⟨e', rfl⟩

theorem netDisconnectX_waits {τ} (net : NetX τ) (w : NetWaited τ) : (netDisconnectX net w).waits = w.waits := by
  unfold netDisconnectX
  split
  · rfl
  · split <;> rfl

theorem netConnectX_waits {τ} (net : NetX τ) (w : NetWaited τ) :
    (netConnectX net w).1.waits = w.waits ∧ (netConnectX net w).2 ≠ .error .diverge := by
  rw [← netDisconnectX_waits net w]
  unfold netConnectX
  dsimp only
  generalize netDisconnectX net w = v
  split
  · exact ⟨rfl, by simp⟩
  · split
    · exact ⟨rfl, by simp⟩
    · exact ⟨rfl, by simp⟩

theorem netWithX_waits {τ α} (net : NetX τ) (B : Nat) (body : NetWaited τ → NetWaited τ × Py α)
    (hb : ∀ w, (body w).2 ≠ .error .diverge ∧ (body w).1.waits ≤ w.waits + B) (w : NetWaited τ) :
    (netWithX net w body).2 ≠ .error .diverge ∧ (netWithX net w body).1.waits ≤ w.waits + B := by
  unfold netWithX
  split
  · obtain ⟨h1, h2⟩ := netConnectX_waits net w
    rw [← h1]
    generalize netConnectX net w = q at h1 h2 ⊢
    obtain ⟨w1, r⟩ := q
    cases r with
    | error e => exact ⟨fun h => h2 (by simpa [andThen] using h), Nat.le_add_right _ _⟩
    | ok u =>
      refine ⟨(hb w1).1, ?_⟩
      show (netDisconnectX net (body w1).1).waits ≤ _
      rw [netDisconnectX_waits]
      exact (hb w1).2
  · exact hb w

theorem net_ends_X {τ} (net : NetX τ) (hp : ProperNet net) (K N : Nat) (hK : 65541 ≤ K) (hN : K < N) (sid : Int) :
    CallsEnd (netDevX net N sid) NetWaited.waits K K := by
  have hr := fun (a n : Int) (w : NetWaited τ) => netWithX_waits net (K * ((n.toNat + 124) / 125))
    (netReadFX net N sid 3 125 (n.toNat + 1) a n.toNat [])
    (fun w => by
      have h1 := readNF_mute net N sid 3 125 (n.toNat + 1) a n.toNat [] w
      have h2 := netReadF_waits (muteNet net) K N N hK hN hN sid 3 125 (by decide) (n.toNat + 1) a n.toNat [] (liftNet w) (by omega)
      refine ⟨backNet_ends hp h1 h2.1, ?_⟩
      have h3 := h2.2.1
      rw [h1.eq]
      exact h3) w
  have hw := fun (a : Int) (d : Bytes) (w : NetWaited τ) => netWithX_waits net (K * ((d.length + 249) / 250))
    (netWriteFX net N sid a 125 d (d.length + 1) 0 none)
    (fun w => by
      have h1 := writeNF_mute net N sid a 125 d (d.length + 1) 0 none w
      have h2 := netWriteF_waits (muteNet net) K N N hK hN hN sid a 125 (by decide) d (d.length + 1) 0 none (liftNet w) (by omega)
      refine ⟨backNet_ends hp h1 h2.1, ?_⟩
      have h3 := h2.2.1
      rw [h1.eq]
      exact h3) w
  have hout : ∀ (w : NetWaited τ) (a n : Int), 0 < n → ¬ (0 ≤ a ∧ a < 65536) → ∃ e, ((netDevX net N sid).read w a n).2 = .error e := by
    intro w a n hn ha
    have hb : ∀ w, ∃ e, (netReadFX net N sid 3 125 (n.toNat + 1) a n.toNat [] w).2 = .error e := by
      intro w
      obtain ⟨e, he⟩ := netReadF_out (muteNet net) N sid 3 125 (n.toNat + 1) a n.toNat [] (liftNet w) (by omega) ha
      exact backNet_error (readNF_mute net N sid 3 125 (n.toNat + 1) a n.toNat [] w) e he
    have key : ∃ e, (netWithX net w (netReadFX net N sid 3 125 (n.toNat + 1) a n.toNat [])).2 = .error e := by
      unfold netWithX
      split
      · generalize netConnectX net w = q
        obtain ⟨w1, r⟩ := q
        cases r with
        | error e => exact ⟨e, rfl⟩
        | ok u => exact hb w1
      · exact hb w
    obtain ⟨e, he⟩ := key
    refine ⟨e, ?_⟩
    show Except.map some _ = _
    rw [he]
    rfl
  constructor
  · omega
  · intro w a n
    exact map_ends _ (hr a n w).1
  · intro w a n
    exact (hr a n w).2
  · exact ⟨fun w a d => (hw a d w).1, fun w a d => (hw a d w).2⟩
  · intro f hf w
    have hf : netConnectX net = f := Option.some.inj hf
    subst hf
    exact ⟨(netConnectX_waits net w).2, (netConnectX_waits net w).1⟩
  · intro w
    exact netDisconnectX_waits net w
  · exact ⟨fun w a ha => hout w a 1 (by decide) (by omega), fun w a ha => hout w a 3 (by decide) (by omega)⟩

/-- C100 over RTU: whatever the port does, whatever it raises and whenever, `read` and `write` end, after at most 260 calls of
`serial.read` for each 125 registers and 8 for each 250 bytes (`C91_rtu_calls` for ports that may raise); so do `read_points` and
`write_points`, and scans, provided that the definitions are sound (`_partial`: see `C39_violated`). -/
theorem C100_rtu_ends_partial {τ} (p : PortX τ) (hp : ProperPort p) (N : Nat) (hN : 260 < N) (sid : Int) :
    (∀ w addr count, ((portDevX p N sid).read w addr count).2 ≠ .error .diverge ∧
      ((portDevX p N sid).read w addr count).1.waits ≤ w.waits + 260 * ((count.toNat + 124) / 125)) ∧
    (∀ w addr data, ((portDevX p N sid).write w addr data).2 ≠ .error .diverge ∧
      ((portDevX p N sid).write w addr data).1.waits ≤ w.waits + 8 * ((data.length + 249) / 250)) ∧
    (∀ w m, (readPoints (portDevX p N sid).toMbDev w m).2.2 ≠ .error .diverge ∧
      (LoadedInOrder m → (readPoints (portDevX p N sid).toMbDev w m).1.waits ≤ w.waits + 260 * ((m.len.toNat + 41) / 42))) ∧
    (∀ w m, (writePoints (portDevX p N sid).toMbDev w m).2.2 ≠ .error .diverge ∧
      (writePoints (portDevX p N sid).toMbDev w m).1.waits ≤ w.waits + 8 * ((m.blocks.flatMap fun b => b.pts).map pieces).sum) ∧
    (∀ bases, (∃ F, ∀ lib, Definitions lib → ∀ (prog : List MdlObj → Int → Bool) (c : CliDev (Waited τ)), c.bases = bases →
        (scan F (portDevX p N sid) lib prog c).2 ≠ .error .diverge ∧
        ∀ fuel, F ≤ fuel → scan fuel (portDevX p N sid) lib prog c = scan F (portDevX p N sid) lib prog c) ∧
      (∀ fuel lib prog (c : CliDev (Waited τ)), c.bases = bases →
        (scan fuel (portDevX p N sid) lib prog c).1.st.waits ≤ c.st.waits + 260 * (bases.length + 65535))) := by
  have h := port_ends_X p hp N hN sid
  exact ⟨fun w a n => ⟨h.reads w a n, h.readWaits w a n⟩, fun w a d => ⟨h.writes.ends w a d, h.writes.cheap w a d⟩, h.models.1, h.models.2.2,
    fun bases => h.scan bases⟩

/-- C100 over TCP: the same with at most 65541 calls of `recv` for each request. -/
theorem C100_tcp_ends_partial {τ} (net : NetX τ) (hp : ProperNet net) (N : Nat) (hN : 65541 < N) (sid : Int) :
    (∀ w addr count, ((netDevX net N sid).read w addr count).2 ≠ .error .diverge ∧
      ((netDevX net N sid).read w addr count).1.waits ≤ w.waits + 65541 * ((count.toNat + 124) / 125)) ∧
    (∀ w addr data, ((netDevX net N sid).write w addr data).2 ≠ .error .diverge ∧
      ((netDevX net N sid).write w addr data).1.waits ≤ w.waits + 65541 * ((data.length + 249) / 250)) ∧
    (∀ w m, (readPoints (netDevX net N sid).toMbDev w m).2.2 ≠ .error .diverge ∧
      (LoadedInOrder m → (readPoints (netDevX net N sid).toMbDev w m).1.waits ≤ w.waits + 65541 * ((m.len.toNat + 41) / 42))) ∧
    (∀ w m, (writePoints (netDevX net N sid).toMbDev w m).2.2 ≠ .error .diverge ∧
      (writePoints (netDevX net N sid).toMbDev w m).1.waits ≤ w.waits + 65541 * ((m.blocks.flatMap fun b => b.pts).map pieces).sum) ∧
    (∀ bases, (∃ F, ∀ lib, Definitions lib → ∀ (prog : List MdlObj → Int → Bool) (c : CliDev (NetWaited τ)), c.bases = bases →
        (scan F (netDevX net N sid) lib prog c).2 ≠ .error .diverge ∧
        ∀ fuel, F ≤ fuel → scan fuel (netDevX net N sid) lib prog c = scan F (netDevX net N sid) lib prog c) ∧
      (∀ fuel lib prog (c : CliDev (NetWaited τ)), c.bases = bases →
        (scan fuel (netDevX net N sid) lib prog c).1.st.waits ≤ c.st.waits + 65541 * (bases.length + 65535))) := by
  have h := net_ends_X net hp 65541 N (Nat.le_refl _) hN sid
  exact ⟨fun w a n => ⟨h.reads w a n, h.readWaits w a n⟩, fun w a d => ⟨h.writes.ends w a d, h.writes.cheap w a d⟩, h.models.1, h.models.2.2,
    fun bases => h.scan bases⟩

/-! ## Which exceptions the user sees -/

/-- An exception the client makes, or one that comes from the port. -/
def PortErr {τ} (p : PortX τ) (e : Exc) : Prop := e.isModbusClient = true ∨ PortRaises p e ∨ e = .diverge

theorem portRecvX_err {τ} (p : PortX τ) (total : Bytes → Int) : ∀ (fuel : Nat) (remaining : Int) (found : Bool) (resp : Bytes)
    (exc : Option Nat) (w : Waited τ) (e : Exc), (portRecvX p total fuel remaining found resp exc w).2 = .error e → PortErr p e := by
  intro fuel
  induction fuel with
  | zero => intro remaining found resp exc w e h; cases h; exact .inr (.inr rfl)
  | succ fuel ih =>
    intro remaining found resp exc w e h
    rw [portRecvX] at h
    split at h
    · rcases hr : p.read w.st remaining.toNat with ⟨s, r⟩
      rw [hr] at h
      cases r with
      | error e1 =>
        cases h
        exact .inr (.inl ⟨w.st, .inr ⟨remaining.toNat, by rw [hr]⟩⟩)
      | ok c =>
        dsimp only at h
        split at h
        · split at h
          · split at h
            · exact ih _ _ _ _ _ _ h
            · exact ih _ _ _ _ _ _ h
          · exact ih _ _ _ _ _ _ h
        · cases h; exact .inl rfl
    · cases h

theorem portExchangeX_err {τ} (p : PortX τ) (N : Nat) (total : Bytes → Int) (w : Waited τ) (req : Bytes) (e : Exc)
    (h : (portExchangeX p N total w req).2 = .error e) : PortErr p e := by
  unfold portExchangeX at h
  rcases hf : p.flush w.st with ⟨s, r⟩
  rw [hf] at h
  cases r with
  | error e1 => cases h; exact .inr (.inl ⟨w.st, .inl (by rw [hf])⟩)
  | ok u =>
    dsimp only at h
    split at h
    · exact portRecvX_err _ _ _ _ _ _ _ _ _ h
    · cases h; exact .inl rfl

theorem rtuReadReply_err {r : Py (Bytes × Option Nat)} {e : Exc} (h : rtuReadReply r = .error e) :
    r = .error e ∨ e.isModbusClient = true := by
  cases r with
  | error e1 => simp only [rtuReadReply, Except.error.injEq] at h; subst h; exact .inl rfl
  | ok x =>
    obtain ⟨resp, exc⟩ := x
    right
    simp only [rtuReadReply] at h
    repeat' split at h
    all_goals (cases h)
    all_goals rfl

theorem rtuWriteReply_err {sid addr count : Int} {r : Py (Bytes × Option Nat)} {e : Exc} (h : rtuWriteReply sid addr count r = .error e) :
    r = .error e ∨ e.isModbusClient = true ∨ e = .structError := by
  cases r with
  | error e1 => simp only [rtuWriteReply, Except.error.injEq] at h; subst h; exact .inl rfl
  | ok x =>
    obtain ⟨resp, exc⟩ := x
    right
    simp only [rtuWriteReply] at h
    repeat' split at h
    all_goals (cases h)
    all_goals simp [Exc.isModbusClient]

theorem portRead1X_err {τ} (p : PortX τ) (N : Nat) (w : Waited τ) (sid op addr count : Int) (e : Exc)
    (h : (portRead1X p N w sid op addr count).2 = .error e) :
    PortErr p e ∨ (e = .structError ∧ ¬ ((0 ≤ sid ∧ sid < 256) ∧ (0 ≤ op ∧ op < 256) ∧ (0 ≤ addr ∧ addr < 65536) ∧ (0 ≤ count ∧ count < 65536))) := by
  unfold portRead1X at h
  rw [packBBHH_eq] at h
  by_cases hr : (0 ≤ sid ∧ sid < 256) ∧ (0 ≤ op ∧ op < 256) ∧ (0 ≤ addr ∧ addr < 65536) ∧ (0 ≤ count ∧ count < 65536)
  · rw [if_pos hr] at h
    left
    rcases rtuReadReply_err h with h | h
    · exact portExchangeX_err _ _ _ _ _ _ h
    · exact .inl h
  · rw [if_neg hr] at h
    cases h
    exact .inr ⟨rfl, hr⟩

theorem portReadFX_err {τ} (p : PortX τ) (N : Nat) (sid op : Int) (hs : 0 ≤ sid ∧ sid < 256) (ho : 0 ≤ op ∧ op < 256) :
    ∀ (fuel : Nat) (addr : Int) (count : Nat) (resp : Bytes) (w : Waited τ) (e : Exc), count < fuel →
    (portReadFX p N sid op 125 fuel addr count resp w).2 = .error e →
    PortErr p e ∨ (e = .structError ∧ 0 < count ∧ (addr < 0 ∨ 65536 < addr + count)) := by
  intro fuel
  induction fuel with
  | zero => intro addr count resp l e hf; omega
  | succ fuel ih =>
    intro addr count resp w e hf h
    rw [portReadFX] at h
    by_cases hc : count > 0
    · rw [if_pos hc] at h
      dsimp only at h
      generalize hk : (if count > 125 then 125 else count) = k at h
      have hk1 : 0 < k ∧ k ≤ count ∧ k ≤ 125 := by subst hk; split <;> omega
      have h1 := portRead1X_err p N w sid op addr k
      generalize portRead1X p N w sid op addr k = q at h h1
      obtain ⟨w', r⟩ := q
      cases r with
      | error e1 =>
        cases h
        rcases h1 e rfl with h | ⟨h2, h3⟩
        · exact .inl h
        · exact .inr ⟨h2, hc, by omega⟩
      | ok data =>
        dsimp only at h
        split at h
        · rcases ih _ _ _ _ _ (by omega) h with h | ⟨h2, h3⟩
          · exact .inl h
          · refine .inr ⟨h2, hc, ?_⟩; omega
        · cases h
    · rw [if_neg hc] at h
      cases h

theorem portWriteFX_err {τ} (p : PortX τ) (N : Nat) (sid : Int) (max : Nat) (hm : 0 < max) : ∀ (fuel : Nat) (addr : Int) (data : Bytes) (w : Waited τ) (e : Exc),
    data.length < fuel → (portWriteFX p N sid max fuel addr data w).2 = .error e → PortErr p e ∨ e = .structError := by
  intro fuel
  induction fuel with
  | zero => intro addr data w e hf; omega
  | succ fuel ih =>
    intro addr data w e hf h
    rw [portWriteFX] at h
    by_cases hc : data.length > 0
    · rw [if_pos hc] at h
      dsimp only at h
      generalize hk : (if data.length > 2 * max then 2 * max else data.length) = n at h
      have hk1 : 0 < n ∧ n ≤ data.length := by subst hk; split <;> omega
      have h1 : ∀ e, (portWrite1X p N w sid addr (data.take n)).2 = .error e → PortErr p e ∨ e = .structError := by
        intro e h
        unfold portWrite1X at h
        rw [packBBHHB_eq] at h
        split at h
        · rename_i heq
          split at heq
          · cases heq
          · cases heq; cases h; exact .inr rfl
        · rcases rtuWriteReply_err h with h | h | h
          · exact .inl (portExchangeX_err _ _ _ _ _ _ h)
          · exact .inl (.inl h)
          · exact .inr h
      generalize portWrite1X p N w sid addr (data.take n) = q at h h1
      obtain ⟨w', r⟩ := q
      cases r with
      | error e1 => cases h; exact h1 e rfl
      | ok u => exact ih _ _ _ _ (by rw [List.length_drop]; omega) h
    · rw [if_neg hc] at h
      cases h

theorem rtu_readErrs_X {τ} (p : PortX τ) (hp : ProperPort p) (N : Nat) (hN : 260 < N) (sid : Byte) :
    ReadErrs (portDevX p N sid.toNat).toMbDev (fun a n => 0 ≤ a ∧ a + n ≤ 65536) (PortRaises p) True := by
  refine ⟨fun w a n e hP h => ?_, fun _ _ _ _ => trivial⟩
  rcases portReadFX_err p N sid.toNat 3 (byte_sid sid) (by decide) _ _ _ _ _ _ (by omega) h with (h1 | h1 | h1) | ⟨_, h1, h2⟩
  · exact .inl h1
  · exact .inr h1
  · subst h1; exact absurd h ((port_ends_X p hp N hN sid.toNat).reads w a n)
  · exfalso; omega

theorem rtu_readErrs_any_X {τ} (p : PortX τ) (hp : ProperPort p) (N : Nat) (hN : 260 < N) (sid : Byte) :
    ReadErrs (portDevX p N sid.toNat).toMbDev (fun _ _ => True) (fun e => PortRaises p e ∨ e = .structError) True := by
  refine ⟨fun w a n e hP h => ?_, fun _ _ _ _ => trivial⟩
  rcases portReadFX_err p N sid.toNat 3 (byte_sid sid) (by decide) _ _ _ _ _ _ (by omega) h with (h1 | h1 | h1) | ⟨h1, _⟩
  · exact .inl h1
  · exact .inr (.inl h1)
  · subst h1; exact absurd h ((port_ends_X p hp N hN sid.toNat).reads w a n)
  · exact .inr (.inr h1)

theorem rtu_writeErrs_X {τ} (p : PortX τ) (hp : ProperPort p) (N : Nat) (hN : 260 < N) (sid : Byte) :
    WriteErrs (portDevX p N sid.toNat).toMbDev (fun _ _ => True) (fun e => PortRaises p e ∨ e = .structError) := by
  intro w a d e hP h
  rcases portWriteFX_err p N sid.toNat 125 (by decide) _ _ _ _ _ (by omega) h with (h1 | h1 | h1) | h1
  · exact .inl h1
  · exact .inr (.inl h1)
  · subst h1; exact absurd h ((port_ends_X p hp N hN sid.toNat).writes.ends w a d)
  · exact .inr (.inr h1)

/-- C100 over RTU, which exceptions reach the user: `SunSpecClientError`, those of C69, or one that `flushInput()` or `read()` of
the port has raised (`_partial`: these are not wrapped, see `C100_violated`). An exception of `write()` never reaches him as it is. -/
theorem C100_rtu_errors_partial {τ} (p : PortX τ) (hp : ProperPort p) (N : Nat) (hN : 260 < N) (sid : Byte) :
    (∀ w m e, PointsFit m → Addressable m → (readPoints (portDevX p N sid.toNat).toMbDev w m).2.2 = .error e →
      e = .sunSpecClientError ∨ e = .typeError ∨ PortRaises p e) ∧
    (∀ w m e, Sendable m → (writePoints (portDevX p N sid.toNat).toMbDev w m).2.2 = .error e →
      e = .sunSpecClientError ∨ e = .structError ∨ PortRaises p e) ∧
    (∀ bases, ∃ F, ∀ lib, Definitions lib → ∀ (prog : List MdlObj → Int → Bool) (c : CliDev (Waited τ)), c.bases = bases → c.base = none →
      ∀ fuel, F ≤ fuel → ∀ e, (scan fuel (portDevX p N sid.toNat) lib prog c).2 = .error e →
        e = .sunSpecClientError ∨ e = .typeError ∨ e = .structError ∨ PortRaises p e) := by
  refine ⟨fun w m e hm ha h => ?_, fun w m e hs h => ?_, fun bases => ?_⟩
  · rcases readPoints_err (rtu_readErrs_X p hp N hN sid) w m hm ha e h with h | h | h
    · exact .inl h
    · exact .inr (.inr h)
    · exact .inr (.inl h.1)
  · rcases writePoints_err _ (fun _ _ _ _ _ => trivial) (rtu_writeErrs_X p hp N hN sid) m w hs e h with h | h | h
    · exact .inl h
    · exact .inr (.inr h)
    · exact .inr (.inl h)
  · obtain ⟨F, hF⟩ := ((port_ends_X p hp N hN sid.toNat).scan bases).1
    refine ⟨F, fun lib hlib prog c hc hb fuel hf e h => ?_⟩
    obtain ⟨h1, h2⟩ := hF lib hlib prog c hc
    rw [h2 fuel hf] at h
    have h' : (scanBody F (portDevX p N sid.toNat).toMbDev lib prog c).2 = .error e := h
    rcases scanBody_err (rtu_readErrs_any_X p hp N hN sid) lib prog F c e h' with h3 | (h3 | h3) | h3 | h3 | h3 | h3
    · exact .inl h3
    · exact .inr (.inr (.inr h3))
    · exact .inr (.inr (.inl h3))
    · subst h3; exact absurd h h1
    · exact .inr (.inl h3.1)
    · exact .inr (.inr (.inl h3))
    · exact absurd hb h3.2

def NetErr {τ} (net : NetX τ) (e : Exc) : Prop := e.isModbusClient = true ∨ NetRaises net e ∨ e = .diverge

theorem netRecvX_err {τ} (net : NetX τ) (x : Exc) (hx : x.isModbusClient = true) : ∀ (fuel : Nat) (remaining : Int) (resp : Bytes)
    (w : NetWaited τ) (e : Exc), (netRecvX net x fuel remaining resp w).2 = .error e → NetErr net e := by
  intro fuel
  induction fuel with
  | zero => intro remaining resp w e h; cases h; exact .inr (.inr rfl)
  | succ fuel ih =>
    intro remaining resp w e h
    rw [netRecvX] at h
    split at h
    · rcases hr : net.recv w.st remaining.toNat with ⟨s, r⟩
      rw [hr] at h
      cases r with
      | error e1 =>
        cases h
        exact .inr (.inl ⟨w.st, remaining.toNat, by rw [hr]⟩)
      | ok c =>
        dsimp only at h
        split at h
        · cases h; exact .inl hx
        · split at h
          · exact ih _ _ _ _ h
          · exact ih _ _ _ _ h
    · cases h

theorem netExchangeX_err {τ} (net : NetX τ) (N : Nat) (x : Exc) (hx : x.isModbusClient = true) (w : NetWaited τ) (req : Bytes) (e : Exc)
    (h : (netExchangeX net N x w req).2 = .error e) : NetErr net e := by
  unfold netExchangeX at h
  split at h
  · split at h
    · cases h; exact .inl rfl
    · exact netRecvX_err _ _ hx _ _ _ _ _ h
  · cases h; exact .inl rfl

theorem netReadFX_err {τ} (net : NetX τ) (N : Nat) (sid op : Int) (hs : 0 ≤ sid ∧ sid < 256) (ho : 0 ≤ op ∧ op < 256) :
    ∀ (fuel : Nat) (addr : Int) (count : Nat) (resp : Bytes) (w : NetWaited τ) (e : Exc), count < fuel →
    (netReadFX net N sid op 125 fuel addr count resp w).2 = .error e →
    NetErr net e ∨ (e = .structError ∧ 0 < count ∧ (addr < 0 ∨ 65536 < addr + count)) := by
  intro fuel
  induction fuel with
  | zero => intro addr count resp l e hf; omega
  | succ fuel ih =>
    intro addr count resp w e hf h
    rw [netReadFX] at h
    by_cases hc : count > 0
    · rw [if_pos hc] at h
      dsimp only at h
      generalize hk : (if count > 125 then 125 else count) = k at h
      have hk1 : 0 < k ∧ k ≤ count ∧ k ≤ 125 := by subst hk; split <;> omega
      rcases andThen_err h with h | ⟨data, _, h⟩
      · unfold netRead1X at h
        rcases andThen_err h with h | ⟨req, _, h⟩
        · have := packTcpRead_err _ _ _ _ _ h
          exact .inr ⟨this.1, hc, by omega⟩
        · rcases andThen_err h with h | ⟨resp, _, h⟩
          · exact .inl (netExchangeX_err _ _ _ rfl _ _ _ h)
          · exact .inl (.inl (tcpReply_err _ _ h))
      · split at h
        · rcases ih _ _ _ _ _ (by omega) h with h | ⟨h1, _, h2⟩
          · exact .inl h
          · refine .inr ⟨h1, hc, ?_⟩; omega
        · cases h
    · rw [if_neg hc] at h
      cases h

theorem netWrite1X_err {τ} (net : NetX τ) (N : Nat) (w : NetWaited τ) (sid addr : Int) (data : Bytes) (e : Exc)
    (h : (netWrite1X net N w sid addr data).2 = .error e) :
    NetErr net e ∨ (e = .structError ∧ ¬ ((0 ≤ sid ∧ sid < 256) ∧ (0 ≤ addr ∧ addr < 65536) ∧ data.length < 256)) := by
  unfold netWrite1X at h
  generalize hp : packTcpWrite sid addr (data.length / 2 : Nat) data.length = r at h
  rcases andThen_err h with h | ⟨req, _, h⟩
  · dsimp only at h
    rw [h] at hp
    exact .inr (packTcpWrite_err sid addr data e hp)
  · rcases andThen_err h with h | ⟨resp, _, h⟩
    · exact .inl (netExchangeX_err _ _ _ rfl _ _ _ h)
    · rcases andThen_err h with h | ⟨_, _, h⟩
      · exact .inl (.inl (tcpReply_err _ _ h))
      · cases h

theorem netWriteFX_err {τ} (net : NetX τ) (N : Nat) (sid addr : Int) (hs : 0 ≤ sid ∧ sid < 256) (ha : 0 ≤ addr ∧ addr < 65536)
    (data : Bytes) (w : NetWaited τ) (e : Exc) (h : (netWriteFX net N sid addr 125 data (data.length + 1) 0 none w).2 = .error e) :
    NetErr net e ∨ (e = .unboundLocal ∧ 250 < data.length) := by
  rw [netWriteFX] at h
  by_cases hc : data.length - 0 > 0
  · rw [if_pos hc] at h
    dsimp only at h
    by_cases hl : data.length - 0 > 2 * 125
    · simp only [if_pos hl] at h
      cases h
      exact .inr ⟨rfl, by omega⟩
    · simp only [if_neg hl] at h
      rcases andThen_err h with h | ⟨u, _, h⟩
      · rcases netWrite1X_err _ _ _ _ _ _ _ h with h | ⟨h1, h2⟩
        · exact .inl h
        · exfalso
          refine h2 ⟨hs, ⟨by omega, by omega⟩, ?_⟩
          rw [List.length_take, List.length_drop]
          omega
      · obtain ⟨n, hn⟩ : ∃ n, data.length = n + 1 := ⟨data.length - 1, by omega⟩
        rw [show data.length = n + 1 from hn, netWriteFX, if_neg (by omega)] at h
        cases h
  · rw [if_neg hc] at h
    cases h

theorem netWithX_err {τ α} (net : NetX τ) (w : NetWaited τ) (body : NetWaited τ → NetWaited τ × Py α) (e : Exc)
    (h : (netWithX net w body).2 = .error e) : e = .modbusClientError ∨ ∃ w1, (body w1).2 = .error e := by
  unfold netWithX at h
  split at h
  · rcases andThen_err h with h | ⟨u, _, h⟩
    · left
      unfold netConnectX at h
      dsimp only at h
      split at h
      · cases h; rfl
      · split at h
        · cases h
        · cases h; rfl
    · exact .inr ⟨_, h⟩
  · exact .inr ⟨_, h⟩

theorem tcp_readErrs_gen_X {τ} (net : NetX τ) (hp : ProperNet net) (N : Nat) (hN : 65541 < N) (sid : Byte) (w : NetWaited τ) (a n : Int) (e : Exc)
    (h : ((netDevX net N sid.toNat).read w a n).2 = .error e) :
    e.isModbusClient = true ∨ NetRaises net e ∨ (e = .structError ∧ (a < 0 ∨ 65536 < a + n)) := by
  have h0 : e ≠ .diverge := fun hd => by
    subst hd
    exact (net_ends_X net hp 65541 N (Nat.le_refl _) hN sid.toNat).reads w a n h
  have h' := map_some_err _ _ h
  rcases netWithX_err _ _ _ _ h' with rfl | ⟨w1, h1⟩
  · exact .inl rfl
  · rcases netReadFX_err net N sid.toNat 3 (byte_sid sid) (by decide) _ _ _ _ _ _ (by omega) h1 with (h2 | h2 | h2) | ⟨h2, h3, h4⟩
    · exact .inl h2
    · exact .inr (.inl h2)
    · exact absurd h2 h0
    · exact .inr (.inr ⟨h2, by omega⟩)

theorem tcp_readErrs_X {τ} (net : NetX τ) (hp : ProperNet net) (N : Nat) (hN : 65541 < N) (sid : Byte) :
    ReadErrs (netDevX net N sid.toNat).toMbDev (fun a n => 0 ≤ a ∧ a + n ≤ 65536) (NetRaises net) False := by
  refine ⟨fun w a n e hP h => ?_, fun s a n h => map_some_none _ h⟩
  rcases tcp_readErrs_gen_X net hp N hN sid w a n e h with h | h | ⟨_, h⟩
  · exact .inl h
  · exact .inr h
  · exfalso; omega

theorem tcp_readErrs_any_X {τ} (net : NetX τ) (hp : ProperNet net) (N : Nat) (hN : 65541 < N) (sid : Byte) :
    ReadErrs (netDevX net N sid.toNat).toMbDev (fun _ _ => True) (fun e => NetRaises net e ∨ e = .structError) False := by
  refine ⟨fun w a n e hP h => ?_, fun s a n h => map_some_none _ h⟩
  rcases tcp_readErrs_gen_X net hp N hN sid w a n e h with h | h | ⟨h, _⟩
  · exact .inl h
  · exact .inr (.inl h)
  · exact .inr (.inr h)

theorem tcp_writeErrs_X {τ} (net : NetX τ) (hp : ProperNet net) (N : Nat) (hN : 65541 < N) (sid : Byte) :
    WriteErrs (netDevX net N sid.toNat).toMbDev (fun a n => 0 ≤ a ∧ a < 65536 ∧ 0 < n) (fun e => NetRaises net e ∨ e = .unboundLocal) := by
  intro w a d e hP h
  have h0 : e ≠ .diverge := fun hd => by
    subst hd
    exact (net_ends_X net hp 65541 N (Nat.le_refl _) hN sid.toNat).writes.ends w a d h
  rcases netWithX_err _ _ _ _ h with rfl | ⟨w1, h1⟩
  · exact .inl rfl
  · rcases netWriteFX_err net N sid.toNat a (byte_sid sid) ⟨hP.1, hP.2.1⟩ d w1 e h1 with (h2 | h2 | h2) | ⟨h2, _⟩
    · exact .inl h2
    · exact .inr (.inl h2)
    · exact absurd h2 h0
    · exact .inr (.inr h2)

/-- C100 over TCP, which exceptions reach the user: `SunSpecClientError`, those of C69, or one that `recv()` has raised (`_partial`);
`ModbusClientError` from a scan that could not connect. Exceptions of `socket()`, `connect()`, `sendall()` and `close()` never reach
him as they are. -/
theorem C100_tcp_errors_partial {τ} (net : NetX τ) (hp : ProperNet net) (N : Nat) (hN : 65541 < N) (sid : Byte) :
    (∀ w m e, PointsFit m → Addressable m → (readPoints (netDevX net N sid.toNat).toMbDev w m).2.2 = .error e →
      e = .sunSpecClientError ∨ NetRaises net e) ∧
    (∀ w m e, Sendable m → (writePoints (netDevX net N sid.toNat).toMbDev w m).2.2 = .error e →
      e = .sunSpecClientError ∨ e = .unboundLocal ∨ NetRaises net e) ∧
    (∀ bases, ∃ F, ∀ lib, Definitions lib → ∀ (prog : List MdlObj → Int → Bool) (c : CliDev (NetWaited τ)), c.bases = bases → c.base = none →
      ∀ fuel, F ≤ fuel → ∀ e, (scan fuel (netDevX net N sid.toNat) lib prog c).2 = .error e →
        e = .sunSpecClientError ∨ e = .modbusClientError ∨ e = .structError ∨ NetRaises net e) := by
  refine ⟨fun w m e hm ha h => ?_, fun w m e hs h => ?_, fun bases => ?_⟩
  · rcases readPoints_err (tcp_readErrs_X net hp N hN sid) w m hm ha e h with h | h | h
    · exact .inl h
    · exact .inr h
    · exact absurd h.2 id
  · rcases writePoints_err _ (fun a n h1 h2 h3 => by refine ⟨h1, ?_, ?_⟩ <;> omega) (tcp_writeErrs_X net hp N hN sid) m w hs e h with h | h | h
    · exact .inl h
    · exact .inr (.inr h)
    · exact .inr (.inl h)
  · obtain ⟨F, hF⟩ := ((net_ends_X net hp 65541 N (Nat.le_refl _) hN sid.toNat).scan bases).1
    refine ⟨F, fun lib hlib prog c hc hb fuel hf e h => ?_⟩
    obtain ⟨h1, h2⟩ := hF lib hlib prog c hc
    rw [h2 fuel hf] at h
    have hs : scan F (netDevX net N sid.toNat) lib prog c =
        match netConnectX net c.st with
        | (s, .error e) => ({ c with st := s }, .error e)
        | (s, .ok _) => scanEnd (netDisconnectX net) (scanBody F (netDevX net N sid.toNat).toMbDev lib prog { c with st := s }) := by
      unfold scan
      have : (netDevX net N sid.toNat).conn = some (netConnectX net) := rfl
      rw [this]
      dsimp only
      generalize netConnectX net c.st = X
      obtain ⟨s, r⟩ := X
      cases r <;> rfl
    have hcon : ∀ e, (netConnectX net c.st).2 = .error e → e = .modbusClientError := by
      intro e h
      unfold netConnectX at h
      dsimp only at h
      split at h
      · cases h; rfl
      · split at h
        · cases h
        · cases h; rfl
    rw [hs] at h h1
    generalize netConnectX net c.st = X at h h1 hcon
    obtain ⟨s, r⟩ := X
    cases r with
    | error e1 =>
      have := hcon e1 rfl
      subst this
      cases h
      exact .inr (.inl rfl)
    | ok u =>
      dsimp only at h h1
      have hb' : (scanBody F (netDevX net N sid.toNat).toMbDev lib prog { c with st := s }).2 = .error e := by
        revert h
        generalize scanBody F (netDevX net N sid.toNat).toMbDev lib prog { c with st := s } = X
        obtain ⟨c', r'⟩ := X
        cases r' with
        | error e' => intro h; exact h
        | ok u => intro h; cases h
      rcases scanBody_err (tcp_readErrs_any_X net hp N hN sid) lib prog F _ e hb' with h3 | (h3 | h3) | h3 | h3 | h3 | h3
      · exact .inl h3
      · exact .inr (.inr (.inr h3))
      · exact .inr (.inr (.inl h3))
      · subst h3; exact absurd h h1
      · exact absurd h3.2 id
      · exact .inr (.inr (.inl h3))
      · exact absurd hb h3.2

/-! ## When the line works again -/

section
variable {τ σ : Type}

theorem port_alike {p : PortX τ} {Good : τ → Prop} {slave : Slave σ} {on : τ → σ × List Bytes} (h : Works p Good slave on)
    (N : Nat) (hN : 260 < N) (sid : Int) :
    ScanAlike (portDevX p N sid) (rtuScanDev slave sid) (fun w l => Good w.st ∧ (on w.st).1 = l.dev) := by
  have hr : ∀ (w : Waited τ) (l : Line σ), Good w.st ∧ (on w.st).1 = l.dev → ∀ a n,
      ((portDevX p N sid).read w a n).2 = ((rtuDev slave sid).read l a n).2 ∧
      Good ((portDevX p N sid).read w a n).1.st ∧ (on ((portDevX p N sid).read w a n).1.st).1 = ((rtuDev slave sid).read l a n).1.dev := by
    intro w l hw a n
    obtain ⟨g1, g2⟩ := portReadFX_works h N sid 3 125 (n.toNat + 1) a n.toNat [] w ⟨on w.st, w.waits⟩ ⟨hw.1, rfl, rfl⟩
    obtain ⟨k1, k2⟩ := (C91_rtu_same slave N hN sid ⟨on w.st, w.waits⟩ l.sent a).1 n
    have e : (⟨(on w.st).1, l.sent⟩ : Line σ) = l := by rw [hw.2]
    rw [e] at k1 k2
    refine ⟨?_, g1.1, ?_⟩
    · rw [← k1]; exact g2
    · rw [← k2]; exact congrArg Prod.fst g1.2.1
  have hw : ∀ (w : Waited τ) (l : Line σ), Good w.st ∧ (on w.st).1 = l.dev → ∀ a d,
      ((portDevX p N sid).write w a d).2 = ((rtuDev slave sid).write l a d).2 ∧
      Good ((portDevX p N sid).write w a d).1.st ∧ (on ((portDevX p N sid).write w a d).1.st).1 = ((rtuDev slave sid).write l a d).1.dev := by
    intro w l hw a d
    obtain ⟨g1, g2⟩ := portWriteFX_works h N sid 125 (d.length + 1) a d w ⟨on w.st, w.waits⟩ ⟨hw.1, rfl, rfl⟩
    obtain ⟨k1, k2⟩ := (C91_rtu_same slave N hN sid ⟨on w.st, w.waits⟩ l.sent a).2 d
    have e : (⟨(on w.st).1, l.sent⟩ : Line σ) = l := by rw [hw.2]
    rw [e] at k1 k2
    refine ⟨?_, g1.1, ?_⟩
    · rw [← k1]; exact g2
    · rw [← k2]; exact congrArg Prod.fst g1.2.1
  exact {
    read := fun w l a n h => hr w l h a n
    write := fun w l a d h => ⟨.inl (hw w l h a d).1, (hw w l h a d).2⟩
    conn1 := fun f hf => by simp [portDevX] at hf
    conn2 := fun f hf => by simp [rtuScanDev] at hf
    disc1 := fun w l h => h
    disc2 := fun w l h => h }

/-- C100 over RTU: once the line works again, the client works again, whatever has happened before: any program sees exactly what it
would see if it had talked to the slave over a line that has never failed. -/
theorem C100_rtu_recovers {p : PortX τ} {Good : τ → Prop} {slave : Slave σ} {on : τ → σ × List Bytes} (h : Works p Good slave on)
    (N : Nat) (hN : 260 < N) (sid : Int) (lib : Int → Py ModelType) (fuel : Nat) (next : Transcript → Option Call) (n : Nat)
    (tr : Transcript) (c : CliDev (Waited τ)) (hc : Good c.st.st) (l : Line σ) (hl : l.dev = (on c.st.st).1) :
    (converse (portDevX p N sid) fuel lib next n tr c).2 =
      (converse (rtuScanDev slave sid) fuel lib next n tr ⟨l, c.base, c.bases, c.list, c.dict⟩).2 ∧
    (on (converse (portDevX p N sid) fuel lib next n tr c).1.st.st).1 =
      (converse (rtuScanDev slave sid) fuel lib next n tr ⟨l, c.base, c.bases, c.list, c.dict⟩).1.st.dev := by
  have := converse_alike (port_alike h N hN sid) lib fuel next n tr (c := c) (d := ⟨l, c.base, c.bases, c.list, c.dict⟩)
    ⟨rfl, hc, hl.symm⟩
  exact ⟨this.1, this.2.2.2⟩

/-- The working states of a network and the socket of the same device on a network that has never failed. -/
def NetLike (Good : τ → Prop) (on : τ → σ × List Bytes) (w : NetWaited τ) (t : Tcp σ) : Prop :=
  Good w.st ∧ SameSocket ⟨on w.st, w.sock, w.waits⟩ t

theorem netLike_of {Good : τ → Prop} {on : τ → σ × List Bytes} {w : NetWaited τ} {v : NetWaited (σ × List Bytes)} {t : Tcp σ}
    (h : NetAs Good on w v) (ht : SameSocket v t) : NetLike Good on w t := by
  refine ⟨h.1, ?_⟩
  rw [h.2.1, h.2.2.1, h.2.2.2]
  exact ht

theorem net_alike {net : NetX τ} {Good : τ → Prop} {srv : TcpServer σ} {on : τ → σ × List Bytes} (h : NetWorks net Good srv on)
    (N : Nat) (hN : 65541 < N) (sid : Int) :
    Alike (netDevX net N sid).toMbDev (tcpScanDev srv sid).toMbDev (NetLike Good on) := by
  constructor
  · intro w t a n hw
    obtain ⟨g1, g2⟩ := netWithX_works h w ⟨on w.st, w.sock, w.waits⟩ ⟨hw.1, rfl, rfl, rfl⟩
      (fun w v hv => netReadFX_works h N sid 3 125 (n.toNat + 1) a n.toNat [] w v hv)
    obtain ⟨k1, k2⟩ := (C91_tcp_same srv N hN sid ⟨on w.st, w.sock, w.waits⟩ t hw.2 a).1 n
    exact ⟨(congrArg (Except.map some) g2).trans k1, netLike_of g1 k2⟩
  · intro w t a d hw
    obtain ⟨g1, g2⟩ := netWithX_works h w ⟨on w.st, w.sock, w.waits⟩ ⟨hw.1, rfl, rfl, rfl⟩
      (fun w v hv => netWriteFX_works h N sid a 125 d (d.length + 1) 0 none w v hv)
    obtain ⟨k1, k2⟩ := (C91_tcp_same srv N hN sid ⟨on w.st, w.sock, w.waits⟩ t hw.2 a).2.1 d
    exact ⟨.inl (g2.trans k1), netLike_of g1 k2⟩

theorem net_scansAlike {net : NetX τ} {Good : τ → Prop} {srv : TcpServer σ} {on : τ → σ × List Bytes} (h : NetWorks net Good srv on)
    (N : Nat) (hN : 65541 < N) (sid : Int) (lib : Int → Py ModelType) (fuel : Nat) :
    ScansAlike (netDevX net N sid) (tcpScanDev srv sid) (NetLike Good on) lib fuel := by
  intro prog c d hr
  have hb := @scanBody_alike _ _ _ _ _ (net_alike h N hN sid) lib prog fuel
  have hcon : (netConnectX net c.st).2 = (tcpConnect srv d.st).2 ∧ NetLike Good on (netConnectX net c.st).1 (tcpConnect srv d.st).1 := by
    obtain ⟨g1, g2⟩ := netConnectX_works h c.st ⟨on c.st.st, c.st.sock, c.st.waits⟩ ⟨hr.2.1, rfl, rfl, rfl⟩
    obtain ⟨_, _, k1, k2, _⟩ := C91_tcp_same srv N hN sid ⟨on c.st.st, c.st.sock, c.st.waits⟩ d.st hr.2.2 0
    exact ⟨g2.trans k1, netLike_of g1 k2⟩
  have hdis : ∀ w t, NetLike Good on w t → NetLike Good on (netDisconnectX net w) (tcpDisconnect t) := by
    intro w t hw
    obtain ⟨_, _, _, _, k2⟩ := C91_tcp_same srv N hN sid ⟨on w.st, w.sock, w.waits⟩ t hw.2 0
    exact netLike_of (netDisconnectX_works h w ⟨on w.st, w.sock, w.waits⟩ ⟨hw.1, rfl, rfl, rfl⟩) k2
  have hs1 : scan fuel (netDevX net N sid) lib prog c =
      match netConnectX net c.st with
      | (s, .error e) => ({ c with st := s }, .error e)
      | (s, .ok _) => scanEnd (netDisconnectX net) (scanBody fuel (netDevX net N sid).toMbDev lib prog { c with st := s }) := by
    unfold scan
    have : (netDevX net N sid).conn = some (netConnectX net) := rfl
    rw [this]
    dsimp only
    generalize netConnectX net c.st = X
    obtain ⟨s, r⟩ := X
    cases r <;> rfl
  have hs2 : scan fuel (tcpScanDev srv sid) lib prog d =
      match tcpConnect srv d.st with
      | (s, .error e) => ({ d with st := s }, .error e)
      | (s, .ok _) => scanEnd tcpDisconnect (scanBody fuel (tcpScanDev srv sid).toMbDev lib prog { d with st := s }) := by
    unfold scan
    have : (tcpScanDev srv sid).conn = some (tcpConnect srv) := rfl
    rw [this]
    dsimp only
    generalize tcpConnect srv d.st = X
    obtain ⟨s, r⟩ := X
    cases r <;> rfl
  rw [hs1, hs2]
  generalize netConnectX net c.st = X at hcon
  generalize tcpConnect srv d.st = Y at hcon
  obtain ⟨s, r⟩ := X
  obtain ⟨t, r'⟩ := Y
  obtain ⟨h1, h2⟩ := hcon
  dsimp only at h1 h2
  subst h1
  cases r with
  | error e => exact ⟨rfl, hr.1, h2⟩
  | ok u =>
    dsimp only
    obtain ⟨b1, b2, b3⟩ := hb (c := { c with st := s }) (d := { d with st := t }) ⟨hr.1, h2⟩
    generalize scanBody fuel (netDevX net N sid).toMbDev lib prog { c with st := s } = X at b1 b2 b3
    generalize scanBody fuel (tcpScanDev srv sid).toMbDev lib prog { d with st := t } = Y at b1 b2 b3
    obtain ⟨c', r⟩ := X
    obtain ⟨d', r'⟩ := Y
    dsimp only at b1 b2 b3
    subst b1
    cases r with
    | error e => exact ⟨rfl, b2, b3⟩
    | ok u => exact ⟨rfl, b2, hdis _ _ b3⟩

/-- C100 over TCP: once the network works again, any program sees exactly what it would see if it had talked to the server over a
network that has never failed, with the same socket: the client remembers nothing of the failures but the socket. (What that can
mean, see `C100_stuck`.) -/
theorem C100_tcp_recovers {net : NetX τ} {Good : τ → Prop} {srv : TcpServer σ} {on : τ → σ × List Bytes} (h : NetWorks net Good srv on)
    (N : Nat) (hN : 65541 < N) (sid : Int) (lib : Int → Py ModelType) (fuel : Nat) (next : Transcript → Option Call) (n : Nat)
    (tr : Transcript) (c : CliDev (NetWaited τ)) (hc : Good c.st.st) (t : Tcp σ) (ht : SameSocket ⟨on c.st.st, c.st.sock, c.st.waits⟩ t) :
    (converse (netDevX net N sid) fuel lib next n tr c).2 =
      (converse (tcpScanDev srv sid) fuel lib next n tr ⟨t, c.base, c.bases, c.list, c.dict⟩).2 ∧
    (on (converse (netDevX net N sid) fuel lib next n tr c).1.st.st).1 =
      (converse (tcpScanDev srv sid) fuel lib next n tr ⟨t, c.base, c.bases, c.list, c.dict⟩).1.st.dev := by
  have := converse_alike' (net_alike h N hN sid) lib fuel (net_scansAlike h N hN sid lib fuel) next n tr (c := c)
    (d := ⟨t, c.base, c.bases, c.list, c.dict⟩) ⟨rfl, hc, ht⟩
  exact ⟨this.1, this.2.2.2.1⟩

/-- C100 over TCP: without a connection of the user's own, and if closing sockets does not fail and the connection can be made, no
socket is left after a read or a write, whatever has been raised in between. Then the next call starts afresh. -/
theorem C100_tcp_released {τ} (net : NetX τ) (N : Nat) (sid : Int) (w : NetWaited τ) (hs : w.sock = .absent)
    (hclose : ∀ t, ∃ u, (net.close t).2 = .ok u) (hc : (netConnectX net w).2 = .ok ()) (addr : Int) :
    (∀ count, ((netDevX net N sid).read w addr count).1.sock = .absent) ∧
    (∀ data, ((netDevX net N sid).write w addr data).1.sock = .absent) := by
  have hd : ∀ v, (netDisconnectX net v).sock = .absent := by
    intro v
    unfold netDisconnectX
    split
    · assumption
    · obtain ⟨u, hu⟩ := hclose v.st
      generalize net.close v.st = q at hu
      obtain ⟨s, r⟩ := q
      dsimp only at hu
      subst hu
      rfl
  have key : ∀ {α} (body : NetWaited τ → NetWaited τ × Py α), (netWithX net w body).1.sock = .absent := by
    intro α body
    unfold netWithX
    rw [if_pos hs]
    generalize netConnectX net w = q at hc
    obtain ⟨w1, r⟩ := q
    dsimp only at hc
    subst hc
    exact hd _
  exact ⟨fun n => key _, fun d => key _⟩

end

/-! ## Examples, and what does not hold -/

/-- An adapter that is unplugged: the next `k` calls of `serial.read` (the first component of the state) raise, then it is plugged in
again. -/
def unpluggedPort {σ} (slave : Slave σ) : PortX (Nat × (σ × List Bytes)) where
  flush s := ((s.1, (slavePort slave).flush s.2), .ok ())
  write s req := ((s.1, ((slavePort slave).write s.2 req).1), if ((slavePort slave).write s.2 req).2 then .ok () else .error .serialError)
  read s n := if s.1 = 0 then ((0, ((slavePort slave).read s.2 n).1), .ok ((slavePort slave).read s.2 n).2) else ((s.1 - 1, s.2), .error .serialError)

theorem unplugged_works {σ} (slave : Slave σ) : Works (unpluggedPort slave) (fun s => s.1 = 0) slave (fun s => s.2) := by
  constructor
  · intro t ht; exact ⟨ht, rfl, rfl⟩
  · intro t req ht
    refine ⟨ht, rfl, ?_⟩
    show (if ((slavePort slave).write t.2 req).2 then (.ok () : Py Unit) else .error .serialError) = .ok () ↔ _
    cases ((slavePort slave).write t.2 req).2 <;> simp
  · intro t n ht
    have e : (unpluggedPort slave).read t n = ((0, ((slavePort slave).read t.2 n).1), .ok ((slavePort slave).read t.2 n).2) := if_pos ht
    rw [e]
    exact ⟨rfl, rfl, rfl⟩

theorem unplugged_proper {σ} (slave : Slave σ) : ProperPort (unpluggedPort slave) := by
  constructor
  · intro t h; cases h
  · intro t n h
    unfold unpluggedPort at h
    dsimp only at h
    split at h <;> cases h

/-- C100, the whole of it: whatever the port or the network raises, the user sees `SunSpecClientError`; and a client that had no
connection has none after a call, so that the next call starts afresh. -/
def C100_full : Prop :=
  (∀ (τ : Type) (p : PortX τ), ProperPort p → ∀ (N : Nat), 260 < N → ∀ (sid : Byte) (w : Waited τ) (m : MdlObj), PointsFit m → Addressable m →
    OnlyClient (readPoints (portDevX p N sid.toNat).toMbDev w m).2.2) ∧
  (∀ (τ : Type) (net : NetX τ), ProperNet net → ∀ (N : Nat), 65541 < N → ∀ (sid : Byte) (w : NetWaited τ) (m : MdlObj), PointsFit m → Addressable m →
    OnlyClient (readPoints (netDevX net N sid.toNat).toMbDev w m).2.2) ∧
  (∀ (τ : Type) (net : NetX τ), ProperNet net → ∀ (N : Nat), 65541 < N → ∀ (sid : Byte) (w : NetWaited τ) (addr count : Int), w.sock = .absent →
    ((netDevX net N sid.toNat).read w addr count).1.sock = .absent)

/-- C100: the exception of an unplugged adapter reaches the caller of `read_points` as it is. -/
theorem C100_unplugged :
    (readPoints (portDevX (unpluggedPort (idealSlave 1)) 261 1).toMbDev ⟨(1, (exMem, [])), 0⟩ exModel).2.2 = .error .serialError := by decide +kernel

theorem C100_violated : ¬ C100_full := by
  intro h
  have := h.1 _ _ (unplugged_proper (idealSlave 1)) 261 (by decide) 1 ⟨(1, (exMem, [])), 0⟩ exModel exModel_fit exModel_addressable _ C100_unplugged
  cases this

/-- Non-vacuity: the exception of `write` is wrapped; after the failure of `C100_unplugged` the state is a working one, and reading
again works. -/
example : (readPoints (portDevX (⟨fun _ => ((), .ok ()), fun _ _ => ((), .error .serialError), fun _ _ => ((), .ok [])⟩ : PortX Unit) 261 1).toMbDev
    ⟨(), 0⟩ exModel).2.2 = .error .sunSpecClientError := by decide +kernel

example : (readPoints (portDevX (unpluggedPort (idealSlave 1)) 261 1).toMbDev
    (readPoints (portDevX (unpluggedPort (idealSlave 1)) 261 1).toMbDev ⟨(1, (exMem, [])), 0⟩ exModel).1 exModel).2.2 = .ok () := by decide +kernel

/-- A network on which `close` fails: while the socket is dead (`false`) every operation on it raises; a new one is alive. -/
def dyingNet : NetX Bool where
  socket _ := (true, .ok ())
  connect s := (s, .ok ())
  close s := (s, .error .osError)
  send s _ := if s then (s, .ok ()) else (s, .error .osError)
  recv _ _ := (false, .error .socketError)

/-- C100: if `close` raises, the dead socket is kept, and all later reads and writes fail, for ever, although a new socket would work;
`disconnect` does not help, only `connect` does. -/
theorem C100_stuck (N : Nat) (sid : Int) (w : NetWaited Bool) (hw : w.st = false ∧ w.sock = .connected) :
    netDisconnectX dyingNet w = w ∧
    (∀ addr count, 0 < count → ∃ e, ((netDevX dyingNet N sid).read w addr count) = (w, .error e)) ∧
    (∃ v, netConnectX dyingNet w = (v, .ok ()) ∧ v.st = true ∧ v.sock = .connected) := by
  obtain ⟨st, sock, k⟩ := w
  obtain ⟨h1, h2⟩ := hw
  dsimp only at h1 h2
  subst h1 h2
  refine ⟨rfl, fun addr count hc => ?_, ⟨_, rfl, rfl, rfl⟩⟩
  have key : ∃ e, netWithX dyingNet ⟨false, .connected, k⟩ (netReadFX dyingNet N sid 3 125 (count.toNat + 1) addr count.toNat []) =
      (⟨false, .connected, k⟩, .error e) := by
    unfold netWithX
    rw [if_neg (by simp), netReadFX, if_pos (by omega)]
    dsimp only
    generalize (if count.toNat > 125 then 125 else count.toNat) = rc
    unfold netRead1X
    generalize packTcpRead sid 3 addr rc = r
    cases r with
    | error e => exact ⟨e, rfl⟩
    | ok req => exact ⟨.modbusClientError, rfl⟩
  obtain ⟨e, he⟩ := key
  refine ⟨e, ?_⟩
  show ((netWithX dyingNet _ _).1, Except.map some (netWithX dyingNet _ _).2) = _
  rw [he]
  rfl

/-- Non-vacuity of `C100_stuck`: that is the state after the first read. -/
example : ((netDevX dyingNet 65542 1).read ⟨true, .absent, 0⟩ 40000 1).1 = ⟨false, .connected, 1⟩ := by decide +kernel

/-- Non-vacuity of `C100_tcp_released`: when closing works, the same failure leaves no socket. -/
example : (((netDevX { dyingNet with close := fun s => (s, .ok ()) } 65542 1).read ⟨true, .absent, 0⟩ 40000 1).1).sock = .absent := by decide +kernel

/-- Non-vacuity of `NetWorks`: a network whose `recv` raises while the first component is positive. -/
def resetNet {σ} (srv : TcpServer σ) : NetX (Nat × (σ × List Bytes)) where
  socket s := (s, .ok ())
  connect s := ((s.1, ((serverNet srv).connect s.2).1), if ((serverNet srv).connect s.2).2 then .ok () else .error .osError)
  close s := ((s.1, (serverNet srv).close s.2), .ok ())
  send s req := ((s.1, ((serverNet srv).send s.2 req).1), if ((serverNet srv).send s.2 req).2 then .ok () else .error .osError)
  recv s n := if s.1 = 0 then ((0, ((serverNet srv).recv s.2 n).1), match ((serverNet srv).recv s.2 n).2 with | none => .error .socketTimeout | some d => .ok d)
    else ((s.1 - 1, s.2), .error .socketError)

theorem reset_works {σ} (srv : TcpServer σ) : NetWorks (resetNet srv) (fun s => s.1 = 0) srv (fun s => s.2) := by
  constructor
  · intro t ht; exact ⟨ht, rfl, rfl⟩
  · intro t ht
    refine ⟨ht, rfl, ?_⟩
    show (if ((serverNet srv).connect t.2).2 then (.ok () : Py Unit) else .error .osError) = .ok () ↔ _
    cases ((serverNet srv).connect t.2).2 <;> simp
  · intro t ht; exact ⟨ht, rfl, rfl⟩
  · intro t req ht
    refine ⟨ht, rfl, ?_⟩
    show (if ((serverNet srv).send t.2 req).2 then (.ok () : Py Unit) else .error .osError) = .ok () ↔ _
    cases ((serverNet srv).send t.2 req).2 <;> simp
  · intro t n ht
    have e : (resetNet srv).recv t n = ((0, ((serverNet srv).recv t.2 n).1), match ((serverNet srv).recv t.2 n).2 with | none => .error .socketTimeout | some d => .ok d) := if_pos ht
    rw [e]
    exact ⟨rfl, rfl, rfl⟩

example : (readPoints (netDevX (resetNet (idealServer 1)) 65542 1).toMbDev ⟨(1, (exMem, [])), .absent, 0⟩ exModel).2.2 = .error .socketError ∧
    (readPoints (netDevX (resetNet (idealServer 1)) 65542 1).toMbDev
      (readPoints (netDevX (resetNet (idealServer 1)) 65542 1).toMbDev ⟨(1, (exMem, [])), .absent, 0⟩ exModel).1 exModel).2.2 = .ok () := by decide +kernel

end Verif
