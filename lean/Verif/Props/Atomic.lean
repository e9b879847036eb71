import Verif.Lemmas.AtomicDev

/-!
# C95 No half-written points

Whatever goes wrong while `write_points` is running (the device is switched off, the line is cut, the connection is refused or closed, requests or replies
are lost, the program is stopped between two requests), no point is left half written: its registers hold the old value or all of the new one, and no
other register has changed. If `write_points` returns, all modified points have been written.

A program that is stopped is covered by the devices that cannot be reached any more after the last request sent.
-/

namespace Verif
open Verif.Spec

/-- C95, for any device that executes each single write completely or not at all (see below for RTU and TCP devices). -/
theorem C95_points_partial {σ} {dev : MbDev σ} {R : σ → RegMem → Prop} {ready : σ → Prop} {wr : Nat → Prop} (hdev : AtomicMem dev R ready wr)
    (s : σ) (mem : RegMem) (hs : R s mem) (hr : ready s) (m : MdlObj) (hm : CanStore mem wr m) :
    ∃ mem', R (writePoints dev s m).1 mem' ∧ AllOrNothing m mem mem' ∧ ((writePoints dev s m).2.2 = .ok () → Written m mem') := by
  obtain ⟨mem', h1, h2, h3, h4⟩ := writePoints_atomic hdev s mem hs hr m hm
  refine ⟨mem', h1, ⟨fun x hx => h2 x ?_, h3⟩, fun h => (h4 h).2⟩
  rintro ⟨b, hb, p, hp, hd, hx'⟩
  exact hx b hb p hp hd hx'

/-- C95 for RTU devices that may fail at any request. -/
theorem C95_rtu_partial {σ} {slave : Slave σ} {abs : σ → Mem} {sid : Byte} (hu : UnreliableRtu slave abs sid) (l : Line σ) (m : MdlObj)
    (hm : CanStore (regMem (abs l.dev)) (fun _ => True) m) :
    AllOrNothing m (regMem (abs l.dev)) (regMem (abs (writePoints (rtuDev slave sid.toNat) l m).1.dev)) ∧
    ((writePoints (rtuDev slave sid.toNat) l m).2.2 = .ok () → Written m (regMem (abs (writePoints (rtuDev slave sid.toNat) l m).1.dev))) := by
  obtain ⟨mem', rfl, h2, h3⟩ := C95_points_partial (rtu_atomic hu) l _ rfl trivial m hm
  exact ⟨h2, h3⟩

/-- C95 for TCP devices that may fail at any request, with or without an open connection (on which nothing is pending). -/
theorem C95_tcp_partial {σ} {srv : TcpServer σ} {abs : σ → Mem} {unit : Byte} (hu : UnreliableTcp srv abs unit) (t : Tcp σ)
    (ht : ∀ p, t.sock = .connected p → received p = []) (m : MdlObj) (hm : CanStore (regMem (abs t.dev)) (fun _ => True) m) :
    AllOrNothing m (regMem (abs t.dev)) (regMem (abs (writePoints (tcpDev srv unit.toNat) t m).1.dev)) ∧
    ((writePoints (tcpDev srv unit.toNat) t m).2.2 = .ok () → Written m (regMem (abs (writePoints (tcpDev srv unit.toNat) t m).1.dev))) := by
  obtain ⟨mem', rfl, h2, h3⟩ := C95_points_partial (tcp_atomic hu) t _ rfl ht m hm
  exact ⟨h2, h3⟩

/-! ## Devices that fail -/

theorem received_one (x : Bytes) : received [x] = x := by
  by_cases h : x = []
  · subst h; rfl
  · rw [received_cons h]; simp [received]

theorem received_cut (x : Bytes) : received [x, []] = x := by
  by_cases h : x = []
  · subst h; rfl
  · rw [received_cons h]; simp [received]

/-- Any sequence of faults may happen to a slave. -/
theorem C95_faultySlave (sid : Byte) : UnreliableRtu (faultySlave sid) (·.1) sid := by
  constructor
  · rintro ⟨m, fs⟩ req
    rcases fs with _ | ⟨f, fs⟩
    · exact .inl rfl
    · cases f
      · exact .inl rfl
      · exact .inr rfl
      · exact .inl rfl
      · exact .inr rfl
  · rintro ⟨m, fs⟩ a data chunks ha hd hc he
    have hpre : received chunks <+: (serveRtu sid m (rtuFrame sid (writePdu a data))).2.getD [] →
        (serveRtu sid m (rtuFrame sid (writePdu a data))).2 = some (rtuFrame sid (0x10 :: (field16 a ++ field16 (data.length / 2)))) := by
      intro hp
      obtain ⟨rest, he⟩ := he
      rw [he, serveRtu_frame, serve_write m ha hd] at hp
      rw [serveRtu_frame, serve_write m ha hd]
      have hl := hp.length_le
      split
      · rename_i c
        rw [if_pos c] at hl
        simp [rtuFrame, crcBytes, field16] at hl
      · split
        · rename_i c c'
          rw [if_neg c, if_pos c'] at hl
          simp [rtuFrame, crcBytes, field16] at hl
        · rfl
    rcases fs with _ | ⟨f, fs⟩
    · cases hc
      exact ⟨rfl, hpre (by rw [received_one]; exact List.prefix_refl _)⟩
    · cases f
      · cases hc
        exact ⟨rfl, hpre (by rw [received_one]; exact List.prefix_refl _)⟩
      · cases hc
        obtain ⟨rest, he⟩ := he
        have := congrArg List.length he
        simp [received, rtuFrame, crcBytes] at this
      · cases hc
        exact ⟨rfl, hpre (by rw [received_one]; exact List.take_prefix _ _)⟩
      · cases hc

/-- Any sequence of faults may happen to a server. -/
theorem C95_faultyServer (unit : Byte) : UnreliableTcp (faultyServer unit) (·.1) unit := by
  constructor
  · rintro ⟨m, fs⟩
    rcases fs with _ | ⟨f, fs⟩
    · rfl
    · cases f <;> rfl
  · rintro ⟨m, fs⟩ req
    rcases fs with _ | ⟨f, fs⟩
    · exact .inl rfl
    · cases f
      · exact .inl rfl
      · exact .inr rfl
      · exact .inl rfl
      · exact .inr rfl
  · rintro ⟨m, fs⟩ req chunks hc
    rcases fs with _ | ⟨f, fs⟩
    · cases hc
      exact ⟨by rw [received_one]; exact List.prefix_refl _, fun _ => rfl⟩
    · cases f
      · cases hc
        exact ⟨by rw [received_one]; exact List.prefix_refl _, fun _ => rfl⟩
      · cases hc
        exact ⟨⟨_, rfl⟩, fun h => absurd rfl h⟩
      · cases hc
        exact ⟨by rw [received_cut]; exact List.take_prefix _ _, fun _ => rfl⟩
      · cases hc

theorem regMem_some (m : Mem) {x : Int} (h1 : 0 ≤ x) (h2 : x < 65536) : regMem m x ≠ none := by
  unfold regMem
  rw [if_pos ⟨h1, h2⟩]
  simp

/-- Non-vacuity: all points of a model (fixed block and two repeating blocks, three requests) are set to 5. -/
theorem allSet_store : CanStore (regMem exMem) (fun _ => True) (mapPts allSet exModel) := by
  refine ⟨mapPts_separate _ (fun p => by unfold allSet; split <;> exact ⟨rfl, rfl, rfl⟩) exModel_separate, fun _ _ _ _ _ => trivial, ?_⟩
  have key : ∀ b ∈ (mapPts allSet exModel).blocks, ∀ p ∈ b.pts, p.dirty = true → LenOK p.pt ∧ p.pt.type ≠ .string ∧ 0 ≤ p.addr ∧ p.addr + p.pt.len ≤ 65536 := by
    decide +kernel
  intro b hb p hp hd
  obtain ⟨k1, k2, k3, k4⟩ := key b hb p hp hd
  exact ⟨k1, fun h => absurd h k2, fun x x1 x2 => regMem_some exMem (by omega) (by omega)⟩

/-- The second request is lost: the first point has been written, the others have not (and the third request is not sent). -/
example :
    (writePoints (rtuDev (faultySlave 1) 1) ⟨(exMem, [.none, .lost]), []⟩ (mapPts allSet exModel)).2.2 ≠ .ok () ∧
    (List.range 7).map (fun i => (writePoints (rtuDev (faultySlave 1) 1) ⟨(exMem, [.none, .lost]), []⟩ (mapPts allSet exModel)).1.dev.1 (40002 + i)) =
      [5, 40003, 40004, 40005, 40006, 40007, 40008] := by decide +kernel

/-- The reply to the second request is lost: the points of the first repeating block have been written although `write_points` raises. -/
example :
    (writePoints (rtuDev (faultySlave 1) 1) ⟨(exMem, [.none, .cut 4]), []⟩ (mapPts allSet exModel)).2.2 ≠ .ok () ∧
    (List.range 7).map (fun i => (writePoints (rtuDev (faultySlave 1) 1) ⟨(exMem, [.none, .cut 4]), []⟩ (mapPts allSet exModel)).1.dev.1 (40002 + i)) =
      [5, 40003, 40004, 5, 5, 40007, 40008] := by decide +kernel

example (sid : Byte) (fs : List Fault) :
    AllOrNothing (mapPts allSet exModel) (regMem exMem)
      (regMem (writePoints (rtuDev (faultySlave sid) sid.toNat) ⟨(exMem, fs), []⟩ (mapPts allSet exModel)).1.dev.1) :=
  (C95_rtu_partial (C95_faultySlave sid) ⟨(exMem, fs), []⟩ _ allSet_store).1

example (sid : Byte) (fs : List Fault) :
    AllOrNothing (mapPts allSet exModel) (regMem exMem)
      (regMem (writePoints (tcpDev (faultyServer sid) sid.toNat) (freshTcp (exMem, fs)) (mapPts allSet exModel)).1.dev.1) :=
  (C95_tcp_partial (C95_faultyServer sid) (freshTcp (exMem, fs)) (fun p hp => by cases hp) _ allSet_store).1

/-! ## Short strings -/

/-- C95, full statement (for TCP devices): strings of any length. -/
def C95_full : Prop :=
  ∀ (unit : Byte) (fs : List Fault) (mem : Mem) (m : MdlObj), Separate m →
    (∀ b ∈ m.blocks, ∀ p ∈ b.pts, p.dirty = true → LenOK p.pt ∧ (∃ d, p.pt.type.toData p.base (p.pt.len * 2).toNat = .ok d) ∧
      ∀ x, p.addr ≤ x → x < p.addr + p.pt.len → regMem mem x ≠ none) →
    AllOrNothing m (regMem mem) (regMem (writePoints (tcpDev (faultyServer unit) unit.toNat) (freshTcp (mem, fs)) m).1.dev.1)

/-- C95 is violated for strings of less than 8 registers: as they are encoded with one byte too many (C05), writing two of them overwrites a
register after them. -/
theorem C95_violated : ¬ C95_full := by
  intro h
  have hp : ∀ b ∈ strModel.blocks, ∀ p ∈ b.pts, p.dirty = true → LenOK p.pt ∧ (∃ d, p.pt.type.toData p.base (p.pt.len * 2).toNat = .ok d) ∧
      0 ≤ p.addr ∧ p.addr + p.pt.len ≤ 4 := by decide +kernel
  have hsep : Separate strModel := by unfold Separate; decide +kernel
  obtain ⟨h1, _⟩ := h 1 [] exMem strModel hsep (fun b hb p hpp hd => by
    obtain ⟨k1, k2, k3, k4⟩ := hp b hb p hpp hd
    exact ⟨k1, k2, fun x x1 x2 => regMem_some exMem (by omega) (by omega)⟩)
  have := h1 4 (fun b hb p hpp hd => by have := hp b hb p hpp hd; omega)
  revert this
  decide +kernel

end Verif
