import Verif.Lemmas.Grouped
import Verif.Lemmas.Alike
import Verif.Props.ClientWrite

/-!
# C76: modified points that are next to each other are written together
-/

namespace Verif
open Verif.Spec

/-- There is exactly one way to cut the modified points of a model into the longest runs. -/
theorem C76_grouping (m : MdlObj) : ∃ gs, ModelGrouped m gs ∧ ∀ gs', ModelGrouped m gs' → gs' = gs :=
  ⟨_, modelGrouped_eq.2 rfl, fun _ h => modelGrouped_eq.1 h⟩

/-- C76: let the modified points of a model be cut, block by block, into the longest runs of points whose registers follow each
other. Whatever the device does, the writes that `write_points` makes are those of the first runs, one for each, in this order,
each with the data of all points of its run; and if it returns, all runs have been written. -/
theorem C76_requests {σ} (dev : MbDev σ) (s : σ) (m : MdlObj) (gs : List (List PointObj)) (hgs : ModelGrouped m gs) :
    ∃ k ws, List.Forall₂ RunData (gs.take k) ws ∧ (writePoints (recording dev) (s, []) m).1.2 = ws ∧
      ((writePoints (recording dev) (s, []) m).2.2 = .ok () → gs.length ≤ k) := by
  rw [modelGrouped_eq] at hgs
  subst hgs
  have h : Records (recording dev) (fun x => x.2) (fun _ => True) id := fun _ _ _ _ => .inl rfl
  obtain ⟨k, ws, h1, h2, h3⟩ := wpBlocks_records h m.blocks (s, []) (fun _ _ _ _ => trivial)
  refine ⟨k, ws, h1, ?_, h3⟩
  have h4 : (wpBlocks (recording dev) m.blocks (s, [])).1.2 = ws := by simpa using h2
  exact h4

/-- Recording does not change anything: the device ends in the same state, and the model and the outcome are the same. -/
theorem C76_recording {σ} (dev : MbDev σ) (s : σ) (log : List (Int × Bytes)) (m : MdlObj) :
    (writePoints (recording dev) (s, log) m).1.1 = (writePoints dev s m).1 ∧
      (writePoints (recording dev) (s, log) m).2 = (writePoints dev s m).2 := by
  have pt : ∀ (p : PointObj) (acc : WAcc (σ × List (Int × Bytes))),
      (wpPoint (recording dev) acc p).1 = (wpPoint dev ⟨acc.s.1, acc.addr, acc.next, acc.data⟩ p).1 ∧
      (⟨(wpPoint (recording dev) acc p).2.1.s.1, (wpPoint (recording dev) acc p).2.1.addr, (wpPoint (recording dev) acc p).2.1.next,
        (wpPoint (recording dev) acc p).2.1.data⟩ : WAcc σ) = (wpPoint dev ⟨acc.s.1, acc.addr, acc.next, acc.data⟩ p).2.1 ∧
      (wpPoint (recording dev) acc p).2.2 = (wpPoint dev ⟨acc.s.1, acc.addr, acc.next, acc.data⟩ p).2.2 := by
    intro p acc
    have hw : ∀ a, cdWrite dev acc.s.1 a acc.data =
        ((cdWrite (recording dev) acc.s a acc.data).1.1, (cdWrite (recording dev) acc.s a acc.data).2) := fun _ => rfl
    unfold wpPoint
    split
    · split
      · exact ⟨rfl, rfl, rfl⟩
      · dsimp only
        cases acc.addr with
        | none => exact ⟨rfl, rfl, rfl⟩
        | some a =>
          dsimp only
          split
          · exact ⟨rfl, rfl, rfl⟩
          · rw [hw]
            rcases cdWrite (recording dev) acc.s a acc.data with ⟨s', r⟩
            cases r with
            | error e => exact ⟨rfl, rfl, rfl⟩
            | ok u => exact ⟨rfl, rfl, rfl⟩
    · exact ⟨rfl, rfl, rfl⟩
  have pts : ∀ (ps : List PointObj) (acc : WAcc (σ × List (Int × Bytes))),
      (wpPoints (recording dev) ps acc).1 = (wpPoints dev ps ⟨acc.s.1, acc.addr, acc.next, acc.data⟩).1 ∧
      (⟨(wpPoints (recording dev) ps acc).2.1.s.1, (wpPoints (recording dev) ps acc).2.1.addr, (wpPoints (recording dev) ps acc).2.1.next,
        (wpPoints (recording dev) ps acc).2.1.data⟩ : WAcc σ) = (wpPoints dev ps ⟨acc.s.1, acc.addr, acc.next, acc.data⟩).2.1 ∧
      (wpPoints (recording dev) ps acc).2.2 = (wpPoints dev ps ⟨acc.s.1, acc.addr, acc.next, acc.data⟩).2.2 := by
    intro ps
    induction ps with
    | nil => exact fun acc => ⟨rfl, rfl, rfl⟩
    | cons p ps ih =>
      intro acc
      obtain ⟨h1, h2, h3⟩ := pt p acc
      rw [wpPoints, wpPoints]
      rcases e1 : wpPoint (recording dev) acc p with ⟨p1, a1, r1⟩
      rcases e2 : wpPoint dev ⟨acc.s.1, acc.addr, acc.next, acc.data⟩ p with ⟨p2, a2, r2⟩
      rw [e1, e2] at h1 h2 h3
      dsimp only at h1 h2 h3
      subst h1 h2 h3
      cases r1 with
      | error e => exact ⟨rfl, rfl, rfl⟩
      | ok u =>
        obtain ⟨i1, i2, i3⟩ := ih a1
        dsimp only
        exact ⟨by rw [i1], i2, i3⟩
  have blocks : ∀ (bs : List BlockObj) (x : σ × List (Int × Bytes)),
      (wpBlocks (recording dev) bs x).1.1 = (wpBlocks dev bs x.1).1 ∧ (wpBlocks (recording dev) bs x).2 = (wpBlocks dev bs x.1).2 := by
    intro bs
    induction bs with
    | nil => exact fun x => ⟨rfl, rfl⟩
    | cons b bs ih =>
      intro x
      obtain ⟨h1, h2, h3⟩ := pts b.pts { s := x }
      rw [wpBlocks, wpBlocks]
      dsimp only at h1 h2 h3
      rcases e1 : wpPoints (recording dev) b.pts { s := x } with ⟨p1, a1, r1⟩
      rcases e2 : wpPoints dev b.pts { s := x.1 } with ⟨p2, a2, r2⟩
      rw [e1, e2] at h1 h2 h3
      dsimp only at h1 h2 h3
      subst h1 h2 h3
      cases r1 with
      | error e => exact ⟨rfl, rfl⟩
      | ok u =>
        dsimp only
        have hf : wpFlush dev ⟨a1.s.1, a1.addr, a1.next, a1.data⟩ =
            ((wpFlush (recording dev) a1).1.1, (wpFlush (recording dev) a1).2) := by
          unfold wpFlush
          dsimp only
          cases a1.addr <;> rfl
        rw [hf]
        rcases wpFlush (recording dev) a1 with ⟨s', r⟩
        cases r with
        | error e => exact ⟨rfl, rfl⟩
        | ok u =>
          obtain ⟨i1, i2⟩ := ih s'
          dsimp only
          exact ⟨i1, by rw [congrArg Prod.fst i2, congrArg Prod.snd i2]⟩
  obtain ⟨h1, h2⟩ := blocks m.blocks (s, log)
  exact ⟨h1, by unfold writePoints; dsimp only; rw [congrArg Prod.fst h2, congrArg Prod.snd h2]⟩

/-- C76 on a serial line, whatever the slave does: if the data of each run fits one request (at most 125 registers, at addresses that
exist), the frames on the line are one write request for each of the first runs, and for all if `write_points` returns. -/
theorem C76_rtu {σ} (slave : Slave σ) (sid : Byte) (l : Line σ) (m : MdlObj) (gs : List (List PointObj)) (hgs : ModelGrouped m gs)
    (hfit : ∀ g ∈ gs, ∀ w, RunData g w → 0 ≤ w.1 ∧ w.1 < 65536 ∧ 0 < w.2.length ∧ w.2.length ≤ 250) :
    ∃ k ws, List.Forall₂ RunData (gs.take k) ws ∧
      (writePoints (rtuDev slave sid.toNat) l m).1.sent = l.sent ++ ws.map (fun w => rtuFrame sid (writePdu w.1.toNat w.2)) ∧
      ((writePoints (rtuDev slave sid.toNat) l m).2.2 = .ok () → gs.length ≤ k) := by
  rw [modelGrouped_eq] at hgs
  subst hgs
  have h : Records (rtuDev slave sid.toNat) (fun x => x.sent)
      (fun w => 0 ≤ w.1 ∧ w.1 < 65536 ∧ 0 < w.2.length ∧ w.2.length ≤ 250)
      (fun w => rtuFrame sid (writePdu w.1.toNat w.2)) := by
    intro l a d ⟨h1, h2, h3, h4⟩
    have hs := sid.isLt
    left
    show (rtuWrite slave l sid.toNat a d 125).1.sent = _
    dsimp only at h1 h2 h3 h4
    rw [rtuWrite_short slave l _ a d h4, if_neg (by intro e; rw [e] at h3; exact absurd h3 (by decide)), rtuWrite1_eq,
      if_pos ⟨by omega, ⟨h1, h2⟩, by omega⟩]
    simp only [Int.toNat_natCast, BitVec.ofNat_toNat, BitVec.setWidth_eq]
  exact wpBlocks_records h m.blocks l hfit

/-- All points of `exModel` assigned, except the padding. -/
def allSet (p : PointObj) : PointObj := if p.pt.type = .pad then p else { p with base := some (.int 5), dirty := true }

/-- Non-vacuity: the three requests of a model with one point in the fixed block and two in each repeating block. -/
example : (writePoints (recording mapDev) (exMap, []) (mapPts allSet exModel)).1.2 =
      [(40002, [0, 5]), (40005, [0, 5, 0, 5]), (40007, [0, 5, 0, 5])] ∧
    (writePoints (recording mapDev) (exMap, []) (mapPts allSet exModel)).2.2 = .ok () := by decide +kernel

example : ∃ gs, ModelGrouped (mapPts allSet exModel) gs ∧ gs.map List.length = [1, 2, 2] := by
  refine ⟨_, modelGrouped_eq.2 rfl, ?_⟩
  decide +kernel

example := C76_requests mapDev exMap (mapPts allSet exModel) _ (modelGrouped_eq.2 rfl)

/-- The runs of `exModel` fit one request each. -/
theorem allSet_fit : ∀ g ∈ ((mapPts allSet exModel).blocks.map fun b => runs (b.pts.filter fun p => p.dirty)).flatten,
    ∀ w, RunData g w → 0 ≤ w.1 ∧ w.1 < 65536 ∧ 0 < w.2.length ∧ w.2.length ≤ 250 := by
  intro g hg w hw
  have key : ∀ g ∈ ((mapPts allSet exModel).blocks.map fun b => runs (b.pts.filter fun p => p.dirty)).flatten,
      g ≠ [] ∧ g.length ≤ 2 ∧ ∀ p ∈ g, 0 ≤ p.addr ∧ p.addr < 65536 ∧ (p.pt.type.toData p.base (p.pt.len * 2).toNat).toOption.map List.length = some 2 := by
    decide +kernel
  obtain ⟨h1, h2, h3⟩ := key g hg
  obtain ⟨w1, es, w2, w3⟩ := hw
  cases g with
  | nil => exact absurd rfl h1
  | cons p g =>
    rw [w1 p rfl, w3]
    refine ⟨(h3 p (.head _)).1, (h3 p (.head _)).2.1, ?_⟩
    have len : ∀ {ps : List PointObj} {es : List Bytes}, List.Forall₂ (fun p e => p.pt.type.toData p.base (p.pt.len * 2).toNat = .ok e) ps es →
        (∀ p ∈ ps, (p.pt.type.toData p.base (p.pt.len * 2).toNat).toOption.map List.length = some 2) → es.flatten.length = 2 * ps.length := by
      intro ps es h
      induction h with
      | nil => intro _; rfl
      | cons h _ ih =>
        intro hp
        have h0 := hp _ (.head _)
        rw [h] at h0
        have h0' := Option.some.inj h0
        rw [List.flatten_cons, List.length_append, ih (fun p hp' => hp p (.tail _ hp')), h0', List.length_cons]
        omega
    rw [len w2 (fun p hp => (h3 p hp).2.2)]
    rw [List.length_cons] at h2 ⊢
    omega

example := C76_rtu (drippingSlave 7) 7 ⟨exMem, []⟩ (mapPts allSet exModel) _ (modelGrouped_eq.2 rfl) allSet_fit

end Verif
