import Verif.Props.Session
import Verif.Props.Grouped

/-!
# C60: what is sent in histories with failures
-/

namespace Verif
open Spec

/-- C60, on any device: whatever has failed before, and whether or not it returns, the requests that `write_points` sends carry complete
points only, in runs; each of these points has been assigned a value since a write of it last returned, and what is sent for it is the
value assigned last, unless the model has been read since. So nothing is ever written that has not been assigned. -/
theorem C60_sent {σ} (dev : MbDev σ) (lib : FloatLib) (m0 m : MdlObj) (h : List Event) (s : σ)
    (hc : ∀ i j p, ptAt m0 i j = some p → p.dirty = false) (hh : History dev lib m0 h s m) :
    ∃ gs ws, List.Forall₂ RunData gs ws ∧ (writePoints (recording dev) (s, []) m).1.2 = ws ∧ (∀ g ∈ gs, Gapless g ∧ g ≠ []) ∧
      ∀ g ∈ gs, ∀ p ∈ g, ∃ i j p0 b, ptAt m0 i j = some p0 ∧ p.pt = p0.pt ∧ p.addr = p0.addr ∧ pending h i j = some b ∧
        (Unread h i j → p.base = b) := by
  obtain ⟨gs, hg, -⟩ := C76_grouping m
  obtain ⟨k, ws, h1, h2, -⟩ := C76_requests dev s m gs hg
  obtain ⟨parts, hp, rfl⟩ := hg
  have hpart : ∀ g ∈ parts.flatten, (Gapless g ∧ g ≠ []) ∧ ∀ p ∈ g, p.dirty = true ∧ ∃ b ∈ m.blocks, p ∈ b.pts := by
    intro g hgm
    obtain ⟨part, hpt, hgp⟩ := List.mem_flatten.mp hgm
    have key : ∀ {bs : List BlockObj} {ps : List (List (List PointObj))},
        List.Forall₂ (fun b part => Grouped (b.pts.filter fun p => p.dirty) part) bs ps → part ∈ ps →
        ∃ b ∈ bs, Grouped (b.pts.filter fun p => p.dirty) part := by
      intro bs ps hf
      induction hf with
      | nil => intro h; cases h
      | cons hb _ ih =>
        intro hm
        rcases List.mem_cons.mp hm with rfl | hm
        · exact ⟨_, .head _, hb⟩
        · obtain ⟨b, h1, h2⟩ := ih hm
          exact ⟨b, .tail _ h1, h2⟩
    obtain ⟨b, hb, hgr⟩ := key hp hpt
    refine ⟨⟨hgr.gapless g hgp, hgr.nonempty g hgp⟩, fun p hpg => ?_⟩
    have hm : p ∈ b.pts.filter fun p => p.dirty := by rw [← hgr.all]; exact List.mem_flatten.mpr ⟨g, hgp, hpg⟩
    obtain ⟨hm1, hm2⟩ := List.mem_filter.mp hm
    exact ⟨hm2, b, hb, hm1⟩
  refine ⟨parts.flatten.take k, ws, h1, h2, fun g hg => (hpart g (List.mem_of_mem_take hg)).1, ?_⟩
  intro g hg p hpg
  obtain ⟨hd, b, hb, hpb⟩ := (hpart g (List.mem_of_mem_take hg)).2 p hpg
  obtain ⟨i, j, hij⟩ := mem_ptAt hb hpb
  obtain ⟨p0, h0, hu⟩ := same_layout (history_layout hh) i j p hij
  obtain ⟨i1, -, i3⟩ := history_inv hc hh i j p hij
  have i1 := i1 hd
  cases hpd : pending h i j with
  | none => exact absurd hpd i1
  | some v =>
    have e := unvalued_eq hu
    exact ⟨i, j, p0, v, h0, by rw [e], by rw [e], hpd, fun hun => i3 hun v hpd⟩

/-- Non-vacuity: after a failed write and a new assignment the new value is sent, and only that. -/
def sess2 : MdlObj := (writePoints mapDev noMap sess1).2.1

def sess3 : MdlObj := putAt sess2 0 0 { exPoint exModel 0 0 with base := some (.int 6), dirty := true }

theorem sess3_history : History mapDev noLib exModel [.assigned 0 0 (some (.int 6)), .failed, .assigned 0 0 (some (.int 5))] exMap sess3 :=
  .assign 0 0 { exPoint exModel 0 0 with base := some (.int 5) } { exPoint exModel 0 0 with base := some (.int 6), dirty := true } (.int 6)
    (.change exMap (.fail (s := noMap) (s' := noMap) (e := .modbusMapError) (.change noMap sess1_history) (by decide +kernel)))
    (by decide +kernel) (by decide +kernel)

example : (writePoints (recording mapDev) (exMap, []) sess3).1.2 = [(40002, [0, 6])] := by decide +kernel

example := C60_sent mapDev noLib exModel sess3 _ exMap exModel_clean sess3_history

/-- Assigning again after a failed write repairs: `¬ Tried` holds for the point. -/
example : pending [.assigned 0 0 (some (.int 6)), .failed, .assigned 0 0 (some (.int 5))] 0 0 = some (some (.int 6)) ∧
    ¬ Tried [.assigned 0 0 (some (.int 6)), .failed, .assigned 0 0 (some (.int 5))] 0 0 ∧
    Tried [.failed, .assigned 0 0 (some (.int 5))] 0 0 := by
  refine ⟨rfl, fun h => h.1 ⟨rfl, rfl⟩, trivial⟩

end Verif
