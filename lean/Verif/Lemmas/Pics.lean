import Mathlib.Data.List.Nodup
import Verif.Lemmas.Load
import Verif.Lemmas.Text
import Verif.Spec.Pics

/-!
# Lemmas about PICS documents
-/

namespace Verif
open Spec

/-! ### Loading at another address -/

theorem mkBlock_kind (bt0 bt : BlockType) (B B' bl : Int) (i : Nat) : BlockKind (mkBlock bt0 bt B bl i) (mkBlock bt0 bt B' bl i) := by
  refine ⟨rfl, rfl, rfl, ?_, ?_⟩
  · unfold mkBlock
    simp only [List.forall₂_map_left_iff, List.forall₂_map_right_iff]
    exact List.forall₂_same.2 fun _ _ => ⟨rfl, rfl⟩
  · unfold mkBlock
    simp only [List.forall₂_map_left_iff, List.forall₂_map_right_iff]
    exact List.forall₂_same.2 fun _ _ => ⟨rfl, rfl⟩

/-- The state at the start of an iteration. -/
def LoopStart (bt0 : BlockType) (a0 : Int) (m : MdlObj) (bt : BlockType) (B : Int) : Prop :=
  (m.blocks = [] ∧ bt = bt0 ∧ B = a0) ∨ (∃ b rest, m.blocks = b :: rest ∧ b.sfs = (sfPoints bt0).map (mkPoint a0 none))

theorem LoopStart.next {bt0 : BlockType} {a0 : Int} {m : MdlObj} {bt : BlockType} {B : Int} (h : LoopStart bt0 a0 m bt B) (bl : Int)
    (i : Nat) (rd : List Int) (bt' : BlockType) (B' : Int) :
    LoopStart bt0 a0 { m with blocks := m.blocks ++ [mkBlock bt0 bt B bl i], readBlocks := rd } bt' B' := by
  rcases h with ⟨h1, rfl, rfl⟩ | ⟨b, rest, h1, h2⟩
  · exact .inr ⟨_, [], by dsimp only; rw [h1]; rfl, rfl⟩
  · exact .inr ⟨b, rest ++ [mkBlock bt0 bt B bl i], by dsimp only; rw [h1]; rfl, h2⟩

theorem loadLoop_shift (bt0 : BlockType) (a0 a0' : Int) (rep : Option BlockType) (endA endA' d : Int) (hd : endA' = endA + d) (fuel : Nat) :
    ∀ (i : Nat) (bt : BlockType) (B B' bl lr lr' : Int) (m m' r : MdlObj), B' = B + d → LoopStart bt0 a0 m bt B →
      LoopStart bt0 a0' m' bt B' → List.Forall₂ BlockKind m.blocks m'.blocks →
      loadLoop rep endA fuel i bt B bl lr m = (r, .ok ()) →
      ∃ r', loadLoop rep endA' fuel i bt B' bl lr' m' = (r', .ok ()) ∧ List.Forall₂ BlockKind r.blocks r'.blocks := by
  induction fuel with
  | zero => intro i bt B B' bl lr lr' m m' r _ _ _ _ h; simp [loadLoop] at h
  | succ fuel ih =>
    intro i bt B B' bl lr lr' m m' r hB h0 h0' hk h
    have hst := loadLoop_step bt0 a0 rep endA fuel i bt B bl lr m h0
    have hst' := loadLoop_step bt0 a0' rep endA' fuel i bt B' bl lr' m' h0'
    by_cases hlt : endA < B + bl
    · rw [hst.1 hlt] at h; simp at h
    · have hlt' : ¬ endA' < B' + bl := by omega
      by_cases hsf : ∀ t ∈ dataPoints bt, sfTarget bt0 bt i t ≠ none
      · rw [hst.2.2 hlt hsf] at h
        rw [hst'.2.2 hlt' hsf]
        dsimp only at h ⊢
        have hk1 : List.Forall₂ BlockKind (m.blocks ++ [mkBlock bt0 bt B bl i]) (m'.blocks ++ [mkBlock bt0 bt B' bl i]) :=
          List.rel_append hk (.cons (mkBlock_kind _ _ _ _ _ _) .nil)
        cases rep with
        | none =>
          dsimp only at h ⊢
          obtain ⟨h1, _⟩ := Prod.mk.inj h
          exact ⟨_, rfl, by rw [← h1]; exact hk1⟩
        | some rb =>
          dsimp only at h ⊢
          cases hR : rb.len.toInt with
          | error e => rw [hR] at h; simp at h
          | ok R =>
            rw [hR] at h
            dsimp only at h ⊢
            by_cases he : endA = B + bl
            · rw [if_pos he] at h
              rw [if_pos (by omega : endA' = B' + bl)]
              obtain ⟨h1, _⟩ := Prod.mk.inj h
              exact ⟨_, rfl, by rw [← h1]; exact hk1⟩
            · rw [if_neg he] at h
              rw [if_neg (by omega : ¬ endA' = B' + bl)]
              exact ih (i + 1) rb (B + bl) (B' + bl) R _ _ _ _ r (by omega) (h0.next ..) (h0'.next ..) hk1 h
      · have hx : ∃ t ∈ dataPoints bt, sfTarget bt0 bt i t = none := by
          apply Classical.byContradiction
          intro hc
          exact hsf fun t ht hn => hc ⟨t, ht, hn⟩
        have := hst.2.1 hlt hx
        rw [h] at this; simp at this

theorem effLen_idem (mt : ModelType) (len : Int) : effLen mt (effLen mt len) = effLen mt len := by
  unfold effLen
  by_cases h : len = 0
  · rw [if_pos h]; by_cases h2 : mt.len = 0 <;> simp [h2]
  · rw [if_neg h, if_neg h]

/-- A model that can be loaded at one address can be loaded at any other; the result has the same blocks. -/
theorem mdlLoad_shift (mt : Py ModelType) (id addr addr' len : Int) (m : MdlObj)
    (h : mdlLoad mt (mdlNew id addr len) = (m, .ok ())) :
    ∃ t m', mt = .ok t ∧ mdlLoad mt (mdlNew id addr' m.len) = (m', .ok ()) ∧ List.Forall₂ BlockKind m.blocks m'.blocks ∧
      m'.len = m.len ∧ m'.mtype = m.mtype ∧ m'.id = id ∧ m'.index = .int 1 := by
  cases mt with
  | error e => simp [mdlLoad, loadWith] at h
  | ok mt =>
    obtain ⟨F, R, n, hl⟩ := loadWith_ok _ mt id addr len m h
    have hF := hl.flen
    have hlen : m.len = effLen mt len := hl.hlen
    have hfu : loadFuel (.ok mt) (mdlNew id addr' m.len) = loadFuel (.ok mt) (mdlNew id addr len) := by
      have : effLen mt m.len = effLen mt len := by rw [hlen, effLen_idem]
      show (effLen mt m.len - _).toNat + 2 = (effLen mt len - _).toNat + 2
      rw [this]
    unfold mdlLoad at h ⊢
    rw [hfu]
    rw [loadWith_first _ mt id addr len F hF] at h
    rw [loadWith_first _ mt id addr' m.len F hF]
    have e1 : effLen mt m.len = effLen mt len := by rw [hlen, effLen_idem]
    rw [e1]
    dsimp only at h ⊢
    generalize hr : loadLoop mt.rep (addr + effLen mt len) _ 0 mt.fixed addr (fixedLen id (effLen mt len) F) addr _ = r at h
    obtain ⟨m2, r2⟩ := r
    cases r2 with
    | error e => simp at h
    | ok u =>
      dsimp only at h
      obtain ⟨h1, _⟩ := Prod.mk.inj h
      obtain ⟨r', hr', hk⟩ := loadLoop_shift mt.fixed addr addr' mt.rep (addr + effLen mt len) (addr' + effLen mt len) (addr' - addr)
        (by omega) _ 0 mt.fixed addr addr' (fixedLen id (effLen mt len) F) addr addr' _
        { mdlNew id addr' m.len with readBlocks := [addr'], mtype := some mt, len := effLen mt len } m2 (by omega)
        (.inl ⟨rfl, rfl, rfl⟩) (.inl ⟨rfl, rfl, rfl⟩) .nil hr
      have hload : loadWith (loadFuel (.ok mt) (mdlNew id addr len)) (.ok mt) (mdlNew id addr' m.len) = ({ r' with exposed := true }, .ok ()) := by
        rw [loadWith_first _ mt id addr' m.len F hF, e1]
        dsimp only
        rw [hr']
      obtain ⟨F', R', n', hl'⟩ := loadWith_ok _ mt id addr' m.len _ hload
      refine ⟨mt, { r' with exposed := true }, rfl, by rw [hr'], by rw [← h1]; exact hk, ?_, ?_, hl'.hid, hl'.index⟩
      · rw [hl'.hlen, e1, hlen]
      · rw [hl'.htype, hl.htype]

theorem loaded_block {mt : ModelType} {id addr L F R : Int} {n : Nat} {m : MdlObj} (h : Loaded mt id addr L F R n m) (k : Nat)
    (b : BlockObj) (hb : m.blocks[k]? = some b) :
    ∃ bt a bl, b = mkBlock mt.fixed bt a bl k ∧ (k = 0 → bt = mt.fixed) ∧ (0 < k → mt.rep = some bt) := by
  rw [h.blocks] at hb
  cases k with
  | zero => simp at hb; exact ⟨mt.fixed, addr, _, hb.symm, fun _ => rfl, by simp⟩
  | succ k =>
    rw [List.getElem?_cons_succ] at hb
    cases hrep : mt.rep with
    | none => rw [hrep] at hb; simp at hb
    | some rb =>
      rw [hrep] at hb
      refine ⟨rb, _, R, (repBlocks_get mt.fixed rb R n _ 1 k b hb).trans (by rw [Nat.add_comm 1 k]), by simp, fun _ => rfl⟩

end Verif
