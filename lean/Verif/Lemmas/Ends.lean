import Verif.Props.Scan

/-!
# Reading and writing models ends if the device's calls end
-/

namespace Verif
open Verif.Spec

theorem unpackU_ends (n : Nat) (d : Bytes) : unpackU n d ≠ .error .diverge := by unfold unpackU; split <;> simp
theorem unpackS_ends (n : Nat) (d : Bytes) : unpackS n d ≠ .error .diverge := by unfold unpackS; split <;> simp
theorem packU_ends (n : Nat) (v : Int) : packU n v ≠ .error .diverge := by unfold packU; split <;> simp
theorem packS_ends (n : Nat) (v : Int) : packS n v ≠ .error .diverge := by unfold packS; split <;> simp

theorem map_ends {α β} {r : Py α} (f : α → β) (h : r ≠ .error .diverge) : r.map f ≠ .error .diverge := by
  cases r with
  | ok a => simp [Except.map]
  | error e => simpa [Except.map] using h

theorem b16decode_ends : ∀ n (s : List Char), s.length ≤ n → b16decode s ≠ .error .diverge := by
  intro n
  induction n with
  | zero => intro s h; have : s = [] := List.length_eq_zero_iff.1 (by omega); subst this; simp [b16decode]
  | succ n ih =>
    intro s h
    match s, h with
    | [], _ => simp [b16decode]
    | [_], _ => simp [b16decode]
    | a :: b :: rest, h =>
      have h' : rest.length ≤ n := by simp only [List.length_cons] at h; omega
      have hr := ih rest h'
      rw [b16decode]
      cases hexVal a <;> cases hexVal b <;> dsimp only <;> try simp
      generalize b16decode rest = r at hr
      cases r with
      | ok d => simp
      | error e => simpa using hr

theorem packF32_ends (f : Flt) : packF32 f ≠ .error .diverge := by
  unfold packF32
  split
  · split <;> simp
  · simp
  · simp
  · simp

theorem fromData_ends (t : PT) (d : Bytes) : t.fromData d ≠ .error .diverge := by
  have hf : dataToFloat d ≠ .error .diverge := by unfold dataToFloat; split <;> simp
  cases t <;> simp only [PT.fromData] <;>
    first
      | exact map_ends _ (unpackU_ends _ _)
      | exact map_ends _ (unpackS_ends _ _)
      | exact map_ends _ hf
      | simp

theorem toData_ends (t : PT) (v : Option Val) (n : Nat) : t.toData v n ≠ .error .diverge := by
  have hf : floatToData v ≠ .error .diverge := by
    unfold floatToData
    split
    · simp
    · exact map_ends _ (packF32_ends _)
    · split
      · exact map_ends _ (packF32_ends _)
      · simp
    · simp
  have h6 : ∀ s, ipv6ToData s (some n) ≠ .error .diverge := by
    intro s
    unfold ipv6ToData
    have := b16decode_ends _ (dropColons s) (Nat.le_refl _)
    split
    · rename_i e h; rw [h] at this; simpa using this
    · simp
  have hs : ∀ s, strToData s (some n) ≠ .error .diverge := by
    intro s
    unfold strToData
    dsimp only
    unfold latin1Enc
    split
    · rename_i e h; split at h <;> simp at h; subst h; simp
    · split <;> simp
  unfold PT.toData
  split <;> first
    | exact packU_ends _ _
    | exact packS_ends _ _
    | exact h6 _
    | exact hs _
    | exact hf
    | simp

theorem cdWrap_ends {α} {r : Py α} (h : r ≠ .error .diverge) : cdWrap r ≠ .error .diverge := by
  cases r with
  | ok a => simp [cdWrap]
  | error e =>
    unfold cdWrap
    dsimp only
    split
    · simp
    · simpa using h

theorem cdWrite_ends {σ} {dev : MbDev σ} (h : ∀ s a d, (dev.write s a d).2 ≠ .error .diverge) (s : σ) (a : Int) (d : Bytes) :
    (cdWrite dev s a d).2 ≠ .error .diverge := cdWrap_ends (h s a d)

theorem readChunks_ends {σ} {dev : MbDev σ} (h : ∀ s a n, (dev.read s a n).2 ≠ .error .diverge) (plan : List (Int × Int)) :
    ∀ (data : Bytes) (s : σ), (readChunks dev plan data s).2 ≠ .error .diverge := by
  induction plan with
  | nil => intro data s; simp [readChunks]
  | cons c plan ih =>
    intro data s
    obtain ⟨a, n⟩ := c
    rw [readChunks]
    have h1 := cdRead_no_diverge h s a n
    generalize cdRead dev s a n = q at h1
    obtain ⟨s', r⟩ := q
    cases r with
    | error e => simpa using h1
    | ok d => cases d with
      | none => simp
      | some d => exact ih _ _

theorem readSfs_ends (a : Int) (data : Bytes) (ps : List PointObj) : (readSfs a data ps).2 ≠ .error .diverge := by
  induction ps with
  | nil => simp [readSfs]
  | cons p ps ih =>
    rw [readSfs]
    have h1 := fromData_ends p.pt.type (pointBytes a data p)
    generalize p.pt.type.fromData (pointBytes a data p) = r at h1
    cases r with
    | error e => simpa using h1
    | ok v => exact ih

theorem readPts_ends (a : Int) (data : Bytes) (bs : List BlockObj) (ps : List PointObj) : (readPts a data bs ps).2 ≠ .error .diverge := by
  induction ps with
  | nil => simp [readPts]
  | cons p ps ih =>
    rw [readPts]
    have h1 : readPoint a data bs p ≠ .error .diverge := by
      unfold readPoint
      have h1 := fromData_ends p.pt.type (pointBytes a data p)
      generalize p.pt.type.fromData (pointBytes a data p) = r at h1
      cases r with
      | error e => simpa using h1
      | ok v =>
        dsimp only
        split
        · cases p.sf <;> simp
        · simp
    generalize readPoint a data bs p = r at h1
    cases r with
    | error e => simpa using h1
    | ok v => exact ih

theorem readBlocksLoop_ends (a : Int) (data : Bytes) (bs : List BlockObj) : ∀ done, (readBlocksLoop a data done bs).2 ≠ .error .diverge := by
  induction bs with
  | nil => intro done; simp [readBlocksLoop]
  | cons b bs ih =>
    intro done
    rw [readBlocksLoop]
    have h1 := readSfs_ends a data b.sfs
    generalize readSfs a data b.sfs = q at h1
    obtain ⟨sfs, r⟩ := q
    cases r with
    | error e => simpa using h1
    | ok u =>
      dsimp only
      have h2 := readPts_ends a data (done ++ { b with sfs := sfs } :: bs) b.pts
      generalize readPts a data (done ++ { b with sfs := sfs } :: bs) b.pts = q at h2
      obtain ⟨pts, r⟩ := q
      cases r with
      | error e => simpa using h2
      | ok u => exact ih _

theorem rpWrap_ends {r : Py Unit} (h : r ≠ .error .diverge) : rpWrap r ≠ .error .diverge := by
  cases r with
  | ok a => simp [rpWrap]
  | error e =>
    unfold rpWrap
    dsimp only
    split
    · simp
    · simpa using h

theorem readPoints_ends {σ} {dev : MbDev σ} (h : ∀ s a n, (dev.read s a n).2 ≠ .error .diverge) (s : σ) (m : MdlObj) :
    (readPoints dev s m).2.2 ≠ .error .diverge := by
  have hd : (readData dev m s).2 ≠ .error .diverge := by
    unfold readData
    split
    · exact cdRead_no_diverge h s _ _
    · have := readChunks_ends h (readPlan m) [] s
      generalize readChunks dev (readPlan m) [] s = q at this
      obtain ⟨s', r⟩ := q
      cases r with
      | error e => simpa using this
      | ok d => simp
  have ha : ∀ d, (readApply m d).2 ≠ .error .diverge := by
    intro d
    unfold readApply
    split
    · simp
    · split
      · simp
      · split
        · simp
        · exact readBlocksLoop_ends _ _ _ _
  unfold readPoints
  split
  · simp
  · generalize readData dev m s = q at hd
    obtain ⟨s', r⟩ := q
    cases r with
    | error e => exact rpWrap_ends (r := .error e) (by intro h; exact hd (by simpa using h))
    | ok d => exact rpWrap_ends (ha d)

theorem readModels_ends {σ} {dev : MbDev σ} (h : ∀ s a n, (dev.read s a n).2 ≠ .error .diverge) (ms : List MdlObj) :
    ∀ s, (readModels dev ms s).2.2 ≠ .error .diverge := by
  induction ms with
  | nil => intro s; simp [readModels]
  | cons m ms ih =>
    intro s
    rw [readModels]
    have h1 := readPoints_ends h s m
    generalize readPoints dev s m = q at h1
    obtain ⟨s', m', r⟩ := q
    cases r with
    | error e => simpa using h1
    | ok u => exact ih _

/-- The requests of a modified point: one for each 250 bytes begun of its data (none if it has no data). -/
def Spec.pieces (p : PointObj) : Nat :=
  if p.dirty then
    match p.pt.type.toData p.base (p.pt.len * 2).toNat with
    | .ok d => (d.length + 249) / 250
    | .error _ => 0
  else 0

/-- The requests of the data collected so far. -/
def accPieces {σ} (acc : WAcc σ) : Nat :=
  match acc.addr with
  | none => 0
  | some _ => (acc.data.length + 249) / 250

/-- Writing always ends, and `cost` grows by at most `k` for each 250 bytes begun. -/
structure WritesEnd {σ} (dev : MbDev σ) (cost : σ → Nat) (k : Nat) : Prop where
  ends : ∀ s a d, (dev.write s a d).2 ≠ .error .diverge
  cheap : ∀ s a d, cost (dev.write s a d).1 ≤ cost s + k * ((d.length + 249) / 250)

theorem wpPoint_ends {σ} {dev : MbDev σ} {cost : σ → Nat} {k : Nat} (h : WritesEnd dev cost k) (acc : WAcc σ) (p : PointObj) :
    (wpPoint dev acc p).2.2 ≠ .error .diverge ∧
    cost (wpPoint dev acc p).2.1.s ≤ cost acc.s + k * accPieces acc + k * pieces p ∧
    ((wpPoint dev acc p).2.2 = .ok () → cost (wpPoint dev acc p).2.1.s + k * accPieces (wpPoint dev acc p).2.1 ≤ cost acc.s + k * accPieces acc + k * pieces p) := by
  unfold wpPoint pieces
  split
  · have ht := toData_ends p.pt.type p.base (p.pt.len * 2).toNat
    generalize p.pt.type.toData p.base (p.pt.len * 2).toNat = r at ht
    cases r with
    | error e => exact ⟨by simpa using ht, by dsimp only; omega, by simp⟩
    | ok pd =>
      dsimp only
      obtain ⟨s, addr, next, data⟩ := acc
      cases addr with
      | none => exact ⟨by simp, by dsimp only; omega, fun _ => by simp only [accPieces]; omega⟩
      | some a =>
        dsimp only
        split
        · refine ⟨by simp, by dsimp only; omega, fun _ => ?_⟩
          simp only [accPieces, List.length_append, Nat.add_assoc, ← Nat.mul_add]
          exact Nat.add_le_add_left (Nat.mul_le_mul_left _ (by omega)) _
        · have h1 := cdWrite_ends h.ends s a data
          have h2 : cost (cdWrite dev s a data).1 ≤ cost s + k * ((data.length + 249) / 250) := h.cheap s a data
          generalize cdWrite dev s a data = q at h1 h2
          obtain ⟨s', r⟩ := q
          cases r with
          | error e => exact ⟨by simpa using h1, by simp only [accPieces] at h2 ⊢; omega, by simp⟩
          | ok u => exact ⟨by simp, by simp only [accPieces] at h2 ⊢; omega, fun _ => by simp only [accPieces] at h2 ⊢; omega⟩
  · exact ⟨by simp, by dsimp only; omega, fun _ => by dsimp only; omega⟩

theorem wpPoints_ends {σ} {dev : MbDev σ} {cost : σ → Nat} {k : Nat} (h : WritesEnd dev cost k) (ps : List PointObj) : ∀ acc : WAcc σ,
    (wpPoints dev ps acc).2.2 ≠ .error .diverge ∧
    cost (wpPoints dev ps acc).2.1.s ≤ cost acc.s + k * accPieces acc + k * (ps.map pieces).sum ∧
    ((wpPoints dev ps acc).2.2 = .ok () → cost (wpPoints dev ps acc).2.1.s + k * accPieces (wpPoints dev ps acc).2.1 ≤ cost acc.s + k * accPieces acc + k * (ps.map pieces).sum) := by
  induction ps with
  | nil => intro acc; exact ⟨by simp [wpPoints], by simp [wpPoints], fun _ => by simp [wpPoints]⟩
  | cons p ps ih =>
    intro acc
    rw [wpPoints]
    obtain ⟨h1, h2, h3⟩ := wpPoint_ends h acc p
    generalize wpPoint dev acc p = q at h1 h2 h3
    obtain ⟨p', acc', r⟩ := q
    rw [List.map_cons, List.sum_cons, Nat.mul_add]
    dsimp only at h1 h2 h3
    cases r with
    | error e => exact ⟨by simpa using h1, by dsimp only; omega, by simp⟩
    | ok u =>
      have h3 := h3 rfl
      have hi := ih acc'
      dsimp only
      generalize wpPoints dev ps acc' = q at hi
      obtain ⟨ps', acc'', r⟩ := q
      obtain ⟨g1, g2, g3⟩ := hi
      dsimp only at g1 g2 g3 ⊢
      exact ⟨g1, by omega, fun hk => by have := g3 hk; omega⟩

theorem wpBlocks_ends {σ} {dev : MbDev σ} {cost : σ → Nat} {k : Nat} (h : WritesEnd dev cost k) (bs : List BlockObj) : ∀ s : σ,
    (wpBlocks dev bs s).2.2 ≠ .error .diverge ∧
    cost (wpBlocks dev bs s).1 ≤ cost s + k * ((bs.flatMap fun b => b.pts).map pieces).sum := by
  induction bs with
  | nil => intro s; exact ⟨by simp [wpBlocks], by simp [wpBlocks]⟩
  | cons b bs ih =>
    intro s
    rw [wpBlocks]
    obtain ⟨h1, h2, h3⟩ := wpPoints_ends h b.pts { s := s }
    have e0 : accPieces ({ s := s } : WAcc σ) = 0 := rfl
    rw [e0] at h2 h3
    generalize wpPoints dev b.pts { s := s } = q at h1 h2 h3
    obtain ⟨pts, acc, r⟩ := q
    rw [List.flatMap_cons, List.map_append, List.sum_append, Nat.mul_add]
    dsimp only at h1 h2 h3
    cases r with
    | error e => exact ⟨by simpa using h1, by dsimp only; omega⟩
    | ok u =>
      have h3 := h3 rfl
      have hf : (wpFlush dev acc).2 ≠ .error .diverge ∧ cost (wpFlush dev acc).1 ≤ cost acc.s + k * accPieces acc := by
        unfold wpFlush accPieces
        cases acc.addr with
        | none => exact ⟨by simp, by dsimp only; omega⟩
        | some a => exact ⟨cdWrite_ends h.ends _ _ _, h.cheap _ _ _⟩
      obtain ⟨f1, f2⟩ := hf
      dsimp only
      generalize wpFlush dev acc = q at f1 f2
      obtain ⟨s', r⟩ := q
      dsimp only at f1 f2
      cases r with
      | error e => exact ⟨by simpa using f1, by dsimp only; omega⟩
      | ok u =>
        obtain ⟨g1, g2⟩ := ih s'
        exact ⟨g1, by dsimp only; omega⟩

theorem writePoints_ends {σ} {dev : MbDev σ} {cost : σ → Nat} {k : Nat} (h : WritesEnd dev cost k) (s : σ) (m : MdlObj) :
    (writePoints dev s m).2.2 ≠ .error .diverge ∧
    cost (writePoints dev s m).1 ≤ cost s + k * ((m.blocks.flatMap fun b => b.pts).map pieces).sum :=
  wpBlocks_ends h m.blocks s

theorem writePoint_ends {σ} {dev : MbDev σ} {cost : σ → Nat} {k : Nat} (h : WritesEnd dev cost k) (s : σ) (p : PointObj) (hp : p.dirty) :
    (writePoint dev s p).2.2 ≠ .error .diverge ∧ cost (writePoint dev s p).1 ≤ cost s + k * pieces p := by
  unfold writePoint pieces
  rw [if_pos hp]
  have ht := toData_ends p.pt.type p.base (p.pt.len * 2).toNat
  generalize p.pt.type.toData p.base (p.pt.len * 2).toNat = r at ht
  cases r with
  | error e => exact ⟨by simpa using ht, by dsimp only; omega⟩
  | ok d =>
    dsimp only
    have h1 := cdWrite_ends h.ends s p.addr d
    have h2 : cost (cdWrite dev s p.addr d).1 ≤ cost s + k * ((d.length + 249) / 250) := h.cheap s p.addr d
    generalize cdWrite dev s p.addr d = q at h1 h2
    obtain ⟨s', r⟩ := q
    cases r with
    | error e => exact ⟨by simpa using h1, h2⟩
    | ok u => exact ⟨by simp, h2⟩

/-! ## The number of models a scan can find -/

/-- Nothing can be read from a register number that is not below `B`, nor from a negative one. -/
structure Confined {σ} (dev : MbDev σ) (B : Int) : Prop where
  above : ∀ s a, B ≤ a → ∃ e, (dev.read s a 1).2 = .error e
  below : ∀ s a, a < 0 → ∃ e, (dev.read s a 3).2 = .error e

theorem cdRead_fails {σ} {dev : MbDev σ} {s : σ} {a n : Int} (h : ∃ e, (dev.read s a n).2 = .error e) :
    ∃ e, (cdRead dev s a n).2 = .error e := by
  obtain ⟨e, he⟩ := h
  unfold cdRead
  dsimp only
  rw [he]
  exact ⟨_, rfl⟩

theorem scanLoop_few {σ} {dev : MbDev σ} {B : Int} (hB : Confined dev B) (lib : Int → Py ModelType) (prog : List MdlObj → Int → Bool) :
    ∀ (fuel : Nat) (id addr : Int) (c : CliDev σ),
      2 * (scanLoop dev lib prog fuel id addr c).1.list.length ≤ 2 * c.list.length + (B - addr).toNat := by
  intro fuel
  induction fuel with
  | zero => intro id addr c; rw [scanLoop]; dsimp only; omega
  | succ fuel ih =>
    intro id addr c
    rw [scanLoop]
    split
    · dsimp only; omega
    · by_cases hb : B ≤ addr + 1
      · obtain ⟨e, he⟩ := cdRead_fails (hB.above c.st (addr + 1) hb)
        generalize cdRead dev c.st (addr + 1) 1 = q at he
        obtain ⟨s1, r⟩ := q
        dsimp only at he
        subst he
        dsimp only; omega
      · generalize cdRead dev c.st (addr + 1) 1 = q
        obtain ⟨s1, r⟩ := q
        cases r with
        | error e => dsimp only; omega
        | ok d1 =>
          dsimp only
          cases hw : wordOf d1 with
          | none => dsimp only; omega
          | some len =>
            dsimp only
            have hlen : 0 ≤ len := by
              cases d1 with
              | none => simp [wordOf] at hw
              | some d =>
                simp only [wordOf] at hw
                split at hw
                · simp only [Option.some.injEq] at hw; omega
                · simp at hw
            split
            · dsimp only; omega
            · generalize scanLoad (lib id) (mdlNew id (addr + 2) len) = z
              cases z with
              | error e => dsimp only; omega
              | ok m =>
                dsimp only
                have hl : ∀ s, ({ addModel c m with st := s } : CliDev σ).list.length = c.list.length + 1 := by
                  intro s; simp [addModel]
                generalize cdRead dev s1 (addr + (len + 2)) 1 = q
                obtain ⟨s2, r⟩ := q
                cases r with
                | error e => have := hl s2; dsimp only at this ⊢; omega
                | ok d2 =>
                  dsimp only
                  cases wordOf d2 with
                  | none => have := hl s2; dsimp only at this ⊢; omega
                  | some id2 =>
                    have := ih id2 (addr + (len + 2)) { addModel c m with st := s2 }
                    rw [hl s2] at this
                    exact Nat.le_trans this (by omega)

theorem probe_base {σ} {dev : MbDev σ} {B : Int} (hB : Confined dev B) (bs : List Int) : ∀ (s : σ) (a : Int) (d : Bytes),
    (probe dev bs s).2 = .ok (some (a, d)) → 0 ≤ a := by
  induction bs with
  | nil => intro s a d h; simp [probe] at h
  | cons b bs ih =>
    intro s a d h
    rw [probe] at h
    by_cases hb : b < 0
    · obtain ⟨e, he⟩ := cdRead_fails (hB.below s b hb)
      generalize cdRead dev s b 3 = q at he h
      obtain ⟨s1, r⟩ := q
      dsimp only at he
      subst he
      dsimp only at h
      split at h
      · exact ih _ _ _ h
      · simp at h
    · generalize cdRead dev s b 3 = q at h
      obtain ⟨s1, r⟩ := q
      cases r with
      | error e =>
        dsimp only at h
        split at h
        · exact ih _ _ _ h
        · simp at h
      | ok r =>
        cases r with
        | none => simp at h
        | some x =>
          dsimp only at h
          split at h
          · simp only [Except.ok.injEq, Option.some.injEq, Prod.mk.injEq] at h
            omega
          · exact ih _ _ _ h

theorem scanBody_few {σ} {dev : MbDev σ} {B : Int} (hB : Confined dev B) (h0 : 2 ≤ B) (lib : Int → Py ModelType) (prog : List MdlObj → Int → Bool)
    (fuel : Nat) (c : CliDev σ) :
    2 * (scanBody fuel dev lib prog c).1.list.length ≤ 2 * c.list.length + (B - 2).toNat := by
  unfold scanBody
  cases c.base with
  | some b => dsimp only; omega
  | none =>
    dsimp only
    have hp := probe_base hB c.bases c.st
    generalize probe dev c.bases c.st = q at hp
    obtain ⟨s, r⟩ := q
    cases r with
    | error e => dsimp only; omega
    | ok r =>
      cases r with
      | none => dsimp only; omega
      | some x =>
        obtain ⟨a, d⟩ := x
        have ha := hp a d rfl
        dsimp only
        unfold scanFrom
        cases wordOf (some ((d.drop 4).take 2)) with
        | none => dsimp only; omega
        | some id =>
          dsimp only
          have := scanLoop_few hB lib prog fuel id (a + 2) { c with st := s, base := some a }
          dsimp only at this
          omega

theorem scan_few {σ} {dev : ScanDev σ} {B : Int} (hB : Confined dev.toMbDev B) (h0 : 2 ≤ B) (lib : Int → Py ModelType) (prog : List MdlObj → Int → Bool)
    (fuel : Nat) (c : CliDev σ) :
    2 * (scan fuel dev lib prog c).1.list.length ≤ 2 * c.list.length + (B - 2).toNat := by
  unfold scan
  cases dev.conn with
  | none => exact scanBody_few hB h0 lib prog fuel c
  | some f =>
    dsimp only
    generalize f c.st = q
    obtain ⟨s, r⟩ := q
    cases r with
    | error e => dsimp only; omega
    | ok u =>
      dsimp only
      have := scanBody_few hB h0 lib prog fuel { c with st := s }
      generalize scanBody fuel dev.toMbDev lib prog { c with st := s } = q at this
      obtain ⟨c', r⟩ := q
      cases r <;> exact this

end Verif
