import Verif.Spec.Mimic
import Verif.Lemmas.Alike
import Verif.Props.Scan

/-! Lemmas: a device that answers whenever another one does, and likewise, behaves like it until the other one raises. -/

namespace Verif
open Verif.Spec

/-- In related states, whatever is written successfully to the first device is written successfully to the second one. -/
structure MimicsWrite {σ τ} (d1 : MbDev σ) (d2 : MbDev τ) (Rel : σ → τ → Prop) : Prop where
  write : ∀ s t a d s', Rel s t → d1.write s a d = (s', .ok ()) → ∃ t', d2.write t a d = (t', .ok ()) ∧ Rel s' t'

/-- In related states, whatever succeeds on the first device succeeds on the second one with the same result. No exception of the first one
is taken for a missing device. -/
structure Mimics {σ τ} (d1 : MbDev σ) (d2 : MbDev τ) (Rel : σ → τ → Prop) : Prop extends MimicsWrite d1 d2 Rel where
  read : ∀ s t a n s' d, Rel s t → d1.read s a n = (s', .ok d) → ∃ t', d2.read t a n = (t', .ok d) ∧ Rel s' t'
  err : ∀ s t a n s' e, Rel s t → d1.read s a n = (s', .error e) → cdWrap (.error e : Py Unit) ≠ .error .sunSpecClientError

variable {σ τ : Type} {d1 : MbDev σ} {d2 : MbDev τ} {Rel : σ → τ → Prop}

theorem cdRead_mimics (h : Mimics d1 d2 Rel) {s : σ} {t : τ} (hr : Rel s t) {a n : Int} {s' : σ} {d : Option Bytes}
    (e : cdRead d1 s a n = (s', .ok d)) : ∃ t', cdRead d2 t a n = (t', .ok d) ∧ Rel s' t' := by
  unfold cdRead at e ⊢
  rcases e1 : d1.read s a n with ⟨s1, r⟩
  rw [e1] at e
  rcases r with x | x
  · exact absurd (congrArg Prod.snd e) (by simp [cdWrap])
  · simp only [cdWrap, Prod.mk.injEq, Except.ok.injEq] at e
    obtain ⟨rfl, rfl⟩ := e
    obtain ⟨t', h1, h2⟩ := h.read _ _ _ _ _ _ hr e1
    exact ⟨t', by rw [h1]; rfl, h2⟩

theorem cdWrite_mimics (h : MimicsWrite d1 d2 Rel) {s : σ} {t : τ} (hr : Rel s t) {a : Int} {b : Bytes} {s' : σ}
    (e : cdWrite d1 s a b = (s', .ok ())) : ∃ t', cdWrite d2 t a b = (t', .ok ()) ∧ Rel s' t' := by
  unfold cdWrite at e ⊢
  rcases e1 : d1.write s a b with ⟨s1, r⟩
  rw [e1] at e
  rcases r with x | x
  · exact absurd (congrArg Prod.snd e) (by simp [cdWrap])
  · simp only [cdWrap, Prod.mk.injEq, Except.ok.injEq] at e
    obtain ⟨rfl, _⟩ := e
    obtain ⟨t', h1, h2⟩ := h.write _ _ _ _ _ hr e1
    exact ⟨t', by rw [h1]; rfl, h2⟩

theorem readChunks_mimics (h : Mimics d1 d2 Rel) (l : List (Int × Int)) (data : Bytes) {s : σ} {t : τ} (hr : Rel s t) {s' : σ} {d : Bytes}
    (e : readChunks d1 l data s = (s', .ok d)) : ∃ t', readChunks d2 l data t = (t', .ok d) ∧ Rel s' t' := by
  induction l generalizing data s t with
  | nil => cases e; exact ⟨t, rfl, hr⟩
  | cons x l ih =>
    obtain ⟨a, n⟩ := x
    rw [readChunks] at e ⊢
    rcases e1 : cdRead d1 s a n with ⟨s1, r⟩
    rw [e1] at e
    rcases r with x | _ | b
    · cases e
    · cases e
    · obtain ⟨t1, h1, h2⟩ := cdRead_mimics h hr e1
      rw [h1]
      exact ih _ h2 e

theorem readData_mimics (h : Mimics d1 d2 Rel) (m : MdlObj) {s : σ} {t : τ} (hr : Rel s t) {s' : σ} {d : Option Bytes}
    (e : readData d1 m s = (s', .ok d)) : ∃ t', readData d2 m t = (t', .ok d) ∧ Rel s' t' := by
  unfold readData at e ⊢
  split at e
  · rw [if_pos (by assumption)]; exact cdRead_mimics h hr e
  · rw [if_neg (by assumption)]
    rcases e1 : readChunks d1 (readPlan m) [] s with ⟨s1, r⟩
    rw [e1] at e
    rcases r with x | b
    · cases e
    · cases e
      obtain ⟨t1, h1, h2⟩ := readChunks_mimics h _ _ hr e1
      rw [h1]
      exact ⟨t1, rfl, h2⟩

theorem readPoints_mimics (h : Mimics d1 d2 Rel) (m : MdlObj) {s : σ} {t : τ} (hr : Rel s t) {s' : σ} {m' : MdlObj}
    (e : readPoints d1 s m = (s', m', .ok ())) : ∃ t', readPoints d2 t m = (t', m', .ok ()) ∧ Rel s' t' := by
  unfold readPoints at e ⊢
  split at e
  · rw [if_pos (by assumption)]; cases e; exact ⟨t, rfl, hr⟩
  · rw [if_neg (by assumption)]
    rcases e1 : readData d1 m s with ⟨s1, r⟩
    rw [e1] at e
    rcases r with x | b
    · simp [rpWrap] at e
    · obtain ⟨t1, h1, h2⟩ := readData_mimics h _ hr e1
      rw [h1]
      simp only [Prod.mk.injEq] at e ⊢
      obtain ⟨rfl, e2, e3⟩ := e
      exact ⟨t1, ⟨rfl, e2, e3⟩, h2⟩

theorem readModels_mimics (h : Mimics d1 d2 Rel) (ms : List MdlObj) {s : σ} {t : τ} (hr : Rel s t) {s' : σ} {ms' : List MdlObj}
    (e : readModels d1 ms s = (s', ms', .ok ())) : ∃ t', readModels d2 ms t = (t', ms', .ok ()) ∧ Rel s' t' := by
  induction ms generalizing s t s' ms' with
  | nil => cases e; exact ⟨t, rfl, hr⟩
  | cons m ms ih =>
    rw [readModels] at e ⊢
    rcases e1 : readPoints d1 s m with ⟨s1, m1, x | u⟩
    · rw [e1] at e; cases e
    · rw [e1] at e
      obtain ⟨t1, h1, h2⟩ := readPoints_mimics h _ hr e1
      rw [h1]
      rcases e2 : readModels d1 ms s1 with ⟨s2, ms2, r⟩
      dsimp only at e ⊢
      rw [e2] at e
      simp only [Prod.mk.injEq] at e
      obtain ⟨rfl, rfl, rfl⟩ := e
      obtain ⟨t2, h3, h4⟩ := ih h2 e2
      rw [h3]
      exact ⟨t2, rfl, h4⟩

theorem probe_mimics (h : Mimics d1 d2 Rel) (l : List Int) {s : σ} {t : τ} (hr : Rel s t) {s' : σ} {r : Option (Int × Bytes)}
    (e : probe d1 l s = (s', .ok r)) : ∃ t', probe d2 l t = (t', .ok r) ∧ Rel s' t' := by
  induction l generalizing s t with
  | nil => cases e; exact ⟨t, rfl, hr⟩
  | cons a l ih =>
    rw [probe] at e ⊢
    rcases e1 : cdRead d1 s a 3 with ⟨s1, x⟩
    rw [e1] at e
    rcases x with x | _ | b
    · have : x ≠ .sunSpecClientError := by
        unfold cdRead at e1
        rcases e2 : d1.read s a 3 with ⟨s2, y | y⟩
        · have := h.err _ _ _ _ _ _ hr e2
          rw [e2] at e1
          simp only [cdWrap, Prod.mk.injEq, Except.error.injEq] at e1 this
          rw [← e1.2]
          intro h; apply this; rw [h]
        · rw [e2] at e1; cases e1
      simp only [if_neg this] at e
      cases e
    · cases e
    · obtain ⟨t1, h1, h2⟩ := cdRead_mimics h hr e1
      rw [h1]
      dsimp only at e ⊢
      split at e
      · rw [if_pos (by assumption)]; cases e; exact ⟨t1, rfl, h2⟩
      · rw [if_neg (by assumption)]; exact ih h2 e

theorem scanLoop_mimics (h : Mimics d1 d2 Rel) (lib : Int → Py ModelType) (prog : List MdlObj → Int → Bool) (fuel : Nat)
    (id addr : Int) {c : CliDev σ} {d : CliDev τ} (hr : LookAlike Rel c d) (e : (scanLoop d1 lib prog fuel id addr c).2 = .ok ()) :
    (scanLoop d2 lib prog fuel id addr d).2 = .ok () ∧
      LookAlike Rel (scanLoop d1 lib prog fuel id addr c).1 (scanLoop d2 lib prog fuel id addr d).1 := by
  induction fuel generalizing id addr c d with
  | zero => exact absurd e (by simp [scanLoop])
  | succ fuel ih =>
    obtain ⟨cs, cb, cbs, cl, cd⟩ := c
    obtain ⟨ds, db, dbs, dl, dd⟩ := d
    obtain ⟨p1, p2, p3, p4, p5⟩ := hr.parts
    dsimp only at p1 p2 p3 p4 p5
    subst p1 p2 p3 p4
    rw [scanLoop] at e ⊢
    rw [scanLoop]
    split
    · exact ⟨rfl, hr⟩
    · rw [if_neg (by assumption)] at e
      dsimp only at e ⊢
      rcases e1 : cdRead d1 cs (addr + 1) 1 with ⟨s', r⟩
      rw [e1] at e
      rcases r with x | w
      · cases e
      · obtain ⟨t', h1, h2⟩ := cdRead_mimics h p5 e1
        rw [h1]
        dsimp only at e ⊢
        cases hw : wordOf w with
        | none => exact ⟨rfl, rfl, h2⟩
        | some len =>
          rw [hw] at e
          dsimp only at e ⊢
          split
          · rw [if_pos (by assumption)] at e; cases e
          · rw [if_neg (by assumption)] at e
            cases hl : scanLoad (lib id) (mdlNew id (addr + 2) len) with
            | error x => rw [hl] at e; cases e
            | ok m =>
              rw [hl] at e
              dsimp only at e ⊢
              rcases e3 : cdRead d1 s' (addr + (len + 2)) 1 with ⟨s2, r2⟩
              rw [e3] at e
              rcases r2 with x | w2
              · cases e
              · obtain ⟨t2, h3, h4⟩ := cdRead_mimics h h2 e3
                rw [h3]
                dsimp only at e ⊢
                cases hw2 : wordOf w2 with
                | none => exact ⟨rfl, rfl, h4⟩
                | some id2 => rw [hw2] at e; exact ih _ _ ⟨rfl, h4⟩ e

theorem scanBody_mimics (h : Mimics d1 d2 Rel) (lib : Int → Py ModelType) (prog : List MdlObj → Int → Bool) (fuel : Nat)
    {c : CliDev σ} {d : CliDev τ} (hr : LookAlike Rel c d) (e : (scanBody fuel d1 lib prog c).2 = .ok ()) :
    (scanBody fuel d2 lib prog d).2 = .ok () ∧
      LookAlike Rel (scanBody fuel d1 lib prog c).1 (scanBody fuel d2 lib prog d).1 := by
  obtain ⟨cs, cb, cbs, cl, cd⟩ := c
  obtain ⟨ds, db, dbs, dl, dd⟩ := d
  obtain ⟨p1, p2, p3, p4, p5⟩ := hr.parts
  dsimp only at p1 p2 p3 p4 p5
  subst p1 p2 p3 p4
  unfold scanBody at e ⊢
  dsimp only at e ⊢
  cases cb with
  | some b => cases e
  | none =>
    dsimp only at e ⊢
    rcases e1 : probe d1 cbs cs with ⟨s', r⟩
    rw [e1] at e
    rcases r with x | _ | ⟨a, dd'⟩
    · cases e
    · cases e
    · obtain ⟨t', h1, h2⟩ := probe_mimics h _ p5 e1
      rw [h1]
      dsimp only at e ⊢
      unfold scanFrom at e ⊢
      cases hw : wordOf (some ((dd'.drop 4).take 2)) with
      | none => rw [hw] at e; cases e
      | some id => rw [hw] at e; exact scanLoop_mimics h lib prog fuel id _ ⟨rfl, h2⟩ e

theorem wpPoint_mimics (h : MimicsWrite d1 d2 Rel) {a : WAcc σ} {b : WAcc τ} (hr : AccAlike Rel a b) (p : PointObj) {p' : PointObj} {a' : WAcc σ}
    (e : wpPoint d1 a p = (p', a', .ok ())) : ∃ b', wpPoint d2 b p = (p', b', .ok ()) ∧ AccAlike Rel a' b' := by
  obtain ⟨as, aa, an, ad⟩ := a
  obtain ⟨bs, ba, bn, bd⟩ := b
  obtain ⟨r2, r3, r4, r1⟩ := hr
  dsimp only at r1 r2 r3 r4
  subst r2 r3 r4
  unfold wpPoint at e ⊢
  split
  · rw [if_pos (by assumption)] at e
    cases hd : p.pt.type.toData p.base (p.pt.len * 2).toNat with
    | error x => rw [hd] at e; cases e
    | ok pd =>
      rw [hd] at e
      dsimp only at e ⊢
      cases aa with
      | none => cases e; exact ⟨_, rfl, rfl, rfl, rfl, r1⟩
      | some x =>
        dsimp only at e ⊢
        split
        · rw [if_pos (by assumption)] at e; cases e; exact ⟨_, rfl, rfl, rfl, rfl, r1⟩
        · rw [if_neg (by assumption)] at e
          rcases e1 : cdWrite d1 as x ad with ⟨s1, y | y⟩
          · rw [e1] at e; cases e
          · rw [e1] at e
            cases e
            obtain ⟨t1, h1, h2⟩ := cdWrite_mimics h r1 e1
            rw [h1]
            exact ⟨_, rfl, rfl, rfl, rfl, h2⟩
  · rw [if_neg (by assumption)] at e
    cases e
    exact ⟨_, rfl, rfl, rfl, rfl, r1⟩

theorem wpPoints_mimics (h : MimicsWrite d1 d2 Rel) (ps : List PointObj) {a : WAcc σ} {b : WAcc τ} (hr : AccAlike Rel a b) {ps' : List PointObj}
    {a' : WAcc σ} (e : wpPoints d1 ps a = (ps', a', .ok ())) : ∃ b', wpPoints d2 ps b = (ps', b', .ok ()) ∧ AccAlike Rel a' b' := by
  induction ps generalizing a b ps' a' with
  | nil => cases e; exact ⟨b, rfl, hr⟩
  | cons p ps ih =>
    rw [wpPoints] at e ⊢
    rcases e1 : wpPoint d1 a p with ⟨p1, a1, x | x⟩
    · rw [e1] at e; cases e
    · rw [e1] at e
      obtain ⟨b1, h1, h2⟩ := wpPoint_mimics h hr p e1
      rw [h1]
      dsimp only at e ⊢
      rcases e2 : wpPoints d1 ps a1 with ⟨ps2, a2, r⟩
      rw [e2] at e
      simp only [Prod.mk.injEq] at e
      obtain ⟨rfl, rfl, rfl⟩ := e
      obtain ⟨b2, h3, h4⟩ := ih h2 e2
      rw [h3]
      exact ⟨b2, rfl, h4⟩

theorem wpBlocks_mimics (h : MimicsWrite d1 d2 Rel) (bs : List BlockObj) {s : σ} {t : τ} (hr : Rel s t) {s' : σ} {bs' : List BlockObj}
    (e : wpBlocks d1 bs s = (s', bs', .ok ())) : ∃ t', wpBlocks d2 bs t = (t', bs', .ok ()) ∧ Rel s' t' := by
  induction bs generalizing s t s' bs' with
  | nil => cases e; exact ⟨t, rfl, hr⟩
  | cons b bs ih =>
    rw [wpBlocks] at e ⊢
    rcases e1 : wpPoints d1 b.pts { s := s } with ⟨ps, acc, x | x⟩
    · rw [e1] at e; cases e
    · rw [e1] at e
      obtain ⟨acc', h1, h2⟩ := wpPoints_mimics h b.pts (b := { s := t }) ⟨rfl, rfl, rfl, hr⟩ e1
      rw [h1]
      dsimp only at e ⊢
      have hf : ∀ s1, wpFlush d1 acc = (s1, .ok ()) → ∃ t1, wpFlush d2 acc' = (t1, .ok ()) ∧ Rel s1 t1 := by
        intro s1 hf
        obtain ⟨as, aa, an, ad⟩ := acc
        obtain ⟨bs, ba, bn, bd⟩ := acc'
        obtain ⟨r2, r3, r4, r1⟩ := h2
        dsimp only at r1 r2 r3 r4
        subst r2 r3 r4
        unfold wpFlush at hf ⊢
        cases aa with
        | none => cases hf; exact ⟨_, rfl, r1⟩
        | some x => exact cdWrite_mimics h r1 hf
      rcases e2 : wpFlush d1 acc with ⟨s1, y | y⟩
      · rw [e2] at e; cases e
      · rw [e2] at e
        obtain ⟨t1, h3, h4⟩ := hf s1 e2
        rw [h3]
        dsimp only at e ⊢
        rcases e3 : wpBlocks d1 bs s1 with ⟨s2, bs2, r⟩
        rw [e3] at e
        simp only [Prod.mk.injEq] at e
        obtain ⟨rfl, rfl, rfl⟩ := e
        obtain ⟨t2, h5, h6⟩ := ih h4 e3
        rw [h5]
        exact ⟨t2, rfl, h6⟩

theorem writePoints_mimics (h : MimicsWrite d1 d2 Rel) (m : MdlObj) {s : σ} {t : τ} (hr : Rel s t) {s' : σ} {m' : MdlObj}
    (e : writePoints d1 s m = (s', m', .ok ())) : ∃ t', writePoints d2 t m = (t', m', .ok ()) ∧ Rel s' t' := by
  unfold writePoints at e ⊢
  rcases e1 : wpBlocks d1 m.blocks s with ⟨s1, bs, r⟩
  rw [e1] at e
  simp only [Prod.mk.injEq] at e
  obtain ⟨rfl, rfl, rfl⟩ := e
  obtain ⟨t1, h1, h2⟩ := wpBlocks_mimics h m.blocks hr e1
  rw [h1]
  exact ⟨t1, rfl, h2⟩

theorem writePoint_mimics (h : MimicsWrite d1 d2 Rel) (p : PointObj) {s : σ} {t : τ} (hr : Rel s t) {s' : σ} {p' : PointObj}
    (e : writePoint d1 s p = (s', p', .ok ())) : ∃ t', writePoint d2 t p = (t', p', .ok ()) ∧ Rel s' t' := by
  unfold writePoint at e ⊢
  cases hd : p.pt.type.toData p.base (p.pt.len * 2).toNat with
  | error x => rw [hd] at e; cases e
  | ok pd =>
    rw [hd] at e
    dsimp only at e ⊢
    rcases e1 : cdWrite d1 s p.addr pd with ⟨s1, y | y⟩
    · rw [e1] at e; cases e
    · rw [e1] at e
      cases e
      obtain ⟨t1, h1, h2⟩ := cdWrite_mimics h hr e1
      rw [h1]
      exact ⟨t1, rfl, h2⟩

/-! ### Devices as `scan` uses them -/

structure ScanMimics (d1 : ScanDev σ) (d2 : ScanDev τ) (Rel : σ → τ → Prop) : Prop extends Mimics d1.toMbDev d2.toMbDev Rel where
  conn1 : d1.conn = none
  conn2 : ∀ f, d2.conn = some f → ∀ s t, Rel s t → (f t).2 = .ok () ∧ Rel s (f t).1
  disc2 : ∀ s t, Rel s t → Rel s (d2.disc t)

theorem scan_mimics {d1 : ScanDev σ} {d2 : ScanDev τ} (h : ScanMimics d1 d2 Rel) (lib : Int → Py ModelType)
    (prog : List MdlObj → Int → Bool) (fuel : Nat) {c : CliDev σ} {d : CliDev τ} (hr : LookAlike Rel c d)
    (e : (scan fuel d1 lib prog c).2 = .ok ()) :
    (scan fuel d2 lib prog d).2 = .ok () ∧ LookAlike Rel (scan fuel d1 lib prog c).1 (scan fuel d2 lib prog d).1 := by
  have hs : scan fuel d1 lib prog c = scanBody fuel d1.toMbDev lib prog c := by unfold scan; rw [h.conn1]
  rw [hs] at e ⊢
  obtain ⟨t', k1, k2, k3, k4⟩ := scan_connected fuel d2 lib prog d fun f hf => (h.conn2 f hf _ _ hr.2).1
  have r2 : Rel c.st t' := by
    rcases k1 with rfl | ⟨f, hf, rfl⟩
    · exact hr.2
    · exact (h.conn2 f hf _ _ hr.2).2
  obtain ⟨b1, b2, b3⟩ := scanBody_mimics h.toMimics lib prog fuel (c := c) (d := { d with st := t' }) ⟨hr.1, r2⟩ e
  refine ⟨by rw [k2, b1], by rw [k3, b2], ?_⟩
  rcases k4 with k4 | k4 <;> rw [k4]
  · exact b3
  · exact h.disc2 _ _ b3

theorem ofRead_returned {r : Py Unit} (h : Seen.ofRead r = .returned) : r = .ok () := by
  cases r with
  | error e => cases h
  | ok u => rfl

theorem ofWrite_returned {r : Py Unit} (h : Seen.ofWrite r = .returned) : r = .ok () := by
  cases r with
  | error e => cases h
  | ok u => rfl

theorem perform_mimics {d1 : ScanDev σ} {d2 : ScanDev τ} (h : ScanMimics d1 d2 Rel) (lib : Int → Py ModelType)
    (fuel : Nat) {c : CliDev σ} {d : CliDev τ} (hr : LookAlike Rel c d) (call : Call)
    (e : (perform d1 fuel lib c call).2 = .returned) :
    (perform d2 fuel lib d call).2 = .returned ∧
      LookAlike Rel (perform d1 fuel lib c call).1 (perform d2 fuel lib d call).1 := by
  cases call with
  | scan progress =>
    obtain ⟨h1, h2⟩ := scan_mimics h lib progress fuel hr (ofRead_returned e)
    exact ⟨congrArg Seen.ofRead h1, h2⟩
  | _ =>
    obtain ⟨cs, cb, cbs, cl, cd⟩ := c
    obtain ⟨ds, db, dbs, dl, dd⟩ := d
    obtain ⟨p1, p2, p3, p4, p5⟩ := hr.parts
    dsimp only at p1 p2 p3 p4 p5
    subst p1 p2 p3 p4
    unfold perform at e ⊢
    dsimp only at e ⊢
    first
    | (rcases e1 : readModels d1.toMbDev cl cs with ⟨s1, l1, r⟩
       rw [e1] at e
       have hok := ofRead_returned e
       dsimp only at hok
       subst hok
       obtain ⟨t1, h1, h2⟩ := readModels_mimics h.toMimics cl p5 e1
       rw [h1]
       exact ⟨rfl, rfl, h2⟩)
    | exact ⟨rfl, rfl, p5⟩
    | skip
    try
      rename_i i
      cases hi : cl[i]? with
      | none => exact ⟨rfl, rfl, p5⟩
      | some m =>
        rw [hi] at e
        dsimp only at e ⊢
        first
        | (rcases e1 : readPoints d1.toMbDev cs m with ⟨s1, l1, r⟩
           rw [e1] at e
           have hok := ofRead_returned e
           dsimp only at hok
           subst hok
           obtain ⟨t1, h1, h2⟩ := readPoints_mimics h.toMimics m p5 e1
           rw [h1]
           exact ⟨rfl, rfl, h2⟩)
        | (rcases e1 : writePoints d1.toMbDev cs m with ⟨s1, l1, r⟩
           rw [e1] at e
           have hok := ofWrite_returned e
           dsimp only at hok
           subst hok
           obtain ⟨t1, h1, h2⟩ := writePoints_mimics h.toMimicsWrite m p5 e1
           rw [h1]
           exact ⟨rfl, rfl, h2⟩)
    try
      rename_i i j k
      cases hi : cl[i]? with
      | none => exact ⟨rfl, rfl, p5⟩
      | some m =>
        rw [hi] at e
        dsimp only at e ⊢
        cases hj : m.blocks[j]? with
        | none => exact ⟨rfl, rfl, p5⟩
        | some b =>
          rw [hj] at e
          dsimp only at e ⊢
          cases hk : b.pts[k]? with
          | none => exact ⟨rfl, rfl, p5⟩
          | some p =>
            rw [hk] at e
            dsimp only at e ⊢
            rcases e1 : writePoint d1.toMbDev cs p with ⟨s1, l1, r⟩
            rw [e1] at e
            have hok := ofWrite_returned e
            dsimp only at hok
            subst hok
            obtain ⟨t1, h1, h2⟩ := writePoint_mimics h.toMimicsWrite p p5 e1
            rw [h1]
            exact ⟨rfl, rfl, h2⟩

theorem converse_grows {d1 : ScanDev σ} (fuel : Nat) (lib : Int → Py ModelType) (next : Transcript → Option Call) (n : Nat) (tr : Transcript)
    (c : CliDev σ) : ∃ l, (converse d1 fuel lib next n tr c).2 = tr ++ l := by
  induction n generalizing tr c with
  | zero => exact ⟨[], (List.append_nil _).symm⟩
  | succ n ih =>
    rw [converse]
    cases next tr with
    | none => exact ⟨[], (List.append_nil _).symm⟩
    | some call =>
      dsimp only
      obtain ⟨l, hl⟩ := ih (tr ++ [((perform d1 fuel lib c call).2, visible (perform d1 fuel lib c call).1)]) (perform d1 fuel lib c call).1
      exact ⟨_, by rw [hl, List.append_assoc]⟩

theorem converse_mimics {d1 : ScanDev σ} {d2 : ScanDev τ} (h : ScanMimics d1 d2 Rel) (lib : Int → Py ModelType)
    (fuel : Nat) (next : Transcript → Option Call) (n : Nat) (tr : Transcript) {c : CliDev σ} {d : CliDev τ}
    (hr : LookAlike Rel c d) (e : NoException (converse d1 fuel lib next n tr c).2) :
    (converse d2 fuel lib next n tr d).2 = (converse d1 fuel lib next n tr c).2 ∧
      LookAlike Rel (converse d1 fuel lib next n tr c).1 (converse d2 fuel lib next n tr d).1 := by
  induction n generalizing tr c d with
  | zero => exact ⟨rfl, hr⟩
  | succ n ih =>
    rw [converse] at e ⊢
    rw [converse]
    cases hn : next tr with
    | none => exact ⟨rfl, hr⟩
    | some call =>
      rw [hn] at e
      dsimp only at e ⊢
      have h0 : (perform d1 fuel lib c call).2 = .returned := by
        obtain ⟨l, hl⟩ := converse_grows (d1 := d1) fuel lib next n
          (tr ++ [((perform d1 fuel lib c call).2, visible (perform d1 fuel lib c call).1)]) (perform d1 fuel lib c call).1
        exact e ((perform d1 fuel lib c call).2, visible (perform d1 fuel lib c call).1) (by rw [hl]; simp)
      obtain ⟨h1, h2⟩ := perform_mimics h lib fuel hr call h0
      rw [h1, ← h2.1, ← h0]
      exact ih _ h2 e

end Verif
