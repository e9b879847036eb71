import Verif.Spec.Alike
import Verif.Lemmas.RtuConform
import Verif.Lemmas.TcpMore
import Verif.Props.Tcp

/-! Lemmas: two devices that answer alike cannot be told apart by anything built on them. -/

namespace Verif
open Verif.Spec

/-- Both return, or both raise. -/
def BothFail {α} (a b : Py α) : Prop := a = b ∨ ∃ e f, a = .error e ∧ b = .error f

/-- Devices in related states answer reads alike, and writes alike up to the class of the exception. -/
structure Alike {σ τ} (d1 : MbDev σ) (d2 : MbDev τ) (Rel : σ → τ → Prop) : Prop where
  read : ∀ s t a n, Rel s t → (d1.read s a n).2 = (d2.read t a n).2 ∧ Rel (d1.read s a n).1 (d2.read t a n).1
  write : ∀ s t a d, Rel s t → BothFail (d1.write s a d).2 (d2.write t a d).2 ∧ Rel (d1.write s a d).1 (d2.write t a d).1

variable {σ τ : Type} {d1 : MbDev σ} {d2 : MbDev τ} {Rel : σ → τ → Prop}

theorem cdRead_alike (h : Alike d1 d2 Rel) {s : σ} {t : τ} (hr : Rel s t) (a n : Int) :
    (cdRead d1 s a n).2 = (cdRead d2 t a n).2 ∧ Rel (cdRead d1 s a n).1 (cdRead d2 t a n).1 := by
  obtain ⟨h1, h2⟩ := h.read s t a n hr
  exact ⟨by unfold cdRead; rw [h1], h2⟩

theorem cdWrite_alike (h : Alike d1 d2 Rel) {s : σ} {t : τ} (hr : Rel s t) (a : Int) (d : Bytes) :
    BothFail (cdWrite d1 s a d).2 (cdWrite d2 t a d).2 ∧ Rel (cdWrite d1 s a d).1 (cdWrite d2 t a d).1 := by
  obtain ⟨h1, h2⟩ := h.write s t a d hr
  refine ⟨?_, h2⟩
  unfold cdWrite
  rcases h1 with h1 | ⟨e, f, h1, h3⟩
  · rw [h1]; exact .inl rfl
  · rw [h1, h3]; exact .inr ⟨_, _, rfl, rfl⟩

theorem readChunks_alike (h : Alike d1 d2 Rel) (l : List (Int × Int)) (data : Bytes) {s : σ} {t : τ} (hr : Rel s t) :
    (readChunks d1 l data s).2 = (readChunks d2 l data t).2 ∧ Rel (readChunks d1 l data s).1 (readChunks d2 l data t).1 := by
  induction l generalizing data s t with
  | nil => exact ⟨rfl, hr⟩
  | cons x l ih =>
    obtain ⟨a, n⟩ := x
    obtain ⟨h1, h2⟩ := cdRead_alike h hr a n
    rw [readChunks, readChunks]
    rcases e1 : cdRead d1 s a n with ⟨s', r⟩
    rcases e2 : cdRead d2 t a n with ⟨t', r'⟩
    rw [e1, e2] at h1 h2
    dsimp only at h1 h2
    subst h1
    rcases r with e | _ | d
    · exact ⟨rfl, h2⟩
    · exact ⟨rfl, h2⟩
    · exact ih _ h2

theorem readData_alike (h : Alike d1 d2 Rel) (m : MdlObj) {s : σ} {t : τ} (hr : Rel s t) :
    (readData d1 m s).2 = (readData d2 m t).2 ∧ Rel (readData d1 m s).1 (readData d2 m t).1 := by
  unfold readData
  split
  · exact cdRead_alike h hr _ _
  · obtain ⟨h1, h2⟩ := readChunks_alike h (readPlan m) [] hr
    rcases e1 : readChunks d1 (readPlan m) [] s with ⟨s', r⟩
    rcases e2 : readChunks d2 (readPlan m) [] t with ⟨t', r'⟩
    rw [e1, e2] at h1 h2
    dsimp only at h1 h2
    subst h1
    cases r <;> exact ⟨rfl, h2⟩

theorem readPoints_alike (h : Alike d1 d2 Rel) (m : MdlObj) {s : σ} {t : τ} (hr : Rel s t) :
    (readPoints d1 s m).2 = (readPoints d2 t m).2 ∧ Rel (readPoints d1 s m).1 (readPoints d2 t m).1 := by
  unfold readPoints
  split
  · exact ⟨rfl, hr⟩
  · obtain ⟨h1, h2⟩ := readData_alike h m hr
    rcases e1 : readData d1 m s with ⟨s', r⟩
    rcases e2 : readData d2 m t with ⟨t', r'⟩
    rw [e1, e2] at h1 h2
    dsimp only at h1 h2
    subst h1
    cases r <;> exact ⟨rfl, h2⟩

theorem readModels_alike (h : Alike d1 d2 Rel) (ms : List MdlObj) {s : σ} {t : τ} (hr : Rel s t) :
    (readModels d1 ms s).2 = (readModels d2 ms t).2 ∧ Rel (readModels d1 ms s).1 (readModels d2 ms t).1 := by
  induction ms generalizing s t with
  | nil => exact ⟨rfl, hr⟩
  | cons m ms ih =>
    obtain ⟨h1, h2⟩ := readPoints_alike h m hr
    rw [readModels, readModels]
    rcases e1 : readPoints d1 s m with ⟨s', m1, r⟩
    rcases e2 : readPoints d2 t m with ⟨t', m2, r'⟩
    rw [e1, e2] at h1 h2
    simp only [Prod.mk.injEq] at h1
    dsimp only at h2
    obtain ⟨rfl, rfl⟩ := h1
    rcases r with e | u
    · exact ⟨rfl, h2⟩
    · obtain ⟨h3, h4⟩ := ih h2
      dsimp only
      generalize readModels d1 ms s' = x at *
      generalize readModels d2 ms t' = y at *
      obtain ⟨x1, x2, x3⟩ := x
      obtain ⟨y1, y2, y3⟩ := y
      simp only [Prod.mk.injEq] at h3
      obtain ⟨rfl, rfl⟩ := h3
      exact ⟨rfl, h4⟩

theorem probe_alike (h : Alike d1 d2 Rel) (l : List Int) {s : σ} {t : τ} (hr : Rel s t) :
    (probe d1 l s).2 = (probe d2 l t).2 ∧ Rel (probe d1 l s).1 (probe d2 l t).1 := by
  induction l generalizing s t with
  | nil => exact ⟨rfl, hr⟩
  | cons a l ih =>
    obtain ⟨h1, h2⟩ := cdRead_alike h hr a 3
    rw [probe, probe]
    rcases e1 : cdRead d1 s a 3 with ⟨s', r⟩
    rcases e2 : cdRead d2 t a 3 with ⟨t', r'⟩
    rw [e1, e2] at h1 h2
    dsimp only at h1 h2
    subst h1
    rcases r with e | _ | d
    · dsimp only
      split
      · exact ih h2
      · exact ⟨rfl, h2⟩
    · exact ⟨rfl, h2⟩
    · dsimp only
      split
      · exact ⟨rfl, h2⟩
      · exact ih h2

/-- Device objects that look the same, with related states behind them. -/
def LookAlike (Rel : σ → τ → Prop) (c : CliDev σ) (d : CliDev τ) : Prop := visible c = visible d ∧ Rel c.st d.st

theorem LookAlike.parts {Rel : σ → τ → Prop} {c : CliDev σ} {d : CliDev τ} (h : LookAlike Rel c d) :
    c.base = d.base ∧ c.bases = d.bases ∧ c.list = d.list ∧ c.dict = d.dict ∧ Rel c.st d.st := by
  obtain ⟨h1, h2⟩ := h
  unfold visible at h1
  simp only [CliDev.mk.injEq, true_and] at h1
  exact ⟨h1.1, h1.2.1, h1.2.2.1, h1.2.2.2, h2⟩

theorem scanLoop_alike (h : Alike d1 d2 Rel) (lib : Int → Py ModelType) (prog : List MdlObj → Int → Bool) (fuel : Nat)
    (id addr : Int) {c : CliDev σ} {d : CliDev τ} (hr : LookAlike Rel c d) :
    (scanLoop d1 lib prog fuel id addr c).2 = (scanLoop d2 lib prog fuel id addr d).2 ∧
      LookAlike Rel (scanLoop d1 lib prog fuel id addr c).1 (scanLoop d2 lib prog fuel id addr d).1 := by
  induction fuel generalizing id addr c d with
  | zero => exact ⟨rfl, hr⟩
  | succ fuel ih =>
    obtain ⟨cs, cb, cbs, cl, cd⟩ := c
    obtain ⟨ds, db, dbs, dl, dd⟩ := d
    obtain ⟨p1, p2, p3, p4, p5⟩ := hr.parts
    dsimp only at p1 p2 p3 p4 p5
    subst p1 p2 p3 p4
    rw [scanLoop, scanLoop]
    split
    · exact ⟨rfl, hr⟩
    · obtain ⟨h1, h2⟩ := cdRead_alike h p5 (addr + 1) 1
      dsimp only
      rcases e1 : cdRead d1 cs (addr + 1) 1 with ⟨s', r⟩
      rcases e2 : cdRead d2 ds (addr + 1) 1 with ⟨t', r'⟩
      rw [e1, e2] at h1 h2
      dsimp only at h1 h2
      subst h1
      rcases r with e | w
      · exact ⟨rfl, rfl, h2⟩
      · dsimp only
        cases wordOf w with
        | none => exact ⟨rfl, rfl, h2⟩
        | some len =>
          dsimp only
          split
          · exact ⟨rfl, rfl, h2⟩
          · cases scanLoad (lib id) (mdlNew id (addr + 2) len) with
            | error e => exact ⟨rfl, rfl, h2⟩
            | ok m =>
              dsimp only
              obtain ⟨h3, h4⟩ := cdRead_alike h h2 (addr + (len + 2)) 1
              rcases e3 : cdRead d1 s' (addr + (len + 2)) 1 with ⟨s2, r2⟩
              rcases e4 : cdRead d2 t' (addr + (len + 2)) 1 with ⟨t2, r2'⟩
              rw [e3, e4] at h3 h4
              dsimp only at h3 h4
              subst h3
              rcases r2 with e | w2
              · exact ⟨rfl, rfl, h4⟩
              · dsimp only
                cases wordOf w2 with
                | none => exact ⟨rfl, rfl, h4⟩
                | some id2 => exact ih _ _ ⟨rfl, h4⟩

theorem scanBody_alike (h : Alike d1 d2 Rel) (lib : Int → Py ModelType) (prog : List MdlObj → Int → Bool) (fuel : Nat)
    {c : CliDev σ} {d : CliDev τ} (hr : LookAlike Rel c d) :
    (scanBody fuel d1 lib prog c).2 = (scanBody fuel d2 lib prog d).2 ∧
      LookAlike Rel (scanBody fuel d1 lib prog c).1 (scanBody fuel d2 lib prog d).1 := by
  obtain ⟨cs, cb, cbs, cl, cd⟩ := c
  obtain ⟨ds, db, dbs, dl, dd⟩ := d
  obtain ⟨p1, p2, p3, p4, p5⟩ := hr.parts
  dsimp only at p1 p2 p3 p4 p5
  subst p1 p2 p3 p4
  unfold scanBody
  dsimp only
  cases cb with
  | some b => exact ⟨rfl, hr⟩
  | none =>
    dsimp only
    obtain ⟨h1, h2⟩ := probe_alike h cbs p5
    rcases e1 : probe d1 cbs cs with ⟨s', r⟩
    rcases e2 : probe d2 cbs ds with ⟨t', r'⟩
    rw [e1, e2] at h1 h2
    dsimp only at h1 h2
    subst h1
    rcases r with e | _ | ⟨a, dd'⟩
    · exact ⟨rfl, rfl, h2⟩
    · exact ⟨rfl, rfl, h2⟩
    · dsimp only
      unfold scanFrom
      cases wordOf (some ((dd'.drop 4).take 2)) with
      | none => exact ⟨rfl, rfl, h2⟩
      | some id => exact scanLoop_alike h lib prog fuel id _ ⟨rfl, h2⟩

/-- Accumulators of `write_points` in related states. -/
def AccAlike (Rel : σ → τ → Prop) (a : WAcc σ) (b : WAcc τ) : Prop :=
  a.addr = b.addr ∧ a.next = b.next ∧ a.data = b.data ∧ Rel a.s b.s

theorem BothFail.refl {α} (a : Py α) : BothFail a a := .inl rfl

theorem BothFail.cases {r r' : Py Unit} (h : BothFail r r') :
    (r = .ok () ∧ r' = .ok ()) ∨ ∃ e f, r = .error e ∧ r' = .error f := by
  rcases h with h | h
  · rcases r with e | ⟨⟩
    · exact .inr ⟨e, e, rfl, h.symm⟩
    · exact .inl ⟨rfl, h.symm⟩
  · exact .inr h

theorem wpPoint_alike (h : Alike d1 d2 Rel) {a : WAcc σ} {b : WAcc τ} (hr : AccAlike Rel a b) (p : PointObj) :
    (wpPoint d1 a p).1 = (wpPoint d2 b p).1 ∧ AccAlike Rel (wpPoint d1 a p).2.1 (wpPoint d2 b p).2.1 ∧
      BothFail (wpPoint d1 a p).2.2 (wpPoint d2 b p).2.2 := by
  obtain ⟨s, ad, nx, dt⟩ := a
  obtain ⟨t, ad', nx', dt'⟩ := b
  obtain ⟨q1, q2, q3, q4⟩ := hr
  dsimp only at q1 q2 q3 q4
  subst q1 q2 q3
  unfold wpPoint
  split
  · cases p.pt.type.toData p.base (p.pt.len * 2).toNat with
    | error e => exact ⟨rfl, ⟨rfl, rfl, rfl, q4⟩, .refl _⟩
    | ok pd =>
      dsimp only
      cases ad with
      | none => exact ⟨rfl, ⟨rfl, rfl, rfl, q4⟩, .refl _⟩
      | some x =>
        dsimp only
        split
        · exact ⟨rfl, ⟨rfl, rfl, rfl, q4⟩, .refl _⟩
        · obtain ⟨h1, h2⟩ := cdWrite_alike h q4 x dt
          rcases e1 : cdWrite d1 s x dt with ⟨s', r⟩
          rcases e2 : cdWrite d2 t x dt with ⟨t', r'⟩
          rw [e1, e2] at h1 h2
          dsimp only at h1 h2
          rcases h1.cases with ⟨rfl, rfl⟩ | ⟨e, f, rfl, rfl⟩
          · exact ⟨rfl, ⟨rfl, rfl, rfl, h2⟩, .refl _⟩
          · exact ⟨rfl, ⟨rfl, rfl, rfl, h2⟩, .inr ⟨_, _, rfl, rfl⟩⟩
  · exact ⟨rfl, ⟨rfl, rfl, rfl, q4⟩, .refl _⟩

theorem wpPoints_alike (h : Alike d1 d2 Rel) (ps : List PointObj) {a : WAcc σ} {b : WAcc τ} (hr : AccAlike Rel a b) :
    (wpPoints d1 ps a).1 = (wpPoints d2 ps b).1 ∧ AccAlike Rel (wpPoints d1 ps a).2.1 (wpPoints d2 ps b).2.1 ∧
      BothFail (wpPoints d1 ps a).2.2 (wpPoints d2 ps b).2.2 := by
  induction ps generalizing a b with
  | nil => exact ⟨rfl, hr, .refl _⟩
  | cons p ps ih =>
    obtain ⟨h1, h2, h3⟩ := wpPoint_alike h hr p
    rw [wpPoints, wpPoints]
    rcases e1 : wpPoint d1 a p with ⟨p1, a1, r⟩
    rcases e2 : wpPoint d2 b p with ⟨p2, b1, r'⟩
    rw [e1, e2] at h1 h2 h3
    dsimp only at h1 h2 h3
    subst h1
    rcases h3.cases with ⟨rfl, rfl⟩ | ⟨e, f, rfl, rfl⟩
    · obtain ⟨i1, i2, i3⟩ := ih h2
      dsimp only
      exact ⟨by rw [i1], i2, i3⟩
    · exact ⟨rfl, h2, .inr ⟨_, _, rfl, rfl⟩⟩

theorem wpFlush_alike (h : Alike d1 d2 Rel) {a : WAcc σ} {b : WAcc τ} (hr : AccAlike Rel a b) :
    Rel (wpFlush d1 a).1 (wpFlush d2 b).1 ∧ BothFail (wpFlush d1 a).2 (wpFlush d2 b).2 := by
  obtain ⟨s, ad, nx, dt⟩ := a
  obtain ⟨t, ad', nx', dt'⟩ := b
  obtain ⟨q1, q2, q3, q4⟩ := hr
  dsimp only at q1 q2 q3 q4
  subst q1 q2 q3
  unfold wpFlush
  cases ad with
  | none => exact ⟨q4, .refl _⟩
  | some x => exact (cdWrite_alike h q4 x dt).symm

theorem wpBlocks_alike (h : Alike d1 d2 Rel) (bs : List BlockObj) {s : σ} {t : τ} (hr : Rel s t) :
    Rel (wpBlocks d1 bs s).1 (wpBlocks d2 bs t).1 ∧ (wpBlocks d1 bs s).2.1 = (wpBlocks d2 bs t).2.1 ∧
      BothFail (wpBlocks d1 bs s).2.2 (wpBlocks d2 bs t).2.2 := by
  induction bs generalizing s t with
  | nil => exact ⟨hr, rfl, .refl _⟩
  | cons b bs ih =>
    obtain ⟨h1, h2, h3⟩ := wpPoints_alike h b.pts (a := { s := s }) (b := { s := t }) ⟨rfl, rfl, rfl, hr⟩
    rw [wpBlocks, wpBlocks]
    rcases e1 : wpPoints d1 b.pts { s := s } with ⟨p1, a1, r⟩
    rcases e2 : wpPoints d2 b.pts { s := t } with ⟨p2, b1, r'⟩
    rw [e1, e2] at h1 h2 h3
    dsimp only at h1 h2 h3
    subst h1
    rcases h3.cases with ⟨rfl, rfl⟩ | ⟨e, f, rfl, rfl⟩
    · dsimp only
      obtain ⟨h4, h5⟩ := wpFlush_alike h h2
      rcases e3 : wpFlush d1 a1 with ⟨s2, r2⟩
      rcases e4 : wpFlush d2 b1 with ⟨t2, r2'⟩
      rw [e3, e4] at h4 h5
      dsimp only at h4 h5
      rcases h5.cases with ⟨rfl, rfl⟩ | ⟨e, f, rfl, rfl⟩
      · obtain ⟨i1, i2, i3⟩ := ih h4
        dsimp only
        exact ⟨i1, by rw [i2], i3⟩
      · exact ⟨h4, rfl, .inr ⟨_, _, rfl, rfl⟩⟩
    · exact ⟨h2.2.2.2, rfl, .inr ⟨_, _, rfl, rfl⟩⟩

theorem writePoints_alike (h : Alike d1 d2 Rel) (m : MdlObj) {s : σ} {t : τ} (hr : Rel s t) :
    Rel (writePoints d1 s m).1 (writePoints d2 t m).1 ∧ (writePoints d1 s m).2.1 = (writePoints d2 t m).2.1 ∧
      BothFail (writePoints d1 s m).2.2 (writePoints d2 t m).2.2 := by
  obtain ⟨h1, h2, h3⟩ := wpBlocks_alike h m.blocks hr
  exact ⟨h1, by unfold writePoints; dsimp only; rw [h2], h3⟩

theorem writePoint_alike (h : Alike d1 d2 Rel) (p : PointObj) {s : σ} {t : τ} (hr : Rel s t) :
    Rel (writePoint d1 s p).1 (writePoint d2 t p).1 ∧ (writePoint d1 s p).2.1 = (writePoint d2 t p).2.1 ∧
      BothFail (writePoint d1 s p).2.2 (writePoint d2 t p).2.2 := by
  unfold writePoint
  cases p.pt.type.toData p.base (p.pt.len * 2).toNat with
  | error e => exact ⟨hr, rfl, .refl _⟩
  | ok d =>
    dsimp only
    obtain ⟨h1, h2⟩ := cdWrite_alike h hr p.addr d
    rcases e1 : cdWrite d1 s p.addr d with ⟨s', r⟩
    rcases e2 : cdWrite d2 t p.addr d with ⟨t', r'⟩
    rw [e1, e2] at h1 h2
    dsimp only at h1 h2
    rcases h1.cases with ⟨rfl, rfl⟩ | ⟨e, f, rfl, rfl⟩
    · exact ⟨h2, rfl, .refl _⟩
    · exact ⟨h2, rfl, .inr ⟨_, _, rfl, rfl⟩⟩

/-! ### Devices as `scan` uses them -/

/-- Related before and after connecting and disconnecting. -/
structure ScanAlike (d1 : ScanDev σ) (d2 : ScanDev τ) (Rel : σ → τ → Prop) : Prop extends Alike d1.toMbDev d2.toMbDev Rel where
  conn1 : ∀ f, d1.conn = some f → ∀ s t, Rel s t → (f s).2 = .ok () ∧ Rel (f s).1 t
  conn2 : ∀ f, d2.conn = some f → ∀ s t, Rel s t → (f t).2 = .ok () ∧ Rel s (f t).1
  disc1 : ∀ s t, Rel s t → Rel (d1.disc s) t
  disc2 : ∀ s t, Rel s t → Rel s (d2.disc t)

/-- `scan`, once connected (if need be). -/
theorem scan_connected {σ} (fuel : Nat) (dev : ScanDev σ) (lib : Int → Py ModelType) (prog : List MdlObj → Int → Bool)
    (c : CliDev σ) (ok : ∀ f, dev.conn = some f → (f c.st).2 = .ok ()) :
    ∃ s', (s' = c.st ∨ ∃ f, dev.conn = some f ∧ s' = (f c.st).1) ∧
      (scan fuel dev lib prog c).2 = (scanBody fuel dev.toMbDev lib prog { c with st := s' }).2 ∧
      visible (scan fuel dev lib prog c).1 = visible (scanBody fuel dev.toMbDev lib prog { c with st := s' }).1 ∧
      ((scan fuel dev lib prog c).1.st = (scanBody fuel dev.toMbDev lib prog { c with st := s' }).1.st ∨
        (scan fuel dev lib prog c).1.st = dev.disc (scanBody fuel dev.toMbDev lib prog { c with st := s' }).1.st) := by
  unfold scan
  cases hc : dev.conn with
  | none => exact ⟨c.st, .inl rfl, rfl, rfl, .inl rfl⟩
  | some f =>
    refine ⟨(f c.st).1, .inr ⟨f, rfl, rfl⟩, ?_⟩
    have hf := ok f hc
    dsimp only
    rcases e : f c.st with ⟨s', r⟩
    rw [e] at hf
    dsimp only at hf
    subst hf
    dsimp only
    generalize scanBody fuel dev.toMbDev lib prog { c with st := s' } = x
    obtain ⟨c', e' | u⟩ := x
    · exact ⟨rfl, rfl, .inl rfl⟩
    · exact ⟨rfl, rfl, .inr rfl⟩

theorem scan_alike {d1 : ScanDev σ} {d2 : ScanDev τ} (h : ScanAlike d1 d2 Rel) (lib : Int → Py ModelType)
    (prog : List MdlObj → Int → Bool) (fuel : Nat) {c : CliDev σ} {d : CliDev τ} (hr : LookAlike Rel c d) :
    (scan fuel d1 lib prog c).2 = (scan fuel d2 lib prog d).2 ∧
      LookAlike Rel (scan fuel d1 lib prog c).1 (scan fuel d2 lib prog d).1 := by
  obtain ⟨s', h1, h2, h3, h4⟩ := scan_connected fuel d1 lib prog c fun f hf => (h.conn1 f hf _ _ hr.2).1
  have r1 : Rel s' d.st := by
    rcases h1 with rfl | ⟨f, hf, rfl⟩
    · exact hr.2
    · exact (h.conn1 f hf _ _ hr.2).2
  obtain ⟨t', k1, k2, k3, k4⟩ := scan_connected fuel d2 lib prog d fun f hf => (h.conn2 f hf _ _ hr.2).1
  have r2 : Rel s' t' := by
    rcases k1 with rfl | ⟨f, hf, rfl⟩
    · exact r1
    · exact (h.conn2 f hf _ _ r1).2
  have hl : LookAlike Rel { c with st := s' } { d with st := t' } := ⟨hr.1, r2⟩
  obtain ⟨b1, b2, b3⟩ := scanBody_alike h.toAlike lib prog fuel hl
  refine ⟨by rw [h2, k2, b1], by rw [h3, k3, b2], ?_⟩
  have r3 : ∀ t'', Rel (scanBody fuel d1.toMbDev lib prog { c with st := s' }).1.st t'' →
      Rel (scan fuel d1 lib prog c).1.st t'' := by
    intro t'' ht
    rcases h4 with h4 | h4 <;> rw [h4]
    · exact ht
    · exact h.disc1 _ _ ht
  apply r3
  rcases k4 with k4 | k4 <;> rw [k4]
  · exact b3
  · exact h.disc2 _ _ b3

theorem seenWrite {r r' : Py Unit} (h : BothFail r r') : Seen.ofWrite r = Seen.ofWrite r' := by
  rcases h.cases with ⟨rfl, rfl⟩ | ⟨e, f, rfl, rfl⟩ <;> rfl

/-- Scans of related devices end alike, and leave them related. -/
def ScansAlike (d1 : ScanDev σ) (d2 : ScanDev τ) (Rel : σ → τ → Prop) (lib : Int → Py ModelType) (fuel : Nat) : Prop :=
  ∀ prog {c : CliDev σ} {d : CliDev τ}, LookAlike Rel c d → (scan fuel d1 lib prog c).2 = (scan fuel d2 lib prog d).2 ∧
    LookAlike Rel (scan fuel d1 lib prog c).1 (scan fuel d2 lib prog d).1

theorem perform_alike' {d1 : ScanDev σ} {d2 : ScanDev τ} (h : Alike d1.toMbDev d2.toMbDev Rel) (lib : Int → Py ModelType)
    (fuel : Nat) (hs : ScansAlike d1 d2 Rel lib fuel) {c : CliDev σ} {d : CliDev τ} (hr : LookAlike Rel c d) (call : Call) :
    (perform d1 fuel lib c call).2 = (perform d2 fuel lib d call).2 ∧
      LookAlike Rel (perform d1 fuel lib c call).1 (perform d2 fuel lib d call).1 := by
  cases call with
  | scan progress =>
    obtain ⟨h1, h2⟩ := hs progress hr
    exact ⟨congrArg Seen.ofRead h1, h2⟩
  | _ =>
    obtain ⟨cs, cb, cbs, cl, cd⟩ := c
    obtain ⟨ds, db, dbs, dl, dd⟩ := d
    obtain ⟨p1, p2, p3, p4, p5⟩ := hr.parts
    dsimp only at p1 p2 p3 p4 p5
    subst p1 p2 p3 p4
    unfold perform
    dsimp only
    first
    | (obtain ⟨h1, h2⟩ := readModels_alike h cl p5
       exact ⟨by rw [h1], by unfold LookAlike visible; dsimp only; rw [h1]; exact ⟨rfl, h2⟩⟩)
    | exact ⟨rfl, rfl, p5⟩
    | skip
    try
      rename_i i
      cases cl[i]? with
      | none => exact ⟨rfl, rfl, p5⟩
      | some m =>
        dsimp only
        first
        | (obtain ⟨h1, h2⟩ := readPoints_alike h m p5
           exact ⟨by rw [h1], by unfold LookAlike visible; dsimp only; rw [h1]; exact ⟨rfl, h2⟩⟩)
        | (obtain ⟨h1, h2, h3⟩ := writePoints_alike h m p5
           exact ⟨seenWrite h3, by unfold LookAlike visible; dsimp only; rw [h2]; exact ⟨rfl, h1⟩⟩)
    try
      rename_i i j k
      cases cl[i]? with
      | none => exact ⟨rfl, rfl, p5⟩
      | some m =>
        dsimp only
        cases m.blocks[j]? with
        | none => exact ⟨rfl, rfl, p5⟩
        | some b =>
          dsimp only
          cases b.pts[k]? with
          | none => exact ⟨rfl, rfl, p5⟩
          | some p =>
            dsimp only
            obtain ⟨h1, h2, h3⟩ := writePoint_alike h p p5
            exact ⟨seenWrite h3, by unfold LookAlike visible; dsimp only; rw [h2]; exact ⟨rfl, h1⟩⟩

theorem converse_alike' {d1 : ScanDev σ} {d2 : ScanDev τ} (h : Alike d1.toMbDev d2.toMbDev Rel) (lib : Int → Py ModelType)
    (fuel : Nat) (hs : ScansAlike d1 d2 Rel lib fuel) (next : Transcript → Option Call) (n : Nat) (tr : Transcript) {c : CliDev σ} {d : CliDev τ}
    (hr : LookAlike Rel c d) :
    (converse d1 fuel lib next n tr c).2 = (converse d2 fuel lib next n tr d).2 ∧
      LookAlike Rel (converse d1 fuel lib next n tr c).1 (converse d2 fuel lib next n tr d).1 := by
  induction n generalizing tr c d with
  | zero => exact ⟨rfl, hr⟩
  | succ n ih =>
    rw [converse, converse]
    cases next tr with
    | none => exact ⟨rfl, hr⟩
    | some call =>
      dsimp only
      obtain ⟨h1, h2⟩ := perform_alike' h lib fuel hs hr call
      rw [h1, h2.1]
      exact ih _ h2

theorem perform_alike {d1 : ScanDev σ} {d2 : ScanDev τ} (h : ScanAlike d1 d2 Rel) (lib : Int → Py ModelType)
    (fuel : Nat) {c : CliDev σ} {d : CliDev τ} (hr : LookAlike Rel c d) (call : Call) :
    (perform d1 fuel lib c call).2 = (perform d2 fuel lib d call).2 ∧
      LookAlike Rel (perform d1 fuel lib c call).1 (perform d2 fuel lib d call).1 :=
  perform_alike' h.toAlike lib fuel (fun prog _ _ hr => scan_alike h lib prog fuel hr) hr call

theorem converse_alike {d1 : ScanDev σ} {d2 : ScanDev τ} (h : ScanAlike d1 d2 Rel) (lib : Int → Py ModelType)
    (fuel : Nat) (next : Transcript → Option Call) (n : Nat) (tr : Transcript) {c : CliDev σ} {d : CliDev τ}
    (hr : LookAlike Rel c d) :
    (converse d1 fuel lib next n tr c).2 = (converse d2 fuel lib next n tr d).2 ∧
      LookAlike Rel (converse d1 fuel lib next n tr c).1 (converse d2 fuel lib next n tr d).1 :=
  converse_alike' h.toAlike lib fuel (fun prog _ _ hr => scan_alike h lib prog fuel hr) next n tr hr

/-! ### RTU and TCP -/

/-- The same registers behind a serial line and behind a connection. -/
def SameMem {α β} (a1 : α → Mem) (a2 : β → Mem) (l : Line α) (t : Tcp β) : Prop := a1 l.dev = a2 t.dev ∧ Idle t

theorem readF_alike {α β} {slave : Slave α} {a1 : α → Mem} {sid : Byte} (hc1 : ConformsRtu slave a1 sid)
    {srv : TcpServer β} {a2 : β → Mem} {unit : Byte} (hc2 : ConformsTcp srv.accept srv.react a2 unit)
    (fuel : Nat) (addr : Int) (count : Nat) (resp : Bytes) (l : Line α) (t : Tcp β) (hm : a1 l.dev = a2 t.dev)
    (ht : t.sock = .connected []) :
    (rtuReadF slave sid.toNat 3 125 fuel addr count resp l).2 = (tcpReadF srv unit.toNat 3 125 fuel addr count resp t).2.map some ∧
      a1 (rtuReadF slave sid.toNat 3 125 fuel addr count resp l).1.dev = a2 (tcpReadF srv unit.toNat 3 125 fuel addr count resp t).1.dev ∧
      (tcpReadF srv unit.toNat 3 125 fuel addr count resp t).1.sock = .connected [] := by
  induction fuel generalizing addr count resp l t with
  | zero => exact ⟨rfl, hm, ht⟩
  | succ fuel ih =>
    rw [rtuReadF, tcpReadF]
    by_cases hcz : count > 0
    · rw [if_pos hcz, if_pos hcz]
      simp only
      generalize hqq : (if count > 125 then 125 else count) = q
      have hq1 : q ≤ count ∧ 1 ≤ q ∧ q ≤ 125 := by split at hqq <;> omega
      obtain ⟨t1, k1, k2, k3, _, _⟩ := conform_tcpRead1 hc2 t ht 3 addr q
      rw [k1]
      clear k1
      rw [rtuRead1_eq]
      have hs := sid.isLt
      by_cases hr : 0 ≤ addr ∧ addr < 65536
      · rw [if_pos (by omega)]
        rw [if_pos ⟨by omega, hr, by omega⟩, if_pos (.inl rfl), if_neg (by omega)]
        simp only [Int.toNat_natCast, BitVec.ofNat_toNat, BitVec.setWidth_eq]
        obtain ⟨h1, h2⟩ := conform_read hc1 l.dev 3 (a := addr.toNat) (q := q) (by omega) (by omega)
        rw [if_pos (.inl rfl), if_neg (by omega)] at h2
        have e3 : (BitVec.ofNat 8 (3 : Int).toNat : Byte) = 3 := rfl
        rw [e3, h2]
        by_cases hl : 65536 < addr.toNat + q
        · rw [if_pos hl, if_pos (by omega)]
          exact ⟨rfl, by rw [andThen_error]; dsimp only; rw [h1, hm, k2], by rw [andThen_error]; exact k3⟩
        · rw [if_neg hl, if_neg (by omega), andThen_ok]
          simp only [memRead_length]
          rw [if_pos (by omega), if_pos (by omega), hm]
          refine ih _ _ _ _ _ ?_ k3
          dsimp only
          rw [h1, hm, k2]
      · rw [if_neg (by omega), if_neg (by omega), andThen_error]
        exact ⟨rfl, by rw [hm, k2], k3⟩
    · rw [if_neg hcz, if_neg hcz]
      exact ⟨rfl, hm, ht⟩

theorem tcpWith_same_mem {β γ} {srv : TcpServer β} {a2 : β → Mem} {unit : Byte}
    (hc2 : ConformsTcp srv.accept srv.react a2 unit) (t : Tcp β) (ht : Idle t) (body : Tcp β → Tcp β × Py γ)
    (P : Py γ → Mem → Prop)
    (hb : ∀ t', a2 t'.dev = a2 t.dev → t'.sock = .connected [] → P (body t').2 (a2 (body t').1.dev) ∧ (body t').1.sock = .connected []) :
    P (tcpWith srv t body).2 (a2 (tcpWith srv t body).1.dev) ∧ Idle (tcpWith srv t body).1 := by
  rcases ht with ht | ht
  · rw [tcpWith_absent srv t body ht (hc2.1 _).1]
    obtain ⟨h1, h2⟩ := hb { t with dev := (srv.accept t.dev).1, sock := .connected [], opened := t.opened + 1 } (hc2.1 _).2 rfl
    rw [tcpDisconnect_connected _ _ h2]
    exact ⟨h1, .inl rfl⟩
  · rw [tcpWith_present srv t body (by rw [ht]; intro h; cases h)]
    obtain ⟨h1, h2⟩ := hb t rfl ht
    exact ⟨h1, .inr h2⟩

theorem rtuWrite_short {α} (slave : Slave α) (l : Line α) (sid addr : Int) (data : Bytes) (h : data.length ≤ 250) :
    rtuWrite slave l sid addr data 125 = if data = [] then (l, .ok ()) else rtuWrite1 slave l sid addr data := by
  unfold rtuWrite
  rw [rtuWriteF]
  by_cases h0 : data = []
  · subst h0; rfl
  · have hl : 0 < data.length := List.length_pos_iff.2 h0
    rw [if_neg h0, if_pos hl]
    dsimp only
    rw [if_neg (by omega), List.take_of_length_le (Nat.le_refl _), List.drop_eq_nil_of_le (Nat.le_refl _)]
    match h1 : rtuWrite1 slave l sid addr data with
    | (l', .error e) => rfl
    | (l', .ok ()) =>
      dsimp only
      obtain ⟨f, hf⟩ : ∃ f, data.length = f + 1 := ⟨data.length - 1, by omega⟩
      rw [hf, rtuWriteF, if_neg (by simp)]

/-- A write of more than 125 registers to a conforming slave fails and stores nothing. -/
theorem rtuWrite_long {α} {slave : Slave α} {a1 : α → Mem} {sid : Byte} (hc1 : ConformsRtu slave a1 sid) (l : Line α)
    (addr : Int) (data : Bytes) (h : 250 < data.length) :
    ∃ e, (rtuWrite slave l sid.toNat addr data 125).2 = .error e ∧ (0 ≤ addr ∧ addr < 65536 → e = .modbusClientException 3) ∧ a1 (rtuWrite slave l sid.toNat addr data 125).1.dev = a1 l.dev := by
  unfold rtuWrite
  rw [rtuWriteF, if_pos (by omega)]
  dsimp only
  rw [if_pos (by omega)]
  have hl : (data.take (2 * 125)).length = 250 := by rw [List.length_take]; omega
  rw [rtuWrite1_eq]
  have hs := sid.isLt
  by_cases hr : 0 ≤ addr ∧ addr < 65536
  · rw [if_pos ⟨by omega, hr, by omega⟩]
    simp only [Int.toNat_natCast, BitVec.ofNat_toNat, BitVec.setWidth_eq]
    have := conform_write hc1 l.dev (a := addr.toNat) (d := data.take (2 * 125)) (by omega) (by omega)
    rw [if_pos (by omega), Prod.mk.injEq] at this
    rw [show ((addr.toNat : Nat) : Int) = addr by omega] at this
    rw [this.2]
    exact ⟨_, rfl, fun _ => rfl, this.1⟩
  · rw [if_neg (by omega)]
    exact ⟨_, rfl, fun h => absurd h hr, rfl⟩

theorem write_alike {α β} {slave : Slave α} {a1 : α → Mem} {sid : Byte} (hc1 : ConformsRtu slave a1 sid)
    {srv : TcpServer β} {a2 : β → Mem} {unit : Byte} (hc2 : ConformsTcp srv.accept srv.react a2 unit)
    (addr : Int) (data : Bytes) (l : Line α) (t : Tcp β) (hr : SameMem a1 a2 l t) :
    ((data.length ≤ 250 → (rtuWrite slave l sid.toNat addr data 125).2 = (tcpWrite srv t unit.toNat addr data 125).2) ∧
      (250 < data.length → ∃ e, (rtuWrite slave l sid.toNat addr data 125).2 = .error e ∧
        (0 ≤ addr ∧ addr < 65536 → e = .modbusClientException 3) ∧ (tcpWrite srv t unit.toNat addr data 125).2 = .error .unboundLocal)) ∧
      SameMem a1 a2 (rtuWrite slave l sid.toNat addr data 125).1 (tcpWrite srv t unit.toNat addr data 125).1 := by
  obtain ⟨hm, hi⟩ := hr
  have key := tcpWith_same_mem hc2 t hi (tcpWriteF srv unit.toNat addr 125 data (data.length + 1) 0 none)
    (fun r mem => ((data.length ≤ 250 → (rtuWrite slave l sid.toNat addr data 125).2 = r) ∧
      (250 < data.length → ∃ e, (rtuWrite slave l sid.toNat addr data 125).2 = .error e ∧
        (0 ≤ addr ∧ addr < 65536 → e = .modbusClientException 3) ∧ r = .error .unboundLocal)) ∧
      a1 (rtuWrite slave l sid.toNat addr data 125).1.dev = mem) (by
    intro t' hd hs
    by_cases hlen : data.length ≤ 250
    · rw [tcpWriteF_short srv t' _ addr data 125 (by omega), rtuWrite_short slave l _ addr data hlen]
      by_cases h0 : data = []
      · rw [if_pos h0, if_pos h0]
        exact ⟨⟨⟨fun _ => rfl, fun h => absurd h (by omega)⟩, by rw [hd, hm]⟩, hs⟩
      · rw [if_neg h0, if_neg h0]
        obtain ⟨t2, e, k1, k2, k3⟩ := conform_tcpWrite1 hc2 t' hs addr data
        rw [k3]
        have hsid := sid.isLt
        have : (a1 (rtuWrite1 slave l sid.toNat addr data).1.dev, (rtuWrite1 slave l sid.toNat addr data).2) = (a2 t2.dev, e) := by
          rw [k2, rtuWrite1_eq]
          by_cases hr : 0 ≤ addr ∧ addr < 65536
          · rw [if_pos ⟨by omega, hr, by omega⟩, if_pos ⟨hr, by omega⟩]
            simp only [Int.toNat_natCast, BitVec.ofNat_toNat, BitVec.setWidth_eq]
            have w := conform_write hc1 l.dev (a := addr.toNat) (d := data) (by omega) (by omega)
            rw [show ((addr.toNat : Nat) : Int) = addr by omega] at w
            rw [w, hm, hd]
            have : 65536 < addr.toNat + data.length / 2 ↔ 65536 < addr + ((data.length / 2 : Nat) : Int) := by omega
            simp only [this]
          · rw [if_neg (by omega), if_neg (by omega)]
            rw [hm, hd]
        rw [Prod.mk.injEq] at this
        exact ⟨⟨⟨fun _ => this.2, fun h => absurd h (by omega)⟩, this.1⟩, k1⟩
    · rw [tcpWriteF_long srv t' _ addr data 125 (by omega)]
      obtain ⟨e, w1, w0, w2⟩ := rtuWrite_long hc1 l addr data (by omega)
      exact ⟨⟨⟨fun h => absurd h hlen, fun _ => ⟨e, w1, w0, rfl⟩⟩, by rw [w2, hm, hd]⟩, hs⟩)
  exact ⟨key.1.1, key.1.2, key.2⟩

theorem rtu_tcp_alike {α β} {slave : Slave α} {a1 : α → Mem} {sid : Byte} (hc1 : ConformsRtu slave a1 sid)
    {srv : TcpServer β} {a2 : β → Mem} {unit : Byte} (hc2 : ConformsTcp srv.accept srv.react a2 unit) :
    Alike (rtuDev slave sid.toNat) (tcpDev srv unit.toNat) (SameMem a1 a2) := by
  constructor
  · rintro l t a n ⟨hm, hi⟩
    have key := tcpWith_same_mem hc2 t hi (tcpReadF srv unit.toNat 3 125 (n.toNat + 1) a n.toNat [])
      (fun r mem => (rtuRead slave l sid.toNat 3 a n.toNat 125).2 = r.map some ∧
        a1 (rtuRead slave l sid.toNat 3 a n.toNat 125).1.dev = mem) (by
      intro t' hd hs
      obtain ⟨k1, k2, k3⟩ := readF_alike hc1 hc2 (n.toNat + 1) a n.toNat [] l t' (by rw [hm, hd]) hs
      exact ⟨⟨k1, k2⟩, k3⟩)
    exact ⟨key.1.1, key.1.2, key.2⟩
  · intro l t a d hr
    obtain ⟨⟨k1, k2⟩, k3⟩ := write_alike hc1 hc2 a d l t hr
    refine ⟨?_, k3⟩
    rcases Nat.lt_or_ge 250 d.length with h | h
    · obtain ⟨e, h1, _, h2⟩ := k2 h
      exact .inr ⟨e, _, h1, h2⟩
    · exact .inl (k1 h)

theorem rtu_tcp_scanAlike {α β} {slave : Slave α} {a1 : α → Mem} {sid : Byte} (hc1 : ConformsRtu slave a1 sid)
    {srv : TcpServer β} {a2 : β → Mem} {unit : Byte} (hc2 : ConformsTcp srv.accept srv.react a2 unit) :
    ScanAlike (rtuScanDev slave sid.toNat) (tcpScanDev srv unit.toNat) (SameMem a1 a2) where
  toAlike := rtu_tcp_alike hc1 hc2
  conn1 := by intro f h; simp [rtuScanDev] at h
  conn2 := by
    intro f h l t ⟨hm, hi⟩
    have hf : f = tcpConnect srv := by
      have : (tcpScanDev srv unit.toNat).conn = some (tcpConnect srv) := rfl
      rw [this] at h
      exact (Option.some.inj h).symm
    subst hf
    have hd : (tcpDisconnect t).dev = t.dev := by unfold tcpDisconnect; split <;> rfl
    have ha := hc2.1 (tcpDisconnect t).dev
    unfold tcpConnect
    dsimp only
    rcases e : srv.accept (tcpDisconnect t).dev with ⟨d, _ | _⟩
    · rw [e] at ha; exact absurd ha.1 (by simp)
    · rw [e] at ha
      exact ⟨rfl, by dsimp only; rw [hm]; rw [hd] at ha; exact ha.2.symm, .inr rfl⟩
  disc1 := fun _ _ h => h
  disc2 := by
    intro l t ⟨hm, hi⟩
    refine ⟨?_, ?_⟩
    · rw [hm]; show a2 t.dev = a2 (tcpDisconnect t).dev
      unfold tcpDisconnect; split <;> rfl
    · show Idle (tcpDisconnect t)
      rcases hi with h | h
      · exact .inl (by unfold tcpDisconnect; rw [h]; exact h)
      · exact .inl (by rw [tcpDisconnect_connected t _ h])

end Verif
