import Verif.Spec.Reason
import Verif.Lemmas.Reason
import Verif.Props.Errors

/-!
# C106: a failed call says why
-/

namespace Verif
open Spec

/-! ## The model with texts is the model without them -/

theorem cdReadT_fst {σ} (say : σ → Exc → Text) (dev : MbDev σ) (s : σ) (a n : Int) : (cdReadT say dev s a n).1 = (dev.read s a n).1 := by
  unfold cdReadT
  generalize dev.read s a n = r
  obtain ⟨s', r⟩ := r
  cases r <;> rfl

theorem cdReadT_unsaid {σ} (say : σ → Exc → Text) (dev : MbDev σ) (s : σ) (a n : Int) :
    cdRead dev s a n = ((cdReadT say dev s a n).1, unsaid (cdReadT say dev s a n).2) := by
  unfold cdReadT cdRead
  generalize dev.read s a n = r
  obtain ⟨s', r⟩ := r
  cases r with
  | ok d => rfl
  | error e =>
    simp only [cdWrap, unsaid]
    split <;> rfl

def probeRes : Told (Text ⊕ Int × Bytes) → Py (Option (Int × Bytes))
  | .ok (.inl _) => .ok none
  | .ok (.inr x) => .ok (some x)
  | .error e => .error e.1

theorem probeT_unsaid {σ} (say : σ → Exc → Text) (dev : MbDev σ) (bases : List Int) : ∀ (error : Text) (s : σ),
    probe dev bases s = ((probeT say dev bases error s).1, probeRes (probeT say dev bases error s).2) := by
  induction bases with
  | nil => intro error s; rfl
  | cons a rest ih =>
    intro error s
    rw [probe, probeT, cdReadT_unsaid say]
    generalize cdReadT say dev s a 3 = r
    obtain ⟨s1, r⟩ := r
    cases r with
    | error e =>
      dsimp only [unsaid]
      by_cases h : e.1 = .sunSpecClientError
      · rw [if_pos h, if_pos h]; exact ih _ _
      · rw [if_neg h, if_neg h]; rfl
    | ok d =>
      cases d with
      | none => rfl
      | some d =>
        dsimp only [unsaid]
        by_cases h : d.take 4 = sunS
        · rw [if_pos h, if_pos h]; rfl
        · rw [if_neg h, if_neg h]; exact ih _ _

theorem scanLoopT_unsaid {σ} (say : σ → Exc → Text) (dev : MbDev σ) (lib : Int → Py ModelType) (prog : List MdlObj → Int → Bool) (fuel : Nat) :
    ∀ (id addr : Int) (c : CliDev σ),
    scanLoop dev lib prog fuel id addr c = ((scanLoopT say dev lib prog fuel id addr c).1, unsaid (scanLoopT say dev lib prog fuel id addr c).2) := by
  induction fuel with
  | zero => intro id addr c; rfl
  | succ fuel ih =>
    intro id addr c
    rw [scanLoop, scanLoopT]
    by_cases h : id = 65535
    · rw [if_pos h, if_pos h]; rfl
    · rw [if_neg h, if_neg h, cdReadT_unsaid say]
      generalize cdReadT say dev c.st (addr + 1) 1 = r
      obtain ⟨s1, r⟩ := r
      cases r with
      | error e => rfl
      | ok d1 =>
        dsimp only [unsaid]
        cases wordOf d1 with
        | none => rfl
        | some len =>
          dsimp only
          by_cases hp : prog c.list id = false
          · rw [if_pos hp, if_pos hp]
          · rw [if_neg hp, if_neg hp]
            cases scanLoad (lib id) (mdlNew id (addr + 2) len) with
            | error e => rfl
            | ok m =>
              dsimp only
              rw [cdReadT_unsaid say]
              generalize cdReadT say dev s1 (addr + (len + 2)) 1 = r
              obtain ⟨s2, r⟩ := r
              cases r with
              | error e => rfl
              | ok d2 =>
                dsimp only [unsaid]
                cases wordOf d2 with
                | none => rfl
                | some id2 => exact ih _ _ _

theorem scanFromT_unsaid {σ} (say : σ → Exc → Text) (fuel : Nat) (dev : MbDev σ) (lib : Int → Py ModelType) (prog : List MdlObj → Int → Bool)
    (c : CliDev σ) (a : Int) (d : Bytes) :
    scanFrom fuel dev lib prog c a d = ((scanFromT say fuel dev lib prog c a d).1, unsaid (scanFromT say fuel dev lib prog c a d).2) := by
  unfold scanFrom scanFromT
  cases wordOf (some ((d.drop 4).take 2)) with
  | none => rfl
  | some id => exact scanLoopT_unsaid say dev lib prog fuel id (a + 2) c

theorem scanBodyT_unsaid {σ} (say : σ → Exc → Text) (fuel : Nat) (dev : MbDev σ) (lib : Int → Py ModelType) (prog : List MdlObj → Int → Bool)
    (c : CliDev σ) :
    scanBody fuel dev lib prog c = ((scanBodyT say fuel dev lib prog c).1, unsaid (scanBodyT say fuel dev lib prog c).2) := by
  unfold scanBody scanBodyT
  cases c.base with
  | some b => rfl
  | none =>
    dsimp only
    rw [probeT_unsaid say dev c.bases []]
    generalize probeT say dev c.bases [] c.st = r
    obtain ⟨s, r⟩ := r
    rcases r with e | w | ⟨a, d⟩
    · rfl
    · rfl
    · exact scanFromT_unsaid say fuel dev lib prog _ a d

/-- C106: leaving out the texts gives the scan that the other properties are about. -/
theorem C106_scan_same {σ} (say : σ → Exc → Text) (fuel : Nat) (dev : ScanDev σ) (lib : Int → Py ModelType) (prog : List MdlObj → Int → Bool)
    (c : CliDev σ) : scan fuel dev lib prog c = ((scanT say fuel dev lib prog c).1, unsaid (scanT say fuel dev lib prog c).2) := by
  unfold scan scanT
  cases dev.conn with
  | none => exact scanBodyT_unsaid say fuel dev.toMbDev lib prog c
  | some f =>
    dsimp only
    generalize f c.st = r
    obtain ⟨s, r⟩ := r
    cases r with
    | error e => rfl
    | ok u =>
      dsimp only
      rw [scanBodyT_unsaid say]
      generalize scanBodyT say fuel dev.toMbDev lib prog { c with st := s } = r
      obtain ⟨c', r⟩ := r
      cases r <;> rfl

theorem readChunksT_unsaid {σ} (say : σ → Exc → Text) (dev : MbDev σ) (plan : List (Int × Int)) : ∀ (data : Bytes) (s : σ),
    readChunks dev plan data s = ((readChunksT say dev plan data s).1, unsaid (readChunksT say dev plan data s).2) := by
  induction plan with
  | nil => intro data s; rfl
  | cons x r ih =>
    obtain ⟨a, n⟩ := x
    intro data s
    rw [readChunks, readChunksT, cdReadT_unsaid say]
    generalize cdReadT say dev s a n = r
    obtain ⟨s1, r⟩ := r
    rcases r with e | _ | d
    · rfl
    · rfl
    · exact ih _ _

theorem readDataT_unsaid {σ} (say : σ → Exc → Text) (dev : MbDev σ) (m : MdlObj) (s : σ) :
    readData dev m s = ((readDataT say dev m s).1, unsaid (readDataT say dev m s).2) := by
  unfold readData readDataT
  by_cases h : m.readBlocks.length = 1
  · rw [if_pos h, if_pos h]; exact cdReadT_unsaid say dev s m.addr m.len
  · rw [if_neg h, if_neg h, readChunksT_unsaid say]
    generalize readChunksT say dev (readPlan m) [] s = r
    obtain ⟨s1, r⟩ := r
    cases r <;> rfl

theorem rpWrapT_unsaid (r : Told Unit) : rpWrap (unsaid r) = unsaid (rpWrapT r) := by
  cases r with
  | ok a => rfl
  | error e =>
    unfold rpWrapT
    dsimp only [unsaid, rpWrap]
    by_cases h1 : e.1 = .sunSpecError
    · rw [if_pos (.inl h1), if_pos h1]
    · rw [if_neg h1]
      by_cases h2 : e.1.isModbusClient = true
      · rw [if_pos (.inr h2), if_pos h2]
      · rw [if_neg (by rintro (h | h); exact h1 h; exact h2 h), if_neg h2]

/-- C106: leaving out the texts gives the `read_points` that the other properties are about. -/
theorem C106_read_same {σ} (say : σ → Exc → Text) (dev : MbDev σ) (s : σ) (m : MdlObj) :
    readPoints dev s m = ((readPointsT say dev s m).1, (readPointsT say dev s m).2.1, unsaid (readPointsT say dev s m).2.2) := by
  unfold readPoints readPointsT
  by_cases h : m.mtype = none
  · rw [if_pos h, if_pos h]; rfl
  · rw [if_neg h, if_neg h, readDataT_unsaid say]
    generalize readDataT say dev m s = r
    obtain ⟨s1, r⟩ := r
    cases r with
    | error e => dsimp only; rw [← rpWrapT_unsaid]; rfl
    | ok d =>
      show (s1, (readApply m d).1, rpWrap (readApply m d).2) = (s1, (readApply m d).1, unsaid (rpWrapT (tell (say s1) (readApply m d).2)))
      rw [← rpWrapT_unsaid]
      cases (readApply m d).2 <;> rfl

/-! ## No SunSpec map -/

theorem cdReadT_ok {σ} {say : σ → Exc → Text} {dev : MbDev σ} {s s' : σ} {a n : Int} {d : Option Bytes} (h : dev.read s a n = (s', .ok d)) :
    cdReadT say dev s a n = (s', .ok d) := by
  unfold cdReadT; rw [h]

theorem cdReadT_error {σ} {say : σ → Exc → Text} {dev : MbDev σ} {s s' : σ} {a n : Int} {e : Exc} (h : dev.read s a n = (s', .error e))
    (he : e.isModbusClient = true) : cdReadT say dev s a n = (s', .error (.sunSpecClientError, t!"Modbus read error: " ++ say s' e)) := by
  unfold cdReadT; rw [h]; dsimp only; rw [if_pos he]

/-- The variable `error` after the loop. -/
def errorAfter (error : Text) (os : List (Except Text Bytes)) : Text :=
  os.foldl (fun error o => match o with
    | .ok _ => t!"Device responded - not SunSpec register map"
    | .error w => if error = [] then t!"Modbus read error: " ++ w else error) error

theorem probeT_probed {σ} {say : σ → Exc → Text} {dev : MbDev σ} {bases : List Int} {s s' : σ} {os : List (Except Text Bytes)}
    (h : Probed say dev bases s os s') : ∀ error, (∀ d, .ok d ∈ os → d.take 4 ≠ sunS) →
    probeT say dev bases error s = (s', .ok (.inl (errorAfter error os))) := by
  induction h with
  | nil s => intro error _; rfl
  | answer h1 _ ih =>
    intro error hn
    rw [probeT, cdReadT_ok h1]
    dsimp only
    rw [if_neg (hn _ List.mem_cons_self), ih _ fun d hd => hn d (List.mem_cons_of_mem _ hd)]
    rfl
  | error h1 he _ ih =>
    intro error hn
    rw [probeT, cdReadT_error h1 he]
    dsimp only
    rw [if_pos rfl, ih _ fun d hd => hn d (List.mem_cons_of_mem _ hd)]
    rfl

theorem errorAfter_answered (os : List (Except Text Bytes)) : ∀ error, (∃ d, .ok d ∈ os) ∨ error = t!"Device responded - not SunSpec register map" →
    errorAfter error os = t!"Device responded - not SunSpec register map" := by
  induction os with
  | nil =>
    rintro error (⟨d, hd⟩ | h)
    · cases hd
    · exact h
  | cons o os ih =>
    intro error h
    cases o with
    | ok d => exact ih _ (.inr rfl)
    | error w =>
      refine ih _ ?_
      rcases h with ⟨d, hd⟩ | h
      · cases hd with
        | tail _ hd => exact .inl ⟨d, hd⟩
      · right
        dsimp only
        rw [h, if_neg (by decide)]

theorem errorAfter_errors (os : List (Except Text Bytes)) : ∀ error, error ≠ [] → (¬ ∃ d, .ok d ∈ os) → errorAfter error os = error := by
  induction os with
  | nil => intro error _ _; rfl
  | cons o os ih =>
    intro error he h
    cases o with
    | ok d => exact absurd ⟨d, List.mem_cons_self⟩ h
    | error w =>
      show errorAfter (if error = [] then _ else error) os = error
      rw [if_neg he]
      exact ih _ he fun ⟨d, hd⟩ => h ⟨d, List.mem_cons_of_mem _ hd⟩

theorem noMapText_errorAfter (os : List (Except Text Bytes)) :
    NoMapText os (if errorAfter [] os = [] then t!"Unknown error" else errorAfter [] os) := by
  by_cases h : ∃ d, .ok d ∈ os
  · left
    refine ⟨h, ?_⟩
    rw [errorAfter_answered os [] (.inl h), if_neg (by decide)]
  · cases os with
    | nil => exact .inr (.inr ⟨rfl, rfl⟩)
    | cons o os =>
      cases o with
      | ok d => exact absurd ⟨d, List.mem_cons_self⟩ h
      | error w =>
        have hne : t!"Modbus read error: " ++ w ≠ [] := by intro hh; simp at hh
        have : errorAfter [] (.error w :: os) = t!"Modbus read error: " ++ w := by
          show errorAfter (if ([] : Text) = [] then t!"Modbus read error: " ++ w else []) os = _
          rw [if_pos rfl]
          exact errorAfter_errors os _ hne fun ⟨d, hd⟩ => h ⟨d, List.mem_cons_of_mem _ hd⟩
        rw [this, if_neg hne]
        exact .inr (.inl ⟨h, w, os, rfl, rfl⟩)

/-- The connection that `scan` makes first (TCP only) is made, leaving the device in `s`. -/
def Connects {σ} (dev : ScanDev σ) (s0 s : σ) : Prop :=
  match dev.conn with
  | none => s = s0
  | some f => f s0 = (s, .ok ())

/-- C106: if none of the base addresses holds the SunSpec marker, the scan fails with a text that tells what happened: the device responded somewhere; or it
never did, and then how the first read failed. -/
theorem C106_no_map {σ} (say : σ → Exc → Text) (fuel : Nat) (dev : ScanDev σ) (lib : Int → Py ModelType) (prog : List MdlObj → Int → Bool)
    (c : CliDev σ) (s s' : σ) (os : List (Except Text Bytes)) (hb : c.base = none) (hc : Connects dev c.st s)
    (hp : Probed say dev.toMbDev c.bases s os s') (hn : ∀ d, .ok d ∈ os → d.take 4 ≠ sunS) :
    ∃ t, NoMapText os t ∧ scanT say fuel dev lib prog c = ({ c with st := s' }, .error (.sunSpecClientError, t)) := by
  have body : ∀ c0 : CliDev σ, c0.base = none → c0.bases = c.bases → c0.st = s →
      scanBodyT say fuel dev.toMbDev lib prog c0 = ({ c0 with st := s' },
        .error (.sunSpecClientError, if errorAfter [] os = [] then t!"Unknown error" else errorAfter [] os)) := by
    intro c0 h1 h2 h3
    unfold scanBodyT
    rw [h1, h2, h3]
    dsimp only
    rw [probeT_probed hp [] hn]
  refine ⟨_, noMapText_errorAfter os, ?_⟩
  unfold scanT
  unfold Connects at hc
  cases hk : dev.conn with
  | none =>
    rw [hk] at hc
    exact body c hb rfl hc.symm
  | some f =>
    rw [hk] at hc
    dsimp only at hc ⊢
    rw [hc]
    dsimp only
    rw [body { c with st := s } hb rfl rfl]
    rfl

/-- `C106_no_map` is not about nothing: a slave that only answers with exception 2; the scan tells so. -/
example : (scanT (rtuSay fun _ _ => []) 9 (rtuScanDev (constSlave (rtuFrame 1 [0x83, 2])) 1) (fun _ => .error .sunSpecError) (fun _ _ => true)
    { st := ⟨(), []⟩ }).2 = .error (.sunSpecClientError, t!"Modbus read error: Modbus exception 2") := by decide +kernel

/-! ## The text is true -/

theorem Spec.Later.trans {σ} {dev : MbDev σ} {s1 s2 s3 : σ} (h : Later dev s1 s2) (h2 : Later dev s2 s3) : Later dev s1 s3 := by
  induction h with
  | refl s => exact h2
  | read a n _ ih => exact .read a n (ih h2)

theorem Spec.Later.one {σ} {dev : MbDev σ} {s s' : σ} {a n : Int} {r : Py (Option Bytes)} (h : dev.read s a n = (s', r)) : Later dev s s' := by
  refine .read a n ?_
  rw [h]
  exact .refl _

/-- The first two causes. -/
def ReadText {σ} (say : σ → Exc → Text) (dev : MbDev σ) (bases : List Int) (s0 s' : σ) (t : Text) : Prop :=
  (∃ a ∈ bases, ∃ s s1 d, Later dev s0 s ∧ dev.read s a 3 = (s1, .ok (some d)) ∧ d.take 4 ≠ sunS ∧ Later dev s1 s') ∧
    t = t!"Device responded - not SunSpec register map" ∨
  (∃ s a n s1 e, Later dev s0 s ∧ dev.read s a n = (s1, .error e) ∧ e.isModbusClient = true ∧ Later dev s1 s' ∧ t = t!"Modbus read error: " ++ say s1 e)

theorem ReadText.later {σ} {say : σ → Exc → Text} {dev : MbDev σ} {bases : List Int} {s0 s1 s2 : σ} {t : Text}
    (h : ReadText say dev bases s0 s1 t) (hl : Later dev s1 s2) : ReadText say dev bases s0 s2 t := by
  rcases h with ⟨⟨a, ha, s, s', d, h1, h2, h3, h4⟩, h5⟩ | ⟨s, a, n, s', e, h1, h2, h3, h4, h5⟩
  · exact .inl ⟨⟨a, ha, s, s', d, h1, h2, h3, h4.trans hl⟩, h5⟩
  · exact .inr ⟨s, a, n, s', e, h1, h2, h3, h4.trans hl, h5⟩

/-- What a read of the client tells: the Modbus error. -/
theorem cdReadT_cases {σ} (say : σ → Exc → Text) (dev : MbDev σ) (hd : ∀ s a n, (dev.read s a n).2 ≠ .error .sunSpecClientError) (s : σ) (a n : Int) :
    (∃ s1 d, dev.read s a n = (s1, .ok d) ∧ cdReadT say dev s a n = (s1, .ok d)) ∨
    (∃ s1 e, dev.read s a n = (s1, .error e) ∧ e.isModbusClient = true ∧
      cdReadT say dev s a n = (s1, .error (.sunSpecClientError, t!"Modbus read error: " ++ say s1 e))) ∨
    (∃ s1 e, dev.read s a n = (s1, .error e) ∧ cdReadT say dev s a n = (s1, .error (e, say s1 e)) ∧ e ≠ .sunSpecClientError) := by
  have hd := hd s a n
  unfold cdReadT
  generalize dev.read s a n = r at *
  obtain ⟨s1, r⟩ := r
  cases r with
  | ok d => exact .inl ⟨s1, d, rfl, rfl⟩
  | error e =>
    right
    dsimp only at hd ⊢
    by_cases he : e.isModbusClient = true
    · exact .inl ⟨s1, e, rfl, he, by rw [if_pos he]⟩
    · exact .inr ⟨s1, e, rfl, by rw [if_neg he], fun h => hd (by rw [h])⟩

theorem probeT_text {σ} (say : σ → Exc → Text) (dev : MbDev σ) (hd : ∀ s a n, (dev.read s a n).2 ≠ .error .sunSpecClientError) (B : List Int) (s0 : σ)
    (bases : List Int) : ∀ (error : Text) (s : σ), (∀ a ∈ bases, a ∈ B) → Later dev s0 s → (error = [] ∨ ReadText say dev B s0 s error) →
    Later dev s0 (probeT say dev bases error s).1 ∧
    match (probeT say dev bases error s).2 with
    | .error e => e.1 ≠ .sunSpecClientError
    | .ok (.inl w) => (w = [] ∧ bases = []) ∨ ReadText say dev B s0 (probeT say dev bases error s).1 w
    | .ok (.inr _) => True := by
  induction bases with
  | nil =>
    intro error s _ hl he
    refine ⟨hl, ?_⟩
    rcases he with he | he
    · exact .inl ⟨he, rfl⟩
    · exact .inr he
  | cons a rest ih =>
    intro error s hB hl he
    -- after the first read, `error` is the text of a cause
    have key : ∀ (error' : Text) (s1 : σ), Later dev s0 s1 → ReadText say dev B s0 s1 error' →
        Later dev s0 (probeT say dev rest error' s1).1 ∧
        match (probeT say dev rest error' s1).2 with
        | .error e => e.1 ≠ .sunSpecClientError
        | .ok (.inl w) => (w = [] ∧ a :: rest = []) ∨ ReadText say dev B s0 (probeT say dev rest error' s1).1 w
        | .ok (.inr _) => True := by
      intro error' s1 hl1 ht
      have hne : error' ≠ [] := by
        rcases ht with ⟨_, h5⟩ | ⟨_, _, _, _, _, _, _, _, _, h5⟩
        · rw [h5]; decide
        · rw [h5]; intro hh; simp at hh
      obtain ⟨h1, h2⟩ := ih error' s1 (fun x hx => hB x (List.mem_cons_of_mem _ hx)) hl1 (.inr ht)
      refine ⟨h1, ?_⟩
      have hnil : rest = [] → probeT say dev rest error' s1 = (s1, .ok (.inl error')) := by rintro rfl; rfl
      generalize probeT say dev rest error' s1 = r at *
      obtain ⟨s2, r⟩ := r
      rcases r with e | w | x
      · exact h2
      · dsimp only at h2 ⊢
        rcases h2 with ⟨h2, h3⟩ | h2
        · have := hnil h3
          simp only [Prod.mk.injEq, Except.ok.injEq, Sum.inl.injEq] at this
          exact absurd (this.2.symm.trans h2) hne
        · exact .inr h2
      · trivial
    rw [probeT]
    rcases cdReadT_cases say dev hd s a 3 with ⟨s1, d, h1, h2⟩ | ⟨s1, e, h1, h2, h3⟩ | ⟨s1, e, h1, h2, h3⟩
    · rw [h2]
      have hl1 := hl.trans (.one h1)
      cases d with
      | none => exact ⟨hl1, by simp⟩
      | some d =>
        dsimp only
        by_cases hm : d.take 4 = sunS
        · rw [if_pos hm]; exact ⟨hl1, trivial⟩
        · rw [if_neg hm]
          exact key _ s1 hl1 (.inl ⟨⟨a, hB a List.mem_cons_self, s, s1, d, hl, h1, hm, .refl _⟩, rfl⟩)
    · rw [h3]
      have hl1 := hl.trans (.one h1)
      dsimp only
      rw [if_pos rfl]
      by_cases hn : error = []
      · rw [if_pos hn]
        exact key _ s1 hl1 (.inr ⟨s, a, 3, s1, e, hl, h1, h2, .refl _, rfl⟩)
      · rw [if_neg hn]
        rcases he with he | he
        · exact absurd he hn
        · exact key _ s1 hl1 (he.later (.one h1))
    · rw [h2]
      dsimp only
      rw [if_neg h3]
      exact ⟨hl.trans (.one h1), h3⟩

theorem scanLoopT_text {σ} (say : σ → Exc → Text) (dev : MbDev σ) (hd : ∀ s a n, (dev.read s a n).2 ≠ .error .sunSpecClientError)
    (lib : Int → Py ModelType) (prog : List MdlObj → Int → Bool) (B : List Int) (s0 : σ) (fuel : Nat) :
    ∀ (id addr : Int) (c c' : CliDev σ) (t : Text), Later dev s0 c.st → scanLoopT say dev lib prog fuel id addr c = (c', .error (.sunSpecClientError, t)) →
    ScanText say dev prog B s0 c'.st t := by
  induction fuel with
  | zero => intro id addr c c' t _ h; simp [scanLoopT] at h
  | succ fuel ih =>
    intro id addr c c' t hl h
    rw [scanLoopT] at h
    by_cases h0 : id = 65535
    · rw [if_pos h0] at h; simp at h
    · rw [if_neg h0] at h
      rcases cdReadT_cases say dev hd c.st (addr + 1) 1 with ⟨s1, d, h1, h2⟩ | ⟨s1, e, h1, h2, h3⟩ | ⟨s1, e, h1, h2, h3⟩
      · rw [h2] at h
        dsimp only at h
        have hl1 := hl.trans (.one h1)
        cases hw : wordOf d with
        | none => rw [hw] at h; simp at h
        | some len =>
          rw [hw] at h
          dsimp only at h
          by_cases hp : prog c.list id = false
          · rw [if_pos hp] at h
            simp only [Prod.mk.injEq, Except.error.injEq] at h
            exact .inr (.inr (.inl ⟨⟨_, _, hp⟩, h.2.2.symm⟩))
          · rw [if_neg hp] at h
            cases hs : scanLoad (lib id) (mdlNew id (addr + 2) len) with
            | error e =>
              exfalso
              rw [hs] at h
              simp only [Prod.mk.injEq, Except.error.injEq] at h
              unfold scanLoad at hs
              split at hs
              · cases hs
              · split at hs
                · cases hs; cases h.2.1
                · cases hs
            | ok m =>
              rw [hs] at h
              dsimp only at h
              rcases cdReadT_cases say dev hd s1 (addr + (len + 2)) 1 with ⟨s2, d, g1, g2⟩ | ⟨s2, e, g1, g2, g3⟩ | ⟨s2, e, g1, g2, g3⟩
              · rw [g2] at h
                dsimp only at h
                cases hw : wordOf d with
                | none => rw [hw] at h; simp at h
                | some id2 =>
                  rw [hw] at h
                  dsimp only at h
                  exact ih _ _ _ _ _ (show Later dev s0 s2 from hl1.trans (.one g1)) h
              · rw [g3] at h
                simp only [Prod.mk.injEq, Except.error.injEq] at h
                obtain ⟨rfl, _, rfl⟩ := h
                exact .inr (.inl ⟨s1, _, 1, s2, e, hl1, g1, g2, .refl _, rfl⟩)
              · rw [g2] at h
                simp only [Prod.mk.injEq, Except.error.injEq] at h
                exact absurd h.2.1 g3
      · rw [h3] at h
        simp only [Prod.mk.injEq, Except.error.injEq] at h
        obtain ⟨rfl, _, rfl⟩ := h
        exact .inr (.inl ⟨c.st, _, 1, s1, e, hl, h1, h2, .refl _, rfl⟩)
      · rw [h2] at h
        simp only [Prod.mk.injEq, Except.error.injEq] at h
        exact absurd h.2.1 h3

theorem scanBodyT_text {σ} (say : σ → Exc → Text) (dev : MbDev σ) (hd : ∀ s a n, (dev.read s a n).2 ≠ .error .sunSpecClientError)
    (lib : Int → Py ModelType) (prog : List MdlObj → Int → Bool) (fuel : Nat) (c c' : CliDev σ) (t : Text)
    (h : scanBodyT say fuel dev lib prog c = (c', .error (.sunSpecClientError, t))) : ScanText say dev prog c.bases c.st c'.st t := by
  unfold scanBodyT at h
  cases hb : c.base with
  | some b => rw [hb] at h; simp at h
  | none =>
    rw [hb] at h
    dsimp only at h
    obtain ⟨h1, h2⟩ := probeT_text say dev hd c.bases c.st c.bases [] c.st (fun _ h => h) (.refl _) (.inl rfl)
    generalize probeT say dev c.bases [] c.st = r at *
    obtain ⟨s, r⟩ := r
    rcases r with e | w | ⟨a, d⟩
    · dsimp only at h h2
      simp only [Prod.mk.injEq, Except.error.injEq] at h
      rw [h.2] at h2
      exact absurd rfl h2
    · dsimp only at h h1 h2
      simp only [Prod.mk.injEq, Except.error.injEq] at h
      obtain ⟨rfl, _, ht⟩ := h
      rcases h2 with ⟨h2, h3⟩ | h2
      · rw [if_pos h2] at ht
        exact .inr (.inr (.inr ⟨h3, ht.symm⟩))
      · have hne : w ≠ [] := by
          rcases h2 with ⟨_, h5⟩ | ⟨_, _, _, _, _, _, _, _, _, h5⟩
          · rw [h5]; decide
          · rw [h5]; intro hh; simp at hh
        rw [if_neg hne] at ht
        subst ht
        rcases h2 with h2 | h2
        · exact .inl h2
        · exact .inr (.inl h2)
    · dsimp only at h h1
      unfold scanFromT at h
      cases hw : wordOf (some ((d.drop 4).take 2)) with
      | none => rw [hw] at h; simp at h
      | some id =>
        rw [hw] at h
        dsimp only at h
        exact scanLoopT_text say dev hd lib prog c.bases c.st fuel _ _ _ _ _ h1 h

/-- C106: whatever a scan that fails tells, it is true. (`hd`: the device raises `SunSpecClientError` only through the client.) -/
theorem C106_scan_true {σ} (say : σ → Exc → Text) (fuel : Nat) (dev : ScanDev σ) (lib : Int → Py ModelType) (prog : List MdlObj → Int → Bool)
    (c c' : CliDev σ) (s : σ) (t : Text) (hc : Connects dev c.st s) (hd : ∀ s a n, (dev.read s a n).2 ≠ .error .sunSpecClientError)
    (h : scanT say fuel dev lib prog c = (c', .error (.sunSpecClientError, t))) : ScanText say dev.toMbDev prog c.bases s c'.st t := by
  unfold scanT at h
  unfold Connects at hc
  cases hk : dev.conn with
  | none =>
    rw [hk] at hc h
    dsimp only at hc h
    subst hc
    exact scanBodyT_text say dev.toMbDev hd lib prog fuel c c' t h
  | some f =>
    rw [hk] at hc h
    dsimp only at hc h
    rw [hc] at h
    dsimp only at h
    generalize hr : scanBodyT say fuel dev.toMbDev lib prog { c with st := s } = r at h
    obtain ⟨c1, r⟩ := r
    cases r with
    | ok u => simp [scanEndT] at h
    | error e =>
      simp only [scanEndT, Prod.mk.injEq, Except.error.injEq] at h
      obtain ⟨rfl, rfl⟩ := h
      exact scanBodyT_text say dev.toMbDev hd lib prog fuel { c with st := s } c1 t hr

/-- RTU devices meet the condition. -/
theorem rtuDev_own {σ} (slave : Slave σ) (sid : Byte) (s : Line σ) (a n : Int) (e : Exc) (h : ((rtuDev slave sid.toNat).read s a n).2 = .error e) :
    e ≠ .sunSpecClientError ∧ e ≠ .sunSpecError := by
  have := rtuReadF_err slave sid.toNat 3 ⟨by omega, by have := sid.isLt; omega⟩ (by omega) (n.toNat + 1) a n.toNat [] s _ (by omega) h
  rcases this with h | ⟨h, _⟩
  · constructor <;> (rintro rfl; cases h)
  · rw [h]; simp

/-! ## Reading a model -/

theorem readChunksT_fails {σ} (say : σ → Exc → Text) (dev : MbDev σ) (a n : Int) (post : List (Int × Int)) (e : Exc) (he : e.isModbusClient = true)
    (s1 s2 : σ) (h : dev.read s1 a n = (s2, .error e)) {s : σ} {pre : List (Int × Int)} (hp : AllRead dev s pre s1) : ∀ data,
    readChunksT say dev (pre ++ (a, n) :: post) data s = (s2, .error (.sunSpecClientError, t!"Modbus read error: " ++ say s2 e)) := by
  induction hp with
  | nil s => intro data; rw [List.nil_append, readChunksT, cdReadT_error h he]
  | cons h1 _ ih =>
    intro data
    rw [List.cons_append, readChunksT, cdReadT_ok h1]
    exact ih h _

/-- C106: if one of the requests of `read_points` fails with a Modbus error, the earlier ones having been answered, the call tells that error, changes nothing
and sends nothing more. -/
theorem C106_read {σ} (say : σ → Exc → Text) (dev : MbDev σ) (m : MdlObj) (hm : m.mtype ≠ none) (pre post : List (Int × Int)) (a n : Int)
    (hpl : readPlan m = pre ++ (a, n) :: post) (s s1 s2 : σ) (e : Exc) (hp : AllRead dev s pre s1) (h : dev.read s1 a n = (s2, .error e))
    (he : e.isModbusClient = true) :
    readPointsT say dev s m = (s2, m, .error (.sunSpecClientError, t!"Modbus read error: " ++ say s2 e)) := by
  have hdata : readDataT say dev m s = (s2, .error (.sunSpecClientError, t!"Modbus read error: " ++ say s2 e)) := by
    unfold readDataT
    by_cases h1 : m.readBlocks.length = 1
    · rw [if_pos h1]
      unfold readPlan at hpl
      rw [if_pos h1] at hpl
      cases pre with
      | cons x p => simp at hpl
      | nil =>
        simp only [List.nil_append, List.cons.injEq, Prod.mk.injEq] at hpl
        obtain ⟨⟨rfl, rfl⟩, _⟩ := hpl
        cases hp
        exact cdReadT_error h he
    · rw [if_neg h1, hpl, readChunksT_fails say dev a n post e he s1 s2 h hp]
  unfold readPointsT
  rw [if_neg hm, hdata]
  rfl

/-- An exception that `read_points` does not turn into `SunSpecClientError`. -/
def Passed (e : Exc) : Prop := e ≠ .sunSpecClientError ∧ e ≠ .sunSpecError ∧ e.isModbusClient = false

theorem cdReadT_cases' {σ} (say : σ → Exc → Text) (dev : MbDev σ)
    (hd : ∀ s a n e, (dev.read s a n).2 = .error e → e ≠ .sunSpecClientError ∧ e ≠ .sunSpecError) (s : σ) (a n : Int) :
    (∃ s1 d, dev.read s a n = (s1, .ok d) ∧ cdReadT say dev s a n = (s1, .ok d)) ∨
    (∃ s1 e, dev.read s a n = (s1, .error e) ∧ e.isModbusClient = true ∧
      cdReadT say dev s a n = (s1, .error (.sunSpecClientError, t!"Modbus read error: " ++ say s1 e))) ∨
    (∃ s1 e, cdReadT say dev s a n = (s1, .error (e, say s1 e)) ∧ Passed e) := by
  have hd := hd s a n
  unfold cdReadT
  generalize dev.read s a n = r at *
  obtain ⟨s1, r⟩ := r
  cases r with
  | ok d => exact .inl ⟨s1, d, rfl, rfl⟩
  | error e =>
    right
    dsimp only at hd ⊢
    by_cases he : e.isModbusClient = true
    · exact .inl ⟨s1, e, rfl, he, by rw [if_pos he]⟩
    · exact .inr ⟨s1, e, by rw [if_neg he], (hd e rfl).1, (hd e rfl).2, by simpa using he⟩

/-- The first request that failed, and what is told about it. -/
def FailedRead {σ} (say : σ → Exc → Text) (dev : MbDev σ) (plan : List (Int × Int)) (s s' : σ) (t : Text) : Prop :=
  ∃ pre a n post s1 e, plan = pre ++ (a, n) :: post ∧ AllRead dev s pre s1 ∧ dev.read s1 a n = (s', .error e) ∧ e.isModbusClient = true ∧
    t = t!"Modbus read error: " ++ say s' e

theorem readChunksT_true {σ} (say : σ → Exc → Text) (dev : MbDev σ)
    (hd : ∀ s a n e, (dev.read s a n).2 = .error e → e ≠ .sunSpecClientError ∧ e ≠ .sunSpecError) (plan : List (Int × Int)) : ∀ (data : Bytes) (s : σ),
    match readChunksT say dev plan data s with
    | (s', .ok _) => AllRead dev s plan s'
    | (s', .error x) => (x.1 = .sunSpecClientError ∧ FailedRead say dev plan s s' x.2) ∨ Passed x.1 := by
  induction plan with
  | nil => intro data s; exact .nil s
  | cons x r ih =>
    obtain ⟨a, n⟩ := x
    intro data s
    rw [readChunksT]
    rcases cdReadT_cases' say dev hd s a n with ⟨s1, d, h1, h2⟩ | ⟨s1, e, h1, h2, h3⟩ | ⟨s1, e, h2, h3⟩
    · rw [h2]
      cases d with
      | none => exact .inr ⟨by simp, by simp, rfl⟩
      | some d =>
        dsimp only
        have := ih (data ++ d) s1
        generalize readChunksT say dev r (data ++ d) s1 = w at *
        obtain ⟨s2, w⟩ := w
        cases w with
        | ok d2 => exact .cons h1 this
        | error x =>
          rcases this with ⟨hx, pre, a2, n2, post, s3, e, g1, g2, g3⟩ | hx
          · exact .inl ⟨hx, (a, n) :: pre, a2, n2, post, s3, e, by rw [g1]; rfl, .cons h1 g2, g3⟩
          · exact .inr hx
    · rw [h3]
      exact .inl ⟨rfl, [], a, n, r, s, e, rfl, .nil s, h1, h2, rfl⟩
    · rw [h2]
      exact .inr h3

theorem readDataT_true {σ} (say : σ → Exc → Text) (dev : MbDev σ)
    (hd : ∀ s a n e, (dev.read s a n).2 = .error e → e ≠ .sunSpecClientError ∧ e ≠ .sunSpecError) (m : MdlObj) (s : σ) :
    match readDataT say dev m s with
    | (s', .ok (some _)) => AllRead dev s (readPlan m) s'
    | (_, .ok none) => True
    | (s', .error x) => (x.1 = .sunSpecClientError ∧ FailedRead say dev (readPlan m) s s' x.2) ∨ Passed x.1 := by
  unfold readDataT
  by_cases h1 : m.readBlocks.length = 1
  · rw [if_pos h1]
    have hp : readPlan m = [(m.addr, m.len)] := by unfold readPlan; rw [if_pos h1]
    rw [hp]
    rcases cdReadT_cases' say dev hd s m.addr m.len with ⟨s1, d, h1, h2⟩ | ⟨s1, e, h1, h2, h3⟩ | ⟨s1, e, h2, h3⟩
    · rw [h2]
      cases d with
      | none => trivial
      | some d => exact .cons h1 (.nil _)
    · rw [h3]
      exact .inl ⟨rfl, [], _, _, [], s, e, rfl, .nil _, h1, h2, rfl⟩
    · rw [h2]; exact .inr h3
  · rw [if_neg h1]
    have := readChunksT_true say dev hd (readPlan m) [] s
    generalize readChunksT say dev (readPlan m) [] s = w at *
    obtain ⟨s2, w⟩ := w
    cases w <;> exact this

/-- C106: whatever `read_points` tells in a `SunSpecClientError`: one of its requests failed with the Modbus error that is told, all before having been
answered, and nothing is changed; or all its requests were answered (but not with the registers of the model). -/
theorem C106_read_true {σ} (say : σ → Exc → Text) (dev : MbDev σ)
    (hd : ∀ s a n e, (dev.read s a n).2 = .error e → e ≠ .sunSpecClientError ∧ e ≠ .sunSpecError) (s s' : σ)
    (m m' : MdlObj) (t : Text) (h : readPointsT say dev s m = (s', m', .error (.sunSpecClientError, t))) :
    (m' = m ∧ ∃ pre a n post s1 e, readPlan m = pre ++ (a, n) :: post ∧ AllRead dev s pre s1 ∧ dev.read s1 a n = (s', .error e) ∧
      e.isModbusClient = true ∧ t = t!"Modbus read error: " ++ say s' e) ∨
    AllRead dev s (readPlan m) s' := by
  unfold readPointsT at h
  by_cases hm : m.mtype = none
  · rw [if_pos hm] at h; simp at h
  · rw [if_neg hm] at h
    have key := readDataT_true say dev hd m s
    generalize readDataT say dev m s = w at *
    obtain ⟨s1, w⟩ := w
    rcases w with x | _ | d
    · dsimp only at h key
      simp only [Prod.mk.injEq, rpWrapT, Except.error.injEq] at h
      obtain ⟨rfl, rfl, h⟩ := h
      rcases key with ⟨hx, key⟩ | ⟨k1, k2, k3⟩
      · rw [if_neg (by rw [hx]; simp), if_neg (by rw [hx]; simp [Exc.isModbusClient])] at h
        rw [h] at key
        exact .inl ⟨rfl, key⟩
      · rw [if_neg k2, if_neg (by rw [k3]; simp)] at h
        rw [h] at k1
        exact absurd rfl k1
    · dsimp only at h
      simp [readApply, tell, rpWrapT] at h
    · dsimp only at h key
      simp only [Prod.mk.injEq] at h
      exact .inr (h.1 ▸ key)

/-- A model read from a slave that refuses: its plan is one request, which fails. -/
example : exModel.mtype ≠ none ∧ readPlan exModel = [] ++ (40002, 7) :: [] ∧
    ((rtuDev (constSlave (rtuFrame 1 [0x83, 2])) 1).read ⟨(), []⟩ 40002 7).2 = .error (.modbusClientException 2) ∧
    (readPointsT (rtuSay fun _ _ => []) (rtuDev (constSlave (rtuFrame 1 [0x83, 2])) 1) ⟨(), []⟩ exModel).2.2 =
      .error (.sunSpecClientError, t!"Modbus read error: Modbus exception 2") := by decide +kernel

/-! ## Silent and refusing RTU slaves -/

/-- A slave that never answers. -/
def NeverAnswers {σ} (slave : Slave σ) : Prop := ∀ d req, ∃ chunks, (slave d req).2 = some chunks ∧ chunks.flatten = []

/-- A slave that answers every request with the exception `c`. -/
def AlwaysRefuses {σ} (slave : Slave σ) (c : Byte) : Prop := ∀ d req, ∃ b, (slave d req).2 = some [b] ∧ IsException c b

theorem rtuDev_fails {σ} (slave : Slave σ) (sid : Byte) (e : Exc) (hs : ∀ d req, readOutcome ((slave d req).2.map received) = .error e) (l : Line σ)
    (a n : Int) (ha : 0 ≤ a ∧ a < 65536) (hn : 0 < n) : ∃ l', (rtuDev slave sid.toNat).read l a n = (l', .error e) := by
  show ∃ l', rtuRead slave l sid.toNat 3 a n.toNat 125 = (l', .error e)
  unfold rtuRead
  rw [rtuReadF, if_pos (by omega)]
  dsimp only
  rw [rtuRead1_eq, if_pos ⟨⟨by omega, by have := sid.isLt; omega⟩, by omega, ha, by omega, by split <;> omega⟩]
  dsimp only
  rw [hs]
  exact ⟨_, rfl⟩

theorem never_outcome {σ} {slave : Slave σ} (h : NeverAnswers slave) (d : σ) (req : Bytes) :
    readOutcome ((slave d req).2.map received) = .error .modbusClientTimeout := by
  obtain ⟨chunks, h1, h2⟩ := h d req
  rw [h1, Option.map_some, flatten_received h2]
  rfl

theorem refuse_outcome {σ} {slave : Slave σ} {c : Byte} (h : AlwaysRefuses slave c) (hc : c ≠ 0) (d : σ) (req : Bytes) :
    readOutcome ((slave d req).2.map received) = .error (.modbusClientException c.toNat) := by
  obtain ⟨b, h1, x, y, rest, hy, rfl⟩ := h d req
  rw [h1, Option.map_some]
  have : received [rtuFrame x [y, c] ++ rest] = rtuFrame x [y, c] ++ rest := by simp [received, rtuFrame]
  rw [this]
  exact readOutcome_exception x y c hy hc rest

/-- All reads failing with the same error, the outcome at every base is its text. -/
theorem probed_fails {σ} (say : σ → Exc → Text) (dev : MbDev σ) (e : Exc) (he : e.isModbusClient = true) (w : Text) (hw : ∀ s, say s e = w)
    (bases : List Int) (hd : ∀ s, ∀ a ∈ bases, ∃ s', dev.read s a 3 = (s', .error e)) : ∀ s, ∃ s', Probed say dev bases s (bases.map fun _ => .error w) s' := by
  induction bases with
  | nil => intro s; exact ⟨s, .nil s⟩
  | cons a rest ih =>
    intro s
    obtain ⟨s1, h1⟩ := hd s a List.mem_cons_self
    obtain ⟨s', h2⟩ := ih (fun s x hx => hd s x (List.mem_cons_of_mem _ hx)) s1
    refine ⟨s', ?_⟩
    rw [List.map_cons, ← hw s1]
    rw [hw s1]
    have := Probed.error (say := say) h1 he h2
    rwa [hw s1] at this

theorem scan_fails {σ} (say : Line σ → Exc → Text) (fuel : Nat) (slave : Slave σ) (sid : Byte) (e : Exc) (he : e.isModbusClient = true) (w : Text)
    (hw : ∀ s, say s e = w) (hs : ∀ d req, readOutcome ((slave d req).2.map received) = .error e)
    (lib : Int → Py ModelType) (prog : List MdlObj → Int → Bool) (c : CliDev (Line σ)) (hb : c.base = none) (hne : c.bases ≠ [])
    (ha : ∀ a ∈ c.bases, 0 ≤ a ∧ a < 65536) :
    (scanT say fuel (rtuScanDev slave sid.toNat) lib prog c).2 = .error (.sunSpecClientError, t!"Modbus read error: " ++ w) := by
  obtain ⟨s', hp⟩ := probed_fails say (rtuDev slave sid.toNat) e he w hw c.bases (fun s a h => rtuDev_fails slave sid e hs s a 3 (ha a h) (by omega)) c.st
  have hno : ¬ ∃ d, (Except.ok d : Except Text Bytes) ∈ c.bases.map fun _ => .error w := by
    rintro ⟨d, hd⟩
    simp at hd
  obtain ⟨t, ht, h⟩ := C106_no_map say fuel (rtuScanDev slave sid.toNat) lib prog c c.st s' _ hb rfl hp (fun d hd => absurd ⟨d, hd⟩ hno)
  rw [h]
  rcases ht with ⟨ht, _⟩ | ⟨_, w', r, ht, rfl⟩ | ⟨ht, _⟩
  · exact absurd ht hno
  · cases hbs : c.bases with
    | nil => exact absurd hbs hne
    | cons a as =>
      rw [hbs] at ht
      simp only [List.map_cons, List.cons.injEq, Except.error.injEq] at ht
      rw [← ht.1]
  · simp at ht; exact absurd ht hne

/-- C106: scanning a slave that never answers tells "Response timeout". -/
theorem C106_silent {σ} (other : Line σ → Exc → Text) (fuel : Nat) (slave : Slave σ) (hs : NeverAnswers slave) (sid : Byte)
    (lib : Int → Py ModelType) (prog : List MdlObj → Int → Bool) (c : CliDev (Line σ)) (hb : c.base = none) (hne : c.bases ≠ [])
    (ha : ∀ a ∈ c.bases, 0 ≤ a ∧ a < 65536) :
    (scanT (rtuSay other) fuel (rtuScanDev slave sid.toNat) lib prog c).2 = .error (.sunSpecClientError, t!"Modbus read error: Response timeout") :=
  scan_fails (rtuSay other) fuel slave sid .modbusClientTimeout rfl (t!"Response timeout") (fun _ => rfl) (never_outcome hs) lib prog c hb hne ha

/-- C106: scanning a slave that answers everything with an exception tells the code of the exception. -/
theorem C106_refused {σ} (other : Line σ → Exc → Text) (fuel : Nat) (slave : Slave σ) (code : Byte) (h0 : code ≠ 0) (hs : AlwaysRefuses slave code)
    (sid : Byte) (lib : Int → Py ModelType) (prog : List MdlObj → Int → Bool) (c : CliDev (Line σ)) (hb : c.base = none) (hne : c.bases ≠ [])
    (ha : ∀ a ∈ c.bases, 0 ≤ a ∧ a < 65536) :
    (scanT (rtuSay other) fuel (rtuScanDev slave sid.toNat) lib prog c).2 =
      .error (.sunSpecClientError, t!"Modbus read error: Modbus exception " ++ natDec code.toNat) := by
  have := scan_fails (rtuSay other) fuel slave sid (.modbusClientException code.toNat) rfl (t!"Modbus exception " ++ natDec code.toNat) (fun _ => rfl)
    (refuse_outcome hs h0) lib prog c hb hne ha
  rw [this]
  rfl

/-- The slaves of these theorems exist. -/
example : NeverAnswers (constSlave []) ∧ AlwaysRefuses (constSlave (rtuFrame 1 [0x83, 2])) 2 :=
  ⟨fun _ _ => ⟨_, rfl, rfl⟩, fun _ _ => ⟨_, rfl, 1, 0x83, [], by decide, by simp⟩⟩

/-! ## Writing -/

theorem cdWriteT_unsaid {σ} (say : σ → Exc → Text) (dev : MbDev σ) (s : σ) (a : Int) (d : Bytes) :
    cdWrite dev s a d = ((cdWriteT say dev s a d).1, unsaid (cdWriteT say dev s a d).2) := by
  unfold cdWriteT cdWrite
  generalize dev.write s a d = r
  obtain ⟨s', r⟩ := r
  cases r with
  | ok d => rfl
  | error e =>
    simp only [cdWrap, unsaid]
    split <;> rfl

theorem wpPointT_unsaid {σ} (say : σ → Exc → Text) (dev : MbDev σ) (acc : WAcc σ) (p : PointObj) :
    wpPoint dev acc p = ((wpPointT say dev acc p).1, (wpPointT say dev acc p).2.1, unsaid (wpPointT say dev acc p).2.2) := by
  unfold wpPoint wpPointT
  by_cases h : p.dirty = true
  · rw [if_pos h, if_pos h]
    cases p.pt.type.toData p.base (p.pt.len * 2).toNat with
    | error e => rfl
    | ok pd =>
      dsimp only
      cases acc.addr with
      | none => rfl
      | some a =>
        dsimp only
        by_cases h2 : p.addr = acc.next
        · rw [if_pos h2, if_pos h2]; rfl
        · rw [if_neg h2, if_neg h2, cdWriteT_unsaid say]
          generalize cdWriteT say dev acc.s a acc.data = r
          obtain ⟨s', r⟩ := r
          cases r <;> rfl
  · rw [if_neg h, if_neg h]; rfl

theorem wpPointsT_unsaid {σ} (say : σ → Exc → Text) (dev : MbDev σ) (ps : List PointObj) : ∀ acc : WAcc σ,
    wpPoints dev ps acc = ((wpPointsT say dev ps acc).1, (wpPointsT say dev ps acc).2.1, unsaid (wpPointsT say dev ps acc).2.2) := by
  induction ps with
  | nil => intro acc; rfl
  | cons p ps ih =>
    intro acc
    rw [wpPoints, wpPointsT, wpPointT_unsaid say]
    generalize wpPointT say dev acc p = r
    obtain ⟨p', acc', r⟩ := r
    cases r with
    | error e => rfl
    | ok u => dsimp only [unsaid]; rw [ih acc']; rfl

theorem wpFlushT_unsaid {σ} (say : σ → Exc → Text) (dev : MbDev σ) (acc : WAcc σ) :
    wpFlush dev acc = ((wpFlushT say dev acc).1, unsaid (wpFlushT say dev acc).2) := by
  unfold wpFlush wpFlushT
  cases acc.addr with
  | none => rfl
  | some a => exact cdWriteT_unsaid say dev acc.s a acc.data

theorem wpBlocksT_unsaid {σ} (say : σ → Exc → Text) (dev : MbDev σ) (bs : List BlockObj) : ∀ s : σ,
    wpBlocks dev bs s = ((wpBlocksT say dev bs s).1, (wpBlocksT say dev bs s).2.1, unsaid (wpBlocksT say dev bs s).2.2) := by
  induction bs with
  | nil => intro s; rfl
  | cons b bs ih =>
    intro s
    rw [wpBlocks, wpBlocksT, wpPointsT_unsaid say]
    generalize wpPointsT say dev b.pts { s := s } = r
    obtain ⟨pts, acc, r⟩ := r
    cases r with
    | error e => rfl
    | ok u =>
      dsimp only [unsaid]
      rw [wpFlushT_unsaid say]
      generalize wpFlushT say dev acc = r
      obtain ⟨s1, r⟩ := r
      cases r with
      | error e => rfl
      | ok u => dsimp only [unsaid]; rw [ih s1]; rfl

/-- C106: leaving out the texts gives the `write_points` and `write` that the other properties are about. -/
theorem C106_write_same {σ} (say : σ → Exc → Text) (dev : MbDev σ) (s : σ) :
    (∀ m, writePoints dev s m = ((writePointsT say dev s m).1, (writePointsT say dev s m).2.1, unsaid (writePointsT say dev s m).2.2)) ∧
    (∀ p, writePoint dev s p = ((writePointT say dev s p).1, (writePointT say dev s p).2.1, unsaid (writePointT say dev s p).2.2)) := by
  constructor
  · intro m
    unfold writePoints writePointsT
    rw [wpBlocksT_unsaid say]
  · intro p
    unfold writePoint writePointT
    cases p.pt.type.toData p.base (p.pt.len * 2).toNat with
    | error e => rfl
    | ok d =>
      dsimp only
      rw [cdWriteT_unsaid say]
      generalize cdWriteT say dev s p.addr d = r
      obtain ⟨s', r⟩ := r
      cases r <;> rfl

/-- The requests `ws` were carried out; then a request failed with a Modbus error, whose text is told. -/
def WriteText {σ} (say : σ → Exc → Text) (dev : MbDev σ) (s s' : σ) (t : Text) : Prop :=
  ∃ ws s1 a d e, AllWritten dev s ws s1 ∧ dev.write s1 a d = (s', .error e) ∧ e.isModbusClient = true ∧ t = t!"Modbus write error: " ++ say s' e

theorem AllWritten_trans {σ} {dev : MbDev σ} {s s1 s2 : σ} {l1 l2 : List (Int × Bytes)} (h1 : AllWritten dev s l1 s1) (h2 : AllWritten dev s1 l2 s2) :
    AllWritten dev s (l1 ++ l2) s2 := by
  induction h1 with
  | nil s => exact h2
  | cons h _ ih => exact .cons h (ih h2)

theorem WriteText.prepend {σ} {say : σ → Exc → Text} {dev : MbDev σ} {s s1 s' : σ} {t : Text} {ws : List (Int × Bytes)} (h : WriteText say dev s1 s' t)
    (hw : AllWritten dev s ws s1) : WriteText say dev s s' t := by
  obtain ⟨ws2, s2, a, d, e, h1, h2⟩ := h
  exact ⟨ws ++ ws2, s2, a, d, e, AllWritten_trans hw h1, h2⟩

theorem cdWriteT_cases {σ} (say : σ → Exc → Text) (dev : MbDev σ) (hd : ∀ s a d, (dev.write s a d).2 ≠ .error .sunSpecClientError) (s : σ) (a : Int) (d : Bytes) :
    (∃ s1, dev.write s a d = (s1, .ok ()) ∧ cdWriteT say dev s a d = (s1, .ok ())) ∨
    (∃ s1 e, dev.write s a d = (s1, .error e) ∧ e.isModbusClient = true ∧
      cdWriteT say dev s a d = (s1, .error (.sunSpecClientError, t!"Modbus write error: " ++ say s1 e))) ∨
    (∃ s1 e, dev.write s a d = (s1, .error e) ∧ cdWriteT say dev s a d = (s1, .error (e, say s1 e)) ∧ e ≠ .sunSpecClientError) := by
  have hd := hd s a d
  unfold cdWriteT
  generalize dev.write s a d = r at *
  obtain ⟨s1, r⟩ := r
  cases r with
  | ok u => exact .inl ⟨s1, rfl, rfl⟩
  | error e =>
    right
    dsimp only at hd ⊢
    by_cases he : e.isModbusClient = true
    · exact .inl ⟨s1, e, rfl, he, by rw [if_pos he]⟩
    · exact .inr ⟨s1, e, rfl, by rw [if_neg he], fun h => hd (by rw [h])⟩

/-- A step of writing: some requests were carried out, or the last failed and its error is told (or another exception was raised). -/
def WStep {σ} (say : σ → Exc → Text) (dev : MbDev σ) (s s' : σ) : Told Unit → Prop
  | .ok _ => ∃ ws, AllWritten dev s ws s'
  | .error e => e.1 = .sunSpecClientError → WriteText say dev s s' e.2

theorem cdWriteT_step {σ} (say : σ → Exc → Text) (dev : MbDev σ) (hd : ∀ s a d, (dev.write s a d).2 ≠ .error .sunSpecClientError) (s : σ) (a : Int) (d : Bytes) :
    WStep say dev s (cdWriteT say dev s a d).1 (cdWriteT say dev s a d).2 := by
  rcases cdWriteT_cases say dev hd s a d with ⟨s1, h1, h2⟩ | ⟨s1, e, h1, h2, h3⟩ | ⟨s1, e, h1, h2, h3⟩
  · rw [h2]; exact ⟨[(a, d)], .cons h1 (.nil _)⟩
  · rw [h3]; intro _; exact ⟨[], s, a, d, e, .nil _, h1, h2, rfl⟩
  · rw [h2]; intro h; exact absurd h h3

theorem WStep.after {σ} {say : σ → Exc → Text} {dev : MbDev σ} {s s1 s' : σ} {r : Told Unit} {ws : List (Int × Bytes)} (hw : AllWritten dev s ws s1)
    (h : WStep say dev s1 s' r) : WStep say dev s s' r := by
  cases r with
  | ok u => obtain ⟨ws2, h⟩ := h; exact ⟨ws ++ ws2, AllWritten_trans hw h⟩
  | error e => intro he; exact (h he).prepend hw

theorem wpPointT_step {σ} (say : σ → Exc → Text) (dev : MbDev σ) (hd : ∀ s a d, (dev.write s a d).2 ≠ .error .sunSpecClientError) (acc : WAcc σ)
    (p : PointObj) : WStep say dev acc.s (wpPointT say dev acc p).2.1.s (wpPointT say dev acc p).2.2 := by
  unfold wpPointT
  by_cases h : p.dirty = true
  · rw [if_pos h]
    cases ht : p.pt.type.toData p.base (p.pt.len * 2).toNat with
    | error e =>
      intro he
      dsimp only at he
      rw [he] at ht
      exact absurd ht (toData_own _ _ _)
    | ok pd =>
      dsimp only
      cases acc.addr with
      | none => exact ⟨[], .nil _⟩
      | some a =>
        dsimp only
        by_cases h2 : p.addr = acc.next
        · rw [if_pos h2]; exact ⟨[], .nil _⟩
        · rw [if_neg h2]
          have := cdWriteT_step say dev hd acc.s a acc.data
          generalize cdWriteT say dev acc.s a acc.data = r at *
          obtain ⟨s', r⟩ := r
          cases r <;> exact this
  · rw [if_neg h]; exact ⟨[], .nil _⟩

theorem wpPointsT_step {σ} (say : σ → Exc → Text) (dev : MbDev σ) (hd : ∀ s a d, (dev.write s a d).2 ≠ .error .sunSpecClientError) (ps : List PointObj) :
    ∀ acc : WAcc σ, WStep say dev acc.s (wpPointsT say dev ps acc).2.1.s (wpPointsT say dev ps acc).2.2 := by
  induction ps with
  | nil => intro acc; exact ⟨[], .nil _⟩
  | cons p ps ih =>
    intro acc
    rw [wpPointsT]
    have h1 := wpPointT_step say dev hd acc p
    generalize wpPointT say dev acc p = r at *
    obtain ⟨p', acc', r⟩ := r
    cases r with
    | error e => exact h1
    | ok u =>
      obtain ⟨ws, h1⟩ := h1
      exact WStep.after h1 (ih acc')

theorem wpBlocksT_step {σ} (say : σ → Exc → Text) (dev : MbDev σ) (hd : ∀ s a d, (dev.write s a d).2 ≠ .error .sunSpecClientError) (bs : List BlockObj) :
    ∀ s : σ, WStep say dev s (wpBlocksT say dev bs s).1 (wpBlocksT say dev bs s).2.2 := by
  induction bs with
  | nil => intro s; exact ⟨[], .nil _⟩
  | cons b bs ih =>
    intro s
    rw [wpBlocksT]
    have h1 := wpPointsT_step say dev hd b.pts { s := s }
    generalize wpPointsT say dev b.pts { s := s } = r at *
    obtain ⟨pts, acc, r⟩ := r
    cases r with
    | error e => exact h1
    | ok u =>
      dsimp only at h1 ⊢
      obtain ⟨ws, h1⟩ := h1
      have h2 : WStep say dev acc.s (wpFlushT say dev acc).1 (wpFlushT say dev acc).2 := by
        unfold wpFlushT
        cases acc.addr with
        | none => exact ⟨[], .nil _⟩
        | some a => exact cdWriteT_step say dev hd acc.s a acc.data
      generalize wpFlushT say dev acc = r at *
      obtain ⟨s1, r⟩ := r
      cases r with
      | error e => exact WStep.after h1 h2
      | ok u =>
        obtain ⟨ws2, h2⟩ := h2
        exact WStep.after h1 (WStep.after h2 (ih s1))

/-- C106: whatever `write_points` that fails with `SunSpecClientError` tells is the error of its last request; all its requests before were carried out. -/
theorem C106_write_true {σ} (say : σ → Exc → Text) (dev : MbDev σ) (hd : ∀ s a d, (dev.write s a d).2 ≠ .error .sunSpecClientError) (s s' : σ)
    (m m' : MdlObj) (t : Text) (h : writePointsT say dev s m = (s', m', .error (.sunSpecClientError, t))) :
    ∃ ws s1 a d e, AllWritten dev s ws s1 ∧ dev.write s1 a d = (s', .error e) ∧ e.isModbusClient = true ∧ t = t!"Modbus write error: " ++ say s' e := by
  have h1 := wpBlocksT_step say dev hd m.blocks s
  unfold writePointsT at h
  generalize wpBlocksT say dev m.blocks s = r at *
  obtain ⟨s2, bs, r⟩ := r
  simp only [Prod.mk.injEq] at h
  obtain ⟨rfl, _, rfl⟩ := h
  exact h1 rfl

/-- C106: if the request of a point's `write` fails with a Modbus error, the call tells that error; the point stays marked. -/
theorem C106_write_point {σ} (say : σ → Exc → Text) (dev : MbDev σ) (s s' : σ) (p : PointObj) (d : Bytes) (e : Exc)
    (hd : p.pt.type.toData p.base (p.pt.len * 2).toNat = .ok d) (h : dev.write s p.addr d = (s', .error e)) (he : e.isModbusClient = true) :
    writePointT say dev s p = (s', p, .error (.sunSpecClientError, t!"Modbus write error: " ++ say s' e)) := by
  unfold writePointT
  rw [hd]
  dsimp only
  unfold cdWriteT
  rw [h]
  dsimp only
  rw [if_pos he]

/-- RTU devices meet the condition. -/
theorem rtuDev_own_write {σ} (slave : Slave σ) (sid : Byte) (s : Line σ) (a : Int) (d : Bytes) :
    ((rtuDev slave sid.toNat).write s a d).2 ≠ .error .sunSpecClientError := by
  intro h
  have := rtuWriteF_err slave sid.toNat (d.length + 1) a d s _ (by omega) h
  rcases this with h | h <;> cases h

/-- A slave that refuses to write: `write_points` tells so. -/
example : (writePointsT (rtuSay fun _ _ => []) (rtuDev (constSlave (rtuFrame 1 [0x90, 3])) 1) ⟨(), []⟩ markedModel).2.2 =
      .error (.sunSpecClientError, t!"Modbus write error: Modbus exception 3") := by decide +kernel

/-! ## The command suns.py -/

/-- C106: leaving out the text of the error gives the command that C89 is about. -/
theorem C106_command_same {σ} (say : σ → Exc → Text) (fuel : Nat) (dev : ScanDev σ) (types : Int → Py ModelType) (lib : FloatLib) (s : σ) :
    sunsRun fuel dev types lib s = ((sunsRunT say fuel dev types lib s).1, unprinted (sunsRunT say fuel dev types lib s).2.1,
      (sunsRunT say fuel dev types lib s).2.2) := by
  have ho : openDevice fuel dev types lib s = ((openDeviceT say fuel dev types lib s).1, unsaid (openDeviceT say fuel dev types lib s).2) := by
    unfold openDevice openDeviceT
    rw [C106_scan_same say]
    generalize scanT say fuel dev types (fun _ _ => true) { st := s } = r
    obtain ⟨c, r⟩ := r
    cases r with
    | error e => rfl
    | ok u =>
      dsimp only [unsaid]
      generalize wrapDevice lib c.list = r
      obtain ⟨d, r⟩ := r
      cases r <;> rfl
  unfold sunsRun sunsRunT
  rw [ho]
  generalize openDeviceT say fuel dev types lib s = r
  obtain ⟨s1, r⟩ := r
  cases r with
  | error e =>
    dsimp only [unsaid]
    by_cases h : e.1 = .sunSpecClientError
    · rw [if_pos h, if_pos h]; rfl
    · rw [if_neg h, if_neg h]; rfl
  | ok ms =>
    dsimp only [unsaid]
    generalize readModels dev.toMbDev ms s1 = r
    obtain ⟨s2, ms2, r⟩ := r
    cases r <;> rfl

/-- C106: if the scan fails with a `SunSpecClientError`, the command prints its text and exits with 1. -/
theorem C106_command {σ} (say : σ → Exc → Text) (fuel : Nat) (dev : ScanDev σ) (types : Int → Py ModelType) (lib : FloatLib) (s : σ) (c : CliDev σ)
    (t : Text) (h : scanT say fuel dev types (fun _ _ => true) { st := s } = (c, .error (.sunSpecClientError, t))) :
    sunsRunT say fuel dev types lib s = (dev.disc c.st, .error (t!"Error: " ++ t), .exit1) := by
  unfold sunsRunT openDeviceT
  rw [h]
  dsimp only
  rw [if_pos rfl]

theorem pair_snd {α β} {x : α × β} {b : β} (h : x.2 = b) : x = (x.1, b) := by rw [← h]

/-- C106: the command with a slave that does not answer, and with one that refuses everything. -/
theorem C106_command_rtu {σ} (other : Line σ → Exc → Text) (fuel : Nat) (slave : Slave σ) (sid : Byte) (types : Int → Py ModelType) (lib : FloatLib)
    (l : Line σ) :
    (NeverAnswers slave → (sunsRunT (rtuSay other) fuel (rtuScanDev slave sid.toNat) types lib l).2 =
      (.error (t!"Error: Modbus read error: Response timeout"), .exit1)) ∧
    ∀ code, code ≠ 0 → AlwaysRefuses slave code → (sunsRunT (rtuSay other) fuel (rtuScanDev slave sid.toNat) types lib l).2 =
      (.error (t!"Error: Modbus read error: Modbus exception " ++ natDec code.toNat), .exit1) := by
  have hb : ∀ a ∈ ({ st := l } : CliDev (Line σ)).bases, 0 ≤ a ∧ a < 65536 := by
    show ∀ a ∈ ([40000, 0, 50000] : List Int), 0 ≤ a ∧ a < 65536
    decide
  constructor
  · intro hs
    have h := C106_silent other fuel slave hs sid types (fun _ _ => true) { st := l } rfl (by simp) hb
    rw [C106_command (rtuSay other) fuel (rtuScanDev slave sid.toNat) types lib l _ _ (pair_snd h)]
    rfl
  · intro code h0 hs
    have h := C106_refused other fuel slave code h0 hs sid types (fun _ _ => true) { st := l } rfl (by simp) hb
    rw [C106_command (rtuSay other) fuel (rtuScanDev slave sid.toNat) types lib l _ _ (pair_snd h)]
    rfl

end Verif
