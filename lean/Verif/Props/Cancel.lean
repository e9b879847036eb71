import Verif.Props.Found
import Verif.Props.Alike

/-!
# C77: a scan that is cancelled
-/

namespace Verif
open Verif.Spec

/-- The scan has been refused: the callback has answered False, given the models found so far and the id of the next; compared to the
scan that is not refused, `scan` raises, has found the first of its models, and has made the first of its reads. -/
structure Spec.CutShort {σ} (prog : List MdlObj → Int → Bool) (cut full : CliDev (σ × List ReadEvent) × Py Unit) : Prop where
  refused : ∃ id, prog cut.1.list id = false
  raises : cut.2 = .error .sunSpecClientError
  models : cut.1.list <+: full.1.list
  reads : cut.1.st.2 <+: full.1.st.2
  base : cut.1.base = full.1.base

theorem scanLoop_grows {σ} (dev : ScanDev σ) (lib : Int → Py ModelType) (prog : List MdlObj → Int → Bool) :
    ∀ (fuel : Nat) (id addr : Int) (c : CliDev (σ × List ReadEvent)),
      c.list <+: (scanLoop (recorded dev).toMbDev lib prog fuel id addr c).1.list ∧
      c.st.2 <+: (scanLoop (recorded dev).toMbDev lib prog fuel id addr c).1.st.2 ∧
      (scanLoop (recorded dev).toMbDev lib prog fuel id addr c).1.base = c.base := by
  intro fuel
  induction fuel with
  | zero => intro id addr c; exact ⟨List.prefix_refl _, List.prefix_refl _, rfl⟩
  | succ fuel ih =>
    intro id addr c
    rw [scanLoop]
    split
    · exact ⟨List.prefix_refl _, List.prefix_refl _, rfl⟩
    · rw [cdRead_recorded]
      generalize cdRead dev.toMbDev c.st.1 (addr + 1) 1 = r1
      obtain ⟨s1, r1⟩ := r1
      dsimp only
      have p1 : ∀ e : ReadEvent, c.st.2 <+: c.st.2 ++ [e] := fun e => List.prefix_append _ _
      cases r1 with
      | error e => exact ⟨List.prefix_refl _, p1 _, rfl⟩
      | ok d1 =>
        dsimp only
        cases wordOf d1 with
        | none => exact ⟨List.prefix_refl _, p1 _, rfl⟩
        | some len =>
          dsimp only
          split
          · exact ⟨List.prefix_refl _, p1 _, rfl⟩
          · cases scanLoad (lib id) (mdlNew id (addr + 2) len) with
            | error e => exact ⟨List.prefix_refl _, p1 _, rfl⟩
            | ok m =>
              dsimp only
              rw [cdRead_recorded]
              dsimp only
              generalize cdRead dev.toMbDev s1 (addr + (len + 2)) 1 = r2
              obtain ⟨s2, r2⟩ := r2
              dsimp only
              have p2 : ∀ e e' : ReadEvent, c.st.2 <+: c.st.2 ++ [e] ++ [e'] := fun e e' => (List.prefix_append _ _).trans (List.prefix_append _ _)
              cases r2 with
              | error e => exact ⟨List.prefix_append _ _, p2 _ _, rfl⟩
              | ok d2 =>
                dsimp only
                cases wordOf d2 with
                | none => exact ⟨List.prefix_append _ _, p2 _ _, rfl⟩
                | some id2 =>
                  dsimp only
                  obtain ⟨i1, i2, i3⟩ := ih id2 (addr + (len + 2)) { addModel c m with st := (s2, c.st.2 ++ [⟨addr + 1, 1, (dev.read c.st.1 (addr + 1) 1).2⟩] ++ [⟨addr + (len + 2), 1, (dev.read s1 (addr + (len + 2)) 1).2⟩]) }
                  exact ⟨(List.prefix_append _ _).trans i1, (p2 _ _).trans i2, i3⟩

theorem scanLoop_cut {σ} (dev : ScanDev σ) (lib : Int → Py ModelType) (prog : List MdlObj → Int → Bool) :
    ∀ (fuel : Nat) (id addr : Int) (c : CliDev (σ × List ReadEvent)),
      scanLoop (recorded dev).toMbDev lib prog fuel id addr c = scanLoop (recorded dev).toMbDev lib (fun _ _ => true) fuel id addr c ∨
      CutShort prog (scanLoop (recorded dev).toMbDev lib prog fuel id addr c) (scanLoop (recorded dev).toMbDev lib (fun _ _ => true) fuel id addr c) := by
  intro fuel
  induction fuel with
  | zero => intro id addr c; exact .inl rfl
  | succ fuel ih =>
    intro id addr c
    obtain ⟨full1, full2, full3⟩ := scanLoop_grows dev lib (fun _ _ => true) (fuel + 1) id addr c
    by_cases hid : id = 65535
    · left; rw [scanLoop, scanLoop, if_pos hid, if_pos hid]
    · rw [scanLoop, if_neg hid] at full1 full2 full3
      rw [scanLoop, if_neg hid, scanLoop, if_neg hid]
      rw [cdRead_recorded] at full1 full2 full3 ⊢
      generalize cdRead dev.toMbDev c.st.1 (addr + 1) 1 = r1 at *
      obtain ⟨s1, r1⟩ := r1
      dsimp only at *
      cases r1 with
      | error e => exact .inl rfl
      | ok d1 =>
        dsimp only at *
        generalize wordOf d1 = w1 at *
        cases w1 with
        | none => exact .inl rfl
        | some len =>
          dsimp only at *
          simp only [Bool.true_eq_false, ↓reduceIte] at full1 full2 full3 ⊢
          by_cases hp : prog c.list id = false
          · rw [if_pos hp]
            refine .inr ⟨⟨id, hp⟩, rfl, full1, ?_, full3.symm⟩
            dsimp only
            clear full1 full2 full3
            cases scanLoad (lib id) (mdlNew id (addr + 2) len) with
            | error e => exact List.prefix_refl _
            | ok m =>
              dsimp only
              rw [cdRead_recorded]
              dsimp only
              generalize cdRead dev.toMbDev s1 (addr + (len + 2)) 1 = r2
              obtain ⟨s2, r2⟩ := r2
              dsimp only
              cases r2 with
              | error e => exact List.prefix_append _ _
              | ok d2 =>
                dsimp only
                cases wordOf d2 with
                | none => exact List.prefix_append _ _
                | some id2 =>
                  dsimp only
                  obtain ⟨_, i2, _⟩ := scanLoop_grows dev lib (fun _ _ => true) fuel id2 (addr + (len + 2)) { addModel c m with st := (s2, c.st.2 ++ [⟨addr + 1, 1, (dev.read c.st.1 (addr + 1) 1).2⟩] ++ [⟨addr + (len + 2), 1, (dev.read s1 (addr + (len + 2)) 1).2⟩]) }
                  exact (List.prefix_append _ _).trans i2
          · rw [if_neg hp]
            clear full1 full2 full3
            cases scanLoad (lib id) (mdlNew id (addr + 2) len) with
            | error e => exact .inl rfl
            | ok m =>
              dsimp only
              rw [cdRead_recorded]
              dsimp only
              generalize cdRead dev.toMbDev s1 (addr + (len + 2)) 1 = r2
              obtain ⟨s2, r2⟩ := r2
              dsimp only
              cases r2 with
              | error e => exact .inl rfl
              | ok d2 =>
                dsimp only
                cases wordOf d2 with
                | none => exact .inl rfl
                | some id2 =>
                  dsimp only
                  exact ih _ _ _

theorem scanBody_cut {σ} (dev : ScanDev σ) (lib : Int → Py ModelType) (prog : List MdlObj → Int → Bool) (fuel : Nat)
    (c : CliDev (σ × List ReadEvent)) :
    scanBody fuel (recorded dev).toMbDev lib prog c = scanBody fuel (recorded dev).toMbDev lib (fun _ _ => true) c ∨
    CutShort prog (scanBody fuel (recorded dev).toMbDev lib prog c) (scanBody fuel (recorded dev).toMbDev lib (fun _ _ => true) c) := by
  unfold scanBody
  cases c.base with
  | some b => exact .inl rfl
  | none =>
    dsimp only
    generalize probe (recorded dev).toMbDev c.bases c.st = r
    obtain ⟨s, r⟩ := r
    cases r with
    | error e => exact .inl rfl
    | ok o =>
      cases o with
      | none => exact .inl rfl
      | some x =>
        obtain ⟨a, d⟩ := x
        dsimp only
        unfold scanFrom
        cases wordOf (some ((d.drop 4).take 2)) with
        | none => exact .inl rfl
        | some id =>
          dsimp only
          exact scanLoop_cut dev lib prog fuel id (a + 2) _

/-- C77: whatever the device does and however the callback `progress` decides, `scan` does exactly what it does without a callback,
or it is cut short: the callback has answered False, `scan` raises `SunSpecClientError`, and the models found are the first of those
found without a callback (the same objects in the same order), the reads made are the first of the reads made without. -/
theorem C77_cancel {σ} (dev : ScanDev σ) (lib : Int → Py ModelType) (prog : List MdlObj → Int → Bool) (fuel : Nat)
    (c : CliDev (σ × List ReadEvent)) :
    scan fuel (recorded dev) lib prog c = scan fuel (recorded dev) lib (fun _ _ => true) c ∨
    CutShort prog (scan fuel (recorded dev) lib prog c) (scan fuel (recorded dev) lib (fun _ _ => true) c) := by
  unfold scan
  cases (recorded dev).conn with
  | none => exact scanBody_cut dev lib prog fuel c
  | some f =>
    dsimp only
    generalize f c.st = r
    obtain ⟨s, r⟩ := r
    cases r with
    | error e => exact .inl rfl
    | ok u =>
      dsimp only
      have key := scanBody_cut dev lib prog fuel { c with st := s }
      rcases e1 : scanBody fuel (recorded dev).toMbDev lib prog { c with st := s } with ⟨c1, r1⟩
      rcases e2 : scanBody fuel (recorded dev).toMbDev lib (fun _ _ => true) { c with st := s } with ⟨c2, r2⟩
      rw [e1, e2] at key
      rcases key with h | ⟨h1, h2, h3, h4, h5⟩
      · left; rw [h]
      · right
        dsimp only at h1 h2 h3 h4 h5
        subst h2
        cases r2 with
        | error e => exact ⟨h1, rfl, h3, h4, h5⟩
        | ok u => exact ⟨h1, rfl, h3, h4, h5⟩

/-- Every model found has been allowed by the callback, called with the models found before it. -/
def Spec.AllAllowed (prog : List MdlObj → Int → Bool) (before after : List MdlObj) : Prop :=
  ∃ found, after = before ++ found ∧ ∀ pre m post, found = pre ++ m :: post → prog (before ++ pre) m.id = true

theorem scanLoop_allowed {σ} (dev : MbDev σ) (lib : Int → Py ModelType) (prog : List MdlObj → Int → Bool) :
    ∀ (fuel : Nat) (id addr : Int) (c : CliDev σ), AllAllowed prog c.list (scanLoop dev lib prog fuel id addr c).1.list := by
  intro fuel
  have hnil : ∀ l, AllAllowed prog l l := fun l => ⟨[], (List.append_nil l).symm, fun pre m post h => by simp at h⟩
  induction fuel with
  | zero => intro id addr c; exact hnil _
  | succ fuel ih =>
    intro id addr c
    rw [scanLoop]
    split
    · exact hnil _
    · generalize cdRead dev c.st (addr + 1) 1 = r1
      obtain ⟨s1, r1⟩ := r1
      cases r1 with
      | error e => exact hnil _
      | ok d1 =>
        dsimp only
        cases wordOf d1 with
        | none => exact hnil _
        | some len =>
          dsimp only
          by_cases hp : prog c.list id = false
          · rw [if_pos hp]; exact hnil _
          · rw [if_neg hp]
            cases hm : scanLoad (lib id) (mdlNew id (addr + 2) len) with
            | error e => exact hnil _
            | ok m =>
              obtain ⟨f1, _, _⟩ := scanLoad_facts _ _ _ _ _ hm
              have hcons : ∀ l, AllAllowed prog (c.list ++ [m]) l → AllAllowed prog c.list l := by
                rintro l ⟨found, e, h⟩
                refine ⟨m :: found, by rw [e]; simp, ?_⟩
                intro pre x post hx
                cases pre with
                | nil =>
                  obtain ⟨h1, h2⟩ := List.cons.inj (by simpa using hx)
                  subst h1
                  rw [List.append_nil, f1]
                  cases hb : prog c.list id with
                  | true => rfl
                  | false => exact absurd hb hp
                | cons y pre =>
                  obtain ⟨h1, h2⟩ := List.cons.inj (by simpa using hx)
                  subst h1
                  have := h pre x post h2
                  simpa using this
              dsimp only
              generalize cdRead dev s1 (addr + (len + 2)) 1 = r2
              obtain ⟨s2, r2⟩ := r2
              cases r2 with
              | error e => exact hcons _ (hnil _)
              | ok d2 =>
                dsimp only
                cases wordOf d2 with
                | none => exact hcons _ (hnil _)
                | some id2 => exact hcons _ (ih _ _ _)

/-- C77, the other direction: the callback is obeyed. Every model that `scan` adds has been allowed by the callback, called when exactly
the models before it had been found. -/
theorem C77_obeyed {σ} (dev : ScanDev σ) (lib : Int → Py ModelType) (prog : List MdlObj → Int → Bool) (fuel : Nat) (c : CliDev σ) :
    AllAllowed prog c.list (scan fuel dev lib prog c).1.list := by
  have hnil : ∀ l, AllAllowed prog l l := fun l => ⟨[], (List.append_nil l).symm, fun pre m post h => by simp at h⟩
  have hbody : ∀ c : CliDev σ, AllAllowed prog c.list (scanBody fuel dev.toMbDev lib prog c).1.list := by
    intro c
    unfold scanBody
    cases c.base with
    | some b => exact hnil _
    | none =>
      dsimp only
      generalize probe dev.toMbDev c.bases c.st = r
      obtain ⟨s, r⟩ := r
      cases r with
      | error e => exact hnil _
      | ok o =>
        cases o with
        | none => exact hnil _
        | some x =>
          obtain ⟨a, d⟩ := x
          dsimp only
          unfold scanFrom
          cases wordOf (some ((d.drop 4).take 2)) with
          | none => exact hnil _
          | some id => exact scanLoop_allowed dev.toMbDev lib prog fuel id (a + 2) _
  unfold scan
  cases dev.conn with
  | none => exact hbody c
  | some f =>
    dsimp only
    generalize f c.st = r
    obtain ⟨s, r⟩ := r
    cases r with
    | error e => exact hnil _
    | ok u =>
      dsimp only
      have key := hbody { c with st := s }
      rcases e1 : scanBody fuel dev.toMbDev lib prog { c with st := s } with ⟨c1, r1⟩
      rw [e1] at key
      cases r1 with
      | error e => exact key
      | ok u => exact key

/-- Non-vacuity: the callback allows the model 900 and refuses the model 9; the first model and the first four reads remain. -/
example : (scan 9 (recorded mapScanDev) (fun _ => .ok exType) (fun _ id => id != 9) { st := (scanMap, []) }).2 = .error .sunSpecClientError ∧
    (scan 9 (recorded mapScanDev) (fun _ => .ok exType) (fun _ id => id != 9) { st := (scanMap, []) }).1.list.map (fun m => (m.id, m.addr, m.len)) = [(900, 40004, 5)] ∧
    (scan 9 (recorded mapScanDev) (fun _ => .ok exType) (fun _ id => id != 9) { st := (scanMap, []) }).1.st.2.map (fun e => (e.addr, e.count)) =
      [(40000, 3), (40003, 1), (40009, 1), (40010, 1)] := by
  decide +kernel

/-- Non-vacuity: a callback that cancels after one model, whatever it is. -/
example : (scan 9 (recorded mapScanDev) (fun _ => .ok exType) (fun l _ => l.length < 1) { st := (scanMap, []) }).1.list.length = 1 ∧
    (scan 9 (recorded mapScanDev) (fun _ => .ok exType) (fun _ _ => true) { st := (scanMap, []) }).1.list.length = 2 := by
  decide +kernel

end Verif
