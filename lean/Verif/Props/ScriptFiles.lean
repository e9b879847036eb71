import Verif.Model.ScriptFiles
import Verif.Props.Files
import Verif.Props.Found

/-!
# C92 for scripting devices
-/

namespace Verif
open Spec

theorem loadType_text (env : TypeEnv ModelType) (i : Int) : loadType env (.str (intDec i)) = loadType env (.int i) := by
  have h : Key.toInt (.str (intDec i)) = .ok i := by
    show (match pyInt 10 (intDec i) with | some i => Except.ok i | none => .error Exc.valueError) = _
    rw [pyInt_intDec 10 (.inr rfl) i]
  unfold loadType
  rw [h]
  rfl

theorem getTypeText_reached {env : TypeEnv ModelType} {ts : TypeState ModelType} (h : TypesReached ts) (i : Int) :
    TypesReached (getTypeText env ts (intDec i)).1 ∧ (getTypeText env ts (intDec i)).2 = loadType env (.int i) := by
  refine ⟨.asked env _ h, ?_⟩
  rw [← loadType_text]
  unfold getTypeText
  generalize hg : modelTypeGet env ts (.str (intDec i)) = g
  obtain ⟨st', r⟩ := g
  obtain ⟨_, h2, h3⟩ := modelTypeGet_miss env ts (.str (intDec i)) (reached_keys h) st' r hg
  cases r with
  | error e => exact ((h2 e rfl).1).symm
  | ok a =>
    obtain ⟨h4, _, t, h5, h6⟩ := h3 a rfl
    dsimp only
    rw [h6, h4, h5]
    simp

/-- The definition of a model that has been loaded. -/
theorem scanLoad_mtype (mt : Py ModelType) (id addr len : Int) (m : MdlObj) (h : scanLoad mt (mdlNew id addr len) = .ok m) :
    m.mtype = mt.toOption := by
  have key : ∀ (rep : Option BlockType) (fuel index : Nat) (bt : BlockType) (B bl lr : Int) (m : MdlObj) (endA : Int),
      (loadLoop rep endA fuel index bt B bl lr m).1.mtype = m.mtype := by
    intro rep fuel
    induction fuel with
    | zero => intro index bt B bl lr m endA; rw [loadLoop]
    | succ fuel ih =>
      intro index bt B bl lr m endA
      rw [loadLoop]
      split
      · rfl
      · dsimp only
        split
        · rfl
        · split
          · rfl
          · split
            · rfl
            · split
              · rfl
              · rw [ih]
  have hl : (mdlLoad mt (mdlNew id addr len)).1.mtype = mt.toOption := by
    unfold mdlLoad loadWith
    cases mt with
    | error e => rfl
    | ok t =>
      dsimp only
      cases hF : t.fixed.len.toInt with
      | error e => rfl
      | ok F =>
        dsimp only
        generalize hX : loadLoop _ _ _ _ _ _ _ _ _ = X
        have hk : X.1.mtype = some t := by rw [← hX, key]
        obtain ⟨m2, r2⟩ := X
        cases r2 with
        | error e => exact hk
        | ok u => exact hk
  unfold scanLoad at h
  generalize mdlLoad mt (mdlNew id addr len) = x at h hl
  obtain ⟨m', r⟩ := x
  cases r with
  | ok u => cases h; exact hl
  | error e =>
    dsimp only at h
    split at h
    · cases h
    · cases h; exact hl

/-- Every model has the definition of its id. -/
def Defined (lib : Int → Py ModelType) (l : List MdlObj) : Prop := ∀ m ∈ l, m.mtype = (lib m.id).toOption

theorem defined_add {lib : Int → Py ModelType} {σ} {c : CliDev σ} (h : Defined lib c.list) {id addr len : Int} {m : MdlObj}
    (hm : scanLoad (lib id) (mdlNew id addr len) = .ok m) : Defined lib (addModel c m).list := by
  intro x hx
  have : x ∈ c.list ++ [m] := hx
  rcases List.mem_append.1 this with h1 | h1
  · exact h x h1
  · rw [List.mem_singleton] at h1
    subst h1
    rw [(scanLoad_facts _ _ _ _ _ hm).1]
    exact scanLoad_mtype _ _ _ _ _ hm

theorem scanLoop_defined {σ} (dev : MbDev σ) (lib : Int → Py ModelType) (prog : List MdlObj → Int → Bool) :
    ∀ (fuel : Nat) (id addr : Int) (c : CliDev σ), Defined lib c.list → Defined lib (scanLoop dev lib prog fuel id addr c).1.list := by
  intro fuel
  induction fuel with
  | zero => intro id addr c h; rw [scanLoop]; exact h
  | succ n ih =>
    intro id addr c h
    rw [scanLoop]
    split
    · exact h
    · split
      · exact h
      · split
        · exact h
        · split
          · exact h
          · split
            · exact h
            · rename_i m hm
              have ha := defined_add h hm
              split
              · exact ha
              · split
                · exact ha
                · exact ih _ _ _ ha

theorem scan_defined {σ} (fuel : Nat) (dev : ScanDev σ) (lib : Int → Py ModelType) (prog : List MdlObj → Int → Bool) (c : CliDev σ)
    (h : Defined lib c.list) : Defined lib (scan fuel dev lib prog c).1.list := by
  have hb : ∀ c : CliDev σ, Defined lib c.list → Defined lib (scanBody fuel dev.toMbDev lib prog c).1.list := by
    intro c h
    unfold scanBody
    split
    · exact h
    · split
      · exact h
      · exact h
      · unfold scanFrom
        split
        · exact h
        · exact scanLoop_defined _ _ _ _ _ _ _ h
  unfold scan
  split
  · exact hb c h
  · split
    · exact h
    · rename_i s _ _
      have := hb { c with st := s } h
      unfold scanEnd
      generalize scanBody fuel dev.toMbDev lib prog { c with st := s } = r at this
      obtain ⟨c1, r⟩ := r
      cases r with
      | error e => exact this
      | ok u => exact this

theorem classFiles_reached {env : TypeEnv ModelType} {ts : TypeState ModelType} (h : TypesReached ts) (i : Int) :
    TypesReached (classFiles env ts (intDec i)).1 ∧
      (classFiles env ts (intDec i)).2 = modelClass (loadType env (.int i)).toOption := by
  obtain ⟨h1, h2⟩ := getTypeText_reached (env := env) h i
  refine ⟨h1, ?_⟩
  unfold classFiles
  rw [h2]
  cases loadType env (.int i) <;> rfl

theorem wrapLoopFiles_eq (env : TypeEnv ModelType) (lib : FloatLib) :
    ∀ (ms : List MdlObj) (i : Nat) (ts : TypeState ModelType) (d : DWrap), TypesReached ts →
    Defined (fun i => loadType env (.int i)) ms →
    TypesReached (wrapLoopFiles env lib ms i ts d).1 ∧ (wrapLoopFiles env lib ms i ts d).2 = wrapLoop lib ms i d := by
  intro ms
  induction ms with
  | nil => intro i ts d h _; exact ⟨h, rfl⟩
  | cons m ms ih =>
    intro i ts d h hd
    have h1 := classFiles_reached (env := env) h m.id
    have hm : m.mtype = (loadType env (.int m.id)).toOption := hd m (.head _)
    rw [← hm] at h1
    have e : (wrapOneFiles env lib ts d i m).2 = wrapOne lib d i m := by
      unfold wrapOneFiles wrapOne
      rw [h1.2]
      rfl
    have et : TypesReached (wrapOneFiles env lib ts d i m).1 := h1.1
    rw [wrapLoopFiles, wrapLoop, ← e]
    generalize wrapOneFiles env lib ts d i m = g at et
    obtain ⟨ts1, d1, r⟩ := g
    cases r with
    | error e => exact ⟨et, rfl⟩
    | ok u => exact ih _ _ _ et fun x hx => hd x (.tail _ hx)

/-- C92: a scripting device is created from the models found with the definitions in the files, and its objects have the
attributes of these same definitions, which are looked up a second time, by the text of the id; what has been loaded before makes no
difference. If the scan fails the device is closed and the exception passed on. -/
theorem C92_scripting_partial (env : TypeEnv ModelType) (ht : Tree env.fs) (ps : Option (List Place))
    (hp : ProperPlaces env.fs env.pathlist ps) :
    ∃ lib, FileLibrary env ps lib ∧ ∀ {σ} (flib : FloatLib) (fuel : Nat) (dev : ScanDev σ) (prog : List MdlObj → Int → Bool) (c : CliDev σ)
      (ts : TypeState ModelType), TypesReached ts → c.list = [] →
      TypesReached (scriptFiles env flib fuel dev prog ts c).1 ∧
      (scriptFiles env flib fuel dev prog ts c).2.1 = (scan fuel dev lib prog c).1 ∧
      (∀ m ∈ (scan fuel dev lib prog c).1.list, m.mtype = (lib m.id).toOption) ∧
      (∀ e, (scan fuel dev lib prog c).2 = .error e →
        (scriptFiles env flib fuel dev prog ts c).2.2.1.closed = true ∧ (scriptFiles env flib fuel dev prog ts c).2.2.2 = .error e) ∧
      ((scan fuel dev lib prog c).2 = .ok () →
        (scriptFiles env flib fuel dev prog ts c).2.2 = wrapDevice flib (scan fuel dev lib prog c).1.list) := by
  refine ⟨_, fileLibrary ht hp, ?_⟩
  intro σ flib fuel dev prog c ts hts hc
  obtain ⟨h1, h2⟩ := scanFiles_eq env fuel dev prog ts c hts
  have hd := scan_defined fuel dev (fun i => loadType env (.int i)) prog c (by rw [hc]; intro m hm; cases hm)
  rw [← h2] at hd ⊢
  unfold scriptFiles
  generalize scanFiles env fuel dev prog ts c = g at h1 hd
  obtain ⟨ts1, c1, r⟩ := g
  dsimp only at h1 hd ⊢
  cases r with
  | error e =>
    refine ⟨h1, rfl, hd, (fun e' he => ?_), fun h => by cases h⟩
    cases he
    exact ⟨rfl, rfl⟩
  | ok u =>
    obtain ⟨k1, k2⟩ := wrapLoopFiles_eq env flib c1.list 0 ts1 (DWrap.init c1.list) h1 hd
    refine ⟨k1, rfl, hd, (fun e' he => by cases he), fun _ => ?_⟩
    show wrapEnd (wrapLoopFiles env flib c1.list 0 ts1 (DWrap.init c1.list)).2 = _
    rw [k2]
    unfold wrapDevice wrapEnd
    rfl

/-- A scripting device with definitions from files. -/
example : (scriptFiles filesEnv exactLib 10 mapScanDev (fun _ _ => true) usedTypes ⟨scanMap, none, [40000, 0, 50000], [], []⟩).2.2.2 = .ok () := by
  decide +kernel

end Verif
