import Verif.Spec.Paths
import Verif.Lemmas.Text
import Verif.Lemmas.IntText

/-!
# C43: path lists, C44: names of model files, C45: the cache of definitions, C49: temporary path lists
-/

namespace Verif
open Spec

/-! ## C43 -/

theorem splitSep_ne_nil (s : Text) : splitSep s ≠ [] := by
  induction s with
  | nil => simp [splitSep]
  | cons c s ih =>
    rw [splitSep]
    split
    · simp
    · cases h : splitSep s <;> simp

theorem splitSep_noslash (s : Text) (h : '/' ∉ s) : splitSep s = [s] := by
  induction s with
  | nil => rfl
  | cons c s ih =>
    rw [splitSep, if_neg (by rintro rfl; simp at h), ih (by intro h2; simp [h2] at h)]

theorem splitSep_append (a b : Text) : splitSep (a ++ '/' :: b) = splitSep a ++ splitSep b := by
  induction a with
  | nil => simp [splitSep]
  | cons c a ih =>
    rw [List.cons_append, splitSep, splitSep, ih]
    split
    · simp
    · cases h : splitSep a with
      | nil => exact absurd h (splitSep_ne_nil a)
      | cons x y => simp

/-- The components that matter. -/
def comps (s : Text) : List Text := (splitSep s).filter fun c => decide (c ≠ [])

theorem comps_append (a b : Text) : comps (a ++ '/' :: b) = comps a ++ comps b := by
  unfold comps
  rw [splitSep_append, List.filter_append]

theorem comps_noslash (s : Text) (h : '/' ∉ s) (hs : s ≠ []) : comps s = [s] := by
  unfold comps
  rw [splitSep_noslash s h]
  simp [hs]

theorem comps_nil : comps [] = [] := rfl

theorem slashed_concat (cs : List Text) (x : Text) (h : cs ≠ []) : slashed (cs ++ [x]) = slashed cs ++ '/' :: x := by
  induction cs with
  | nil => exact absurd rfl h
  | cons c cs ih =>
    cases cs with
    | nil => rfl
    | cons d r =>
      have := ih (by simp)
      rw [List.cons_append, List.cons_append] at *
      rw [slashed, this, slashed, List.append_assoc, List.cons_append]

theorem splitSep_slashed (cs : List Text) (h : cs ≠ []) (hs : ∀ c ∈ cs, '/' ∉ c) : splitSep (slashed cs) = cs := by
  induction cs with
  | nil => exact absurd rfl h
  | cons c cs ih =>
    cases cs with
    | nil => exact splitSep_noslash c (hs c (by simp))
    | cons d r =>
      rw [slashed, splitSep_append, ih (by simp) (fun x hx => hs x (by simp [hx])), splitSep_noslash c (hs c (by simp))]
      rfl

theorem isZipName_iff (c : Text) : isZipName c = true ↔ ZipName c := by
  unfold isZipName ZipName
  rw [List.isSuffixOf_iff_suffix]
  constructor
  · rintro ⟨s, h⟩; exact ⟨s, h.symm⟩
  · rintro ⟨s, h⟩; exact ⟨s, h.symm⟩

/-- The relation between `file_path` and the components processed so far. -/
def Tracks (done : List Text) (fp : Text) : Prop :=
  (done = [] ∧ fp = []) ∨
  (done ≠ [] ∧ fp ≠ [] ∧ (fp.head? = some '/' ↔ (slashed done ++ ['/']).head? = some '/') ∧ comps fp = comps (slashed done))

theorem head_append {a : Text} (b : Text) (h : a ≠ []) : (a ++ b).head? = a.head? := by
  cases a with
  | nil => exact absurd rfl h
  | cons c a => rfl

theorem noslash_ne (e : Text) (h : '/' ∉ e) (he : e ≠ []) : ∀ a : Text, a ++ e ≠ ['/'] := by
  intro a h2
  have : e.getLast he ∈ e := List.getLast_mem he
  have h3 : (a ++ e).getLast (by simp [he]) = '/' := by simp [h2]
  rw [List.getLast_append_of_ne_nil (by simp [he]) he] at h3
  rw [h3] at this
  exact h this

/-- Both names refer to the same file. -/
theorem tracks_get (fs : FS) {done : List Text} {fp : Text} (h : Tracks done fp) (x : Text) :
    fs.get (sepJoin fp x) = fs.get (slashed (done ++ [x])) := by
  rcases h with ⟨rfl, rfl⟩ | ⟨h1, h2, h3, h4⟩
  · rfl
  · rw [slashed_concat _ _ h1]
    have e : FS.get fs (sepJoin fp x) = FS.get fs (fp ++ '/' :: x) := by
      unfold sepJoin
      by_cases hf : fp = ['/']
      · rw [if_neg (by simp [hf])]
        unfold FS.get
        subst hf
        congr 1
      · rw [if_pos ⟨h2, hf⟩, List.append_assoc]; rfl
    rw [e]
    unfold FS.get
    have c1 := comps_append fp x
    have c2 := comps_append (slashed done) x
    unfold comps at c1 c2 h4
    rw [c1, c2, h4]
    congr 1
    rw [decide_eq_decide, head_append _ h2, h3]
    cases hd : slashed done with
    | nil => simp
    | cons c r => simp

theorem tracks_step {done : List Text} {fp : Text} (h : Tracks done fp) (e : Text) (he : '/' ∉ e) :
    Tracks (done ++ [e]) (if e = [] then fp ++ ['/'] else sepJoin fp e) := by
  right
  refine ⟨by simp, ?_⟩
  by_cases hem : e = []
  · subst hem
    rw [if_pos rfl]
    refine ⟨by simp, ?_⟩
    rcases h with ⟨rfl, rfl⟩ | ⟨h1, h2, h3, h4⟩
    · exact ⟨by simp [slashed], by rfl⟩
    · rw [slashed_concat _ _ h1]
      refine ⟨?_, ?_⟩
      · rw [head_append _ h2, h3]
        cases hd : slashed done <;> simp
      · have c1 := comps_append fp []
        have c2 := comps_append (slashed done) []
        rw [c1, c2, h4]
  · rw [if_neg hem]
    refine ⟨by simp [sepJoin, hem], ?_⟩
    rcases h with ⟨rfl, rfl⟩ | ⟨h1, h2, h3, h4⟩
    · refine ⟨?_, rfl⟩
      show e.head? = _ ↔ (e ++ ['/']).head? = _
      rw [head_append _ hem]
    · rw [slashed_concat _ _ h1]
      by_cases hf : fp = ['/']
      · have e1 : sepJoin fp e = '/' :: e := by unfold sepJoin; rw [if_neg (by simp [hf]), hf]; rfl
        rw [e1]
        refine ⟨?_, ?_⟩
        · have : (slashed done ++ ['/']).head? = some '/' := h3.1 (by rw [hf]; rfl)
          constructor
          · intro _
            cases hd : slashed done with
            | nil => simp
            | cons c r => rw [hd] at this; simpa using this
          · intro _; rfl
        · have c1 := comps_append [] e
          have c2 := comps_append (slashed done) e
          rw [List.nil_append] at c1
          rw [c1, c2, ← h4, hf]
          rfl
      · have e1 : sepJoin fp e = fp ++ '/' :: e := by unfold sepJoin; rw [if_pos ⟨h2, hf⟩, List.append_assoc]; rfl
        rw [e1]
        refine ⟨?_, ?_⟩
        · rw [head_append _ h2, h3]
          cases hd : slashed done <;> simp
        · rw [comps_append, comps_append, h4]

/-- Components without zip files. -/
theorem elemLoop_dirs (fs : FS) (cs rest : List Text) (hc : ∀ c ∈ cs, '/' ∉ c ∧ ¬ ZipName c) (done : List Text) (fp z : Text)
    (h : Tracks done fp) : ∃ fp', Tracks (done ++ cs) fp' ∧ elemLoop fs (cs ++ rest) fp z = elemLoop fs rest fp' z := by
  induction cs generalizing done fp with
  | nil => exact ⟨fp, by simpa using h, rfl⟩
  | cons c cs ih =>
    obtain ⟨hs, hz⟩ := hc c (by simp)
    obtain ⟨fp', h1, h2⟩ := ih (fun x hx => hc x (by simp [hx])) _ _ (tracks_step h c hs)
    refine ⟨fp', by simpa using h1, ?_⟩
    rw [List.cons_append, elemLoop, if_neg (by rw [isZipName_iff]; exact hz)]
    exact h2

/-- Components inside a zip file. -/
theorem elemLoop_inner (fs : FS) (cs : List Text) (hc : ∀ c ∈ cs, c ≠ [] ∧ '/' ∉ c ∧ ¬ ZipName c) (done : List Text) (z : Text)
    (hd : ∀ c ∈ done, c ≠ [] ∧ '/' ∉ c) : elemLoop fs cs (slashed done) z = (slashed (done ++ cs), z) := by
  induction cs generalizing done with
  | nil => simp [elemLoop]
  | cons c cs ih =>
    obtain ⟨he, hs, hz⟩ := hc c (by simp)
    rw [elemLoop, if_neg (by rw [isZipName_iff]; exact hz), if_neg he]
    have e : sepJoin (slashed done) c = slashed (done ++ [c]) := by
      cases hdn : done with
      | nil => rfl
      | cons d r =>
        rw [← hdn]
        have hne : done ≠ [] := by simp [hdn]
        have h1 : slashed done ≠ [] ∧ slashed done ≠ ['/'] := by
          rw [show done = done.dropLast ++ [done.getLast hne] from (List.dropLast_concat_getLast hne).symm]
          have hl := hd _ (List.getLast_mem hne)
          cases hdl : done.dropLast with
          | nil => exact ⟨hl.1, fun h => noslash_ne _ hl.2 hl.1 [] h⟩
          | cons x y =>
            rw [slashed_concat _ _ (by simp)]
            refine ⟨by simp, fun h => noslash_ne _ hl.2 hl.1 (slashed (x :: y) ++ ['/']) ?_⟩
            rw [List.append_assoc]; exact h
        unfold sepJoin
        rw [if_pos h1, slashed_concat _ _ hne, List.append_assoc]
        rfl
    rw [e, ih (fun x hx => hc x (by simp [hx])) (done ++ [c]) (by
      intro x hx
      rcases List.mem_append.1 hx with hx | hx
      · exact hd x hx
      · have : x = c := by simpa using hx
        subst this; exact ⟨he, hs⟩)]
    simp

theorem slashed_inner_ne {i : List Text} (hi : ∀ c ∈ i, c ≠ [] ∧ '/' ∉ c ∧ ¬ ZipName c) (name : Text) :
    sepJoin (slashed i) name = slashed (i ++ [name]) := by
  cases hdn : i with
  | nil => rfl
  | cons d r =>
    rw [← hdn]
    have hne : i ≠ [] := by simp [hdn]
    have h1 : slashed i ≠ [] ∧ slashed i ≠ ['/'] := by
      rw [show i = i.dropLast ++ [i.getLast hne] from (List.dropLast_concat_getLast hne).symm]
      have hl := hi _ (List.getLast_mem hne)
      cases hdl : i.dropLast with
      | nil => exact ⟨hl.1, fun h => noslash_ne _ hl.2.1 hl.1 [] h⟩
      | cons x y =>
        rw [slashed_concat _ _ (by simp)]
        refine ⟨by simp, fun h => noslash_ne _ hl.2.1 hl.1 (slashed (x :: y) ++ ['/']) ?_⟩
        rw [List.append_assoc]; exact h
    unfold sepJoin
    rw [if_pos h1, slashed_concat _ _ hne, List.append_assoc]
    rfl

theorem zip_ne_nil {z : Text} (h : ZipName z) : z ≠ [] := by
  obtain ⟨s, rfl⟩ := h; simp

theorem firstMatch_skip {fs : FS} {name : Text} {p : Place} {ps : List Place} {r : Py Bytes} (h : ∀ r', ¬ p.Has fs name r')
    (hr : FirstMatch fs name ps r) : FirstMatch fs name (p :: ps) r := by
  rcases hr with ⟨pre, q, post, h1, h2, h3⟩ | ⟨h1, h2⟩
  · refine .inl ⟨p :: pre, q, post, by rw [h1]; rfl, ?_, h3⟩
    intro x hx
    rcases List.mem_cons.1 hx with rfl | hx
    · exact h
    · exact h2 x hx
  · refine .inr ⟨?_, h2⟩
    intro x hx
    rcases List.mem_cons.1 hx with rfl | hx
    · exact h
    · exact h1 x hx

/-- The full statement. Violated: see `C43_violated`. -/
def C43_full : Prop :=
  ∀ (fs : FS), Tree fs → ∀ (ps : List Place), (∀ p ∈ ps, p.Proper) → ∀ name : Text,
    FirstMatch fs name ps (pathRead fs (ps.map Place.text) name)

theorem pathLoop_first {fs : FS} (ht : Tree fs) (name : Text) (ps : List Place) (hp : ∀ p ∈ ps, p.Proper)
    (ho : ps.Pairwise fun a b => a.ZipExists fs → b.isZip) : ∀ z : Text, (z ≠ [] → ∀ p ∈ ps, p.isZip) →
    FirstMatch fs name ps (pathLoop fs name (ps.map Place.text) z) := by
  induction ps with
  | nil => intro z _; exact .inr ⟨by simp, rfl⟩
  | cons p ps ih =>
    intro z hz
    have ih' := ih (fun q hq => hp q (by simp [hq])) (List.Pairwise.of_cons ho)
    have hpr := hp p (by simp)
    rw [List.map_cons, pathLoop]
    cases p with
    | dir cs =>
      obtain ⟨h1, h2, h3⟩ := hpr
      have hz0 : z = [] := Classical.byContradiction fun hne => hz hne (.dir cs) (by simp)
      subst hz0
      obtain ⟨fp, t1, t2⟩ := elemLoop_dirs fs cs [] h3 [] [] [] (.inl ⟨rfl, rfl⟩)
      have e1 : elemLoop fs (splitSep (Place.text (.dir cs))) [] [] = (fp, []) := by
        show elemLoop fs (splitSep (slashed cs)) [] [] = _
        rw [splitSep_slashed cs h1 (fun c hc => (h3 c hc).1)]
        rw [List.append_nil] at t2
        rw [t2]; rfl
      rw [e1]
      dsimp only
      rw [if_neg (by simp), tracks_get fs t1 name, List.nil_append]
      cases hg : FS.get fs (slashed (cs ++ [name])) with
      | some e =>
        exact .inl ⟨[], .dir cs, ps, rfl, by simp, e, hg, rfl⟩
      | none =>
        refine firstMatch_skip ?_ (ih' [] (by simp))
        rintro r' ⟨e, h, _⟩
        rw [hg] at h; cases h
    | zip f i =>
      obtain ⟨d, zn, rfl, q1, q2, q3, q4⟩ := hpr
      have hzip : ∀ p ∈ ps, (Place.zip (d ++ [zn]) i).ZipExists fs → p.isZip := fun p hp => (List.pairwise_cons.1 ho).1 p hp
      obtain ⟨fp, t1, t2⟩ := elemLoop_dirs fs d (zn :: i) q3 [] [] z (.inl ⟨rfl, rfl⟩)
      rw [List.nil_append] at t1
      have hsl : splitSep (Place.text (.zip (d ++ [zn]) i)) = d ++ (zn :: i) := by
        show splitSep (slashed (d ++ [zn] ++ i)) = _
        rw [splitSep_slashed _ (by simp)]
        · simp
        · intro c hc
          simp only [List.mem_append, List.mem_singleton] at hc
          rcases hc with (hc | rfl) | hc
          · exact (q3 c hc).1
          · exact q2
          · exact (q4 c hc).2.1
      have hget : fs.get (sepJoin fp zn) = fs.get (slashed (d ++ [zn])) := tracks_get fs t1 zn
      have htr := tracks_step t1 zn q2
      rw [if_neg (zip_ne_nil q1)] at htr
      have hne : sepJoin fp zn ≠ [] := by simp [sepJoin, zip_ne_nil q1]
      rw [hsl, t2, elemLoop, if_pos ((isZipName_iff _).2 q1), if_neg (zip_ne_nil q1)]
      rw [hget]
      cases hg : FS.get fs (slashed (d ++ [zn])) with
      | some e =>
        dsimp only
        have := elemLoop_inner fs i q4 [] (sepJoin fp zn) (by simp)
        rw [show slashed [] = [] from rfl, List.nil_append] at this
        rw [this]
        dsimp only
        rw [if_pos hne, hget, hg]
        dsimp only
        cases hm : e.zip with
        | error x => exact .inl ⟨[], _, ps, rfl, by simp, e, hg, .inr ⟨x, hm, rfl⟩⟩
        | ok m =>
        dsimp only
        rw [slashed_inner_ne q4]
        cases hmm : m (slashed (i ++ [name])) with
        | some r => exact .inl ⟨[], _, ps, rfl, by simp, e, hg, .inl ⟨m, hm, hmm⟩⟩
        | none =>
          refine firstMatch_skip ?_ (ih' (sepJoin fp zn) (fun _ p hp => hzip p hp (by simp [Place.ZipExists, hg])))
          rintro r' ⟨e', h1, h⟩
          rw [hg] at h1; cases h1
          rcases h with ⟨m', h2, h3⟩ | ⟨x, h2, _⟩
          · rw [hm] at h2; cases h2
            rw [hmm] at h3; cases h3
          · rw [hm] at h2; cases h2
      | none =>
        dsimp only
        rw [if_neg (by simp), tracks_get fs htr name, slashed_concat _ _ (by simp)]
        have : FS.get fs (slashed (d ++ [zn]) ++ '/' :: name) = none := by
          unfold FS.get at hg ⊢
          have c1 := comps_append (slashed (d ++ [zn])) name
          unfold comps at c1
          rw [c1]
          have hne2 : slashed (d ++ [zn]) ≠ [] := by
            cases hd : d with
            | nil => exact zip_ne_nil q1
            | cons x y => rw [slashed_concat _ _ (by simp)]; simp
          rw [head_append _ hne2]
          exact ht _ _ _ hg
        rw [this]
        refine firstMatch_skip ?_ (ih' [] (by simp))
        rintro r' ⟨e', h1, _⟩
        rw [hg] at h1; cases h1

/-- C43, for path lists in which no directory follows an existing zip file: the contents come from the first place that has the
file (or is a zip file that cannot be opened, whose error is raised); `NameError` if and only if there is none (or if reading the
file found raises one, which it does not). -/
theorem C43_first_partial {fs : FS} (ht : Tree fs) (ps : List Place) (hp : ∀ p ∈ ps, p.Proper)
    (ho : ps.Pairwise fun a b => a.ZipExists fs → b.isZip) (name : Text) :
    FirstMatch fs name ps (pathRead fs (ps.map Place.text) name) :=
  pathLoop_first ht name ps hp ho [] (by simp)

/-- The file system of the examples: directories `x` (without `f`), `d` (with `f`), zip files `a.zip` (containing only `d/f`
with other contents) and `b.zip` (containing `s/f`). -/
def exFS : FS := fun abs cs =>
  if abs = true then none
  else if cs = [] ∨ cs = [t!"d"] ∨ cs = [t!"x"] then some ⟨.error .osError, .error .osError⟩
  else if cs = [t!"d", t!"f"] then some ⟨.ok [1], .error .badZipFile⟩
  else if cs = [t!"a.zip"] then some ⟨.ok [2], .ok fun n => if n = t!"d/f" then some (.ok [9]) else none⟩
  else if cs = [t!"b.zip"] then some ⟨.ok [3], .ok fun n => if n = t!"s/f" then some (.ok [5]) else none⟩
  else none

theorem exFS_tree : Tree exFS := by
  intro abs cs ds h
  cases ds with
  | nil => simpa using h
  | cons x ds =>
    unfold exFS at h ⊢
    split
    · rfl
    · rename_i ha
      rw [if_neg ha] at h
      repeat' split at h
      all_goals (first | cases h | skip)
      rename_i h1 h2 h3 h4
      rw [if_neg, if_neg, if_neg, if_neg]
      · intro hc
        cases cs with
        | nil => exact h1 (.inl rfl)
        | cons c cs => simp at hc
      · intro hc
        cases cs with
        | nil => exact h1 (.inl rfl)
        | cons c cs => simp at hc
      · intro hc
        match cs, hc with
        | [], _ => exact h1 (.inl rfl)
        | [c], hc => simp at hc; exact h1 (.inr (.inl (by rw [hc.1])))
        | [c, c2], hc => simp at hc
        | c :: c2 :: c3 :: cs, hc => simp at hc
      · intro hc
        cases cs with
        | nil => exact h1 (.inl rfl)
        | cons c cs => simp at hc

theorem dirPlace (c : Text) (h1 : c ≠ []) (h2 : '/' ∉ c) (h3 : isZipName c = false) : (Place.dir [c]).Proper :=
  ⟨by simp, by simpa using h1, by
    intro x hx
    have : x = c := by simpa using hx
    subst this
    exact ⟨h2, by rw [← isZipName_iff, h3]; simp⟩⟩

/-- Non-vacuity: `['x', 'd', 'a.zip', 'b.zip/s']`. -/
example : FirstMatch exFS (t!"f") [.dir [t!"x"], .dir [t!"d"], .zip [t!"a.zip"] [], .zip [t!"b.zip"] [t!"s"]]
    (pathRead exFS [t!"x", t!"d", t!"a.zip", t!"b.zip/s"] (t!"f")) := by
  refine C43_first_partial exFS_tree [.dir [t!"x"], .dir [t!"d"], .zip [t!"a.zip"] [], .zip [t!"b.zip"] [t!"s"]] ?_ ?_ _
  · intro p hp
    simp only [List.mem_cons, List.not_mem_nil, or_false] at hp
    rcases hp with rfl | rfl | rfl | rfl
    · exact dirPlace _ (by decide) (by decide) (by decide)
    · exact dirPlace _ (by decide) (by decide) (by decide)
    · exact ⟨[], _, rfl, ⟨t!"a", rfl⟩, by decide, by simp, by simp⟩
    · refine ⟨[], _, rfl, ⟨t!"b", rfl⟩, by decide, by simp, ?_⟩
      intro c hc
      have : c = t!"s" := by simpa using hc
      subst this
      exact ⟨by decide, by decide, by rw [← isZipName_iff]; decide⟩
  · simp [Place.isZip, Place.ZipExists]

example : pathRead exFS [t!"x", t!"b.zip/s"] (t!"f") = .ok [5] := by decide +kernel

/-- `['b.zip', 'd']`: the file in the directory `d` is not found. -/
theorem C43_violated : ¬ C43_full := by
  intro h
  have h1 := h exFS exFS_tree [.zip [t!"b.zip"] [], .dir [t!"d"]] (by
    intro p hp
    simp only [List.mem_cons, List.not_mem_nil, or_false] at hp
    rcases hp with rfl | rfl
    · exact ⟨[], _, rfl, ⟨t!"b", rfl⟩, by decide, by simp, by simp⟩
    · exact dirPlace _ (by decide) (by decide) (by decide)) (t!"f")
  rw [show pathRead exFS ([.zip [t!"b.zip"] [], .dir [t!"d"]].map Place.text) (t!"f") = .error .nameError by decide +kernel] at h1
  have hd : (Place.dir [t!"d"]).Has exFS (t!"f") (.ok [1]) := ⟨_, rfl, rfl⟩
  rcases h1 with ⟨pre, p, post, h2, h3, h4⟩ | ⟨h2, _⟩
  · have hn : ∀ r, ¬ (Place.zip [t!"b.zip"] []).Has exFS (t!"f") r := by
      rintro r ⟨e, q1, q⟩
      have : e = ⟨.ok [3], .ok fun n => if n = t!"s/f" then some (.ok [5]) else none⟩ := (Option.some.inj q1).symm
      subst this
      rcases q with ⟨m, q2, q3⟩ | ⟨x, q2, _⟩
      · cases q2
        simp [slashed] at q3
      · cases q2
    match pre, h2 with
    | [], h2 =>
      simp at h2
      obtain ⟨rfl, _⟩ := h2
      exact hn _ h4
    | [q], h2 =>
      simp at h2
      obtain ⟨_, rfl, _⟩ := h2
      obtain ⟨e, q1, q2⟩ := h4
      have : e = ⟨.ok [1], .error .badZipFile⟩ := (Option.some.inj q1).symm
      subst this
      cases q2
    | a :: b :: q, h2 => simp at h2
  · exact h2 _ (by simp) _ hd

/-- Worse, the contents of another file can be returned: with `['a.zip', 'd']`, the member `d/f` of `a.zip` (although the path of
the zip file is its root, where there is no `f`) instead of the file in the directory `d`. -/
theorem C43_wrong_file : pathRead exFS [t!"a.zip", t!"d"] (t!"f") = .ok [9] ∧ pathRead exFS [t!"d"] (t!"f") = .ok [1] ∧
    pathRead exFS [t!"a.zip"] (t!"f") = .error .nameError := by decide +kernel

/-! ## C44 -/

theorem dchr_zero : dchr 0 = '0' := by decide

/-- Decimal digits with leading zeros. -/
theorem zeros_digits (k n : Nat) : ∃ ds : List Nat, List.replicate k '0' ++ natDec n = ds.map dchr ∧ (∀ d ∈ ds, d < 10) ∧
    ds.foldl (fun a d => a * 10 + d) 0 = n ∧ ds ≠ [] := by
  obtain ⟨ds, h1, h2, h3, h4, _⟩ := natDec_digits n
  refine ⟨List.replicate k 0 ++ ds, ?_, ?_, ?_, ?_⟩
  · rw [List.map_append, h1, List.map_replicate, dchr_zero]
  · intro d hd
    rcases List.mem_append.1 hd with hd | hd
    · rw [(List.mem_replicate.1 hd).2]; decide
    · exact h2 d hd
  · rw [List.foldl_append]
    have : (List.replicate k 0).foldl (fun a d => a * 10 + d) 0 = 0 := by
      induction k with
      | zero => rfl
      | succ k ih => rw [List.replicate_succ, List.foldl_cons]; exact ih
    rw [this, h3]
  · simp [h4]

theorem intBody_digits (ds : List Nat) (h : ∀ d ∈ ds, d < 10) (hne : ds ≠ []) :
    intBody 10 (ds.map dchr) = some (ds.foldl (fun a d => a * 10 + d) 0) := by
  have hv := digitsVal_digits ds h hne
  rw [intBody.eq_def]
  split
  · rename_i x r heq
    rw [if_neg (by simp), if_neg (by simp), if_neg (by simp), if_neg (by simp)]
    exact hv
  · simpa using hv

theorem pyInt_dec5 (i : Int) : pyInt 10 (dec5 i) = some i := by
  unfold pyInt dec5
  by_cases hi : i < 0
  · rw [if_pos hi]
    obtain ⟨ds, h1, h2, h3, h4⟩ := zeros_digits (4 - (natDec i.natAbs).length) i.natAbs
    rw [h1, pyStrip_self]
    · simp only [intBody_digits ds h2 h4, h3, Option.map_some]
      congr 1; omega
    · intro c hc
      rcases List.mem_cons.1 hc with rfl | hc
      · rfl
      · obtain ⟨d, hd, rfl⟩ := List.mem_map.1 hc
        exact (dchr_lt (h2 d hd)).2.2.2.2.2.1
  · rw [if_neg hi]
    obtain ⟨ds, h1, h2, h3, h4⟩ := zeros_digits (5 - (natDec i.natAbs).length) i.natAbs
    rw [h1, pyStrip_self]
    · have h := intBody_digits ds h2 h4
      rw [h3] at h
      have hc : ∀ c ∈ ds.map dchr, c ≠ '-' ∧ c ≠ '+' := by
        intro c hc
        obtain ⟨d, hd, rfl⟩ := List.mem_map.1 hc
        obtain ⟨_, _, _, a, b, _⟩ := dchr_lt (h2 d hd)
        exact ⟨a, b⟩
      generalize ds.map dchr = s at h hc
      split
      · exact absurd rfl (hc '-' (by simp)).1
      · exact absurd rfl (hc '+' (by simp)).2
      · rw [h, Option.map_some]; congr 1; omega
    · intro c hc
      obtain ⟨d, hd, rfl⟩ := List.mem_map.1 hc
      exact (dchr_lt (h2 d hd)).2.2.2.2.2.1

/-- C44: the id recovered from the file name of a model is its id. -/
theorem C44_roundtrip (i : Int) : filenameToId (idToFilename i) = some i := by
  unfold filenameToId idToFilename
  have e1 : (t!"smdx_" ++ dec5 i ++ t!".xml").length = (dec5 i).length + 9 := by simp
  rw [e1, if_pos]
  · rw [show (dec5 i).length + 9 - 4 = (t!"smdx_" ++ dec5 i).length by simp, List.take_left']
    · exact pyInt_dec5 i
    · rfl
  · refine ⟨by rw [List.append_assoc]; exact List.take_left' rfl, ?_⟩
    rw [show (dec5 i).length + 9 - 4 = (t!"smdx_" ++ dec5 i).length by simp]
    exact List.drop_left' rfl

/-- C44: different ids have different file names. -/
theorem C44_injective (i j : Int) (h : idToFilename i = idToFilename j) : i = j := by
  have h1 := C44_roundtrip i
  rw [h, C44_roundtrip j] at h1
  exact (Option.some.inj h1).symm

theorem filename_form (f : Text) (i : Int) (h : filenameToId f = some i) :
    ∃ n, (f = t!"smdx_" ++ n ++ t!".xml" ∨ (f.length < 9 ∧ n = [])) ∧ pyInt 10 n = some i := by
  unfold filenameToId at h
  split at h
  · rename_i hc
    refine ⟨_, ?_, h⟩
    by_cases hl : f.length < 9
    · right
      exact ⟨hl, by rw [List.drop_eq_nil_iff, List.length_take]; omega⟩
    · left
      have h1 : f = f.take (f.length - 4) ++ t!".xml" := by
        rw [← hc.2]; exact (List.take_append_drop _ _).symm
      have h2 : (f.take (f.length - 4)).take 5 = t!"smdx_" := by
        rw [List.take_take, show min 5 (f.length - 4) = 5 by omega, hc.1]
      have h3 := List.take_append_drop 5 (f.take (f.length - 4))
      rw [h2] at h3
      rw [h3]
      exact h1
  · cases h

/-- C44: names of another form have no id, and none is invented: the id is the number between prefix and suffix. -/
theorem C44_form (f : Text) (i : Int) (h : filenameToId f = some i) :
    ∃ n, f = t!"smdx_" ++ n ++ t!".xml" ∧ DecText n i := by
  obtain ⟨n, h1 | ⟨_, rfl⟩, h2⟩ := filename_form f i h
  · exact ⟨n, h1, (pyInt10_iff _ _).1 h2⟩
  · have : pyInt 10 [] = none := by decide
    rw [this] at h2; cases h2

example : idToFilename 103 = t!"smdx_00103.xml" ∧ idToFilename 123456 = t!"smdx_123456.xml" ∧ idToFilename (-7) = t!"smdx_-0007.xml" ∧
    filenameToId (t!"smdx_00103.xml") = some 103 ∧ filenameToId (t!"smdx_abc.xml") = none ∧ filenameToId (t!"smdx_.xml") = none := by
  decide +kernel

/-! ## C45 -/

/-- The full statement: a definition that was obtained before is obtained again as the same object, and no file is read.
Violated: see `C45_violated`. -/
def C45_full : Prop :=
  ∀ (τ : Type) (env : TypeEnv τ) (history : List Key) (id : Key) (st1 st2 : TypeState τ) (rs : List (Py Nat)) (a : Nat),
    typeRun env {} history = (st1, rs) → modelTypeGet env st1 id = (st2, .ok a) → modelTypeGet env st2 id = (st2, .ok a)

/-- All keys of the cache are ints and all references exist. -/
def IntKeys {τ} (st : TypeState τ) : Prop := ∀ k v, dictGet st.cache k = some v → (∃ i, k = .int i) ∧ v < st.objs.length

/-- Reading the definition of a model, without a cache. -/
def loadType {τ} (env : TypeEnv τ) (id : Key) : Py τ :=
  match id.toInt with
  | .error e => .error e
  | .ok i =>
    match smdxData env (idToFilename i) with
    | .error e => .error e
    | .ok [] => .error .sunSpecError
    | .ok (b :: d) =>
      match env.parse (b :: d) with
      | .error e => .error e
      | .ok (.error _) => .error .sunSpecError
      | .ok (.ok t) => .ok t

theorem modelTypeGet_miss {τ} (env : TypeEnv τ) (st : TypeState τ) (id : Key) (h : IntKeys st) (st' : TypeState τ) (r : Py Nat)
    (hr : modelTypeGet env st id = (st', r)) : IntKeys st' ∧
    (∀ e, r = .error e → loadType env id = .error e ∧ st'.objs = st.objs) ∧
    (∀ a, r = .ok a → a = st.objs.length ∧ st'.reads = st.reads + 1 ∧ ∃ t, loadType env id = .ok t ∧ st'.objs = st.objs ++ [t]) := by
  have hmiss : dictGet st.cache (.str id.text) = none := by
    cases hd : dictGet st.cache (.str id.text) with
    | none => rfl
    | some v => obtain ⟨⟨i, hi⟩, _⟩ := h _ _ hd; cases hi
  unfold modelTypeGet at hr
  rw [hmiss] at hr
  unfold loadType
  cases hi : id.toInt with
  | error e =>
    rw [hi] at hr; cases hr
    exact ⟨h, fun e he => ⟨by simpa using he, rfl⟩, by simp⟩
  | ok i =>
    rw [hi] at hr
    dsimp only at hr ⊢
    cases hd : smdxData env (idToFilename i) with
    | error e =>
      rw [hd] at hr; cases hr
      exact ⟨h, fun e he => ⟨by simpa using he, rfl⟩, by simp⟩
    | ok d =>
      rw [hd] at hr
      cases d with
      | nil =>
        cases hr
        exact ⟨h, fun e he => ⟨by simpa using he, rfl⟩, by simp⟩
      | cons b d =>
        dsimp only at hr ⊢
        cases hp : env.parse (b :: d) with
        | error e =>
          rw [hp] at hr; cases hr
          exact ⟨h, fun e he => ⟨by simpa using he, rfl⟩, by simp⟩
        | ok x =>
          rw [hp] at hr
          cases x with
          | error e =>
            cases hr
            exact ⟨h, fun e he => ⟨by simpa using he, rfl⟩, by simp⟩
          | ok t =>
            cases hr
            refine ⟨?_, by simp, ?_⟩
            · intro k v hk
              dsimp only at hk ⊢
              rw [dictGet_set] at hk
              rw [List.length_append]
              split at hk
              · rename_i heq
                cases hk
                exact ⟨⟨_, heq⟩, by simp⟩
              · have := h k v hk
                exact ⟨this.1, by omega⟩
            · intro a ha
              cases ha
              exact ⟨rfl, rfl, t, rfl, rfl⟩

theorem typeRun_keys {τ} (env : TypeEnv τ) (ks : List Key) : ∀ st : TypeState τ, IntKeys st → IntKeys (typeRun env st ks).1 := by
  induction ks with
  | nil => intro st h; exact h
  | cons k ks ih =>
    intro st h
    rw [typeRun]
    exact ih _ (modelTypeGet_miss env st k h _ _ rfl).1

theorem intKeys_empty {τ} : IntKeys ({} : TypeState τ) := by
  intro k v h; simp [dictGet] at h

/-- C45, as implemented: whatever was requested before, every successful request reads a file and creates a new definition object
(the dictionary is looked up with texts but filled with ints). -/
theorem C45_never_cached {τ} (env : TypeEnv τ) (history : List Key) (id : Key) (a : Nat) (st' : TypeState τ)
    (h : modelTypeGet env (typeRun env {} history).1 id = (st', .ok a)) :
    st'.reads = (typeRun env {} history).1.reads + 1 ∧ a = (typeRun env {} history).1.objs.length ∧ st'.objs.length = a + 1 := by
  obtain ⟨_, _, h3⟩ := modelTypeGet_miss env _ id (typeRun_keys env history _ intKeys_empty) _ _ h
  obtain ⟨h4, h5, t, _, h6⟩ := h3 a rfl
  exact ⟨h5, h4, by rw [h6, List.length_append, h4]; rfl⟩

theorem modelId_iff (id : Key) (i : Int) : ModelId id i ↔ id.toInt = .ok i := by
  cases id with
  | int j =>
    constructor
    · intro h; cases h; rfl
    · intro h; cases h; exact .int _
  | str s =>
    unfold Key.toInt
    dsimp only
    cases hp : pyInt 10 s with
    | none =>
      constructor
      · intro h
        cases h with
        | str hd => rw [(pyInt10_iff s i).2 hd] at hp; cases hp
      · intro h; cases h
    | some j =>
      constructor
      · intro h
        cases h with
        | str hd => rw [(pyInt10_iff s i).2 hd] at hp; cases hp; rfl
      · intro h; cases h; exact .str ((pyInt10_iff s _).1 hp)

theorem loadType_spec {τ} (env : TypeEnv τ) (id : Key) (r : Py τ) (h : loadType env id = r) :
    (r = .error .valueError ∧ ∀ i, ¬ ModelId id i) ∨ ∃ i, ModelId id i ∧ Loaded env (smdxData env (idToFilename i)) r := by
  unfold loadType at h
  cases hi : id.toInt with
  | error e =>
    rw [hi] at h
    refine .inl ⟨?_, fun i hm => by rw [(modelId_iff id i).1 hm] at hi; cases hi⟩
    cases id with
    | int j => cases hi
    | str s =>
      unfold Key.toInt at hi
      dsimp only at hi
      cases hp : pyInt 10 s with
      | none => rw [hp] at hi; cases hi; exact h.symm
      | some j => rw [hp] at hi; cases hi
  | ok i =>
    rw [hi] at h
    dsimp only at h
    refine .inr ⟨i, (modelId_iff id i).2 hi, ?_⟩
    cases hd : smdxData env (idToFilename i) with
    | error e => rw [hd] at h; cases h; exact .inl rfl
    | ok d =>
      rw [hd] at h
      cases d with
      | nil => cases h; exact .inr (.inl ⟨rfl, rfl⟩)
      | cons b d =>
        dsimp only at h
        cases hp : env.parse (b :: d) with
        | error e => rw [hp] at h; cases h; exact .inr (.inr ⟨_, rfl, by simp, .inl hp⟩)
        | ok x =>
          rw [hp] at h
          cases x with
          | error e => cases h; exact .inr (.inr ⟨_, rfl, by simp, .inr ⟨e, hp, rfl⟩⟩)
          | ok t => cases h; exact ⟨_, rfl, by simp, hp⟩

/-- C45, the part that holds: the definition does not depend on the history: every request, successful or not, has the outcome of
reading the file of the model (`C45_definition_file_partial` tells which file that is); an id that is not a number is a `ValueError`. -/
theorem C45_same_definition_partial {τ} (env : TypeEnv τ) (history : List Key) (id : Key) (st' : TypeState τ) (r : Py Nat)
    (h : modelTypeGet env (typeRun env {} history).1 id = (st', r)) :
    match r with
    | .ok a => ∃ i t, ModelId id i ∧ st'.objs[a]? = some t ∧ Loaded env (smdxData env (idToFilename i)) (.ok t)
    | .error e => (e = .valueError ∧ ∀ i, ¬ ModelId id i) ∨
        ∃ i, ModelId id i ∧ Loaded env (smdxData env (idToFilename i)) (.error e) := by
  obtain ⟨_, h2, h3⟩ := modelTypeGet_miss env _ id (typeRun_keys env history _ intKeys_empty) _ _ h
  cases r with
  | error e =>
    rcases loadType_spec env id _ (h2 e rfl).1 with ⟨h4, h5⟩ | h4
    · exact .inl ⟨by cases h4; rfl, h5⟩
    · exact .inr h4
  | ok a =>
    obtain ⟨h4, _, t, h5, h6⟩ := h3 a rfl
    rcases loadType_spec env id _ h5 with ⟨h7, _⟩ | ⟨i, h7, h8⟩
    · cases h7
    · exact ⟨i, t, h7, by rw [h6, h4]; simp, h8⟩

/-- The local part of the lookup. -/
def localData {τ} (env : TypeEnv τ) (filename : Text) : Py Bytes :=
  match env.fs.get (if (env.fs.get filename).isSome then filename else env.default ++ '/' :: filename) with
  | none => .ok []
  | some e =>
    match e.data with
    | .ok d => .ok d
    | .error _ => .error .sunSpecError

theorem localData_spec {τ} (env : TypeEnv τ) (name : Text) : LocalFile env.fs env.default name (localData env name) := by
  have hf : ∀ e : Entry, FileRead e (match e.data with | .ok d => .ok d | .error _ => .error .sunSpecError) := by
    intro e
    cases h : e.data with
    | ok d => exact .inl ⟨d, h, rfl⟩
    | error x => exact .inr ⟨x, h, rfl⟩
  unfold localData
  cases h1 : env.fs.get name with
  | some e =>
    rw [if_pos (by rfl), h1]
    exact .inl ⟨e, h1, hf e⟩
  | none =>
    rw [if_neg (by simp)]
    cases h2 : env.fs.get (env.default ++ '/' :: name) with
    | some e => exact .inr (.inl ⟨h1, e, h2, hf e⟩)
    | none => exact .inr (.inr ⟨h1, h2, rfl⟩)

/-- C45: the file whose contents are parsed is that of the first place of the path list (see C43) that has it, else the one in the
current directory, else the one in the default directory. -/
theorem C45_definition_file_partial {τ} (env : TypeEnv τ) (ht : Tree env.fs) (ps : Option (List Place))
    (hps : env.pathlist = ps.map (·.map Place.text)) (hp : ∀ l, ps = some l → (∀ p ∈ l, p.Proper) ∧
      l.Pairwise fun a b => a.ZipExists env.fs → b.isZip) (name : Text) :
    DefinitionFile env.fs ps env.default name (smdxData env name) := by
  have hloc := localData_spec env name
  cases ps with
  | none =>
    have e : smdxData env name = localData env name := by
      unfold smdxData
      rw [hps]; rfl
    rw [e]; exact hloc
  | some l =>
    obtain ⟨h1, h2⟩ := hp l rfl
    have hfm := C43_first_partial ht l h1 h2 name
    refine ⟨_, hfm, ?_⟩
    generalize hr : pathRead env.fs (l.map Place.text) name = r1
    have e : smdxData env name = if r1 = .error .nameError ∨ r1 = .ok [] then localData env name else r1 := by
      unfold smdxData
      rw [hps]
      simp only [Option.map_some, hr]
      cases r1 with
      | error x =>
        by_cases hx : x = .nameError
        · simp only [hx, if_pos, true_or]; rfl
        · simp only [Except.error.injEq, hx, reduceCtorEq, or_self, if_false]
      | ok d =>
        cases d with
        | nil => simp only [or_true, if_true]; rfl
        | cons b d => simp
    rw [e]
    split
    · exact hloc
    · rfl

example : smdxData ({ fs := exFS, pathlist := some [t!"x", t!"d"], default := t!"m", parse := fun _ => .error .parseError, idOf := id } : TypeEnv Int)
    (t!"f") = .ok [1] := by decide +kernel

/-- The environment of the examples: definitions are numbers in files of one byte, in the directory `/m`. -/
def exEnv : TypeEnv Int where
  fs := fun abs cs => if abs = true ∧ cs = [t!"m", t!"smdx_00007.xml"] then some ⟨.ok [7], .error .badZipFile⟩ else none
  pathlist := none
  default := t!"/m"
  parse := fun d => .ok (.ok (beDec d))
  idOf := id

theorem C45_violated : ¬ C45_full := by
  intro h
  have h1 : (modelTypeGet exEnv {} (.int 7)).2 = .ok 0 := by decide +kernel
  generalize hX : modelTypeGet exEnv {} (.int 7) = X at h1
  obtain ⟨st2, r⟩ := X
  dsimp only at h1; subst h1
  have h2 := h Int exEnv [] (.int 7) {} st2 [] 0 rfl hX
  have hst : st2 = (typeRun exEnv {} [.int 7]).1 := by rw [typeRun, typeRun]; dsimp only; rw [hX]
  rw [hst] at h2
  have := (C45_never_cached exEnv [.int 7] (.int 7) 0 _ h2).1
  omega

example : (typeRun exEnv {} [.int 7, .str (t!"7"), .int 8, .str (t!"x")]).2 = [.ok 0, .ok 1, .error .sunSpecError, .error .valueError] ∧
    (typeRun exEnv {} [.int 7, .str (t!"7"), .int 8]).1.reads = 2 := by decide +kernel

/-! ## C49 -/

/-- All paths given to `fresh_file_pathlist` are accepted by `os.fspath`. -/
def PathProg.Accepted : PathProg → Prop
  | .other _ | .add _ => True
  | .seq a b | .tryExcept a b => a.Accepted ∧ b.Accepted
  | .fresh paths body => (∀ p ∈ paths, ∃ t, p = .ok t) ∧ body.Accepted

/-- The full statement: after `with fresh_file_pathlist(...)`, whatever happens in it, the path list is the one that was in effect
before, with the same contents. Violated: see `C49_violated`. -/
def C49_full : Prop :=
  ∀ (paths : List (Py Text)) (body : PathProg) (s : PathState), (∀ i, s.cur = some i → i < s.lists.length) →
    let s' := ((PathProg.fresh paths body).exec s).1
    s'.cur = s.cur ∧ ∀ (i : Nat) (l : List Text), s.lists[i]? = some l → s'.lists[i]? = some l

theorem addPaths_ok (paths : List (Py Text)) (h : ∀ p ∈ paths, ∃ t, p = .ok t) : ∀ l, (addPaths paths l).2 = .ok () := by
  induction paths with
  | nil => intro l; rfl
  | cons p ps ih =>
    intro l
    obtain ⟨t, rfl⟩ := h p (by simp)
    exact ih (fun q hq => h q (by simp [hq])) _

/-- Programs leave the path list in effect as it was, and change no contents but of the list in effect. -/
theorem exec_cur (p : PathProg) (h : p.Accepted) : ∀ s : PathState, (∀ i, s.cur = some i → i < s.lists.length) →
    (p.exec s).1.cur = s.cur ∧ s.lists.length ≤ (p.exec s).1.lists.length ∧
    ∀ (i : Nat) (l : List Text), s.cur ≠ some i → s.lists[i]? = some l → (p.exec s).1.lists[i]? = some l := by
  induction p with
  | other r => intro s _; exact ⟨rfl, Nat.le_refl _, fun _ _ _ h => h⟩
  | add path =>
    intro s _
    unfold PathProg.exec
    cases hc : s.cur with
    | none => exact ⟨hc, Nat.le_refl _, fun _ _ _ h => h⟩
    | some j =>
      refine ⟨rfl, by simp, ?_⟩
      intro i l hi hl
      dsimp only
      rw [List.getElem?_modify]
      have : j ≠ i := fun h => hi (by rw [h])
      simp only [if_neg this]
      simpa using hl
  | seq a b iha ihb =>
    intro s hs
    have h1 := iha h.1 s hs
    rw [PathProg.exec]
    generalize a.exec s = X at h1
    obtain ⟨s1, r1⟩ := X
    cases r1 with
    | error e => exact h1
    | ok u =>
      dsimp only at h1 ⊢
      have h2 := ihb h.2 s1 (by intro i hi; rw [h1.1] at hi; have := hs i hi; omega)
      refine ⟨h2.1.trans h1.1, by omega, ?_⟩
      intro i l hi hl
      exact h2.2.2 i l (by rw [h1.1]; exact hi) (h1.2.2 i l hi hl)
  | tryExcept a b iha ihb =>
    intro s hs
    have h1 := iha h.1 s hs
    rw [PathProg.exec]
    generalize a.exec s = X at h1
    obtain ⟨s1, r1⟩ := X
    cases r1 with
    | ok u => exact h1
    | error e =>
      dsimp only at h1 ⊢
      have h2 := ihb h.2 s1 (by intro i hi; rw [h1.1] at hi; have := hs i hi; omega)
      refine ⟨h2.1.trans h1.1, by omega, ?_⟩
      intro i l hi hl
      exact h2.2.2 i l (by rw [h1.1]; exact hi) (h1.2.2 i l hi hl)
  | fresh paths body ih =>
    intro s hs
    rw [PathProg.exec]
    dsimp only
    rw [addPaths_ok paths h.1 []]
    dsimp only
    have h2 := ih h.2 ⟨some s.lists.length, s.lists ++ [(addPaths paths []).1]⟩ (by
      intro i hi; cases hi; simp)
    refine ⟨rfl, ?_, ?_⟩
    · have := h2.2.1
      simp only [List.length_append, List.length_singleton] at this
      omega
    · intro i l _ hl
      have hi : i < s.lists.length := by
        rcases Nat.lt_or_ge i s.lists.length with h | h
        · exact h
        · rw [List.getElem?_eq_none h] at hl; cases hl
      exact h2.2.2 i l (by simp; omega) (by dsimp only; rw [List.getElem?_append_left hi]; exact hl)

/-- C49: if all paths are acceptable, then after `with fresh_file_pathlist(...)`, for every body, with any nesting and whether it
raises or not, the path list in effect is the previous one, and all lists that existed before have their contents. The outcome is
that of the body, which runs with the given paths. -/
theorem C49_restored_partial (paths : List (Py Text)) (hp : ∀ p ∈ paths, ∃ t, p = .ok t) (body : PathProg) (hb : body.Accepted)
    (s : PathState) :
    let s' := ((PathProg.fresh paths body).exec s).1
    s'.cur = s.cur ∧ (∀ (i : Nat) (l : List Text), s.lists[i]? = some l → s'.lists[i]? = some l) ∧
    ((PathProg.fresh paths body).exec s).2 =
      (body.exec ⟨some s.lists.length, s.lists ++ [(addPaths paths []).1]⟩).2 := by
  dsimp only
  rw [PathProg.exec]
  dsimp only
  rw [addPaths_ok paths hp []]
  dsimp only
  have h2 := exec_cur body hb ⟨some s.lists.length, s.lists ++ [(addPaths paths []).1]⟩ (by
    intro i hi; cases hi; simp)
  refine ⟨rfl, ?_, rfl⟩
  intro i l hl
  have hi : i < s.lists.length := by
    rcases Nat.lt_or_ge i s.lists.length with h | h
    · exact h
    · rw [List.getElem?_eq_none h] at hl; cases hl
  exact h2.2.2 i l (by simp; omega) (by dsimp only; rw [List.getElem?_append_left hi]; exact hl)

/-- The paths of the fresh list are those given, in order. -/
theorem C49_paths_partial (ts : List Text) : (addPaths (ts.map .ok) []).1 = ts := by
  suffices ∀ l, (addPaths (ts.map .ok) l).1 = l ++ ts by simpa using this []
  induction ts with
  | nil => intro l; simp [addPaths]
  | cons t ts ih => intro l; rw [List.map_cons, addPaths, ih]; simp

/-- `fresh_file_pathlist(None)`: `os.fspath` raises a `TypeError` and the path list is lost. -/
theorem C49_violated : ¬ C49_full := by
  intro h
  have := (h [.error .typeError] (.other (.ok ())) ⟨none, []⟩ (by simp)).1
  simp [PathProg.exec, addPaths] at this

/-- Non-vacuity: two nested contexts, the inner one adding a path and raising. -/
example : let p := PathProg.seq (.fresh [.ok (t!"b")] (.seq (.add (t!"c")) (.other (.error .valueError)))) (.add (t!"x"))
    p.Accepted ∧ ((PathProg.fresh [.ok (t!"a")] p).exec ⟨some 0, [[t!"z"]]⟩).2 = .error .valueError ∧
    ((PathProg.fresh [.ok (t!"a")] p).exec ⟨some 0, [[t!"z"]]⟩).1.cur = some 0 ∧
    ((PathProg.fresh [.ok (t!"a")] p).exec ⟨some 0, [[t!"z"]]⟩).1.lists = [[t!"z"], [t!"a"], [t!"b", t!"c"]] := by
  refine ⟨⟨⟨by simp, trivial, trivial⟩, trivial⟩, by decide, by decide, by decide⟩

end Verif
