import Verif.Lemmas.IntText
import Verif.Spec.Smdx

/-!
# C46, C56: model definitions
-/

namespace Verif

theorem typeNamed_name (t : PT) : typeNamed t.name = some t := by cases t <;> decide +kernel

theorem typeNamed_some {s : Text} {t : PT} (h : typeNamed s = some t) : s = t.name := by
  unfold typeNamed at h
  have := List.find?_some h
  simp at this
  exact this.symm

theorem smdxInt_ok {o : Option Text} {n : Int} : smdxInt o = .ok n ↔ ∃ s, o = some s ∧ Spec.DecText s n := by
  cases o with
  | none => simp [smdxInt]
  | some s =>
    unfold smdxInt
    dsimp only
    cases h : pyInt 10 s with
    | none => simp [← pyInt10_iff, h]
    | some i => simp [← pyInt10_iff, h]

theorem mandatoryOf_some {o : Option Text} {b : Bool} :
    mandatoryOf o = some b ↔
      (o = none ∨ o = some (t!"false") ∨ o = some (t!"true")) ∧ b = decide (o = some (t!"true")) := by
  cases o with
  | none => simp [mandatoryOf, eq_comm]
  | some s =>
    unfold mandatoryOf
    dsimp only
    by_cases h1 : s = t!"false"
    · rw [if_pos h1]; subst h1; cases b <;> decide +kernel
    · rw [if_neg h1]
      by_cases h2 : s = t!"true"
      · rw [if_pos h2]; subst h2; cases b <;> decide +kernel
      · rw [if_neg h2]
        simp [h1, h2]

theorem accessOf_some {o : Option Text} {b : Bool} :
    accessOf o = some b ↔ (o = none ∨ o = some (t!"r") ∨ o = some (t!"rw")) ∧ b = decide (o = some (t!"rw")) := by
  cases o with
  | none => simp [accessOf, eq_comm]
  | some s =>
    unfold accessOf
    dsimp only
    by_cases h1 : s = t!"r"
    · rw [if_pos h1]; subst h1; cases b <;> decide +kernel
    · rw [if_neg h1]
      by_cases h2 : s = t!"rw"
      · rw [if_pos h2]; subst h2; cases b <;> decide +kernel
      · rw [if_neg h2]
        simp [h1, h2]

theorem symbolsLoop_ok (pid : Text) : ∀ (es : List Elem) (sids : List Text) (tab : SymTab),
    (∃ r, symbolsLoop pid es sids tab = .ok r) ↔ ∀ s ∈ es, ∃ i, s.get "id" = some i
  | [], sids, tab => by simp [symbolsLoop]
  | e :: es, sids, tab => by
    rw [symbolsLoop]
    cases h : e.get "id" with
    | none => simp [h]
    | some sid =>
      dsimp only
      rw [symbolsLoop_ok pid es]
      simp [h]

/-- What a parsed point looks like. -/
structure PointRes (tab : SymTab) (e : Elem) (p : PointType) (tab' : SymTab) : Prop where
  doc : PointDoc e
  of : PointOf e p
  label : p.label = lastText "label" e none
  description : p.description = lastText "description" e none
  notes : p.notes = lastText "notes" e none
  symbols : ∃ sids, symbolsLoop p.id (e.findall "symbol") [] tab = .ok (sids, tab') ∧
    p.symbols = sids.map fun s => { emptySymbol with id := some s }

theorem pointFrom_ok {tab tab' : SymTab} {e : Elem} {p : PointType} (h : pointFromSmdx tab e = .ok (p, tab')) :
    PointRes tab e p tab' := by
  unfold pointFromSmdx at h
  cases h1 : smdxInt (e.get "offset") with
  | error x => rw [h1] at h; cases h
  | ok offset =>
    rw [h1] at h
    dsimp only at h
    cases h2 : e.get "id" with
    | none => rw [h2] at h; cases h
    | some id =>
      cases h3 : e.get "type" with
      | none => rw [h2, h3] at h; cases h
      | some ptype =>
        rw [h2, h3] at h
        dsimp only at h
        by_cases h4 : ptype = t!"string" ∧ e.get "len" = none
        · rw [if_pos h4] at h; cases h
        · rw [if_neg h4] at h
          cases h5 : typeNamed ptype with
          | none => rw [h5] at h; cases h
          | some t =>
            cases h6 : mandatoryOf (e.get "mandatory") with
            | none => rw [h5, h6] at h; cases h
            | some mand =>
              cases h7 : accessOf (e.get "access") with
              | none => rw [h5, h6, h7] at h; cases h
              | some rw' =>
                rw [h5, h6, h7] at h
                dsimp only at h
                cases h8 : pointLen t (e.get "len") with
                | error x => rw [h8] at h; cases h
                | ok ol =>
                  cases ol with
                  | none => rw [h8] at h; cases h
                  | some len =>
                    rw [h8] at h
                    dsimp only at h
                    cases h9 : symbolsLoop id (e.findall "symbol") [] tab with
                    | error x => rw [h9] at h; cases h
                    | ok r =>
                      obtain ⟨sids, tb⟩ := r
                      rw [h9] at h
                      dsimp only at h
                      have hp := congrArg Prod.fst (Except.ok.inj h)
                      have ht := congrArg Prod.snd (Except.ok.inj h)
                      dsimp only at hp ht
                      subst hp ht
                      have hn := typeNamed_some h5
                      obtain ⟨hm1, hm2⟩ := mandatoryOf_some.mp h6
                      obtain ⟨ha1, ha2⟩ := accessOf_some.mp h7
                      have hlen : (e.get "len" = none ∧ t.regs.map (fun (n : Nat) => (n : Int)) = some len) ∨ IntAttr e "len" len := by
                        unfold pointLen at h8
                        cases hl : e.get "len" with
                        | none =>
                          rw [hl] at h8
                          left; exact ⟨rfl, Except.ok.inj h8⟩
                        | some s =>
                          rw [hl] at h8
                          dsimp only at h8
                          right
                          cases hi : smdxInt (some s) with
                          | error x => rw [hi] at h8; cases h8
                          | ok n =>
                            rw [hi] at h8
                            obtain ⟨s', hs', hn'⟩ := smdxInt_ok.mp hi
                            cases hs'
                            have : n = len := by
                              have := Except.ok.inj h8
                              exact Option.some.inj this
                            subst this
                            exact ⟨s, hl, hn'⟩
                      refine ⟨⟨⟨id, h2⟩, ⟨offset, smdxInt_ok.mp h1⟩, ⟨t, by rw [h3, hn]⟩, ?_, ?_, hm1, ha1, ?_⟩,
                        ⟨h2, smdxInt_ok.mp h1, by rw [h3, hn]; rfl, ?_, hm2, ha2, rfl, rfl⟩, rfl, rfl, rfl, sids, h9, rfl⟩
                      · intro hs hl
                        rw [h3] at hs
                        exact h4 ⟨Option.some.inj hs, hl⟩
                      · rcases hlen with hl | hl
                        · exact Or.inl hl.1
                        · exact Or.inr ⟨_, hl⟩
                      · exact (symbolsLoop_ok id _ [] tab).mp ⟨_, h9⟩
                      · rcases hlen with hl | hl
                        · right
                          refine ⟨hl.1, ?_, ?_, ?_⟩
                          · intro hst
                            have hst : t = .string := hst
                            rw [hst] at hl
                            cases hl.2
                          · show t.regs = some len.toNat
                            cases hr : t.regs with
                            | none => rw [hr] at hl; cases hl.2
                            | some n =>
                              rw [hr] at hl
                              have : (n : Int) = len := Option.some.inj hl.2
                              rw [← this]; rfl
                          · show 0 ≤ len
                            cases hr : t.regs with
                            | none => rw [hr] at hl; cases hl.2
                            | some n =>
                              rw [hr] at hl
                              have : (n : Int) = len := Option.some.inj hl.2
                              rw [← this]; exact Int.natCast_nonneg n
                        · exact Or.inl hl

theorem pointFrom_total (tab : SymTab) {e : Elem} (h : PointDoc e) : ∃ r, pointFromSmdx tab e = .ok r := by
  obtain ⟨id, hid⟩ := h.id
  obtain ⟨off, hoff⟩ := h.offset
  obtain ⟨t, ht⟩ := h.type
  have h1 : smdxInt (e.get "offset") = .ok off := smdxInt_ok.mpr hoff
  have h4 : ¬(t.name = t!"string" ∧ e.get "len" = none) := by
    rintro ⟨ha, hb⟩
    exact h.string_len (by rw [ht, ha]) hb
  have h6 : mandatoryOf (e.get "mandatory") = some (decide (e.get "mandatory" = some (t!"true"))) :=
    mandatoryOf_some.mpr ⟨h.mandatory, rfl⟩
  have h7 : accessOf (e.get "access") = some (decide (e.get "access" = some (t!"rw"))) :=
    accessOf_some.mpr ⟨h.access, rfl⟩
  obtain ⟨⟨sids, tb⟩, h9⟩ := (symbolsLoop_ok id (e.findall "symbol") [] tab).mpr h.symbols
  have h8 : ∃ len, pointLen t (e.get "len") = .ok (some len) := by
    rcases h.len with hl | ⟨n, s, hs, hn⟩
    · rw [hl]
      unfold pointLen
      dsimp only
      cases hr : t.regs with
      | some n => exact ⟨n, rfl⟩
      | none =>
        exfalso
        refine h4 ⟨?_, hl⟩
        cases t <;> simp [PT.regs] at hr
        rfl
    · rw [hs]
      refine ⟨n, ?_⟩
      unfold pointLen
      dsimp only
      rw [smdxInt_ok.mpr ⟨s, rfl, hn⟩]
  obtain ⟨len, h8⟩ := h8
  refine ⟨(smdxPoint e id off t len (decide (e.get "mandatory" = some (t!"true"))) (decide (e.get "access" = some (t!"rw"))) sids, tb), ?_⟩
  unfold pointFromSmdx
  rw [h1]
  dsimp only
  rw [hid, ht]
  dsimp only
  rw [if_neg h4, typeNamed_name, h6, h7]
  dsimp only
  rw [h8]
  dsimp only
  rw [h9]

/-- The symbols and texts of the points of a block, as the parser leaves them. -/
inductive PointsRes : SymTab → List Elem → List PointType → SymTab → Prop
  | nil (tab) : PointsRes tab [] [] tab
  | cons {tab tab' tab'' e p es ps} : PointRes tab e p tab' → PointsRes tab' es ps tab'' → PointsRes tab (e :: es) (p :: ps) tab''

theorem pointsLoop_ok : ∀ (es : List Elem) (ps : List PointType) (tab : SymTab) (ps' : List PointType) (tab' : SymTab),
    (ps.map (·.id)).Nodup → pointsLoop es ps tab = .ok (ps', tab') →
      ∃ qs, ps' = ps ++ qs ∧ PointsRes tab es qs tab' ∧ (ps'.map (·.id)).Nodup
  | [], ps, tab, ps', tab', hn, h => by
    rw [pointsLoop] at h
    cases h
    exact ⟨[], by simp, .nil _, hn⟩
  | e :: es, ps, tab, ps', tab', hn, h => by
    rw [pointsLoop] at h
    cases h1 : pointFromSmdx tab e with
    | error x => rw [h1] at h; cases h
    | ok r =>
      obtain ⟨p, tb⟩ := r
      rw [h1] at h
      dsimp only at h
      by_cases h2 : (ps.any fun q => decide (q.id = p.id)) = true
      · rw [if_pos h2] at h; cases h
      · rw [if_neg h2] at h
        have hnn : ((ps ++ [p]).map (·.id)).Nodup := by
          rw [List.map_append]
          refine List.nodup_append.mpr ⟨hn, by simp, ?_⟩
          intro a ha b hb hab
          simp at hb
          subst hb
          obtain ⟨q, hq, hqa⟩ := List.mem_map.mp ha
          apply h2
          rw [List.any_eq_true]
          exact ⟨q, hq, by simp [hqa, hab]⟩
        obtain ⟨qs, hqs, hres, hnd⟩ := pointsLoop_ok es (ps ++ [p]) tb ps' tab' hnn h
        refine ⟨p :: qs, by rw [hqs]; simp, .cons (pointFrom_ok h1) hres, hnd⟩

theorem PointsRes.of {tab tab' : SymTab} {es : List Elem} {ps : List PointType} (h : PointsRes tab es ps tab') :
    List.Forall₂ PointOf es ps := by
  induction h with
  | nil => exact .nil
  | cons h _ ih => exact .cons h.of ih

theorem PointsRes.doc {tab tab' : SymTab} {es : List Elem} {ps : List PointType} (h : PointsRes tab es ps tab') :
    ∀ e ∈ es, PointDoc e := by
  induction h with
  | nil => simp
  | cons h _ ih =>
    intro e he
    rcases List.mem_cons.mp he with he | he
    · rw [he]; exact h.doc
    · exact ih e he

theorem forall₂_ids {es : List Elem} {ps : List PointType} (h : List.Forall₂ PointOf es ps) :
    es.map (fun p => p.get "id") = (ps.map (·.id)).map some := by
  induction h with
  | nil => rfl
  | cons h _ ih => simp only [List.map_cons, ih, h.id]

theorem pointsLoop_total : ∀ (es : List Elem) (ps : List PointType) (tab : SymTab),
    (∀ e ∈ es, PointDoc e) → (es.map fun p => p.get "id").Nodup →
      (∀ p ∈ ps, some p.id ∉ es.map fun p => p.get "id") → ∃ r, pointsLoop es ps tab = .ok r
  | [], ps, tab, _, _, _ => ⟨_, rfl⟩
  | e :: es, ps, tab, hd, hn, hdis => by
    obtain ⟨⟨p, tb⟩, h1⟩ := pointFrom_total tab (hd e (by simp))
    have hpid := (pointFrom_ok h1).of.id
    rw [pointsLoop, h1]
    dsimp only
    have h2 : ¬ (ps.any fun q => decide (q.id = p.id)) = true := by
      rw [List.any_eq_true]
      rintro ⟨q, hq, hqp⟩
      refine hdis q hq ?_
      simp only [List.map_cons, List.mem_cons]
      left
      rw [hpid]
      simp at hqp
      rw [hqp]
    rw [if_neg h2]
    rw [List.map_cons, List.nodup_cons] at hn
    refine pointsLoop_total es (ps ++ [p]) tb (fun x hx => hd x (by simp [hx])) hn.2 ?_
    intro q hq
    rcases List.mem_append.mp hq with hq | hq
    · intro hm
      exact hdis q hq (by rw [List.map_cons]; exact List.mem_cons_of_mem _ hm)
    · simp at hq
      subst hq
      rw [← hpid]
      exact hn.1

/-- What a parsed block looks like. -/
structure BlockRes (tab : SymTab) (e : Elem) (b : BlockType) (tab' : SymTab) : Prop where
  doc : BlockDoc e
  of : BlockOf e b
  points : PointsRes tab (e.findall "point") b.points tab'
  nodup : (b.points.map (·.id)).Nodup

theorem blockType_cases (o : Option Text) :
    ¬ (o.getD (t!"fixed") ≠ t!"fixed" ∧ o.getD (t!"fixed") ≠ t!"repeating") ↔
      (o = none ∨ o = some (t!"fixed") ∨ o = some (t!"repeating")) := by
  cases o with
  | none => simp
  | some s =>
    simp only [Option.getD_some, ne_eq, not_and, not_not, Option.some.injEq, reduceCtorEq, false_or]
    constructor
    · intro h
      by_cases h1 : s = t!"fixed"
      · exact Or.inl h1
      · exact Or.inr (h h1)
    · rintro (h | h) h2
      · exact absurd h h2
      · exact h

theorem blockFrom_ok {tab tab' : SymTab} {e : Elem} {b : BlockType} (h : blockFromSmdx tab e = .ok (b, tab')) :
    BlockRes tab e b tab' := by
  unfold blockFromSmdx at h
  dsimp only at h
  by_cases h1 : (e.get "type").getD (t!"fixed") ≠ t!"fixed" ∧ (e.get "type").getD (t!"fixed") ≠ t!"repeating"
  · rw [if_pos h1] at h; cases h
  · rw [if_neg h1] at h
    have hty := (blockType_cases _).mp h1
    cases h2 : e.get "len" with
    | none => rw [h2] at h; cases h
    | some len =>
      rw [h2] at h
      dsimp only at h
      cases h3 : pointsLoop (e.findall "point") [] tab with
      | error x => rw [h3] at h; cases h
      | ok r =>
        obtain ⟨ps, tb⟩ := r
        rw [h3] at h
        dsimp only at h
        have hb := congrArg Prod.fst (Except.ok.inj h)
        have ht := congrArg Prod.snd (Except.ok.inj h)
        dsimp only at hb ht
        subst hb ht
        obtain ⟨qs, hqs, hres, hnd⟩ := pointsLoop_ok _ [] tab ps tb (by simp) h3
        rw [List.nil_append] at hqs
        subst hqs
        have hrep : decide ((e.get "type").getD (t!"fixed") = t!"repeating") = isRepeating e := by
          unfold isRepeating
          rcases hty with h | h | h <;> rw [h] <;> decide +kernel
        refine ⟨⟨hty, ⟨len, h2⟩, hres.doc, ?_⟩, ⟨hrep, ⟨len, h2, rfl⟩, ?_, hres.of⟩, hres, hnd⟩
        · rw [forall₂_ids hres.of]
          exact List.Pairwise.map some (fun _ _ hab hc => hab (Option.some.inj hc)) hnd
        · dsimp only
          cases hn : e.get "name" with
          | some n => left; rfl
          | none =>
            right
            refine ⟨rfl, ?_⟩
            simp only [Option.getD_none]
            rcases hty with h | h | h <;> rw [h] <;> rfl

theorem blockFrom_total (tab : SymTab) {e : Elem} (h : BlockDoc e) : ∃ r, blockFromSmdx tab e = .ok r := by
  obtain ⟨len, hlen⟩ := h.len
  obtain ⟨⟨ps, tb⟩, h3⟩ := pointsLoop_total (e.findall "point") [] tab h.points h.unique (by simp)
  unfold blockFromSmdx
  dsimp only
  rw [if_neg ((blockType_cases _).mpr h.type), hlen]
  dsimp only
  rw [h3]
  exact ⟨_, rfl⟩


/-! ## Blocks and models -/

/-- The shapes of the blocks of a model that are accepted. -/
inductive BlocksRes : List Elem → Option BlockType → Option BlockType → SymTab → Prop
  | none : BlocksRes [] .none .none []
  | fixed {a b tab} : BlockRes [] a b tab → b.repeating = false → BlocksRes [a] (some b) .none tab
  | rep {a b tab} : BlockRes [] a b tab → b.repeating = true → BlocksRes [a] .none (some b) tab
  | fixedRep {a1 b1 t1 a2 b2 tab} : BlockRes [] a1 b1 t1 → BlockRes t1 a2 b2 tab → b1.repeating = false → b2.repeating = true →
      BlocksRes [a1, a2] (some b1) (some b2) tab
  | repFixed {a1 b1 t1 a2 b2 tab} : BlockRes [] a1 b1 t1 → BlockRes t1 a2 b2 tab → b1.repeating = true → b2.repeating = false →
      BlocksRes [a1, a2] (some b2) (some b1) tab

theorem blocksLoop_both (e : Elem) (es : List Elem) (b1 b2 : BlockType) (tab : SymTab) :
    ∀ r, blocksLoop (e :: es) (some b1) (some b2) tab ≠ .ok r := by
  intro r h
  rw [blocksLoop] at h
  cases h1 : blockFromSmdx tab e with
  | error x => rw [h1] at h; cases h
  | ok q =>
    obtain ⟨b, tb⟩ := q
    rw [h1] at h
    dsimp only at h
    cases hb : b.repeating <;> rw [hb] at h <;> simp at h

theorem blocksLoop_ok {es : List Elem} {f r : Option BlockType} {tab : SymTab}
    (h : blocksLoop es .none .none [] = .ok (f, r, tab)) : BlocksRes es f r tab := by
  cases es with
  | nil =>
    rw [blocksLoop] at h
    cases h
    exact .none
  | cons a es =>
    rw [blocksLoop] at h
    cases h1 : blockFromSmdx [] a with
    | error x => rw [h1] at h; cases h
    | ok q =>
      obtain ⟨b, t1⟩ := q
      rw [h1] at h
      dsimp only at h
      have r1 := blockFrom_ok h1
      cases es with
      | nil =>
        cases hb : b.repeating with
        | true =>
          rw [hb, if_pos rfl, blocksLoop] at h
          cases h
          exact .rep r1 hb
        | false =>
          rw [hb] at h
          simp only [Bool.false_eq_true, if_false] at h
          rw [blocksLoop] at h
          cases h
          exact .fixed r1 hb
      | cons a2 es =>
        cases hb : b.repeating with
        | true =>
          rw [hb, if_pos rfl, blocksLoop] at h
          cases h2 : blockFromSmdx t1 a2 with
          | error x => rw [h2] at h; cases h
          | ok q =>
            obtain ⟨b2, t2⟩ := q
            rw [h2] at h
            dsimp only at h
            have r2 := blockFrom_ok h2
            cases hb2 : b2.repeating with
            | true => rw [hb2, if_pos rfl] at h; cases h
            | false =>
              rw [hb2] at h
              simp only [Bool.false_eq_true, if_false] at h
              cases es with
              | nil =>
                rw [blocksLoop] at h
                cases h
                exact .repFixed r1 r2 hb hb2
              | cons a3 es => exact absurd h (blocksLoop_both a3 es b2 b t2 _)
        | false =>
          rw [hb] at h
          simp only [Bool.false_eq_true, if_false] at h
          rw [blocksLoop] at h
          cases h2 : blockFromSmdx t1 a2 with
          | error x => rw [h2] at h; cases h
          | ok q =>
            obtain ⟨b2, t2⟩ := q
            rw [h2] at h
            dsimp only at h
            have r2 := blockFrom_ok h2
            cases hb2 : b2.repeating with
            | true =>
              rw [hb2, if_pos rfl] at h
              cases es with
              | nil =>
                rw [blocksLoop] at h
                cases h
                exact .fixedRep r1 r2 hb hb2
              | cons a3 es => exact absurd h (blocksLoop_both a3 es b b2 t2 _)
            | false => rw [hb2] at h; simp at h

theorem blocksLoop_total {es : List Elem} (hd : ∀ b ∈ es, BlockDoc b) (hf : (es.filter fun b => !isRepeating b).length ≤ 1)
    (hr : (es.filter isRepeating).length ≤ 1) : ∃ q, blocksLoop es .none .none [] = .ok q := by
  cases es with
  | nil => exact ⟨_, rfl⟩
  | cons a es =>
    obtain ⟨⟨b, t1⟩, h1⟩ := blockFrom_total [] (hd a (by simp))
    have e1 : b.repeating = isRepeating a := (blockFrom_ok h1).of.repeating
    rw [blocksLoop, h1]
    dsimp only
    cases es with
    | nil => cases hb : b.repeating <;> simp [blocksLoop]
    | cons a2 es =>
      obtain ⟨⟨b2, t2⟩, h2⟩ := blockFrom_total t1 (hd a2 (by simp))
      have e2 : b2.repeating = isRepeating a2 := (blockFrom_ok h2).of.repeating
      have hes : es = [] ∧ isRepeating a ≠ isRepeating a2 := by
        cases es with
        | nil =>
          refine ⟨rfl, ?_⟩
          intro hab
          cases ha : isRepeating a <;> rw [ha] at hab <;> simp [ha, ← hab] at hf hr
        | cons a3 es =>
          exfalso
          cases ha : isRepeating a <;> cases hb : isRepeating a2 <;> cases hc : isRepeating a3 <;>
            simp [ha, hb, hc] at hf hr
      obtain ⟨hes, hne⟩ := hes
      subst hes
      rw [← e1, ← e2] at hne
      cases hb : b.repeating with
      | true =>
        have hb2 : b2.repeating = false := by
          cases h : b2.repeating with
          | true => rw [hb, h] at hne; exact absurd rfl hne
          | false => rfl
        simp only [if_true, blocksLoop, h2, hb2, Bool.false_eq_true, if_false]
        exact ⟨_, rfl⟩
      | false =>
        have hb2 : b2.repeating = true := by
          cases h : b2.repeating with
          | false => rw [hb, h] at hne; exact absurd rfl hne
          | true => rfl
        simp only [if_true, blocksLoop, h2, hb2, Bool.false_eq_true, if_false]
        exact ⟨_, rfl⟩

theorem modelElem_cons {root m : Elem} {ms : List Elem} {d : TypeDef} (hm : root.findall "model" = m :: ms)
    (h : modelElem root = .ok d) :
    ∃ id len f r tab, IntAttr m "id" id ∧ IntAttr m "len" len ∧ BlocksRes (m.findall "block") f r tab ∧
      d = { id := some id, len := some len, name := some ((m.get "name").getD (t!"model_" ++ intDec id)), fixed := f, rep := r,
            symbols := tab } := by
  unfold modelElem at h
  rw [hm] at h
  dsimp only at h
  cases h1 : smdxInt (m.get "id") with
  | error x => rw [h1] at h; cases h
  | ok id =>
    rw [h1] at h
    dsimp only at h
    cases h2 : m.get "len" with
    | none => rw [h2] at h; cases h
    | some s =>
      rw [h2] at h
      dsimp only at h
      cases h3 : smdxInt (some s) with
      | error x => rw [h3] at h; cases h
      | ok len =>
        rw [h3] at h
        dsimp only at h
        cases h4 : blocksLoop (m.findall "block") .none .none [] with
        | error x => rw [h4] at h; cases h
        | ok q =>
          obtain ⟨f, r, tab⟩ := q
          rw [h4] at h
          refine ⟨id, len, f, r, tab, smdxInt_ok.mp h1, ?_, blocksLoop_ok h4, (Except.ok.inj h).symm⟩
          obtain ⟨s', hs', hn⟩ := smdxInt_ok.mp h3
          cases hs'
          exact ⟨s, h2, hn⟩

theorem modelElem_total {root m : Elem} {ms : List Elem} (hm : root.findall "model" = m :: ms) (hd : ModelDoc m) :
    ∃ d, modelElem root = .ok d := by
  obtain ⟨id, hid⟩ := hd.id
  obtain ⟨len, s, hs, hlen⟩ := hd.len
  obtain ⟨⟨f, r, tab⟩, h4⟩ := blocksLoop_total hd.blocks hd.oneFixed hd.oneRep
  unfold modelElem
  rw [hm]
  dsimp only
  rw [smdxInt_ok.mpr hid]
  dsimp only
  rw [hs]
  dsimp only
  rw [smdxInt_ok.mpr ⟨s, rfl, hlen⟩]
  dsimp only
  rw [h4]
  exact ⟨_, rfl⟩

theorem BlocksRes.doc {es : List Elem} {f r : Option BlockType} {tab : SymTab} (h : BlocksRes es f r tab) :
    (∀ b ∈ es, BlockDoc b) ∧ (es.filter fun b => !isRepeating b).length ≤ 1 ∧ (es.filter isRepeating).length ≤ 1 := by
  cases h with
  | none => simp
  | fixed h hb => rw [h.of.repeating] at hb; simp [hb]; exact h.doc
  | rep h hb => rw [h.of.repeating] at hb; simp [hb]; exact h.doc
  | fixedRep h1 h2 hb1 hb2 =>
    rw [h1.of.repeating] at hb1; rw [h2.of.repeating] at hb2
    simp [hb1, hb2]
    exact ⟨h1.doc, h2.doc⟩
  | repFixed h1 h2 hb1 hb2 =>
    rw [h1.of.repeating] at hb1; rw [h2.of.repeating] at hb2
    simp [hb1, hb2]
    exact ⟨h1.doc, h2.doc⟩

theorem smdxParse_ok {root : Elem} {d : TypeDef} :
    smdxParse root = .ok d ↔ ∃ d0, modelElem root = .ok d0 ∧
      d = { (root.findall "strings").foldl stringsElem d0 with
        fixed := some (resolveBlock ((root.findall "strings").foldl stringsElem d0).symbols
          (((root.findall "strings").foldl stringsElem d0).fixed.getD ⟨false, .int 0, t!"fixed", []⟩)),
        rep := ((root.findall "strings").foldl stringsElem d0).rep.map
          (resolveBlock ((root.findall "strings").foldl stringsElem d0).symbols) } := by
  unfold smdxParse
  cases h : modelElem root with
  | error x => simp
  | ok d0 =>
    dsimp only
    constructor
    · intro hh
      exact ⟨d0, rfl, (Except.ok.inj hh).symm⟩
    · rintro ⟨d1, h1, h2⟩
      cases h1
      rw [h2]

/-- C46: the accepted documents are exactly the valid ones. -/
theorem C46_accepts (root : Elem) : (∃ d, smdxParse root = .ok d) ↔ ValidDoc root := by
  constructor
  · rintro ⟨d, h⟩ m hm
    obtain ⟨d0, h0, _⟩ := smdxParse_ok.mp h
    obtain ⟨ms, hms⟩ : ∃ ms, root.findall "model" = m :: ms := by
      cases hl : root.findall "model" with
      | nil => rw [hl] at hm; cases hm
      | cons a l => rw [hl] at hm; cases hm; exact ⟨l, rfl⟩
    obtain ⟨id, len, f, r, tab, hid, hlen, hb, _⟩ := modelElem_cons hms h0
    exact ⟨⟨id, hid⟩, ⟨len, hlen⟩, hb.doc.1, hb.doc.2.1, hb.doc.2.2⟩
  · intro hv
    have : ∃ d, modelElem root = .ok d := by
      cases hl : root.findall "model" with
      | nil =>
        refine ⟨{}, ?_⟩
        unfold modelElem
        rw [hl]
      | cons m ms => exact modelElem_total hl (hv m (by rw [hl]; rfl))
    obtain ⟨d0, h0⟩ := this
    exact ⟨_, smdxParse_ok.mpr ⟨d0, h0, rfl⟩⟩


/-! ## The kinds of refusal -/

/-- The exceptions of the parser. -/
def Refusal (x : Exc) : Prop := x = .sunSpecError ∨ x = .typeError ∨ x = .valueError

theorem smdxInt_err {o : Option Text} {x : Exc} (h : smdxInt o = .error x) : Refusal x := by
  unfold smdxInt at h
  split at h
  · cases h; exact Or.inr (Or.inl rfl)
  · split at h
    · cases h
    · cases h; exact Or.inr (Or.inr rfl)

theorem symbolsLoop_err (pid : Text) : ∀ (es : List Elem) (sids : List Text) (tab : SymTab) {x : Exc},
    symbolsLoop pid es sids tab = .error x → Refusal x
  | [], sids, tab, x, h => by rw [symbolsLoop] at h; cases h
  | e :: es, sids, tab, x, h => by
    rw [symbolsLoop] at h
    split at h
    · cases h; exact Or.inl rfl
    · exact symbolsLoop_err pid es _ _ h

theorem pointLen_err {t : PT} {o : Option Text} {x : Exc} (h : pointLen t o = .error x) : Refusal x := by
  unfold pointLen at h
  split at h
  · cases h
  · split at h
    · cases h
    · rename_i hx
      cases h
      exact smdxInt_err hx

theorem pointFrom_err {tab : SymTab} {e : Elem} {x : Exc} (h : pointFromSmdx tab e = .error x) : Refusal x := by
  unfold pointFromSmdx at h
  repeat' split at h
  all_goals first
    | (cases h; exact Or.inl rfl)
    | (cases h; exact Or.inr (Or.inl rfl))
    | (rename_i hx; cases h; exact smdxInt_err hx)
    | (rename_i hx; cases h; exact pointLen_err hx)
    | (rename_i hx; cases h; exact symbolsLoop_err _ _ _ _ hx)
    | cases h

theorem pointsLoop_err : ∀ (es : List Elem) (ps : List PointType) (tab : SymTab) {x : Exc},
    pointsLoop es ps tab = .error x → Refusal x
  | [], ps, tab, x, h => by rw [pointsLoop] at h; cases h
  | e :: es, ps, tab, x, h => by
    rw [pointsLoop] at h
    split at h
    · rename_i hx; cases h; exact pointFrom_err hx
    · split at h
      · cases h; exact Or.inl rfl
      · exact pointsLoop_err es _ _ h

theorem blockFrom_err {tab : SymTab} {e : Elem} {x : Exc} (h : blockFromSmdx tab e = .error x) : Refusal x := by
  unfold blockFromSmdx at h
  dsimp only at h
  repeat' split at h
  all_goals first
    | (cases h; exact Or.inl rfl)
    | (rename_i hx; cases h; exact pointsLoop_err _ _ _ hx)
    | cases h

theorem blocksLoop_err : ∀ (es : List Elem) (f r : Option BlockType) (tab : SymTab) {x : Exc},
    blocksLoop es f r tab = .error x → Refusal x
  | [], f, r, tab, x, h => by rw [blocksLoop] at h; cases h
  | e :: es, f, r, tab, x, h => by
    rw [blocksLoop] at h
    split at h
    · rename_i hx; cases h; exact blockFrom_err hx
    · split at h
      · split at h
        · exact blocksLoop_err es _ _ _ h
        · cases h; exact Or.inl rfl
      · split at h
        · exact blocksLoop_err es _ _ _ h
        · cases h; exact Or.inl rfl

theorem smdxParse_err {root : Elem} {x : Exc} (h : smdxParse root = .error x) : Refusal x := by
  unfold smdxParse at h
  split at h
  · rename_i hx
    cases h
    unfold modelElem at hx
    repeat' split at hx
    all_goals first
      | (cases hx; exact Or.inl rfl)
      | (rename_i hy; cases hx; exact smdxInt_err hy)
      | (rename_i hy; cases hx; exact blocksLoop_err _ _ _ _ hy)
      | cases hx
  · cases h

/-- C46: every other document is refused, with a SunSpecError, a TypeError or a ValueError. -/
theorem C46_refused (root : Elem) (h : ¬ ValidDoc root) :
    ∃ x, smdxParse root = .error x ∧ (x = .sunSpecError ∨ x = .typeError ∨ x = .valueError) := by
  cases hp : smdxParse root with
  | ok d => exact absurd ((C46_accepts root).mp ⟨d, hp⟩) h
  | error x => exact ⟨x, rfl, smdxParse_err hp⟩

/-! ## The `strings` part leaves the attributes alone -/

/-- A point without texts and symbols. -/
def PointType.core (p : PointType) : PointType := { p with label := none, description := none, notes := none, symbols := [] }
/-- A block of such points. -/
def BlockType.core (b : BlockType) : BlockType := { b with points := b.points.map PointType.core }

theorem symbolString_core (pst : PointType × SymTab) (e : Elem) : (symbolString pst e).1.core = pst.1.core := by
  obtain ⟨p, tab⟩ := pst
  unfold symbolString
  dsimp only
  split
  · rfl
  · split
    · rfl
    · dsimp only
      split <;> rfl

theorem foldl_symbolString_core (es : List Elem) (pst : PointType × SymTab) :
    (es.foldl symbolString pst).1.core = pst.1.core := by
  induction es generalizing pst with
  | nil => rfl
  | cons e es ih => rw [List.foldl_cons, ih, symbolString_core]

theorem pointStrings_core (tab : SymTab) (e : Elem) (p : PointType) : (pointStrings tab e p).1.core = p.core := by
  unfold pointStrings
  rw [foldl_symbolString_core]
  rfl

theorem pointsStrings_core (tab : SymTab) (e : Elem) : ∀ (ps ps' : List PointType) (tab' : SymTab),
    pointsStrings tab e ps = some (ps', tab') → ps'.map PointType.core = ps.map PointType.core
  | [], ps', tab', h => by rw [pointsStrings] at h; cases h
  | p :: ps, ps', tab', h => by
    rw [pointsStrings] at h
    split at h
    · obtain ⟨hq, -⟩ := Prod.mk.inj (Option.some.inj h)
      rw [← hq]
      simp only [List.map_cons, pointStrings_core]
    · split at h
      · cases h
      · rename_i hx
        cases h
        simp only [List.map_cons, pointsStrings_core tab e ps _ _ hx]

theorem blockStrings_core {tab tab' : SymTab} {e : Elem} {o : Option BlockType} {b : BlockType}
    (h : blockStrings tab e o = some (b, tab')) : some b.core = o.map BlockType.core := by
  unfold blockStrings at h
  split at h
  · cases h
  · split at h
    · cases h
    · rename_i hx
      cases h
      simp only [Option.map_some, BlockType.core, pointsStrings_core _ _ _ _ _ hx]

/-- The part of a definition that the `strings` part does not touch. -/
def TypeDef.core (d : TypeDef) : Option Int × Option Int × Option Text × Option BlockType × Option BlockType :=
  (d.id, d.len, d.name, d.fixed.map BlockType.core, d.rep.map BlockType.core)

theorem stringsPoint_core (d : TypeDef) (e : Elem) : (stringsPoint d e).core = d.core := by
  unfold stringsPoint
  split
  · rename_i hx
    simp only [TypeDef.core, Option.map_some, blockStrings_core hx]
  · split
    · rename_i hx
      simp only [TypeDef.core, Option.map_some, blockStrings_core hx]
    · rfl

theorem foldl_stringsPoint_core (es : List Elem) (d : TypeDef) : (es.foldl stringsPoint d).core = d.core := by
  induction es generalizing d with
  | nil => rfl
  | cons e es ih => rw [List.foldl_cons, ih, stringsPoint_core]

theorem stringsElem_core (d : TypeDef) (s : Elem) : (stringsElem d s).core = d.core := by
  unfold stringsElem
  split
  · rw [foldl_stringsPoint_core]
    unfold modelStrings
    split <;> rfl
  · rfl

theorem foldl_stringsElem_core (es : List Elem) (d : TypeDef) : (es.foldl stringsElem d).core = d.core := by
  induction es generalizing d with
  | nil => rfl
  | cons e es ih => rw [List.foldl_cons, ih, stringsElem_core]

theorem resolveBlock_core (tab : SymTab) (b : BlockType) : (resolveBlock tab b).core = b.core := by
  unfold resolveBlock BlockType.core
  simp only [List.map_map]
  congr 1

theorem PointOf_core {e : Elem} {p q : PointType} (h : PointOf e p) (hc : q.core = p.core) : PointOf e q := by
  unfold PointType.core at hc
  have h1 : q.id = p.id := (congrArg PointType.id hc :)
  have h2 : q.offset = p.offset := (congrArg PointType.offset hc :)
  have h3 : q.type = p.type := (congrArg PointType.type hc :)
  have h4 : q.len = p.len := (congrArg PointType.len hc :)
  have h5 : q.mandatory = p.mandatory := (congrArg PointType.mandatory hc :)
  have h6 : q.rw = p.rw := (congrArg PointType.rw hc :)
  have h7 : q.units = p.units := (congrArg PointType.units hc :)
  have h8 : q.sf = p.sf := (congrArg PointType.sf hc :)
  refine ⟨?_, ?_, ?_, ?_, ?_, ?_, ?_, ?_⟩
  · rw [h1]; exact h.id
  · rw [h2]; exact h.offset
  · rw [h3]; exact h.type
  · rw [h3, h4]; exact h.len
  · rw [h5]; exact h.mandatory
  · rw [h6]; exact h.rw
  · rw [h7]; exact h.units
  · rw [h8]; exact h.sf

theorem forall₂_core {es : List Elem} {ps : List PointType} (h : List.Forall₂ PointOf es ps) :
    ∀ {qs : List PointType}, qs.map PointType.core = ps.map PointType.core → List.Forall₂ PointOf es qs := by
  induction h with
  | nil =>
    intro qs hc
    cases qs with
    | nil => exact .nil
    | cons _ _ => cases hc
  | cons h _ ih =>
    intro qs hc
    cases qs with
    | nil => cases hc
    | cons q qs =>
      simp only [List.map_cons, List.cons.injEq] at hc
      exact .cons (PointOf_core h hc.1) (ih hc.2)

theorem BlockOf_core {e : Elem} {b c : BlockType} (h : BlockOf e b) (hc : c.core = b.core) : BlockOf e c := by
  unfold BlockType.core at hc
  have h1 : c.repeating = b.repeating := (congrArg BlockType.repeating hc :)
  have h2 : c.len = b.len := (congrArg BlockType.len hc :)
  have h3 : c.name = b.name := (congrArg BlockType.name hc :)
  have h4 : c.points.map PointType.core = b.points.map PointType.core := (congrArg BlockType.points hc :)
  refine ⟨?_, ?_, ?_, forall₂_core h.points h4⟩
  · rw [h1]; exact h.repeating
  · rw [h2]; exact h.len
  · rw [h1, h3]; exact h.name

theorem core_ids {ps qs : List PointType} (hc : qs.map PointType.core = ps.map PointType.core) :
    qs.map (·.id) = ps.map (·.id) := by
  have := congrArg (List.map PointType.id) hc
  simpa [List.map_map, Function.comp_def, PointType.core] using this

/-- The texts a point gets from its own element. -/
def RawTexts (e : Elem) (p : PointType) : Prop :=
  p.label = lastText "label" e none ∧ p.description = lastText "description" e none ∧ p.notes = lastText "notes" e none

theorem PointsRes.raw {tab tab' : SymTab} {es : List Elem} {ps : List PointType} (h : PointsRes tab es ps tab') :
    List.Forall₂ RawTexts es ps := by
  induction h with
  | nil => exact .nil
  | cons h _ ih => exact .cons ⟨h.label, h.description, h.notes⟩ ih

theorem BlocksRes.shape {m : Elem} {f r : Option BlockType} {tab : SymTab} (h : BlocksRes (m.findall "block") f r tab) :
    ((∃ e b, f = some b ∧ fixedBlocks m = [e] ∧ BlockOf e b ∧ (b.points.map (·.id)).Nodup ∧
        List.Forall₂ RawTexts (e.findall "point") b.points) ∨ (f = Option.none ∧ fixedBlocks m = [])) ∧
    ((∃ e b, r = some b ∧ repeatingBlocks m = [e] ∧ BlockOf e b ∧ (b.points.map (·.id)).Nodup ∧
        List.Forall₂ RawTexts (e.findall "point") b.points) ∨ (r = Option.none ∧ repeatingBlocks m = [])) := by
  unfold fixedBlocks repeatingBlocks
  generalize m.findall "block" = es at h
  cases h with
  | none => exact ⟨Or.inr ⟨rfl, rfl⟩, Or.inr ⟨rfl, rfl⟩⟩
  | @fixed a b _ h hb =>
    have hb' := hb
    rw [h.of.repeating] at hb'
    exact ⟨Or.inl ⟨a, b, rfl, by simp [hb'], h.of, h.nodup, h.points.raw⟩, Or.inr ⟨rfl, by simp [hb']⟩⟩
  | @rep a b _ h hb =>
    have hb' := hb
    rw [h.of.repeating] at hb'
    exact ⟨Or.inr ⟨rfl, by simp [hb']⟩, Or.inl ⟨a, b, rfl, by simp [hb'], h.of, h.nodup, h.points.raw⟩⟩
  | @fixedRep a1 b1 _ a2 b2 _ h1 h2 hb1 hb2 =>
    rw [h1.of.repeating] at hb1; rw [h2.of.repeating] at hb2
    exact ⟨Or.inl ⟨a1, b1, rfl, by simp [hb1, hb2], h1.of, h1.nodup, h1.points.raw⟩, Or.inl ⟨a2, b2, rfl, by simp [hb1, hb2], h2.of, h2.nodup, h2.points.raw⟩⟩
  | @repFixed a1 b1 _ a2 b2 _ h1 h2 hb1 hb2 =>
    rw [h1.of.repeating] at hb1; rw [h2.of.repeating] at hb2
    exact ⟨Or.inl ⟨a2, b2, rfl, by simp [hb1, hb2], h2.of, h2.nodup, h2.points.raw⟩, Or.inl ⟨a1, b1, rfl, by simp [hb1, hb2], h1.of, h1.nodup, h1.points.raw⟩⟩

/-- The final definition has the core of what the `model` element gave. -/
theorem smdxParse_core {root : Elem} {d d0 : TypeDef} (h0 : modelElem root = .ok d0) (h : smdxParse root = .ok d) :
    d.id = d0.id ∧ d.len = d0.len ∧ d.name = d0.name ∧
      d.fixed.map BlockType.core = some (BlockType.core (d0.fixed.getD ⟨false, .int 0, t!"fixed", []⟩)) ∧
      d.rep.map BlockType.core = d0.rep.map BlockType.core := by
  obtain ⟨d1, h1, hd⟩ := smdxParse_ok.mp h
  rw [h0] at h1
  cases h1
  have hc := foldl_stringsElem_core (root.findall "strings") d0
  generalize (root.findall "strings").foldl stringsElem d0 = d2 at hc hd
  unfold TypeDef.core at hc
  simp only [Prod.mk.injEq] at hc
  obtain ⟨c1, c2, c3, c4, c5⟩ := hc
  subst hd
  refine ⟨c1, c2, c3, ?_, ?_⟩
  · simp only [Option.map_some, resolveBlock_core]
    congr 1
    cases hf : d2.fixed with
    | none =>
      rw [hf] at c4
      cases hf0 : d0.fixed with
      | none => rfl
      | some b => rw [hf0] at c4; cases c4
    | some b =>
      rw [hf] at c4
      cases hf0 : d0.fixed with
      | none => rw [hf0] at c4; cases c4
      | some b0 =>
        rw [hf0] at c4
        simp only [Option.map_some, Option.some.injEq] at c4
        simpa using c4
  · rw [← c5]
    cases d2.rep with
    | none => rfl
    | some b => simp only [Option.map_some, resolveBlock_core]

/-- C46, C56: a parsed definition is the one the first `model` element describes; in particular it has at most one fixed and one
repeating block, point types are known, and a string point has the length of its `len` attribute. -/
theorem C56_attributes {root m : Elem} {ms : List Elem} {d : TypeDef} (hm : root.findall "model" = m :: ms)
    (h : smdxParse root = .ok d) : DefOf m d := by
  obtain ⟨d0, h0, _⟩ := smdxParse_ok.mp h
  obtain ⟨c1, c2, c3, c4, c5⟩ := smdxParse_core h0 h
  obtain ⟨id, len, f, r, tab, hid, hlen, hb, hd0⟩ := modelElem_cons hm h0
  subst hd0
  dsimp only at c1 c2 c3 c4 c5
  obtain ⟨s1, s2⟩ := hb.shape
  refine ⟨⟨id, c1, hid⟩, ⟨len, c2, hlen⟩, ⟨_, c3, ?_⟩, ?_, ?_⟩
  · cases hn : m.get "name" with
    | some n => left; rfl
    | none => right; exact ⟨rfl, id, c1, rfl⟩
  · obtain ⟨b, hb1⟩ : ∃ b, d.fixed = some b := by
      cases hf : d.fixed with
      | none => rw [hf] at c4; cases c4
      | some b => exact ⟨b, rfl⟩
    refine ⟨b, hb1, ?_⟩
    rw [hb1] at c4
    simp only [Option.map_some, Option.some.injEq] at c4
    rcases s1 with ⟨e, b0, hf, hfb, hof, _⟩ | ⟨hf, hfb⟩
    · left
      rw [hf] at c4
      exact ⟨e, hfb, BlockOf_core hof c4⟩
    · right
      rw [hf] at c4
      simp only [Option.getD_none] at c4
      refine ⟨hfb, (congrArg BlockType.repeating c4 :), ?_, (congrArg BlockType.len c4 :)⟩
      have := congrArg BlockType.points c4
      simpa [BlockType.core] using this
  · rcases s2 with ⟨e, b0, hf, hfb, hof, _⟩ | ⟨hf, hfb⟩
    · left
      rw [hf] at c5
      cases hr : d.rep with
      | none => rw [hr] at c5; cases c5
      | some b =>
        rw [hr] at c5
        simp only [Option.map_some, Option.some.injEq] at c5
        exact ⟨b, e, rfl, hfb, BlockOf_core hof c5⟩
    · right
      rw [hf] at c5
      cases hr : d.rep with
      | none => exact ⟨rfl, hfb⟩
      | some b => rw [hr] at c5; cases c5

/-- C46: the ids of the points of a block of a parsed definition differ. -/
theorem C46_unique_ids {root : Elem} {d : TypeDef} (h : smdxParse root = .ok d) :
    (∀ b, d.fixed = some b → (b.points.map (·.id)).Nodup) ∧ (∀ b, d.rep = some b → (b.points.map (·.id)).Nodup) := by
  obtain ⟨d0, h0, _⟩ := smdxParse_ok.mp h
  obtain ⟨_, _, _, c4, c5⟩ := smdxParse_core h0 h
  have key : (∀ b, d0.fixed = some b → (b.points.map (·.id)).Nodup) ∧ (∀ b, d0.rep = some b → (b.points.map (·.id)).Nodup) := by
    cases hl : root.findall "model" with
    | nil =>
      unfold modelElem at h0
      rw [hl] at h0
      cases h0
      exact ⟨fun b hb => (nomatch hb), fun b hb => (nomatch hb)⟩
    | cons m ms =>
      obtain ⟨id, len, f, r, tab, _, _, hb, hd0⟩ := modelElem_cons hl h0
      subst hd0
      obtain ⟨s1, s2⟩ := hb.shape
      refine ⟨fun b hb => ?_, fun b hb => ?_⟩
      · rcases s1 with ⟨e, b0, hf, _, _, hnd, _⟩ | ⟨hf, _⟩
        · cases hb.symm.trans hf; exact hnd
        · cases hb.symm.trans hf
      · rcases s2 with ⟨e, b0, hf, _, _, hnd, _⟩ | ⟨hf, _⟩
        · cases hb.symm.trans hf; exact hnd
        · cases hb.symm.trans hf
  refine ⟨fun b hb => ?_, fun b hb => ?_⟩
  · rw [hb] at c4
    simp only [Option.map_some, Option.some.injEq] at c4
    rw [core_ids (congrArg BlockType.points c4 :)]
    cases hf : d0.fixed with
    | none => exact List.nodup_nil
    | some b0 => exact key.1 b0 hf
  · rw [hb] at c5
    cases hf : d0.rep with
    | none => rw [hf] at c5; cases c5
    | some b0 =>
      rw [hf] at c5
      simp only [Option.map_some, Option.some.injEq] at c5
      rw [core_ids (congrArg BlockType.points c5 :)]
      exact key.2 b0 hf


/-! ## Texts -/

theorem foldl_text (cs : List Elem) (old : Option Text) :
    cs.foldl (fun _ c => c.text) old = match cs.getLast? with | some c => c.text | none => old := by
  induction cs generalizing old with
  | nil => rfl
  | cons c cs ih =>
    rw [List.foldl_cons, ih]
    cases cs with
    | nil => rfl
    | cons c2 cs =>
      rw [List.getLast?_cons_cons]
      cases h : (c2 :: cs).getLast? with
      | some x => rfl
      | none => simp at h

theorem foldl_lastText (tag : String) (es : List Elem) (old : Option Text) :
    es.foldl (fun o e => lastText tag e o) old =
      ((es.flatMap Elem.children).filter fun c => c.tag == tag).foldl (fun _ c => c.text) old := by
  induction es generalizing old with
  | nil => rfl
  | cons e es ih =>
    rw [List.foldl_cons, ih, List.flatMap_cons, List.filter_append, List.foldl_append]
    rfl

theorem lastText_lastOf (tag : String) (es : List Elem) : es.foldl (fun o e => lastText tag e o) none = lastOf tag es := by
  rw [foldl_lastText, foldl_text]
  unfold lastOf
  cases ((es.flatMap Elem.children).filter fun c => c.tag == tag).getLast? <;> rfl

/-- The update of the texts of a point. -/
def textUpd (p : PointType) (e : Elem) : PointType :=
  { p with label := lastText "label" e p.label, description := lastText "description" e p.description, notes := lastText "notes" e p.notes }

/-- A point without symbols. -/
def PointType.noSym (p : PointType) : PointType := { p with symbols := [] }

theorem foldl_symbolString_noSym (es : List Elem) (pst : PointType × SymTab) :
    (es.foldl symbolString pst).1.noSym = pst.1.noSym := by
  induction es generalizing pst with
  | nil => rfl
  | cons e es ih =>
    rw [List.foldl_cons, ih]
    obtain ⟨p, tab⟩ := pst
    unfold symbolString
    dsimp only
    split
    · rfl
    · split
      · rfl
      · dsimp only
        split <;> rfl

theorem pointStrings_noSym (tab : SymTab) (e : Elem) (p : PointType) : (pointStrings tab e p).1.noSym = (textUpd p e).noSym := by
  unfold pointStrings
  rw [foldl_symbolString_noSym]
  rfl

/-- The update for one element of the `strings` part. -/
def textIf (p : PointType) (e : Elem) : PointType := if e.get "id" = some p.id then textUpd p e else p

theorem pointsStrings_none {tab : SymTab} {e : Elem} {ps : List PointType} :
    pointsStrings tab e ps = none ↔ ∀ p ∈ ps, e.get "id" ≠ some p.id := by
  induction ps with
  | nil => simp [pointsStrings]
  | cons p ps ih =>
    rw [pointsStrings]
    split
    · rename_i h
      simp [h]
    · rename_i h
      split
      · rename_i h2
        simp only [true_iff]
        intro q hq
        rcases List.mem_cons.mp hq with hq | hq
        · rw [hq]; exact h
        · exact ih.mp h2 q hq
      · rename_i h2
        simp only [reduceCtorEq, false_iff]
        intro hall
        have := ih.mpr fun q hq => hall q (by simp [hq])
        rw [this] at h2
        cases h2

theorem pointsStrings_noSym (tab : SymTab) (e : Elem) : ∀ (ps ps' : List PointType) (tab' : SymTab),
    (ps.map (·.id)).Nodup → pointsStrings tab e ps = some (ps', tab') →
      ps'.map PointType.noSym = ps.map fun p => (textIf p e).noSym
  | [], ps', tab', hn, h => by rw [pointsStrings] at h; cases h
  | p :: ps, ps', tab', hn, h => by
    rw [pointsStrings] at h
    rw [List.map_cons, List.nodup_cons] at hn
    split at h
    · rename_i he
      obtain ⟨hq, -⟩ := Prod.mk.inj (Option.some.inj h)
      rw [← hq]
      simp only [List.map_cons, pointStrings_noSym]
      congr 1
      · unfold textIf; rw [if_pos he]
      · refine List.map_congr_left fun q hq => ?_
        unfold textIf
        rw [if_neg]
        intro hc
        rw [he] at hc
        exact hn.1 (List.mem_map.mpr ⟨q, hq, (Option.some.inj hc).symm⟩)
    · rename_i he
      split at h
      · cases h
      · rename_i hx
        cases h
        simp only [List.map_cons, pointsStrings_noSym tab e ps _ _ hn.2 hx]
        congr 1
        unfold textIf
        rw [if_neg he]

/-- The points of a block that may be absent. -/
def pointsOf (o : Option BlockType) : List PointType :=
  match o with
  | some b => b.points
  | none => []

theorem textIf_none {e : Elem} {ps : List PointType} (h : ∀ p ∈ ps, e.get "id" ≠ some p.id) :
    ps.map PointType.noSym = ps.map fun p => (textIf p e).noSym := by
  refine List.map_congr_left fun p hp => ?_
  unfold textIf
  rw [if_neg (h p hp)]

theorem blockStrings_some {tab tab' : SymTab} {e : Elem} {o : Option BlockType} {b : BlockType}
    (hn : ((pointsOf o).map (·.id)).Nodup) (h : blockStrings tab e o = some (b, tab')) :
    b.points.map PointType.noSym = (pointsOf o).map fun p => (textIf p e).noSym := by
  unfold blockStrings at h
  split at h
  · cases h
  · split at h
    · cases h
    · rename_i hx
      cases h
      exact pointsStrings_noSym _ _ _ _ _ hn hx

theorem blockStrings_none {tab : SymTab} {e : Elem} {o : Option BlockType} (h : blockStrings tab e o = none) :
    ∀ p ∈ pointsOf o, e.get "id" ≠ some p.id := by
  unfold blockStrings at h
  split at h
  · intro p hp; cases hp
  · split at h
    · rename_i hx
      exact pointsStrings_none.mp hx
    · cases h

theorem blockStrings_hit {tab tab' : SymTab} {e : Elem} {o : Option BlockType} {b : BlockType}
    (h : blockStrings tab e o = some (b, tab')) : ∃ p ∈ pointsOf o, e.get "id" = some p.id := by
  apply Classical.byContradiction
  intro hc
  unfold blockStrings at h
  split at h
  · cases h
  · rename_i b0
    have : pointsStrings tab e b0.points = none := pointsStrings_none.mpr fun p hp he => hc ⟨p, hp, he⟩
    rw [this] at h
    cases h

/-- The update for the repeating block: only if the fixed block does not have the point. -/
def textIfRep (fids : List Text) (p : PointType) (e : Elem) : PointType := if p.id ∈ fids then p else textIf p e

theorem stringsPoint_texts (d : TypeDef) (e : Elem) (hf : ((pointsOf d.fixed).map (·.id)).Nodup)
    (hr : ((pointsOf d.rep).map (·.id)).Nodup) :
    (pointsOf (stringsPoint d e).fixed).map PointType.noSym = (pointsOf d.fixed).map (fun p => (textIf p e).noSym) ∧
    (pointsOf (stringsPoint d e).rep).map PointType.noSym =
      (pointsOf d.rep).map fun p => (textIfRep ((pointsOf d.fixed).map (·.id)) p e).noSym := by
  unfold stringsPoint
  split
  · rename_i b tab hx
    refine ⟨blockStrings_some hf hx, ?_⟩
    refine List.map_congr_left fun p _ => ?_
    unfold textIfRep
    split
    · rfl
    · rename_i hp
      obtain ⟨q, hq, he⟩ := blockStrings_hit hx
      unfold textIf
      rw [if_neg]
      intro hc
      rw [he] at hc
      exact hp (List.mem_map.mpr ⟨q, hq, Option.some.inj hc⟩)
  · rename_i hx
    have hnf := blockStrings_none hx
    split
    · rename_i b tab hy
      refine ⟨textIf_none hnf, ?_⟩
      show b.points.map PointType.noSym = _
      rw [blockStrings_some hr hy]
      refine List.map_congr_left fun p _ => ?_
      unfold textIfRep
      split
      · rename_i hp
        obtain ⟨q, hq, hqp⟩ := List.mem_map.mp hp
        unfold textIf
        rw [if_neg]
        intro hc
        exact hnf q hq (by rw [hc, ← hqp])
      · rfl
    · rename_i hy
      have hnr := blockStrings_none hy
      refine ⟨textIf_none hnf, ?_⟩
      refine List.map_congr_left fun p hp => ?_
      unfold textIfRep
      split
      · rfl
      · unfold textIf
        rw [if_neg (hnr p hp)]


theorem textIf_noSym (p : PointType) (e : Elem) : (textIf p e).noSym = textIf p.noSym e := by
  unfold textIf
  show (if e.get "id" = some p.id then textUpd p e else p).noSym = if e.get "id" = some p.id then textUpd p.noSym e else p.noSym
  split <;> rfl

theorem foldl_textIf_noSym (L : List Elem) (p : PointType) : (L.foldl textIf p).noSym = L.foldl textIf p.noSym := by
  induction L generalizing p with
  | nil => rfl
  | cons e L ih => rw [List.foldl_cons, List.foldl_cons, ih, textIf_noSym]

theorem textIfRep_noSym (F : List Text) (p : PointType) (e : Elem) : (textIfRep F p e).noSym = textIfRep F p.noSym e := by
  unfold textIfRep
  show (if p.id ∈ F then p else textIf p e).noSym = if p.id ∈ F then p.noSym else textIf p.noSym e
  split
  · rfl
  · exact textIf_noSym p e

theorem foldl_textIfRep_noSym (F : List Text) (L : List Elem) (p : PointType) :
    (L.foldl (textIfRep F) p).noSym = L.foldl (textIfRep F) p.noSym := by
  induction L generalizing p with
  | nil => rfl
  | cons e L ih => rw [List.foldl_cons, List.foldl_cons, ih, textIfRep_noSym]

theorem core_pointsOf {o o' : Option BlockType} (h : o'.map BlockType.core = o.map BlockType.core) :
    (pointsOf o').map (·.id) = (pointsOf o).map (·.id) := by
  cases o with
  | none =>
    cases o' with
    | none => rfl
    | some b => cases h
  | some b =>
    cases o' with
    | none => cases h
    | some b' =>
      simp only [Option.map_some, Option.some.injEq] at h
      exact core_ids (congrArg BlockType.points h :)

theorem map_noSym_comp {ps ps' : List PointType} {F G : PointType → PointType}
    (h : ps'.map PointType.noSym = ps.map fun p => (F p).noSym) (hG : ∀ p, (G p).noSym = G p.noSym) :
    ps'.map (fun p => (G p).noSym) = ps.map fun p => (G (F p)).noSym := by
  have h1 : ps'.map (fun p => (G p).noSym) = (ps'.map PointType.noSym).map G := by
    rw [List.map_map]
    exact List.map_congr_left fun p _ => hG p
  have h2 : ps.map (fun p => (G (F p)).noSym) = (ps.map fun p => (F p).noSym).map G := by
    rw [List.map_map]
    exact List.map_congr_left fun p _ => hG (F p)
  rw [h1, h2, h]

theorem foldl_stringsPoint_texts : ∀ (L : List Elem) (d : TypeDef), ((pointsOf d.fixed).map (·.id)).Nodup →
    ((pointsOf d.rep).map (·.id)).Nodup →
    (pointsOf (L.foldl stringsPoint d).fixed).map PointType.noSym = (pointsOf d.fixed).map (fun p => (L.foldl textIf p).noSym) ∧
    (pointsOf (L.foldl stringsPoint d).rep).map PointType.noSym =
      (pointsOf d.rep).map fun p => (L.foldl (textIfRep ((pointsOf d.fixed).map (·.id))) p).noSym
  | [], d, _, _ => ⟨rfl, rfl⟩
  | e :: L, d, hf, hr => by
    have hc := stringsPoint_core d e
    unfold TypeDef.core at hc
    simp only [Prod.mk.injEq] at hc
    have i1 := core_pointsOf hc.2.2.2.1
    have i2 := core_pointsOf hc.2.2.2.2
    obtain ⟨t1, t2⟩ := stringsPoint_texts d e hf hr
    obtain ⟨r1, r2⟩ := foldl_stringsPoint_texts L (stringsPoint d e) (by rw [i1]; exact hf) (by rw [i2]; exact hr)
    rw [List.foldl_cons]
    refine ⟨?_, ?_⟩
    · rw [r1]
      exact map_noSym_comp (G := fun p => L.foldl textIf p) t1 (foldl_textIf_noSym L)
    · rw [r2, i1]
      exact map_noSym_comp (G := fun p => L.foldl (textIfRep ((pointsOf d.fixed).map (·.id))) p) t2 (foldl_textIfRep_noSym _ L)

theorem modelStrings_points (d : TypeDef) (ms : List Elem) :
    (modelStrings d ms).fixed = d.fixed ∧ (modelStrings d ms).rep = d.rep ∧ (modelStrings d ms).id = d.id := by
  unfold modelStrings
  split <;> exact ⟨rfl, rfl, rfl⟩

/-- The point elements of the `strings` elements for a model. -/
def stringsPoints (id : Text) (ss : List Elem) : List Elem :=
  (ss.filter fun s => decide (s.get "id" = some id)).flatMap fun s => s.findall "point"

theorem foldl_stringsElem_texts : ∀ (ss : List Elem) (d : TypeDef), ((pointsOf d.fixed).map (·.id)).Nodup →
    ((pointsOf d.rep).map (·.id)).Nodup →
    (pointsOf (ss.foldl stringsElem d).fixed).map PointType.noSym =
      (pointsOf d.fixed).map (fun p => ((stringsPoints d.idText ss).foldl textIf p).noSym) ∧
    (pointsOf (ss.foldl stringsElem d).rep).map PointType.noSym =
      (pointsOf d.rep).map fun p => ((stringsPoints d.idText ss).foldl (textIfRep ((pointsOf d.fixed).map (·.id))) p).noSym
  | [], d, _, _ => ⟨rfl, rfl⟩
  | s :: ss, d, hf, hr => by
    have hc := stringsElem_core d s
    unfold TypeDef.core at hc
    simp only [Prod.mk.injEq] at hc
    have i0 : (stringsElem d s).idText = d.idText := by unfold TypeDef.idText; rw [hc.1]
    have i1 := core_pointsOf hc.2.2.2.1
    have i2 := core_pointsOf hc.2.2.2.2
    obtain ⟨r1, r2⟩ := foldl_stringsElem_texts ss (stringsElem d s) (by rw [i1]; exact hf) (by rw [i2]; exact hr)
    rw [List.foldl_cons]
    rw [i0] at r1 r2
    rw [i1] at r2
    have key : (pointsOf (stringsElem d s).fixed).map PointType.noSym =
          (pointsOf d.fixed).map (fun p => ((stringsPoints d.idText [s]).foldl textIf p).noSym) ∧
        (pointsOf (stringsElem d s).rep).map PointType.noSym =
          (pointsOf d.rep).map fun p => ((stringsPoints d.idText [s]).foldl (textIfRep ((pointsOf d.fixed).map (·.id))) p).noSym := by
      unfold stringsElem stringsPoints
      by_cases h : s.get "id" = some d.idText
      · rw [if_pos h]
        obtain ⟨m1, m2, m3⟩ := modelStrings_points d (s.findall "model")
        have := foldl_stringsPoint_texts (s.findall "point") (modelStrings d (s.findall "model")) (by rw [m1]; exact hf)
          (by rw [m2]; exact hr)
        rw [m1, m2] at this
        simpa [h] using this
      · rw [if_neg h]
        simp [h]
    have happ : stringsPoints d.idText (s :: ss) = stringsPoints d.idText [s] ++ stringsPoints d.idText ss := by
      unfold stringsPoints
      rw [← List.flatMap_append, ← List.filter_append]
      rfl
    rw [happ]
    simp only [List.foldl_append]
    refine ⟨?_, ?_⟩
    · rw [r1]
      exact map_noSym_comp (G := fun p => (stringsPoints d.idText ss).foldl textIf p) key.1 (foldl_textIf_noSym _)
    · rw [r2]
      exact map_noSym_comp (G := fun p => (stringsPoints d.idText ss).foldl (textIfRep ((pointsOf d.fixed).map (·.id))) p) key.2
        (foldl_textIfRep_noSym _ _)

theorem foldl_textIf (L : List Elem) (p : PointType) :
    L.foldl textIf p = (L.filter fun e => decide (e.get "id" = some p.id)).foldl textUpd p := by
  induction L generalizing p with
  | nil => rfl
  | cons e L ih =>
    rw [List.foldl_cons, ih]
    unfold textIf
    by_cases h : e.get "id" = some p.id
    · rw [if_pos h, List.filter_cons]
      rw [if_pos (by simpa using h), List.foldl_cons]
      rfl
    · rw [if_neg h, List.filter_cons, if_neg (by simpa using h)]

theorem textUpd_id (L : List Elem) (p : PointType) : (L.foldl textUpd p).label = L.foldl (fun o e => lastText "label" e o) p.label ∧
    (L.foldl textUpd p).description = L.foldl (fun o e => lastText "description" e o) p.description ∧
    (L.foldl textUpd p).notes = L.foldl (fun o e => lastText "notes" e o) p.notes := by
  induction L generalizing p with
  | nil => exact ⟨rfl, rfl, rfl⟩
  | cons e L ih =>
    simp only [List.foldl_cons]
    exact ih (textUpd p e)

theorem foldl_textIfRep (F : List Text) (L : List Elem) (p : PointType) :
    L.foldl (textIfRep F) p = if p.id ∈ F then p else L.foldl textIf p := by
  induction L generalizing p with
  | nil => simp
  | cons e L ih =>
    rw [List.foldl_cons, ih]
    unfold textIfRep
    by_cases h : p.id ∈ F
    · simp [h]
    · have hid : (textIf p e).id = p.id := by unfold textIf; split <;> rfl
      simp [h, hid]

theorem texts_final {e : Elem} {p q : PointType} {L : List Elem} (hraw : RawTexts e p)
    (h : q.noSym = (L.foldl textUpd p).noSym) : TextsOf (e :: L) q := by
  obtain ⟨u1, u2, u3⟩ := textUpd_id L p
  have h1 : q.label = (L.foldl textUpd p).label := (congrArg PointType.label h :)
  have h2 : q.description = (L.foldl textUpd p).description := (congrArg PointType.description h :)
  have h3 : q.notes = (L.foldl textUpd p).notes := (congrArg PointType.notes h :)
  refine ⟨?_, ?_, ?_⟩
  · rw [h1, u1, hraw.1, ← lastText_lastOf, List.foldl_cons]
  · rw [h2, u2, hraw.2.1, ← lastText_lastOf, List.foldl_cons]
  · rw [h3, u3, hraw.2.2, ← lastText_lastOf, List.foldl_cons]

theorem forall₂_noSym {es : List Elem} {ps : List PointType} {R : Elem → PointType → Prop} {F : PointType → PointType}
    (h : List.Forall₂ R es ps) : ∀ {qs : List PointType}, qs.map PointType.noSym = ps.map (fun p => (F p).noSym) →
      List.Forall₂ (fun e q => ∃ p, R e p ∧ q.noSym = (F p).noSym) es qs := by
  induction h with
  | nil =>
    intro qs hq
    cases qs with
    | nil => exact .nil
    | cons _ _ => cases hq
  | cons h _ ih =>
    intro qs hq
    cases qs with
    | nil => cases hq
    | cons q qs =>
      simp only [List.map_cons, List.cons.injEq] at hq
      exact .cons ⟨_, h, hq.1⟩ (ih hq.2)

theorem resolve_noSym (tab : SymTab) (b : BlockType) : (resolveBlock tab b).points.map PointType.noSym = b.points.map PointType.noSym := by
  unfold resolveBlock
  simp only [List.map_map]
  rfl

/-- C56: the texts of a point are the last ones among its own element and the elements for it in the `strings` parts of the model;
for a point of the repeating block only if the fixed block has no point with its id. -/
theorem C56_texts {root m : Elem} {ms : List Elem} {d : TypeDef} {n : Int} (hm : root.findall "model" = m :: ms)
    (h : smdxParse root = .ok d) (hid : d.id = some n) :
    (∀ b e, d.fixed = some b → fixedBlocks m = [e] →
      List.Forall₂ (fun pe p => TextsOf (pe :: stringsFor root (intDec n) p.id) p) (e.findall "point") b.points) ∧
    (∀ b e f, d.rep = some b → repeatingBlocks m = [e] → d.fixed = some f →
      List.Forall₂ (fun pe p => TextsOf (pe :: if p.id ∈ f.points.map (·.id) then [] else stringsFor root (intDec n) p.id) p)
        (e.findall "point") b.points) := by
  obtain ⟨d0, h0, hd⟩ := smdxParse_ok.mp h
  obtain ⟨id, len, f, r, tab, _, _, hb, hd0⟩ := modelElem_cons hm h0
  obtain ⟨s1, s2⟩ := hb.shape
  have hidn : id = n := by
    have := (smdxParse_core h0 h).1
    rw [hid, hd0] at this
    exact (Option.some.inj this).symm
  subst hidn
  have hnf : ((pointsOf d0.fixed).map (·.id)).Nodup := by
    rw [hd0]
    rcases s1 with ⟨e, b0, hf, _, _, hnd, _⟩ | ⟨hf, _⟩
    · rw [hf]; exact hnd
    · rw [hf]; exact List.nodup_nil
  have hnr : ((pointsOf d0.rep).map (·.id)).Nodup := by
    rw [hd0]
    rcases s2 with ⟨e, b0, hf, _, _, hnd, _⟩ | ⟨hf, _⟩
    · rw [hf]; exact hnd
    · rw [hf]; exact List.nodup_nil
  obtain ⟨t1, t2⟩ := foldl_stringsElem_texts (root.findall "strings") d0 hnf hnr
  have hidt : d0.idText = intDec id := by rw [hd0]; rfl
  have hcore := foldl_stringsElem_core (root.findall "strings") d0
  unfold TypeDef.core at hcore
  simp only [Prod.mk.injEq] at hcore
  have hcf := hcore.2.2.2.1
  have hcr := hcore.2.2.2.2
  rw [hidt] at t1 t2
  generalize (root.findall "strings").foldl stringsElem d0 = d2 at hd t1 t2 hcf hcr
  have hfil : ∀ p : PointType, (stringsPoints (intDec id) (root.findall "strings")).foldl textIf p =
      (stringsFor root (intDec id) p.id).foldl textUpd p := fun p => foldl_textIf _ p
  refine ⟨?_, ?_⟩
  · intro b e hdf hfe
    rcases s1 with ⟨e', b0, hf, hfb, _, _, hraw⟩ | ⟨_, hfb⟩
    · rw [hfe] at hfb
      cases hfb
      have hf0 : d0.fixed = some b0 := by rw [hd0]; exact hf
      obtain ⟨b2, hb2⟩ : ∃ b2, d2.fixed = some b2 := by
        cases hx : d2.fixed with
        | none => rw [hx, hf0] at hcf; cases hcf
        | some b2 => exact ⟨b2, rfl⟩
      rw [hb2, hf0] at t1
      have hbb : b = resolveBlock d2.symbols b2 := by
        rw [hd, hb2] at hdf
        exact (Option.some.inj hdf).symm
      have hpts : b.points.map PointType.noSym =
          b0.points.map fun p => ((stringsPoints (intDec id) (root.findall "strings")).foldl textIf p).noSym := by
        rw [hbb, resolve_noSym]
        exact t1
      refine (forall₂_noSym hraw hpts).imp ?_
      rintro pe q ⟨p, hr, hq⟩
      have hqid : q.id = p.id := by
        have := (congrArg PointType.id hq :)
        rw [hfil] at this
        have h3 : ∀ (L : List Elem) (p : PointType), (L.foldl textUpd p).id = p.id := by
          intro L
          induction L with
          | nil => intro p; rfl
          | cons x L ih => intro p; exact ih (textUpd p x)
        exact this.trans (h3 _ p)
      rw [hqid]
      rw [hfil] at hq
      exact texts_final hr hq
    · rw [hfe] at hfb; cases hfb
  · intro b e fb hdr hre hdf
    rcases s2 with ⟨e', b0, hf, hfb, _, _, hraw⟩ | ⟨_, hfb⟩
    · rw [hre] at hfb
      cases hfb
      have hf0 : d0.rep = some b0 := by rw [hd0]; exact hf
      obtain ⟨b2, hb2⟩ : ∃ b2, d2.rep = some b2 := by
        cases hx : d2.rep with
        | none => rw [hx, hf0] at hcr; cases hcr
        | some b2 => exact ⟨b2, rfl⟩
      rw [hb2, hf0] at t2
      have hbb : b = resolveBlock d2.symbols b2 := by
        rw [hd] at hdr
        simp only [hb2, Option.map_some, Option.some.injEq] at hdr
        exact hdr.symm
      have hfids : fb.points.map (·.id) = (pointsOf d0.fixed).map (·.id) := by
        have c4 := (smdxParse_core h0 h).2.2.2.1
        rw [hdf] at c4
        simp only [Option.map_some, Option.some.injEq] at c4
        rw [core_ids (congrArg BlockType.points c4 :)]
        cases d0.fixed with
        | none => rfl
        | some _ => rfl
      have hpts : b.points.map PointType.noSym =
          b0.points.map fun p => ((stringsPoints (intDec id) (root.findall "strings")).foldl
            (textIfRep ((pointsOf d0.fixed).map (·.id))) p).noSym := by
        rw [hbb, resolve_noSym]
        exact t2
      refine (forall₂_noSym hraw hpts).imp ?_
      rintro pe q ⟨p, hr, hq⟩
      rw [foldl_textIfRep, hfil] at hq
      have h3 : ∀ (L : List Elem) (p : PointType), (L.foldl textUpd p).id = p.id := by
        intro L
        induction L with
        | nil => intro p; rfl
        | cons x L ih => intro p; exact ih (textUpd p x)
      have hqid : q.id = p.id := by
        have := (congrArg PointType.id hq :)
        refine Eq.trans (this : q.id = _) ?_
        split
        · rfl
        · exact h3 _ p
      rw [hqid, hfids]
      split
      · rename_i hx
        rw [if_pos hx] at hq
        exact texts_final (L := []) hr hq
      · rename_i hx
        rw [if_neg hx] at hq
        exact texts_final hr hq
    · rw [hre] at hfb; cases hfb


/-- The texts of a definition. -/
def TypeDef.txt (d : TypeDef) : Option Int × Option Text × Option Text × Option Text := (d.id, d.label, d.description, d.notes)

theorem foldl_stringsPoint_txt (es : List Elem) (d : TypeDef) : (es.foldl stringsPoint d).txt = d.txt := by
  induction es generalizing d with
  | nil => rfl
  | cons e es ih =>
    rw [List.foldl_cons, ih]
    unfold stringsPoint
    split
    · rfl
    · split <;> rfl

theorem foldl_stringsElem_txt (ss : List Elem) (d : TypeDef) :
    (ss.foldl stringsElem d).txt =
      (let L := (ss.filter fun s => decide (s.get "id" = some d.idText)).filterMap fun s => (s.findall "model").head?
       (d.id, L.foldl (fun o e => lastText "label" e o) d.label, L.foldl (fun o e => lastText "description" e o) d.description,
        L.foldl (fun o e => lastText "notes" e o) d.notes)) := by
  induction ss generalizing d with
  | nil => rfl
  | cons s ss ih =>
    rw [List.foldl_cons, ih]
    have hid : (stringsElem d s).id = d.id := congrArg Prod.fst (stringsElem_core d s)
    have hidt : (stringsElem d s).idText = d.idText := by unfold TypeDef.idText; rw [hid]
    rw [hidt, hid]
    by_cases h : s.get "id" = some d.idText
    · have ht : (stringsElem d s).txt = (modelStrings d (s.findall "model")).txt := by
        unfold stringsElem
        rw [if_pos h, foldl_stringsPoint_txt]
      have t1 : (stringsElem d s).label = (modelStrings d (s.findall "model")).label := congrArg (fun t => t.2.1) ht
      have t2 : (stringsElem d s).description = (modelStrings d (s.findall "model")).description := congrArg (fun t => t.2.2.1) ht
      have t3 : (stringsElem d s).notes = (modelStrings d (s.findall "model")).notes := congrArg (fun t => t.2.2.2) ht
      rw [List.filter_cons, if_pos (by simpa using h), List.filterMap_cons, t1, t2, t3]
      cases s.findall "model" with
      | nil => rfl
      | cons m ms => rfl
    · have he : stringsElem d s = d := by
        unfold stringsElem
        rw [if_neg h]
      rw [List.filter_cons, if_neg (by simpa using h), he]

/-- C56: the texts of the definition itself. -/
theorem C56_model_texts {root m : Elem} {ms : List Elem} {d : TypeDef} {n : Int} (hm : root.findall "model" = m :: ms)
    (h : smdxParse root = .ok d) (hid : d.id = some n) :
    d.label = lastOf "label" (modelStringsFor root (intDec n)) ∧ d.description = lastOf "description" (modelStringsFor root (intDec n)) ∧
      d.notes = lastOf "notes" (modelStringsFor root (intDec n)) := by
  obtain ⟨d0, h0, hd⟩ := smdxParse_ok.mp h
  obtain ⟨id, len, f, r, tab, _, _, hb, hd0⟩ := modelElem_cons hm h0
  have hidn : id = n := by
    have := (smdxParse_core h0 h).1
    rw [hid, hd0] at this
    exact (Option.some.inj this).symm
  subst hidn
  have ht := foldl_stringsElem_txt (root.findall "strings") d0
  have hidt : d0.idText = intDec id := by rw [hd0]; rfl
  rw [hidt] at ht
  have t1 := congrArg (fun t => t.2.1) ht
  have t2 := congrArg (fun t => t.2.2.1) ht
  have t3 := congrArg (fun t => t.2.2.2) ht
  subst hd
  refine ⟨?_, ?_, ?_⟩
  · rw [← lastText_lastOf]
    refine t1.trans ?_
    rw [hd0]; rfl
  · rw [← lastText_lastOf]
    refine t2.trans ?_
    rw [hd0]; rfl
  · rw [← lastText_lastOf]
    refine t3.trans ?_
    rw [hd0]; rfl

/-! ## Symbols -/

theorem symbolsLoop_frame (pid : Text) : ∀ (es : List Elem) (sids : List Text) (tab : SymTab) (sids' : List Text) (tab' : SymTab),
    symbolsLoop pid es sids tab = .ok (sids', tab') →
      ∀ k : Text × Text, (k.2 ≠ pid ∨ ∀ s ∈ es, s.get "id" ≠ some k.1) → dictGet tab' k = dictGet tab k
  | [], sids, tab, sids', tab', h, k, _ => by
    rw [symbolsLoop] at h
    cases h
    rfl
  | e :: es, sids, tab, sids', tab', h, k, hk => by
    rw [symbolsLoop] at h
    cases he : e.get "id" with
    | none => rw [he] at h; cases h
    | some sid =>
      rw [he] at h
      dsimp only at h
      rw [symbolsLoop_frame pid es _ _ _ _ h k (hk.imp id fun hh s hs => hh s (by simp [hs])), dictGet_set, if_neg]
      rintro rfl
      rcases hk with hk | hk
      · exact hk rfl
      · exact hk e (by simp) he

theorem symbolFill_of (s : Elem) : symbolFill emptySymbol s = symbolOf s [] := by
  unfold symbolFill symbolTexts symbolOf
  simp only [← lastText_lastOf, List.foldl_cons, List.foldl_nil]
  rfl

theorem symbolTexts_of (s : Elem) (es : List Elem) : es.foldl symbolTexts (symbolOf s []) = symbolOf s es := by
  have key : ∀ (es : List Elem) (y : Symbol), es.foldl symbolTexts y =
      ⟨y.id, y.value, es.foldl (fun o e => lastText "label" e o) y.label, es.foldl (fun o e => lastText "description" e o) y.description,
        es.foldl (fun o e => lastText "notes" e o) y.notes⟩ := by
    intro es
    induction es with
    | nil => intro y; rfl
    | cons e es ih => intro y; rw [List.foldl_cons, ih]; rfl
  rw [key]
  unfold symbolOf
  simp only [← lastText_lastOf, List.foldl_cons, List.foldl_nil]

theorem symbolsLoop_known (pid : Text) : ∀ (es : List Elem) (sids : List Text) (tab : SymTab) (sids' : List Text) (tab' : SymTab),
    symbolsLoop pid es sids tab = .ok (sids', tab') →
    (∀ x ∈ sids, x ∈ sids') ∧ (∀ k, dictGet tab k ≠ none → dictGet tab' k ≠ none) ∧
    ∀ s ∈ es, ∃ sid, s.get "id" = some sid ∧ sid ∈ sids' ∧ dictGet tab' (sid, pid) ≠ none
  | [], sids, tab, sids', tab', h => by
    rw [symbolsLoop] at h
    cases h
    exact ⟨fun _ h => h, fun _ h => h, fun s hs => nomatch hs⟩
  | e :: es, sids, tab, sids', tab', h => by
    rw [symbolsLoop] at h
    cases he : e.get "id" with
    | none => rw [he] at h; cases h
    | some sid =>
      rw [he] at h
      dsimp only at h
      obtain ⟨h1, h2, h3⟩ := symbolsLoop_known pid es _ _ _ _ h
      refine ⟨fun x hx => h1 x (by split <;> simp [hx]), fun k hk => h2 k ?_, ?_⟩
      · rw [dictGet_set]
        split
        · simp
        · exact hk
      · intro s hs
        rcases List.mem_cons.1 hs with rfl | hs
        · refine ⟨sid, he, h1 sid (by split <;> simp [*]), h2 _ ?_⟩
          rw [dictGet_set, if_pos rfl]
          simp
        · exact h3 s hs

theorem symbolsLoop_get (pid : Text) : ∀ (es : List Elem) (sids : List Text) (tab : SymTab) (sids' : List Text) (tab' : SymTab),
    symbolsLoop pid es sids tab = .ok (sids', tab') → (es.map fun s => s.get "id").Nodup →
    (∀ s ∈ es, ∀ sid, s.get "id" = some sid → sid ∉ sids ∧ dictGet tab (sid, pid) = none) →
      ∃ ids, sids' = sids ++ ids ∧ List.Forall₂ (fun (s : Elem) (sid : Text) => s.get "id" = some sid ∧
        dictGet tab' (sid, pid) = some (symbolOf s [])) es ids
  | [], sids, tab, sids', tab', h, _, _ => by
    rw [symbolsLoop] at h
    cases h
    exact ⟨[], by simp, .nil⟩
  | e :: es, sids, tab, sids', tab', h, hn, hfresh => by
    rw [symbolsLoop] at h
    cases he : e.get "id" with
    | none => rw [he] at h; cases h
    | some sid =>
      rw [he] at h
      dsimp only at h
      obtain ⟨f1, f2⟩ := hfresh e (by simp) sid he
      rw [if_neg f1, f2, Option.getD_none, symbolFill_of] at h
      rw [List.map_cons, List.nodup_cons] at hn
      have hne : ∀ s ∈ es, s.get "id" ≠ some sid := by
        intro s hs hc
        exact hn.1 (by rw [he, ← hc]; exact List.mem_map.mpr ⟨s, hs, rfl⟩)
      obtain ⟨ids, h1, h2⟩ := symbolsLoop_get pid es _ _ _ _ h hn.2 (by
        intro s hs sid' hsid'
        obtain ⟨g1, g2⟩ := hfresh s (by simp [hs]) sid' hsid'
        have hdiff : sid' ≠ sid := by
          rintro rfl
          exact hne s hs hsid'
        refine ⟨?_, ?_⟩
        · simp [g1, hdiff]
        · rw [dictGet_set, if_neg (by intro hc; exact hdiff (Prod.mk.inj hc).1), g2])
      refine ⟨sid :: ids, by rw [h1]; simp, .cons ⟨he, ?_⟩ h2⟩
      rw [symbolsLoop_frame pid es _ _ _ _ h (sid, pid) (Or.inr hne), dictGet_set, if_pos rfl]

theorem PointsRes.frame {tab tab' : SymTab} {es : List Elem} {ps : List PointType} (h : PointsRes tab es ps tab') :
    ∀ k : Text × Text, k.2 ∉ ps.map (·.id) → dictGet tab' k = dictGet tab k := by
  induction h with
  | nil => intro k _; rfl
  | cons h _ ih =>
    intro k hk
    simp only [List.map_cons, List.mem_cons, not_or] at hk
    rw [ih k hk.2]
    obtain ⟨sids, hs, _⟩ := h.symbols
    exact symbolsLoop_frame _ _ _ _ _ _ hs k (Or.inl hk.1)

theorem resolve_syms {tab : SymTab} {pid : Text} {es : List Elem} {ids : List Text} {g : Elem → Symbol}
    (h : List.Forall₂ (fun (s : Elem) (sid : Text) => s.get "id" = some sid ∧ dictGet tab (sid, pid) = some (g s)) es ids) :
    (ids.map fun s => ({ emptySymbol with id := some s } : Symbol)).map (fun s =>
      match s.id with
      | some sid => (dictGet tab (sid, pid)).getD s
      | none => s) = es.map g := by
  induction h with
  | nil => rfl
  | cons h _ ih =>
    simp only [List.map_cons, ih]
    congr 1
    rw [h.2]
    rfl

/-- `SymbolsOf` for any function that gives the symbol of an element of a point. -/
def SymsBy (g : Text → Elem → Symbol) (e : Elem) (p : PointType) : Prop :=
  ((e.findall "symbol").map fun s => s.get "id").Nodup → p.symbols = (e.findall "symbol").map (g p.id)

/-- The table `tabF` has `g pid s` where `tab` has the symbol of the element `s`. -/
def Becomes (tab tabF : SymTab) (g : Text → Elem → Symbol) (pid : Text) : Prop :=
  ∀ (s : Elem) (sid : Text), s.get "id" = some sid → dictGet tab (sid, pid) = some (symbolOf s []) → dictGet tabF (sid, pid) = some (g pid s)

theorem PointsRes.syms {tab tab' : SymTab} {es : List Elem} {ps : List PointType} (h : PointsRes tab es ps tab')
    (g : Text → Elem → Symbol) :
    (ps.map (·.id)).Nodup → (∀ k : Text × Text, k.2 ∈ ps.map (·.id) → dictGet tab k = none) →
      ∀ tabF : SymTab, (∀ pid ∈ ps.map (·.id), Becomes tab' tabF g pid) →
      List.Forall₂ (SymsBy g) es (ps.map (resolvePoint tabF)) := by
  induction h with
  | nil => intro _ _ tabF _; exact .nil
  | @cons tab t1 t2 e p es ps h hs ih =>
    intro hn hfresh tabF hF
    rw [List.map_cons, List.nodup_cons] at hn
    refine .cons ?_ (ih hn.2 ?_ tabF ?_)
    · intro hdis
      obtain ⟨sids, hl, hsy⟩ := h.symbols
      obtain ⟨ids, h1, h2⟩ := symbolsLoop_get p.id _ [] tab sids t1 hl hdis (by
        intro s _ sid _
        exact ⟨by simp, hfresh (sid, p.id) (by simp)⟩)
      rw [List.nil_append] at h1
      subst h1
      have h3 : List.Forall₂ (fun (s : Elem) (sid : Text) => s.get "id" = some sid ∧
          dictGet tabF (sid, p.id) = some (g p.id s)) (e.findall "symbol") sids := by
        refine h2.imp ?_
        rintro s sid ⟨ha, hb⟩
        refine ⟨ha, ?_⟩
        exact hF p.id (by simp) s sid ha (by rw [hs.frame (sid, p.id) hn.1, hb])
      unfold resolvePoint
      dsimp only
      rw [hsy]
      exact resolve_syms h3
    · intro k hk
      obtain ⟨sids, hl, _⟩ := h.symbols
      rw [symbolsLoop_frame _ _ _ _ _ _ hl k (Or.inl (by rintro hc; exact hn.1 (hc ▸ hk)))]
      exact hfresh k (by simp [hk])
    · intro k hk
      exact hF k (by simp [hk])

/-- The point has references to the symbols of its element, and the table has them. -/
def Refs (tab : SymTab) (e : Elem) (p : PointType) : Prop :=
  e.get "id" = some p.id ∧ ∀ s ∈ e.findall "symbol", ∃ sid, s.get "id" = some sid ∧ (p.symbols.any fun q => decide (q.id = some sid)) = true ∧
    dictGet tab (sid, p.id) ≠ none

theorem PointsRes.refs {tab tab' : SymTab} {es : List Elem} {ps : List PointType} (h : PointsRes tab es ps tab') :
    (∀ k, dictGet tab k ≠ none → dictGet tab' k ≠ none) ∧ List.Forall₂ (Refs tab') es ps := by
  induction h with
  | nil => exact ⟨fun _ h => h, .nil⟩
  | @cons tab t1 t2 e p es ps h hs ih =>
    obtain ⟨sids, hl, hsy⟩ := h.symbols
    obtain ⟨_, h2, h3⟩ := symbolsLoop_known _ _ _ _ _ _ hl
    refine ⟨fun k hk => ih.1 k (h2 k hk), .cons ⟨h.of.id, fun s hs => ?_⟩ ih.2⟩
    obtain ⟨sid, g1, g2, g3⟩ := h3 s hs
    refine ⟨sid, g1, ?_, ih.1 _ g3⟩
    rw [hsy, List.any_eq_true]
    exact ⟨_, List.mem_map.2 ⟨sid, g2, rfl⟩, by simp⟩

theorem Refs.mono {tab tab' : SymTab} (hm : ∀ k, dictGet tab k ≠ none → dictGet tab' k ≠ none) {es : List Elem} {ps : List PointType}
    (h : List.Forall₂ (Refs tab) es ps) : List.Forall₂ (Refs tab') es ps := by
  refine h.imp ?_
  rintro e p ⟨h1, h2⟩
  refine ⟨h1, fun s hs => ?_⟩
  obtain ⟨sid, a, b, c⟩ := h2 s hs
  exact ⟨sid, a, b, hm _ c⟩

/-- The symbols in a `strings` element for a point of the definition are known. -/
def KnownIn (tab : SymTab) (e : Elem) (ps : List (Text × List Symbol)) : Prop :=
  ∀ p ∈ ps, e.get "id" = some p.1 → ∀ s ∈ e.findall "symbol", ∃ sid, s.get "id" = some sid ∧
    (p.2.any fun q => decide (q.id = some sid)) = true ∧ dictGet tab (sid, p.1) ≠ none

/-- The ids and symbols of a point. -/
def PointType.syms (p : PointType) : Text × List Symbol := (p.id, p.symbols)

/-- The symbols of the table after the texts of `es` for the point `pid`. -/
def Texted (tab tab' : SymTab) (pid : Text) (es : List Elem) : Prop :=
  ∀ k : Text × Text, dictGet tab' k = if k.2 = pid then
    (dictGet tab k).map fun s => (es.filter fun t => decide (t.get "id" = some k.1)).foldl symbolTexts s else dictGet tab k

theorem symbolString_known (p : PointType) : ∀ (es : List Elem) (tab : SymTab),
    (∀ s ∈ es, ∃ sid, s.get "id" = some sid ∧ (p.symbols.any fun q => decide (q.id = some sid)) = true ∧ dictGet tab (sid, p.id) ≠ none) →
    ∃ tab', es.foldl symbolString (p, tab) = (p, tab') ∧ Texted tab tab' p.id es
  | [], tab, _ => ⟨tab, rfl, fun k => by split <;> simp⟩
  | e :: es, tab, h => by
    obtain ⟨sid, h1, h2, h3⟩ := h e (by simp)
    obtain ⟨y, hy⟩ := Option.ne_none_iff_exists'.1 h3
    have hstep : symbolString (p, tab) e = (p, dictSet tab (sid, p.id) (symbolTexts y e)) := by
      unfold symbolString
      dsimp only
      rw [h1]
      dsimp only
      rw [hy]
      dsimp only
      rw [if_pos h2]
    obtain ⟨tab', g1, g2⟩ := symbolString_known p es (dictSet tab (sid, p.id) (symbolTexts y e)) (by
      intro s hs
      obtain ⟨sid', a, b, c⟩ := h s (by simp [hs])
      refine ⟨sid', a, b, ?_⟩
      rw [dictGet_set]
      split
      · simp
      · exact c)
    refine ⟨tab', by rw [List.foldl_cons, hstep, g1], ?_⟩
    intro k
    rw [g2 k, dictGet_set]
    by_cases hk : k.2 = p.id
    · rw [if_pos hk, if_pos hk]
      by_cases hk1 : k.1 = sid
      · have : k = (sid, p.id) := Prod.ext hk1 hk
        subst this
        rw [if_pos rfl, hy, List.filter_cons_of_pos (by simp [h1])]
        rfl
      · rw [if_neg (by rintro rfl; exact hk1 rfl), List.filter_cons_of_neg]
        simp only [h1, Option.some.injEq, decide_eq_true_eq]
        exact fun hc => hk1 hc.symm
    · rw [if_neg hk, if_neg hk, if_neg (by rintro rfl; exact hk rfl)]

theorem pointsStrings_syms {tab : SymTab} {e : Elem} : ∀ {ps : List PointType}, KnownIn tab e (ps.map PointType.syms) →
    (pointsStrings tab e ps = none ∧ ∀ p ∈ ps, e.get "id" ≠ some p.id) ∨
    ∃ ps' tab' pid, pointsStrings tab e ps = some (ps', tab') ∧ ps'.map PointType.syms = ps.map PointType.syms ∧ e.get "id" = some pid ∧
      Texted tab tab' pid (e.findall "symbol") ∧ pid ∈ ps.map (·.id)
  | [], _ => .inl ⟨rfl, fun p hp => nomatch hp⟩
  | p :: ps, h => by
    rw [pointsStrings]
    split
    · rename_i he
      right
      obtain ⟨tab', g1, g2⟩ := symbolString_known (textUpd p e) (e.findall "symbol") tab (h p.syms (by simp) he)
      have hp : pointStrings tab e p = (textUpd p e, tab') := g1
      rw [hp]
      exact ⟨_, _, p.id, rfl, rfl, he, g2, by simp⟩
    · rename_i he
      rcases pointsStrings_syms (ps := ps) (fun q hq => h q (by rw [List.map_cons]; exact List.mem_cons_of_mem _ hq)) with
        ⟨h1, h2⟩ | ⟨ps', tab', pid, h1, h2, h3, h4, h5⟩
      · left
        rw [h1]
        refine ⟨rfl, fun q hq => ?_⟩
        rcases List.mem_cons.1 hq with rfl | hq
        · exact he
        · exact h2 q hq
      · right
        rw [h1]
        exact ⟨_, _, pid, rfl, by simp only [List.map_cons, h2], h3, h4, by simp only [List.map_cons]; exact List.mem_cons_of_mem _ h5⟩

/-- What the references of a definition depend on. -/
def TypeDef.refs (d : TypeDef) : Option (List (Text × List Symbol)) × Option (List (Text × List Symbol)) :=
  (d.fixed.map fun b => b.points.map PointType.syms, d.rep.map fun b => b.points.map PointType.syms)

/-- Ids and symbols of all points. -/
def allRefs (r : Option (List (Text × List Symbol)) × Option (List (Text × List Symbol))) : List (Text × List Symbol) :=
  r.1.getD [] ++ r.2.getD []

/-- The table after the texts of `e` for points of the definition. -/
def TextedBy (d d' : TypeDef) (es : List Elem) : Prop :=
  d'.refs = d.refs ∧ (∀ k, dictGet d.symbols k ≠ none → dictGet d'.symbols k ≠ none) ∧
  ∀ k : Text × Text, k.2 ∈ (allRefs d.refs).map (·.1) → dictGet d'.symbols k = (dictGet d.symbols k).map fun s =>
    (((es.filter fun e => decide (e.get "id" = some k.2)).flatMap fun e => e.findall "symbol").filter
      fun t => decide (t.get "id" = some k.1)).foldl symbolTexts s

theorem texted_keeps {tab tab' : SymTab} {pid : Text} {es : List Elem} (h : Texted tab tab' pid es) (k : Text × Text)
    (hk : dictGet tab k ≠ none) : dictGet tab' k ≠ none := by
  rw [h k]
  split
  · obtain ⟨y, hy⟩ := Option.ne_none_iff_exists'.1 hk
    rw [hy]; simp
  · exact hk

theorem texted_one {tab tab' : SymTab} {e : Elem} {pid : Text} (he : e.get "id" = some pid) (h : Texted tab tab' pid (e.findall "symbol"))
    (k : Text × Text) : dictGet tab' k = (dictGet tab k).map fun s =>
    ((([e].filter fun e => decide (e.get "id" = some k.2)).flatMap fun e => e.findall "symbol").filter
      fun t => decide (t.get "id" = some k.1)).foldl symbolTexts s := by
  rw [h k]
  split
  · rename_i hk
    rw [List.filter_cons_of_pos (by simp [he, hk])]
    simp
  · rename_i hk
    rw [List.filter_cons_of_neg (by simp only [he, Option.some.injEq, decide_eq_true_eq]; exact fun hc => hk hc.symm)]
    simp

theorem blockStrings_syms {tab : SymTab} {e : Elem} {o : Option BlockType}
    (h : KnownIn tab e ((o.map fun b => b.points.map PointType.syms).getD [])) :
    (blockStrings tab e o = none ∧ ∀ p ∈ pointsOf o, e.get "id" ≠ some p.id) ∨
    ∃ b tab' pid, blockStrings tab e o = some (b, tab') ∧ some (b.points.map PointType.syms) = (o.map fun b => b.points.map PointType.syms) ∧
      e.get "id" = some pid ∧ Texted tab tab' pid (e.findall "symbol") := by
  cases o with
  | none => exact .inl ⟨rfl, fun p hp => nomatch hp⟩
  | some b =>
    unfold blockStrings
    dsimp only
    rcases pointsStrings_syms (tab := tab) (e := e) (ps := b.points) h with ⟨h1, h2⟩ | ⟨ps', tab', pid, h1, h2, h3, h4, _⟩
    · left; rw [h1]; exact ⟨rfl, h2⟩
    · right; rw [h1]; exact ⟨_, _, pid, rfl, by simp only [Option.map_some, h2], h3, h4⟩

theorem stringsPoint_syms {d : TypeDef} {e : Elem} (h : KnownIn d.symbols e (allRefs d.refs)) : TextedBy d (stringsPoint d e) [e] := by
  have hf : KnownIn d.symbols e ((d.fixed.map fun b => b.points.map PointType.syms).getD []) := fun p hp => h p (List.mem_append_left _ hp)
  have hr : KnownIn d.symbols e ((d.rep.map fun b => b.points.map PointType.syms).getD []) := fun p hp => h p (List.mem_append_right _ hp)
  unfold stringsPoint
  rcases blockStrings_syms hf with ⟨h1, h2⟩ | ⟨b, tab', pid, h1, h2, h3, h4⟩
  · rw [h1]
    dsimp only
    rcases blockStrings_syms hr with ⟨h5, h6⟩ | ⟨b, tab', pid, h5, h6, h7, h8⟩
    · rw [h5]
      refine ⟨rfl, fun _ h => h, fun k hk => ?_⟩
      have hne : e.get "id" ≠ some k.2 := by
        obtain ⟨x, hx, hxk⟩ := List.mem_map.1 hk
        rcases List.mem_append.1 hx with hx | hx
        · cases hfx : d.fixed with
          | none => simp only [TypeDef.refs, hfx, Option.map_none, Option.getD_none] at hx; cases hx
          | some b =>
            simp only [TypeDef.refs, hfx, Option.map_some, Option.getD_some] at hx
            obtain ⟨p, hp, rfl⟩ := List.mem_map.1 hx
            rw [← hxk]
            exact h2 p (by rw [hfx]; exact hp)
        · cases hfx : d.rep with
          | none => simp only [TypeDef.refs, hfx, Option.map_none, Option.getD_none] at hx; cases hx
          | some b =>
            simp only [TypeDef.refs, hfx, Option.map_some, Option.getD_some] at hx
            obtain ⟨p, hp, rfl⟩ := List.mem_map.1 hx
            rw [← hxk]
            exact h6 p (by rw [hfx]; exact hp)
      rw [List.filter_cons_of_neg (by simpa using hne)]
      simp
    · rw [h5]
      refine ⟨?_, texted_keeps h8, fun k _ => texted_one h7 h8 k⟩
      simp only [TypeDef.refs, Option.map_some, h6]
  · rw [h1]
    refine ⟨?_, texted_keeps h4, fun k _ => texted_one h3 h4 k⟩
    simp only [TypeDef.refs, Option.map_some, h2]

theorem TextedBy.trans {d d1 d2 : TypeDef} {es es' : List Elem} (h1 : TextedBy d d1 es) (h2 : TextedBy d1 d2 es') : TextedBy d d2 (es ++ es') := by
  refine ⟨h2.1.trans h1.1, fun k hk => h2.2.1 k (h1.2.1 k hk), fun k hk => ?_⟩
  rw [h2.2.2 k (by rw [h1.1]; exact hk), h1.2.2 k hk, Option.map_map]
  congr 1
  funext s
  simp only [Function.comp, List.filter_append, List.flatMap_append, List.foldl_append]

theorem TextedBy.refl (d : TypeDef) : TextedBy d d [] := ⟨rfl, fun _ h => h, fun k _ => by simp⟩

theorem KnownIn.later {d d1 : TypeDef} {es : List Elem} (h : TextedBy d d1 es) {e : Elem} (hk : KnownIn d.symbols e (allRefs d.refs)) :
    KnownIn d1.symbols e (allRefs d1.refs) := by
  rw [h.1]
  intro p hp he s hs
  obtain ⟨sid, a, b, c⟩ := hk p hp he s hs
  exact ⟨sid, a, b, h.2.1 _ c⟩

theorem foldl_stringsPoint_syms : ∀ {es : List Elem} {d : TypeDef}, (∀ e ∈ es, KnownIn d.symbols e (allRefs d.refs)) →
    TextedBy d (es.foldl stringsPoint d) es
  | [], d, _ => .refl d
  | e :: es, d, h => by
    have h1 := stringsPoint_syms (h e (by simp))
    rw [List.foldl_cons]
    exact h1.trans (foldl_stringsPoint_syms fun x hx => (h x (by simp [hx])).later h1)

theorem modelStrings_syms (d : TypeDef) (ms : List Elem) : TextedBy d (modelStrings d ms) [] := by
  have h1 : (modelStrings d ms).refs = d.refs := by unfold modelStrings; split <;> rfl
  have h2 : (modelStrings d ms).symbols = d.symbols := by unfold modelStrings; split <;> rfl
  exact ⟨h1, fun k hk => by rw [h2]; exact hk, fun k _ => by rw [h2]; simp⟩

theorem stringsElem_idText (d : TypeDef) (s : Elem) : (stringsElem d s).id = d.id := by
  have hm : ∀ (d : TypeDef) ms, (modelStrings d ms).id = d.id := by intro d ms; unfold modelStrings; split <;> rfl
  have hp : ∀ (d : TypeDef) e, (stringsPoint d e).id = d.id := by
    intro d e; unfold stringsPoint; split
    · rfl
    · split <;> rfl
  have hf : ∀ (es : List Elem) (d : TypeDef), (es.foldl stringsPoint d).id = d.id := by
    intro es
    induction es with
    | nil => intro d; rfl
    | cons e es ih => intro d; rw [List.foldl_cons, ih, hp]
  unfold stringsElem
  split
  · rw [hf, hm]
  · rfl

/-- The `point` elements of the `strings` elements for a model. -/
def stringPoints (ss : List Elem) (modelId : Text) : List Elem :=
  (ss.filter fun s => decide (s.get "id" = some modelId)).flatMap fun s => s.findall "point"

theorem foldl_stringsElem_syms : ∀ {ss : List Elem} {d : TypeDef}, (∀ e ∈ stringPoints ss d.idText, KnownIn d.symbols e (allRefs d.refs)) →
    TextedBy d (ss.foldl stringsElem d) (stringPoints ss d.idText)
  | [], d, _ => .refl d
  | s :: ss, d, h => by
    have hid : (stringsElem d s).idText = d.idText := by unfold TypeDef.idText; rw [stringsElem_idText]
    rw [List.foldl_cons]
    by_cases hs : s.get "id" = some d.idText
    · have hsp : stringPoints (s :: ss) d.idText = s.findall "point" ++ stringPoints ss d.idText := by
        unfold stringPoints
        rw [List.filter_cons_of_pos (by simp [hs]), List.flatMap_cons]
      rw [hsp] at h ⊢
      have h0 := modelStrings_syms d (s.findall "model")
      have h1 := foldl_stringsPoint_syms (es := s.findall "point") (d := modelStrings d (s.findall "model"))
        fun e he => (h e (List.mem_append_left _ he)).later h0
      have h2 : TextedBy d (stringsElem d s) (s.findall "point") := by
        unfold stringsElem
        rw [if_pos hs]
        exact h0.trans h1
      have h3 := foldl_stringsElem_syms (ss := ss) (d := stringsElem d s) fun e he =>
        (h e (List.mem_append_right _ (by rw [hid] at he; exact he))).later h2
      rw [hid] at h3
      exact h2.trans h3
    · have hsp : stringPoints (s :: ss) d.idText = stringPoints ss d.idText := by
        unfold stringPoints
        rw [List.filter_cons_of_neg (by simp [hs])]
      have he : stringsElem d s = d := by unfold stringsElem; rw [if_neg hs]
      rw [hsp] at h ⊢
      rw [he]
      exact foldl_stringsElem_syms h

theorem resolve_congr {g : Text → Elem → Symbol} {tab : SymTab} : ∀ {ps qs : List PointType}, qs.map PointType.syms = ps.map PointType.syms →
    ∀ {es : List Elem}, List.Forall₂ (SymsBy g) es (ps.map (resolvePoint tab)) → List.Forall₂ (SymsBy g) es (qs.map (resolvePoint tab))
  | [], [], _, _, h => h
  | [], _ :: _, hc, _, _ => by cases hc
  | _ :: _, [], hc, _, _ => by cases hc
  | p :: ps, q :: qs, hc, es, h => by
    simp only [List.map_cons, List.cons.injEq] at hc
    obtain ⟨h1, h2⟩ := Prod.mk.inj hc.1
    cases es with
    | nil => cases h
    | cons e es =>
      rw [List.map_cons] at h ⊢
      cases h with
      | cons ha hb =>
        refine .cons ?_ (resolve_congr hc.2 hb)
        intro hn
        have := ha hn
        unfold resolvePoint at this ⊢
        dsimp only at this ⊢
        rw [h1, h2]
        exact this

/-- The symbols of the fixed and of the repeating block, before the `strings` parts. -/
theorem BlocksRes.syms {m : Elem} {f r : Option BlockType} {tab : SymTab} (h : BlocksRes (m.findall "block") f r tab)
    (hdis : ∀ p ∈ pointsOf f, ∀ q ∈ pointsOf r, p.id ≠ q.id) (g : Text → Elem → Symbol) (tabF : SymTab)
    (hF : ∀ pid, (pid ∈ (pointsOf f).map (·.id) ∨ pid ∈ (pointsOf r).map (·.id)) → Becomes tab tabF g pid) :
    (∀ b e, f = some b → fixedBlocks m = [e] → List.Forall₂ (SymsBy g) (e.findall "point") (b.points.map (resolvePoint tabF))) ∧
    (∀ b e, r = some b → repeatingBlocks m = [e] → List.Forall₂ (SymsBy g) (e.findall "point") (b.points.map (resolvePoint tabF))) := by
  unfold fixedBlocks repeatingBlocks
  generalize m.findall "block" = es at h
  cases h with
  | none => exact ⟨fun b e hb => (nomatch hb), fun b e hb => (nomatch hb)⟩
  | @fixed a b _ h hb =>
    rw [h.of.repeating] at hb
    refine ⟨fun b' e hb' he => ?_, fun b' e hb' => (nomatch hb')⟩
    cases hb'
    simp [hb] at he
    subst he
    exact h.points.syms g h.nodup (fun k _ => rfl) tabF (fun k hk => hF k (.inl hk))
  | @rep a b _ h hb =>
    rw [h.of.repeating] at hb
    refine ⟨fun b' e hb' => (nomatch hb'), fun b' e hb' he => ?_⟩
    cases hb'
    simp [hb] at he
    subst he
    exact h.points.syms g h.nodup (fun k _ => rfl) tabF (fun k hk => hF k (.inr hk))
  | @fixedRep a1 b1 t1 a2 b2 _ h1 h2 hb1 hb2 =>
    rw [h1.of.repeating] at hb1; rw [h2.of.repeating] at hb2
    have d1 : ∀ k : Text, k ∈ b1.points.map (·.id) → k ∉ b2.points.map (·.id) := by
      intro k hk hk2
      obtain ⟨p, hp, hpk⟩ := List.mem_map.mp hk
      obtain ⟨q, hq, hqk⟩ := List.mem_map.mp hk2
      exact hdis p hp q hq (hpk.trans hqk.symm)
    refine ⟨fun b' e hb' he => ?_, fun b' e hb' he => ?_⟩
    · cases hb'
      simp [hb1, hb2] at he
      subst he
      exact h1.points.syms g h1.nodup (fun k _ => rfl) tabF (fun k hk s sid a b => hF k (.inl hk) s sid a
        (by rw [h2.points.frame (sid, k) (d1 k hk)]; exact b))
    · cases hb'
      simp [hb1, hb2] at he
      subst he
      exact h2.points.syms g h2.nodup (fun k hk => h1.points.frame k fun hk1 => d1 k.2 hk1 hk) tabF (fun k hk => hF k (.inr hk))
  | @repFixed a1 b1 t1 a2 b2 _ h1 h2 hb1 hb2 =>
    rw [h1.of.repeating] at hb1; rw [h2.of.repeating] at hb2
    have d1 : ∀ k : Text, k ∈ b1.points.map (·.id) → k ∉ b2.points.map (·.id) := by
      intro k hk hk2
      obtain ⟨p, hp, hpk⟩ := List.mem_map.mp hk
      obtain ⟨q, hq, hqk⟩ := List.mem_map.mp hk2
      exact hdis q hq p hp (hqk.trans hpk.symm)
    refine ⟨fun b' e hb' he => ?_, fun b' e hb' he => ?_⟩
    · cases hb'
      simp [hb1, hb2] at he
      subst he
      exact h2.points.syms g h2.nodup (fun k hk => h1.points.frame k fun hk1 => d1 k.2 hk1 hk) tabF (fun k hk => hF k (.inl hk))
    · cases hb'
      simp [hb1, hb2] at he
      subst he
      exact h1.points.syms g h1.nodup (fun k _ => rfl) tabF (fun k hk s sid a b => hF k (.inr hk) s sid a
        (by rw [h2.points.frame (sid, k) (d1 k hk)]; exact b))

/-- Every point of a parsed `model` element has references to the symbols of one of the `point` elements. -/
theorem BlocksRes.refs {es : List Elem} {f r : Option BlockType} {tab : SymTab} (h : BlocksRes es f r tab) :
    ∀ p ∈ pointsOf f ++ pointsOf r, ∃ b ∈ es, ∃ pe ∈ b.findall "point", Refs tab pe p := by
  have one : ∀ {t0 t1 : SymTab} {a : Elem} {b : BlockType}, BlockRes t0 a b t1 → (∀ k, dictGet t1 k ≠ Option.none → dictGet tab k ≠ Option.none) →
      ∀ p ∈ b.points, ∃ pe ∈ a.findall "point", Refs tab pe p := by
    intro t0 t1 a b hb hm p hp
    have h1 := Refs.mono hm hb.points.refs.2
    obtain ⟨n, hn, rfl⟩ := List.getElem_of_mem hp
    have hl := h1.length_eq
    exact ⟨(a.findall "point")[n], List.getElem_mem (by omega), h1.get (by omega) hn⟩
  cases h with
  | none => intro p hp; cases hp
  | @fixed a b _ h hb =>
    intro p hp
    obtain ⟨pe, h1, h2⟩ := one h (fun _ h => h) p (by simpa [pointsOf] using hp)
    exact ⟨a, by simp, pe, h1, h2⟩
  | @rep a b _ h hb =>
    intro p hp
    obtain ⟨pe, h1, h2⟩ := one h (fun _ h => h) p (by simpa [pointsOf] using hp)
    exact ⟨a, by simp, pe, h1, h2⟩
  | @fixedRep a1 b1 t1 a2 b2 _ h1 h2 hb1 hb2 =>
    intro p hp
    rcases List.mem_append.1 hp with hp | hp
    · obtain ⟨pe, g1, g2⟩ := one h1 h2.points.refs.1 p hp
      exact ⟨a1, by simp, pe, g1, g2⟩
    · obtain ⟨pe, g1, g2⟩ := one h2 (fun _ h => h) p hp
      exact ⟨a2, by simp, pe, g1, g2⟩
  | @repFixed a1 b1 t1 a2 b2 _ h1 h2 hb1 hb2 =>
    intro p hp
    rcases List.mem_append.1 hp with hp | hp
    · obtain ⟨pe, g1, g2⟩ := one h2 (fun _ h => h) p hp
      exact ⟨a2, by simp, pe, g1, g2⟩
    · obtain ⟨pe, g1, g2⟩ := one h1 h2.points.refs.1 p hp
      exact ⟨a1, by simp, pe, g1, g2⟩

/-- The full statement of C56 for symbols: in a parsed definition (whose `strings` parts have texts only for symbols of the definition)
every point has exactly the symbols of its own element, if they have different ids, with the texts of the `strings` parts. -/
def C56_symbols_full : Prop :=
  ∀ (root m : Elem) (ms : List Elem) (d : TypeDef) (n : Int), root.findall "model" = m :: ms → smdxParse root = .ok d → d.id = some n →
    KnownStringSymbols root m (intDec n) →
    (∀ b e, d.fixed = some b → fixedBlocks m = [e] → List.Forall₂ (SymbolsOf root (intDec n)) (e.findall "point") b.points) ∧
    (∀ b e, d.rep = some b → repeatingBlocks m = [e] → List.Forall₂ (SymbolsOf root (intDec n)) (e.findall "point") b.points)

/-- C56, symbols. Missing: definitions in which the fixed and the repeating block have a point with the same id. -/
theorem C56_symbols_partial {root m : Elem} {ms : List Elem} {d : TypeDef} {n : Int} (hm : root.findall "model" = m :: ms)
    (h : smdxParse root = .ok d) (hid : d.id = some n) (hs : KnownStringSymbols root m (intDec n))
    (hdis : ∀ p ∈ pointsOf d.fixed, ∀ q ∈ pointsOf d.rep, p.id ≠ q.id) :
    (∀ b e, d.fixed = some b → fixedBlocks m = [e] → List.Forall₂ (SymbolsOf root (intDec n)) (e.findall "point") b.points) ∧
    (∀ b e, d.rep = some b → repeatingBlocks m = [e] → List.Forall₂ (SymbolsOf root (intDec n)) (e.findall "point") b.points) := by
  obtain ⟨d0, h0, hd⟩ := smdxParse_ok.mp h
  obtain ⟨id, len, f, r, tab, _, _, hb, hd0⟩ := modelElem_cons hm h0
  obtain ⟨c1, _, _, c4, c5⟩ := smdxParse_core h0 h
  have hidn : id = n := by
    rw [hid, hd0] at c1
    exact (Option.some.inj c1).symm
  subst hidn
  have hidt : d0.idText = intDec id := by rw [hd0]; rfl
  have hids1 : (pointsOf d.fixed).map (·.id) = (pointsOf f).map (·.id) := by
    rw [hd0] at c4
    dsimp only at c4
    cases hx : d.fixed with
    | none => rw [hx] at c4; cases c4
    | some b =>
      rw [hx] at c4
      simp only [Option.map_some, Option.some.injEq] at c4
      have := core_ids (congrArg BlockType.points c4 :)
      cases f with
      | none => exact this
      | some b0 => exact this
  have hids2 : (pointsOf d.rep).map (·.id) = (pointsOf r).map (·.id) := by
    rw [hd0] at c5
    exact core_pointsOf c5
  have hdis0 : ∀ p ∈ pointsOf f, ∀ q ∈ pointsOf r, p.id ≠ q.id := by
    intro p hp q hq hpq
    have hp' : p.id ∈ (pointsOf d.fixed).map (·.id) := by rw [hids1]; exact List.mem_map.mpr ⟨p, hp, rfl⟩
    have hq' : q.id ∈ (pointsOf d.rep).map (·.id) := by rw [hids2]; exact List.mem_map.mpr ⟨q, hq, rfl⟩
    obtain ⟨p', hp1, hp2⟩ := List.mem_map.mp hp'
    obtain ⟨q', hq1, hq2⟩ := List.mem_map.mp hq'
    exact hdis p' hp1 q' hq1 (by rw [hp2, hq2, hpq])
  have hall : allRefs d0.refs = (pointsOf f ++ pointsOf r).map PointType.syms := by
    rw [hd0]
    unfold allRefs TypeDef.refs
    cases f <;> cases r <;> simp [pointsOf]
  have hsym0 : d0.symbols = tab := by rw [hd0]
  have hknown : ∀ e ∈ stringPoints (root.findall "strings") d0.idText, KnownIn d0.symbols e (allRefs d0.refs) := by
    intro e he x hx hxe s hse
    rw [hall] at hx
    obtain ⟨p, hp, rfl⟩ := List.mem_map.1 hx
    obtain ⟨b, hb1, pe, hb2, hr1, hr2⟩ := hb.refs p hp
    have hef : e ∈ stringsFor root (intDec id) p.id := by
      unfold stringsFor
      rw [List.mem_filter]
      rw [hidt] at he
      exact ⟨he, decide_eq_true hxe⟩
    obtain ⟨s0, hs0, hs1⟩ := hs b hb1 pe hb2 p.id hr1 e hef s hse
    obtain ⟨sid, g1, g2, g3⟩ := hr2 s0 hs0
    exact ⟨sid, by rw [← hs1, g1], g2, by rw [hsym0]; exact g3⟩
  have htx := foldl_stringsElem_syms hknown
  rw [hidt] at htx
  generalize (root.findall "strings").foldl stringsElem d0 = d2 at hd htx
  obtain ⟨y0, _, y1⟩ := htx
  have hbec : ∀ pid, (pid ∈ (pointsOf f).map (·.id) ∨ pid ∈ (pointsOf r).map (·.id)) →
      Becomes tab d2.symbols (fun pid s => symbolOf s (symbolStringsFor root (intDec id) pid s)) pid := by
    intro pid hpid s sid hsid hts
    have hmem : pid ∈ (allRefs d0.refs).map (·.1) := by
      rw [hall, List.map_map, List.map_append, List.mem_append]
      exact hpid
    rw [y1 (sid, pid) hmem, hsym0, hts, Option.map_some, symbolTexts_of]
    unfold symbolStringsFor
    dsimp only
    rw [hsid]
    rfl
  obtain ⟨k1, k2⟩ := hb.syms hdis0 _ d2.symbols hbec
  unfold TypeDef.refs at y0
  simp only [Prod.mk.injEq] at y0
  obtain ⟨y2, y3⟩ := y0
  subst hd0
  dsimp only at y2 y3
  refine ⟨fun b e hbf he => ?_, fun b e hbr he => ?_⟩
  · rcases hb.shape.1 with ⟨e', b0, hf, hfb, _⟩ | ⟨hf, hfb⟩
    · rw [hf] at y2
      cases hx : d2.fixed with
      | none => rw [hx] at y2; cases y2
      | some b2 =>
        rw [hx] at y2
        simp only [Option.map_some, Option.some.injEq] at y2
        rw [hd, hx] at hbf
        have hbb := Option.some.inj hbf
        rw [← hbb]
        exact resolve_congr y2 (k1 b0 e hf he)
    · rw [he] at hfb; cases hfb
  · rcases hb.shape.2 with ⟨e', b0, hf, hfb, _⟩ | ⟨hf, hfb⟩
    · rw [hf] at y3
      cases hx : d2.rep with
      | none => rw [hx] at y3; cases y3
      | some b2 =>
        rw [hx] at y3
        simp only [Option.map_some, Option.some.injEq] at y3
        rw [hd] at hbr
        simp only [hx, Option.map_some, Option.some.injEq] at hbr
        rw [← hbr]
        exact resolve_congr y3 (k2 b0 e hf he)
    · rw [he] at hfb; cases hfb


/-! ## Examples, and the defect of C56 -/

/-- A leaf element. -/
def leaf (tag : String) (text : Text) : Elem := .mk tag [] (some text) []

/-- A definition with a fixed and a repeating block, texts and symbols. -/
def exDoc : Elem :=
  .mk "sunSpecModels" [] none
    [.mk "model" [("id", t!"64001"), ("len", t!"11"), ("name", t!"demo")] none
      [.mk "block" [("len", t!"10")] none
        [.mk "point" [("id", t!"A"), ("offset", t!"0"), ("type", t!"int16"), ("sf", t!"A_SF"), ("access", t!"rw")] none [],
         .mk "point" [("id", t!"A_SF"), ("offset", t!"1"), ("type", t!"sunssf"), ("mandatory", t!"true")] none [],
         .mk "point" [("id", t!"Nm"), ("offset", t!"2"), ("type", t!"string"), ("len", t!"8")] none [leaf "label" (t!"old")]],
       .mk "block" [("len", t!"1"), ("type", t!"repeating")] none
        [.mk "point" [("id", t!"St"), ("offset", t!"0"), ("type", t!"enum16")] none
          [.mk "symbol" [("id", t!"OFF")] (some (t!"1")) [], .mk "symbol" [("id", t!"ON")] (some (t!"2")) [leaf "label" (t!"on")]]]],
     .mk "strings" [("id", t!"64001"), ("locale", t!"en")] none
      [.mk "model" [] none [leaf "label" (t!"Demo")],
       .mk "point" [("id", t!"Nm")] none [leaf "label" (t!"Name")],
       .mk "point" [("id", t!"St")] none [.mk "symbol" [("id", t!"ON")] none [leaf "label" (t!"On")],
         .mk "symbol" [("id", t!"OFF")] none [leaf "label" (t!"Off"), leaf "notes" (t!"no power")]]]]

theorem ok_of_isOk {α} {r : Py α} (h : r.isOk = true) : ∃ d, r = .ok d := by
  cases r with
  | ok d => exact ⟨d, rfl⟩
  | error x => cases h

theorem exDoc_ok : ∃ d, smdxParse exDoc = .ok d := ok_of_isOk (by decide +kernel)

/-- Reads a parsed definition. -/
def look {α} (root : Elem) (f : TypeDef → α) : Option α := (smdxParse root).toOption.map f

example : look exDoc (·.id) = some (some 64001) := by decide +kernel
example : look exDoc (·.label) = some (some (t!"Demo")) := by decide +kernel
example : look exDoc (fun d => (pointsOf d.fixed).map (·.id)) = some [t!"A", t!"A_SF", t!"Nm"] := by decide +kernel
example : look exDoc (fun d => (pointsOf d.fixed).map (·.len)) = some [1, 1, 8] := by decide +kernel
example : look exDoc (fun d => (pointsOf d.fixed).map (·.label)) = some [none, none, some (t!"Name")] := by decide +kernel
example : look exDoc (fun d => (pointsOf d.rep).map fun p => p.symbols.map (·.value)) = some [[some (t!"1"), some (t!"2")]] := by
  decide +kernel

example : look exDoc (fun d => (pointsOf d.rep).map fun p => p.symbols.map (·.label)) = some [[some (t!"Off"), some (t!"On")]] := by
  decide +kernel

instance (root m : Elem) (modelId : Text) : Decidable (∀ b ∈ m.findall "block", ∀ pe ∈ b.findall "point", ∀ e ∈ stringsFor root modelId
    ((pe.get "id").getD []), ∀ s ∈ e.findall "symbol", ∃ s0 ∈ pe.findall "symbol", s0.get "id" = s.get "id") := inferInstance

/-- Non-vacuity of `C56_symbols_partial`: a definition with texts for its symbols in the `strings` part. -/
example : ValidDoc exDoc ∧ ∀ m ms, exDoc.findall "model" = m :: ms → KnownStringSymbols exDoc m (t!"64001") := by
  refine ⟨(C46_accepts exDoc).mp exDoc_ok, ?_⟩
  intro m ms hm
  have hm' : exDoc.findall "model" = (exDoc.findall "model").headD exDoc :: [] := by rfl
  rw [hm'] at hm
  rw [← (List.cons.inj hm).1]
  have key : ∀ b ∈ ((exDoc.findall "model").headD exDoc).findall "block", ∀ pe ∈ b.findall "point", ∀ e ∈ stringsFor exDoc (t!"64001")
    ((pe.get "id").getD []), ∀ s ∈ e.findall "symbol", ∃ s0 ∈ pe.findall "symbol", s0.get "id" = s.get "id" := by decide +kernel
  intro b hb pe hpe id hid e he s hs
  exact key b hb pe hpe e (by rw [hid]; exact he) s hs

/-- A document that breaks a rule: a string point without length. -/
def badDoc : Elem :=
  .mk "sunSpecModels" [] none [.mk "model" [("id", t!"64001"), ("len", t!"8")] none [.mk "block" [("len", t!"8")] none
    [.mk "point" [("id", t!"Nm"), ("offset", t!"0"), ("type", t!"string")] none []]]]

example : ¬ ValidDoc badDoc := by
  intro h
  obtain ⟨d, hd⟩ := (C46_accepts badDoc).mpr h
  have : (smdxParse badDoc).isOk = false := by decide +kernel
  rw [hd] at this
  cases this

/-- C46, a gap: a document without a `model` element is accepted; the definition has no id, no length and no points. -/
theorem C46_without_model {root : Elem} (h : root.findall "model" = []) :
    ∃ d, smdxParse root = .ok d ∧ d.id = none ∧ d.len = none ∧ d.rep = none ∧ pointsOf d.fixed = [] := by
  have h0 : modelElem root = .ok {} := by unfold modelElem; rw [h]
  have hex : ∃ d, smdxParse root = .ok d := ⟨_, smdxParse_ok.mpr ⟨_, h0, rfl⟩⟩
  obtain ⟨d, hd⟩ := hex
  obtain ⟨c1, c2, _, c4, c5⟩ := smdxParse_core h0 hd
  refine ⟨d, hd, c1, c2, ?_, ?_⟩
  · cases hr : d.rep with
    | none => rfl
    | some b => rw [hr] at c5; cases c5
  · cases hf : d.fixed with
    | none => rfl
    | some b =>
      rw [hf] at c4
      simp only [Option.map_some, Option.some.injEq] at c4
      have := (congrArg BlockType.points c4 :)
      show b.points = []
      simpa [BlockType.core] using this

/-- A definition whose two blocks have a point with the same id and a symbol with the same id. -/
def sharedDoc : Elem :=
  .mk "sunSpecModels" [] none [.mk "model" [("id", t!"64002"), ("len", t!"2")] none
    [.mk "block" [("len", t!"1")] none
      [.mk "point" [("id", t!"St"), ("offset", t!"0"), ("type", t!"enum16")] none [.mk "symbol" [("id", t!"OFF")] (some (t!"1")) []]],
     .mk "block" [("len", t!"1"), ("type", t!"repeating")] none
      [.mk "point" [("id", t!"St"), ("offset", t!"0"), ("type", t!"enum16")] none [.mk "symbol" [("id", t!"OFF")] (some (t!"7")) []]]]]

/-- C56 fails for symbols: the symbol of the point in the fixed block gets the value (7) that the repeating block gives it. -/
theorem C56_symbols_violated : ¬ C56_symbols_full := by
  intro H
  obtain ⟨d, hd⟩ : ∃ d, smdxParse sharedDoc = .ok d := ok_of_isOk (by decide +kernel)
  have hidd : d.id = some 64002 := by
    have : (smdxParse sharedDoc).toOption.map (fun d : TypeDef => d.id) = some (some 64002) := by decide +kernel
    rw [hd] at this
    exact Option.some.inj this
  have hv : (smdxParse sharedDoc).toOption.map (fun d : TypeDef => (pointsOf d.fixed).map fun p => p.symbols.map (·.value)) =
      some [[some (t!"7")]] := by decide +kernel
  rw [hd] at hv
  have hv : (pointsOf d.fixed).map (fun p => p.symbols.map (·.value)) = [[some (t!"7")]] := Option.some.inj hv
  cases hf : d.fixed with
  | none => rw [hf] at hv; cases hv
  | some b =>
    rw [hf] at hv
    have h1 := (H sharedDoc _ [] d 64002 rfl hd hidd (fun b _ pe _ id _ e he => nomatch he)).1 b _ hf rfl
    change List.Forall₂ (SymbolsOf sharedDoc (intDec 64002)) [_] b.points at h1
    cases hp : b.points with
    | nil => rw [hp] at h1; cases h1
    | cons p ps =>
      rw [hp] at h1
      change b.points.map (fun p => p.symbols.map (·.value)) = _ at hv
      rw [hp] at hv
      cases h1 with
      | cons h1 _ =>
        have h2 := h1 (by simp [Elem.findall, Elem.children, Elem.tag])
        rw [List.map_cons] at hv
        have h3 := (List.cons.inj hv).1
        rw [h2] at h3
        rw [List.map_map] at h3
        exact absurd h3 (by
          show ¬ [some (t!"1")] = [some (t!"7")]
          decide)

/-- A definition with one symbol, and texts for it, for a symbol it does not have and twice for one without id. -/
def unknownDoc : Elem :=
  .mk "sunSpecModels" [] none
    [.mk "model" [("id", t!"64003"), ("len", t!"1")] none
      [.mk "block" [("len", t!"1")] none
        [.mk "point" [("id", t!"St"), ("offset", t!"0"), ("type", t!"enum16")] none [.mk "symbol" [("id", t!"OFF")] (some (t!"1")) []]]],
     .mk "strings" [("id", t!"64003")] none
      [.mk "point" [("id", t!"St")] none
        [.mk "symbol" [("id", t!"OFF")] none [.mk "label" [] (some (t!"Off")) []],
         .mk "symbol" [("id", t!"ON")] none [.mk "label" [] (some (t!"On")) []],
         .mk "symbol" [("id", t!"IDLE")] none [.mk "label" [] (some (t!"Idle")) []],
         .mk "symbol" [] none [.mk "notes" [] (some (t!"what")) []]]]]

/-- C56, the restriction to known symbols: a symbol the definition does not have is added to the point without its id and without
value, and texts for a symbol without id go to the one added last. -/
theorem C56_unknown_symbols : (smdxParse unknownDoc).toOption.map (fun d : TypeDef => (pointsOf d.fixed).map (·.symbols)) =
    some [[⟨some (t!"OFF"), some (t!"1"), some (t!"Off"), none, none⟩, ⟨none, none, some (t!"On"), none, none⟩,
      ⟨none, none, some (t!"Idle"), none, some (t!"what")⟩]] := by decide +kernel

end Verif
