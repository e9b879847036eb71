import Verif.Lemmas.Noise
import Verif.Props.Mimic
import Verif.Props.ReadOnly

/-! Lemmas: devices whose reads deliver the contents of the registers whenever they deliver as much as was asked for. -/

namespace Verif
open Verif.Spec

/-- Reads leave the registers as they are; they never deliver more than was asked for, and if they deliver as much, it is the contents of
the registers. -/
def Truthful {σ} (dev : MbDev σ) (mem : σ → RegMem) : Prop :=
  ∀ s a n, mem (dev.read s a n).1 = mem s ∧ ∀ d : Bytes, (dev.read s a n).2 = .ok (some d) → 0 ≤ n →
    (d.length : Int) ≤ 2 * n ∧ ((d.length : Int) = 2 * n → ∃ rs, memRegs (mem s) a n.toNat = some rs ∧ d = regBytes rs)

/-- Reads that return deliver as much as was asked for. -/
def Exact {σ} (dev : MbDev σ) : Prop :=
  ∀ s a n r, (dev.read s a n).2 = .ok r → 0 ≤ n → ∃ d : Bytes, r = some d ∧ (d.length : Int) = 2 * n

theorem noisy_truthful {σ} {slave : Slave σ} {abs : σ → Mem} {sid : Byte} {fits : Bytes → Prop} (hc : NoisyLine fits slave abs sid) :
    Truthful (rtuDev slave sid.toNat) (fun l => regMem (abs l.dev)) := by
  intro l a n
  have h := rtuReadF_noise hc 125 (n.toNat + 1) a n.toNat [] l _ _ rfl
  obtain ⟨h1, h2, _⟩ := h
  refine ⟨congrArg regMem h1, ?_⟩
  intro d hd hn
  obtain ⟨h3, h4⟩ := h2 d hd
  simp only [List.length_nil, Nat.zero_add, List.nil_append] at h3 h4
  refine ⟨by omega, ?_⟩
  intro hl
  obtain ⟨h5, h6⟩ := h4 (by omega)
  by_cases h0 : 0 < n.toNat
  · have h7 := h5 h0
    obtain ⟨rs, hrs⟩ := memRegs_exists (mem := regMem (abs l.dev)) (a := a) (n := n.toNat) (by
      intro x x1 x2
      unfold regMem
      rw [if_pos (by omega)]
      simp)
    refine ⟨rs, hrs, ?_⟩
    rw [h6]
    have := memRegs_memRead (abs l.dev) n.toNat a.toNat rs (by rw [Int.toNat_of_nonneg h7.1]; exact hrs)
    exact this.symm
  · have : n.toNat = 0 := by omega
    refine ⟨[], by rw [this]; rfl, ?_⟩
    rw [h6, this]
    rfl

theorem clear_exact {σ} {slave : Slave σ} {abs : σ → Mem} {sid : Byte} (hc : ClearRtu slave abs sid) :
    Exact (rtuDev slave sid.toNat) := by
  intro l a n r h hn
  have h := (rtuReadF_noise hc 125 (n.toNat + 1) a n.toNat [] l _ _ rfl).2.2 (fun g k hg hk => hg k hk) r h
  obtain ⟨d, h1, h2⟩ := h
  refine ⟨d, h1, ?_⟩
  simp at h2
  omega

/-! ### Reading points -/

theorem tiles_total {plan : List (Int × Int)} : ∀ {a b : Int}, Tiles a b plan → (plan.map (·.2)).sum = b - a := by
  induction plan with
  | nil => intro a b h; simp only [Tiles] at h; simp; omega
  | cons c plan ih =>
    intro a b h
    obtain ⟨x, n⟩ := c
    simp only [Tiles] at h
    have := ih h.2
    simp only [List.map_cons, List.sum_cons]
    omega

/-- Truthful reads of the right size agree with the memory. -/
theorem reads_truthful {σ} {dev : MbDev σ} {mem : σ → RegMem} (hd : Truthful dev mem) (plan : List (Int × Int)) :
    ∀ (s s' : σ) (log : List (Int × Bytes)) (a b : Int), Reads dev s plan s' log → Tiles a b plan → (∀ c ∈ plan, 0 ≤ c.2) →
      mem s' = mem s ∧ ∀ x, a ≤ x → x < b → mem s x = replyMem log x := by
  induction plan with
  | nil =>
    intro s s' log a b h hT _
    obtain ⟨rfl, rfl⟩ := h
    have hT' : a = b := hT
    exact ⟨rfl, fun x h1 h2 => by omega⟩
  | cons c plan ih =>
    intro s s' log a b h hT hpos
    obtain ⟨c1, n⟩ := c
    obtain ⟨rfl, hT⟩ := hT
    obtain ⟨s1, d, log1, h1, h2, h3, rfl⟩ := h
    have hn : 0 ≤ n := hpos (c1, n) (by simp)
    obtain ⟨k1, k2⟩ := hd s c1 n
    rw [h1] at k1 k2
    obtain ⟨rs, k3, rfl⟩ := (k2 d rfl hn).2 h2
    obtain ⟨i1, i2⟩ := ih s1 s' log1 (c1 + n) b h3 hT (fun c hc => hpos c (by simp [hc]))
    dsimp only at k1
    refine ⟨i1.trans k1, ?_⟩
    obtain ⟨hl, hg⟩ := memRegs_get k3
    intro x x1 x2
    unfold replyMem
    rw [regBytes_length]
    by_cases hx : x < c1 + n
    · rw [if_pos (by omega)]
      have e := hg (x - c1).toNat (by omega)
      rw [show c1 + ((x - c1).toNat : Int) = x by omega] at e
      rw [e, regBytes_get rs _ (by omega), show (2 * (x - c1)).toNat = 2 * (x - c1).toNat by omega,
        show (2 * (x - c1) + 1).toNat = 2 * (x - c1).toNat + 1 by omega]
    · rw [if_neg (by omega), ← i2 x (by omega) x2, k1]

theorem chunks_truthful {σ} {dev : MbDev σ} {mem : σ → RegMem} (hd : Truthful dev mem) (plan : List (Int × Int)) :
    ∀ (s s' : σ) (acc d : Bytes), (∀ c ∈ plan, 0 ≤ c.2) → readChunks dev plan acc s = (s', .ok d) →
      (d.length : Int) ≤ acc.length + 2 * (plan.map (·.2)).sum ∧
      ((d.length : Int) = acc.length + 2 * (plan.map (·.2)).sum → ∃ log, Reads dev s plan s' log) := by
  induction plan with
  | nil =>
    intro s s' acc d _ h
    cases h
    exact ⟨by simp, fun _ => ⟨[], rfl, rfl⟩⟩
  | cons c plan ih =>
    intro s s' acc d hpos h
    obtain ⟨a, n⟩ := c
    have hn : 0 ≤ n := hpos (a, n) (by simp)
    rw [readChunks] at h
    rcases e1 : cdRead dev s a n with ⟨s1, r⟩
    rw [e1] at h
    rcases r with x | _ | b
    · cases h
    · cases h
    · dsimp only at h
      have hr := cdRead_ok_iff e1
      obtain ⟨k1, k2⟩ := hd s a n
      rw [hr] at k1 k2
      obtain ⟨k3, k4⟩ := k2 b rfl hn
      obtain ⟨i1, i2⟩ := ih s1 s' _ d (fun c hc => hpos c (by simp [hc])) h
      simp only [List.length_append, List.map_cons, List.sum_cons, Int.natCast_add] at i1 i2 ⊢
      generalize (plan.map (·.2)).sum = t at *
      refine ⟨by omega, ?_⟩
      intro hl
      obtain ⟨log, hlog⟩ := i2 (by omega)
      exact ⟨(a, b) :: log, s1, b, log, hr, by omega, hlog, rfl⟩

/-- On a truthful device `read_points` leaves a model as it is, or gives it the values that the registers have. -/
theorem readPoints_truthful {σ} {dev : MbDev σ} {mem : σ → RegMem} (hd : Truthful dev mem) (s : σ) (m : MdlObj) (hm : ModelOK m)
    (ht : Tiles m.addr (m.addr + m.len) (readPlan m)) (hpos : ∀ c ∈ readPlan m, 0 ≤ c.2) :
    (readPoints dev s m).2.1 = m ∨ ((readPoints dev s m).2.2 = .ok () ∧ ModelRead (mem s) m (readPoints dev s m).2.1) := by
  by_cases hx : ∃ log, Reads dev s (readPlan m) (readPoints dev s m).1 log
  · obtain ⟨log, hlog⟩ := hx
    obtain ⟨k1, k2⟩ := reads_truthful hd _ _ _ _ _ _ hlog ht hpos
    obtain ⟨m', k3, k4⟩ := readPoints_mem dev s _ m log (mem s) hm ht hlog k2
    right
    rw [k3]
    exact ⟨rfl, k4⟩
  · left
    have happly : ∀ (s' : σ) (d : Bytes), readData dev m s = (s', .ok (some d)) → (d.length : Int) ≠ 2 * m.len ∨ d = [] →
        (readPoints dev s m).2.1 = m := by
      intro s' d hrd hd'
      unfold readPoints
      rw [if_neg hm.mtype, hrd]
      dsimp only
      unfold readApply
      dsimp only
      by_cases h0 : d = []
      · rw [if_pos h0]
      · rw [if_neg h0, if_pos (by rcases hd' with h | h; exact h; exact absurd h h0)]
    have hfst : ∀ (s' : σ) r, readData dev m s = (s', r) → (readPoints dev s m).1 = s' := by
      intro s' r hrd
      unfold readPoints
      rw [if_neg hm.mtype, hrd]
      cases r <;> rfl
    rcases hrd : readData dev m s with ⟨s', x | _ | d⟩
    · unfold readPoints
      rw [if_neg hm.mtype, hrd]
    · unfold readPoints
      rw [if_neg hm.mtype, hrd]
      rfl
    · refine happly s' d hrd ?_
      refine Classical.byContradiction fun hcon => hx ?_
      rw [hfst s' _ hrd]
      have hl : (d.length : Int) = 2 * m.len := by
        refine Classical.byContradiction fun h => hcon (.inl h)
      unfold readData at hrd
      by_cases h1 : m.readBlocks.length = 1
      · rw [if_pos h1] at hrd
        have hp : readPlan m = [(m.addr, m.len)] := by unfold readPlan; rw [if_pos h1]
        have hr := cdRead_ok_iff hrd
        rw [hp]
        exact ⟨[(m.addr, d)], s', d, [], hr, hl, ⟨rfl, rfl⟩, rfl⟩
      · rw [if_neg h1] at hrd
        rcases hc : readChunks dev (readPlan m) [] s with ⟨s1, e | d1⟩
        · rw [hc] at hrd; cases hrd
        · rw [hc] at hrd
          simp only [Prod.mk.injEq, Except.ok.injEq, Option.some.injEq] at hrd
          obtain ⟨rfl, rfl⟩ := hrd
          refine (chunks_truthful hd _ s s1 [] d1 hpos hc).2 ?_
          rw [tiles_total ht, hl]
          simp

theorem truthful_keeps {σ} {dev : MbDev σ} {mem : σ → RegMem} (hd : Truthful dev mem) (s : σ) (m : MdlObj) :
    mem (readPoints dev s m).1 = mem s :=
  readPoints_keeps (I := fun t => mem t = mem s) (fun t a n h => ((hd t a n).1).trans h) s rfl m

/-! ### Scanning -/

theorem scanLoad_is {lib : Int → Py ModelType} {f : Found} {m : MdlObj} (h : scanLoad (lib f.id) (mdlNew f.id f.addr f.len) = .ok m) :
    m = foundModel lib f := by
  unfold scanLoad at h
  unfold foundModel
  rcases hx : mdlLoad (lib f.id) (mdlNew f.id f.addr f.len) with ⟨m', e | u⟩
  · rw [hx] at h
    dsimp only at h
    split at h
    · cases h
    · cases h; rfl
  · rw [hx] at h
    cases h
    rfl

/-- A register read from a truthful device. -/
theorem word_truthful {σ} {dev : MbDev σ} {mem : σ → RegMem} (hd : Truthful dev mem) {s s1 : σ} {a v : Int} {d : Option Bytes}
    (h : cdRead dev s a 1 = (s1, .ok d)) (hw : wordOf d = some v) : ∃ r, mem s a = some r ∧ v = word r := by
  have hr := cdRead_ok_iff h
  cases d with
  | none => cases hw
  | some d =>
    unfold wordOf at hw
    dsimp only at hw
    by_cases hl : d.length = 2
    · rw [if_pos hl] at hw
      have k2 := (hd s a 1).2
      rw [hr] at k2
      obtain ⟨rs, e1, rfl⟩ := (k2 d rfl (by decide)).2 (by omega)
      have e2 : memRegs (mem s) a 1 = some rs := e1
      unfold memRegs at e2
      cases hm : mem s a with
      | none => rw [hm] at e2; cases e2
      | some r =>
        rw [hm] at e2
        simp only [memRegs, Option.some.injEq] at e2
        refine ⟨r, rfl, ?_⟩
        have e3 := word_regBytes r
        unfold wordOf at e3
        dsimp only at e3
        rw [← e2] at hw hl
        rw [if_pos hl] at e3
        rw [hw] at e3
        exact Option.some.inj e3
    · rw [if_neg hl] at hw
      cases hw

theorem word_stop {r : Reg} (h : word r = 65535) : r = (0xff, 0xff) :=
  Classical.byContradiction fun hn => word_ne hn h

theorem wordOf_exact {d : Bytes} (h : (d.length : Int) = 2 * 1) : wordOf (some d) ≠ none := by
  unfold wordOf
  dsimp only
  rw [if_pos (by omega)]
  simp

theorem scanLoop_truthful {σ} {dev : MbDev σ} {mem : σ → RegMem} (hd : Truthful dev mem) (lib : Int → Py ModelType)
    (prog : List MdlObj → Int → Bool) (fuel : Nat) : ∀ (i : Reg) (a : Int) (c : CliDev σ), mem c.st a = some i →
    ∃ fs, (scanLoop dev lib prog fuel (word i) a c).1.list = c.list ++ fs.map (foundModel lib) ∧
      (scanLoop dev lib prog fuel (word i) a c).1.base = c.base ∧ ChainPart (mem c.st) a fs ∧
      (Exact dev → (scanLoop dev lib prog fuel (word i) a c).2 = .ok () → Chain (mem c.st) a fs) := by
  induction fuel with
  | zero => intro i a c _; exact ⟨[], by simp [scanLoop], rfl, .stop, by simp [scanLoop]⟩
  | succ fuel ih =>
    intro i a c hi
    rw [scanLoop]
    by_cases hs : word i = 65535
    · rw [if_pos hs]
      refine ⟨[], by simp, rfl, .stop, fun _ _ => .stop ?_⟩
      rw [hi, word_stop hs]
    · rw [if_neg hs]
      have hne : i ≠ (0xff, 0xff) := by rintro rfl; exact hs (by decide)
      rcases e1 : cdRead dev c.st (a + 1) 1 with ⟨s1, x | d1⟩
      · exact ⟨[], by simp, rfl, .stop, by simp⟩
      · dsimp only
        have m1 : mem s1 = mem c.st := by
          have := (hd c.st (a + 1) 1).1
          rw [cdRead_ok_iff e1] at this
          exact this
        cases hw : wordOf d1 with
        | none =>
          refine ⟨[], by simp, rfl, .stop, ?_⟩
          intro hex _
          obtain ⟨d, rfl, hl⟩ := hex c.st (a + 1) 1 d1 (by rw [cdRead_ok_iff e1]) (by decide)
          exact absurd hw (wordOf_exact hl)
        | some len =>
          dsimp only
          obtain ⟨l, hl, rfl⟩ := word_truthful hd e1 hw
          split
          · exact ⟨[], by simp, rfl, .stop, by simp⟩
          · cases hld : scanLoad (lib (word i)) (mdlNew (word i) (a + 2) (word l)) with
            | error e => exact ⟨[], by simp, rfl, .stop, by simp⟩
            | ok m =>
              have hm := scanLoad_is (f := ⟨word i, a + 2, word l⟩) hld
              subst hm
              dsimp only
              have ea : a + (word l + 2) = a + 2 + word l := by omega
              rw [ea]
              have one : ChainPart (mem c.st) a [⟨word i, a + 2, word l⟩] := .model hi hne hl .stop
              rcases e2 : cdRead dev s1 (a + 2 + word l) 1 with ⟨s2, x | d2⟩
              · exact ⟨_, by simp [addModel], rfl, one, by simp⟩
              · dsimp only
                have m2 : mem s2 = mem s1 := by
                  have := (hd s1 (a + 2 + word l) 1).1
                  rw [cdRead_ok_iff e2] at this
                  exact this
                cases hw2 : wordOf d2 with
                | none =>
                  refine ⟨[⟨word i, a + 2, word l⟩], by simp [addModel], rfl, one, ?_⟩
                  intro hex _
                  obtain ⟨d, rfl, hl⟩ := hex s1 (a + 2 + word l) 1 d2 (by rw [cdRead_ok_iff e2]) (by decide)
                  exact absurd hw2 (wordOf_exact hl)
                | some id2 =>
                  dsimp only
                  obtain ⟨i2, hi2, rfl⟩ := word_truthful hd e2 hw2
                  obtain ⟨fs, f1, f2, f3, f4⟩ := ih i2 (a + 2 + word l)
                    { addModel c (foundModel lib ⟨word i, a + 2, word l⟩) with st := s2 } (by dsimp only; rw [m2]; exact hi2)
                  dsimp only at f1 f2 f3 f4
                  rw [m2, m1] at f3 f4
                  refine ⟨⟨word i, a + 2, word l⟩ :: fs, ?_, f2, .model hi hne hl f3, fun hex hok => .model hi hne hl (f4 hex hok)⟩
                  rw [f1]
                  simp [addModel]

theorem probe_truthful {σ} {dev : MbDev σ} {mem : σ → RegMem} (hd : Truthful dev mem) (bs : List Int) : ∀ (s s' : σ) (a : Int) (d : Bytes),
    probe dev bs s = (s', .ok (some (a, d))) → mem s' = mem s ∧ a ∈ bs ∧
      (∀ id, wordOf (some ((d.drop 4).take 2)) = some id → SunSAt (mem s) a ∧ ∃ i, mem s (a + 2) = some i ∧ id = word i) ∧
      (Exact dev → wordOf (some ((d.drop 4).take 2)) ≠ none) := by
  induction bs with
  | nil => intro s s' a d h; cases h
  | cons b bs ih =>
    intro s s' a d h
    rw [probe] at h
    have m1 := (hd s b 3).1
    rcases e1 : cdRead dev s b 3 with ⟨s1, x | _ | d1⟩
    · have e1' : (dev.read s b 3).1 = s1 := congrArg Prod.fst e1
      rw [e1'] at m1
      rw [e1] at h
      dsimp only at h
      split at h
      · obtain ⟨k1, k2, k3, k4⟩ := ih _ _ _ _ h
        rw [m1] at k1 k3
        exact ⟨k1, by simp [k2], k3, k4⟩
      · cases h
    · rw [e1] at h; cases h
    · have e1' : (dev.read s b 3).1 = s1 := congrArg Prod.fst e1
      rw [e1'] at m1
      rw [e1] at h
      dsimp only at h
      by_cases hsun : d1.take 4 = sunS
      · rw [if_pos hsun] at h
        simp only [Prod.mk.injEq, Except.ok.injEq, Option.some.injEq] at h
        obtain ⟨rfl, rfl, rfl⟩ := h
        have hr := cdRead_ok_iff e1
        have k2 := (hd s b 3).2
        rw [hr] at k2
        obtain ⟨k3, k4⟩ := k2 d1 rfl (by decide)
        refine ⟨m1, by simp, ?_, ?_⟩
        · intro id hid
          have h6 : d1.length = 6 := by
            unfold wordOf at hid
            dsimp only at hid
            by_cases hx : ((d1.drop 4).take 2).length = 2
            · rw [List.length_take, List.length_drop] at hx; omega
            · rw [if_neg hx] at hid; cases hid
          obtain ⟨rs, e3, rfl⟩ := k4 (by omega)
          have e4 : memRegs (mem s) b 3 = some rs := e3
          obtain ⟨hl, hg⟩ := memRegs_get e4
          match rs, hl with
          | [r0, r1, r2], _ =>
            have g0 := hg 0 (by decide)
            have g1 := hg 1 (by decide)
            have g2 := hg 2 (by decide)
            have hsun' : [r0.1, r0.2, r1.1, r1.2] = [0x53, 0x75, 0x6e, 0x53] := hsun
            simp only [List.cons.injEq, and_true] at hsun'
            obtain ⟨a1, a2, a3, a4⟩ := hsun'
            have e0 : r0 = (0x53, 0x75) := Prod.ext a1 a2
            have e1 : r1 = (0x6e, 0x53) := Prod.ext a3 a4
            refine ⟨⟨?_, ?_⟩, r2, ?_, ?_⟩
            · have : mem s (b + ((0 : Nat) : Int)) = some r0 := g0
              rw [Int.natCast_zero, Int.add_zero] at this
              rw [this, e0]
            · have : mem s (b + ((1 : Nat) : Int)) = some r1 := g1
              rw [← e1]
              exact this
            · exact g2
            · have hid' : wordOf (some (regBytes [r2])) = some id := hid
              rw [word_regBytes] at hid'
              exact (Option.some.inj hid').symm
        · intro hex
          obtain ⟨d2, e2, hl⟩ := hex s b 3 (some d1) (by rw [hr]) (by decide)
          cases e2
          unfold wordOf
          dsimp only
          rw [if_pos (by rw [List.length_take, List.length_drop]; omega)]
          simp
      · rw [if_neg hsun] at h
        obtain ⟨k1, k2, k3, k4⟩ := ih _ _ _ _ h
        rw [m1] at k1 k3
        exact ⟨k1, by simp [k2], k3, k4⟩

theorem scanBody_truthful {σ} {dev : MbDev σ} {mem : σ → RegMem} (hd : Truthful dev mem) (lib : Int → Py ModelType)
    (prog : List MdlObj → Int → Bool) (fuel : Nat) (c : CliDev σ) (hb : c.base = none) :
    ∃ fs, (scanBody fuel dev lib prog c).1.list = c.list ++ fs.map (foundModel lib) ∧
      (fs = [] ∨ ∃ a ∈ c.bases, (scanBody fuel dev lib prog c).1.base = some a ∧ SunSAt (mem c.st) a ∧ ChainPart (mem c.st) (a + 2) fs) ∧
      (Exact dev → (scanBody fuel dev lib prog c).2 = .ok () →
        ∃ a ∈ c.bases, (scanBody fuel dev lib prog c).1.base = some a ∧ SunSAt (mem c.st) a ∧ Chain (mem c.st) (a + 2) fs) := by
  unfold scanBody
  rw [hb]
  dsimp only
  rcases e1 : probe dev c.bases c.st with ⟨s, x | _ | ⟨a, d⟩⟩
  · exact ⟨[], by simp, .inl rfl, by simp⟩
  · exact ⟨[], by simp, .inl rfl, by simp⟩
  · obtain ⟨k1, k2, k3, k4⟩ := probe_truthful hd _ _ _ _ _ e1
    dsimp only
    unfold scanFrom
    cases hw : wordOf (some ((d.drop 4).take 2)) with
    | none => exact ⟨[], by simp, .inl rfl, by simp⟩
    | some id =>
      dsimp only
      obtain ⟨k5, i, k6, rfl⟩ := k3 id hw
      obtain ⟨fs, f1, f2, f3, f4⟩ := scanLoop_truthful hd lib prog fuel i (a + 2) { c with st := s, base := some a } (by dsimp only; rw [k1]; exact k6)
      dsimp only at f1 f2 f3 f4
      rw [k1] at f3 f4
      exact ⟨fs, f1, .inr ⟨a, k2, f2, k5, f3⟩, fun hex hok => ⟨a, k2, f2, k5, f4 hex hok⟩⟩

end Verif
