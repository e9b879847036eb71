import Verif.Spec.Command
import Verif.Props.Report
import Verif.Props.CopyBack
import Verif.Props.Failure
import Verif.Props.Wrapper
import Verif.Props.ClientDevice

/-!
# C89: the command suns.py
-/

namespace Verif
open Spec

/-! ### Values after a read -/

theorem unpackU_le {n : Nat} (hn : n ≤ 8) {d : Bytes} {i : Int} (h : unpackU n d = .ok i) : |i| ≤ 2 ^ 64 := by
  unfold unpackU at h
  split at h
  · rename_i hl
    cases h
    have h1 := beDec_lt d
    have h2 : 256 ^ d.length ≤ 256 ^ 8 := Nat.pow_le_pow_right (by decide) (by omega)
    rw [abs_of_nonneg (by omega)]
    have : (beDec d : Int) < (256 ^ 8 : Nat) := by exact_mod_cast lt_of_lt_of_le h1 h2
    norm_num at this ⊢
    omega
  · cases h

theorem unpackS_le {n : Nat} (hn : n ≤ 8) {d : Bytes} {i : Int} (h : unpackS n d = .ok i) : |i| ≤ 2 ^ 64 := by
  unfold unpackS at h
  split at h
  · rename_i hl
    have h1 := beDec_lt d
    rw [hl] at h1
    have h2 : 256 ^ n ≤ 256 ^ 8 := Nat.pow_le_pow_right (by decide) (by omega)
    have h3 : (beDec d : Int) < ((256 ^ n : Nat) : Int) := by exact_mod_cast h1
    have h4 : ((256 ^ n : Nat) : Int) ≤ ((256 ^ 8 : Nat) : Int) := by exact_mod_cast h2
    have e : (256 : Int) ^ n = ((256 ^ n : Nat) : Int) := by push_cast; rfl
    have h := Except.ok.inj h
    rw [e] at h
    norm_num at h4 ⊢
    rw [abs_le]
    split at h <;> omega
  · cases h

theorem readValue_le {t : PT} {d : Bytes} {i : Int} (h : t.readValue d = .ok (some (.int i))) : |i| ≤ 2 ^ 64 := by
  have hk := readValue_kind h
  unfold PT.readValue at h
  cases hf : t.fromData d with
  | error e => rw [hf] at h; cases h
  | ok w =>
    rw [hf] at h
    dsimp only at h
    split at h
    · have hw := Except.ok.inj h
      subst hw
      have ku : ∀ n, n ≤ 8 → (unpackU n d).map (fun i => some (Val.int i)) = .ok (some (.int i)) → |i| ≤ 2 ^ 64 := by
        intro n hn hx
        cases hu : unpackU n d with
        | error e => rw [hu] at hx; cases hx
        | ok j =>
          rw [hu] at hx
          cases hx
          exact unpackU_le hn hu
      have ks : ∀ n, n ≤ 8 → (unpackS n d).map (fun i => some (Val.int i)) = .ok (some (.int i)) → |i| ≤ 2 ^ 64 := by
        intro n hn hx
        cases hu : unpackS n d with
        | error e => rw [hu] at hx; cases hx
        | ok j =>
          rw [hu] at hx
          cases hx
          exact unpackS_le hn hu
      cases t <;> unfold PT.fromData at hf <;> first
        | exact ku 2 (by decide) hf
        | exact ku 4 (by decide) hf
        | exact ku 8 (by decide) hf
        | exact ks 2 (by decide) hf
        | exact ks 4 (by decide) hf
        | exact ks 8 (by decide) hf
        | exact absurd (hk.2.1 rfl) (by rintro ⟨b, hb, -⟩; cases hb)
        | exact absurd (hk.2.2 rfl (by decide)) (by rintro ⟨x, hx⟩; cases hx)
    · cases h

/-- Points of a model as created have no values yet. -/
def Fresh (m : MdlObj) : Prop := ∀ b ∈ m.blocks, ∀ p ∈ b.pts, p.base = none ∧ p.vsf = none

theorem loadPoints_fresh (B : Int) (ts : List PointType) : ∀ lr, ∀ q ∈ (loadPoints B ts lr).pts, q.base = none ∧ q.vsf = none := by
  induction ts with
  | nil => intro lr q hq; simp [loadPoints] at hq
  | cons t ts ih =>
    intro lr q hq
    rw [loadPoints] at hq
    by_cases hp : t.type = .pad
    · rw [if_pos hp] at hq
      exact ih lr q hq
    · rw [if_neg hp] at hq
      dsimp only at hq
      by_cases hs : t.type = .sunssf
      · rw [if_pos hs] at hq
        exact ih _ q hq
      · rw [if_neg hs] at hq
        rcases List.mem_cons.1 hq with rfl | hq
        · exact ⟨rfl, rfl⟩
        · exact ih _ q hq

theorem resolveSfs_fresh (index : Nat) (sfs sfs0 : List PointObj) (ps : List PointObj) (h : ∀ p ∈ ps, p.base = none ∧ p.vsf = none) :
    ∀ p ∈ (resolveSfs index sfs sfs0 ps).1, p.base = none ∧ p.vsf = none := by
  induction ps with
  | nil => simp [resolveSfs]
  | cons x xs ih =>
    rw [resolveSfs]
    cases hx : resolveSf index sfs sfs0 x with
    | error e => exact h
    | ok x' =>
      have hx' : x'.base = x.base ∧ x'.vsf = x.vsf := by
        unfold resolveSf at hx
        repeat' split at hx
        all_goals first
          | (cases hx; exact ⟨rfl, rfl⟩)
          | (cases hx)
      intro p hp
      simp only [List.mem_cons] at hp
      rcases hp with rfl | hp
      · rw [hx'.1, hx'.2]; exact h x (by simp)
      · exact ih (fun p hp => h p (by simp [hp])) p hp

theorem loadLoop_fresh (rep : Option BlockType) (endA : Int) : ∀ (fuel index : Nat) (bt : BlockType) (B bl lr : Int) (m m' : MdlObj) (r : Py Unit),
    Fresh m → loadLoop rep endA fuel index bt B bl lr m = (m', r) → Fresh m' := by
  intro fuel
  induction fuel with
  | zero =>
    intro index bt B bl lr m m' r hm h
    rw [loadLoop] at h
    cases h
    exact hm
  | succ fuel ih =>
    intro index bt B bl lr m m' r hm h
    rw [loadLoop] at h
    by_cases he : endA < B + bl
    · rw [if_pos he] at h
      cases h
      exact hm
    · rw [if_neg he] at h
      dsimp only at h
      have hm1 : ∀ b ∈ m.blocks ++ [⟨bt, B, bl, index, (resolveSfs index (loadPoints B bt.points lr).sfs (firstSfs m.blocks (loadPoints B bt.points lr).sfs) (loadPoints B bt.points lr).pts).1, (loadPoints B bt.points lr).sfs⟩],
          ∀ p ∈ b.pts, p.base = none ∧ p.vsf = none := by
        intro b hb'
        rcases List.mem_append.1 hb' with hb' | hb'
        · exact hm b hb'
        · rw [List.mem_singleton.1 hb']
          exact resolveSfs_fresh _ _ _ _ (loadPoints_fresh _ _ _)
      split at h
      · cases h; exact hm1
      · split at h
        · cases h; exact hm1
        · split at h
          · cases h; exact hm1
          · split at h
            · cases h; exact hm1
            · exact ih _ _ _ _ _ _ _ _ (by exact hm1) h

theorem mdlLoad_fresh (mt : Py ModelType) (id addr len : Int) : Fresh (mdlLoad mt (mdlNew id addr len)).1 := by
  unfold mdlLoad loadWith
  cases mt with
  | error e => intro b hb; cases hb
  | ok t =>
    dsimp only
    cases t.fixed.len.toInt with
    | error e => intro b hb; cases hb
    | ok F =>
      dsimp only
      generalize hl : loadLoop t.rep _ _ 0 t.fixed _ _ _ _ = X
      obtain ⟨m2, r2⟩ := X
      have := loadLoop_fresh _ _ _ _ _ _ _ _ _ _ _ (by intro b hb; cases hb) hl
      cases r2 with
      | error e => exact this
      | ok u => exact this

theorem foundModel_fresh (types : Int → Py ModelType) (f : Found) : Fresh (foundModel types f) :=
  mdlLoad_fresh (types f.id) f.id f.addr f.len

/-- After a read the value of every point can be computed; it is None exactly if the point is not implemented. -/
theorem read_readable {lib : FloatLib} (hl : PowOK lib) {types : Int → Py ModelType} {mem : RegMem} {f : Found} {m' : MdlObj}
    (hr : Reportable types mem f) (h : ModelRead mem (foundModel types f) m') :
    ∀ b ∈ m'.blocks, ∀ p ∈ b.pts, ∃ v, getValue lib p = .ok v ∧ (v = .none ↔ p.base = none) := by
  have hfresh := foundModel_fresh types f
  have hnum := hr.numbers
  have hcon := hr.constants
  have hsc := hr.scales
  generalize foundModel types f = m at *
  intro b' hb' p' hp'
  obtain ⟨i, hi⟩ := List.mem_iff_getElem?.1 hb'
  obtain ⟨j, hj⟩ := List.mem_iff_getElem?.1 hp'
  have hil : i < m.blocks.length := by rw [← h.count]; exact (List.getElem?_eq_some_iff.1 hi).1
  obtain ⟨b, hb⟩ : ∃ b, m.blocks[i]? = some b := ⟨_, List.getElem?_eq_getElem hil⟩
  have hbm := List.mem_of_getElem? hb
  have hjl : j < b.pts.length := by rw [← (h.block i b b' hb hi).2.1]; exact (List.getElem?_eq_some_iff.1 hj).1
  obtain ⟨p, hp⟩ : ∃ p, b.pts[j]? = some p := ⟨_, List.getElem?_eq_getElem hjl⟩
  have hpm := List.mem_of_getElem? hp
  obtain ⟨⟨rs, hrs, hval, hsame⟩, hscale⟩ := h.point i b b' hb hi j p p' hp hj
  obtain ⟨hblank, hplain⟩ := h.blank i b b' hb hi j p p' hp hj
  have hpt : p'.pt = p.pt := by rw [hsame]
  obtain ⟨-, hvsf⟩ := hfresh b hbm p hpm
  have unscaled : p'.vsf = none → ∃ v, getValue lib p' = .ok v ∧ (v = .none ↔ p'.base = none) := by
    intro hv
    refine ⟨baseVal p'.base, ?_, ?_⟩
    · unfold getValue
      rw [hv]
      rfl
    · cases hb0 : p'.base with
      | none => simp [baseVal]
      | some v => cases v <;> simp [baseVal]
  cases hsf : p.sf with
  | none =>
    refine unscaled ?_
    rcases hplain hsf with hx | hx
    · rw [hx, hvsf]
    · exact hx
  | some ref =>
    obtain ⟨hnty, hb16, hb32⟩ := hnum b hbm p hpm (by rw [hsf]; simp)
    have hne : p.pt.type ≠ .eui48 := by
      rintro he
      rw [he] at hnty
      rcases hnty with hx | hx <;> cases hx
    cases hbase : p'.base with
    | none =>
      have := unscaled (hblank hne hbase)
      rw [hbase] at this
      exact this
    | some v =>
      have hIs := hscale (by rw [hbase]; simp) ref hsf
      rw [hbase] at hval
      have hkind := readValue_kind hval
      cases hso : scaleOf p'.vsf with
      | none =>
        refine ⟨baseVal (some v), ?_, ?_⟩
        · unfold getValue
          rw [hso, hbase]
        · cases v <;> simp [baseVal]
      | some k =>
        have hvk : p'.vsf = some (.int k) := by
          unfold scaleOf at hso
          split at hso
          · rename_i k' hx
            split at hso
            · cases hso
            · rw [hx]; rw [Option.some.inj hso]
          · cases hso
        have hk : -250 ≤ k ∧ k ≤ 250 := by
          cases ref with
          | const c =>
            have hIs : p'.vsf = some (.int c) := hIs
            rw [hvk] at hIs
            have : k = c := by simpa using hIs
            rw [this]
            exact hcon b hbm p hpm c hsf
          | point blk id =>
            obtain ⟨c', q', hc', hq', -, hqv⟩ := hIs
            obtain ⟨jq, hjq⟩ := List.mem_iff_getElem?.1 hq'
            have hcl : blk < m.blocks.length := by rw [← h.count]; exact (List.getElem?_eq_some_iff.1 hc').1
            obtain ⟨c, hc⟩ : ∃ c, m.blocks[blk]? = some c := ⟨_, List.getElem?_eq_getElem hcl⟩
            have hql : jq < c.sfs.length := by rw [← (h.block blk c c' hc hc').2.2]; exact (List.getElem?_eq_some_iff.1 hjq).1
            obtain ⟨q, hq⟩ : ∃ q, c.sfs[jq]? = some q := ⟨_, List.getElem?_eq_getElem hql⟩
            obtain ⟨rs', hrs', hval', -⟩ := h.scale blk c c' hc hc' jq q q' hq hjq
            rw [← hqv, hvk] at hval'
            exact hsc c (List.mem_of_getElem? hc) q (List.mem_of_getElem? hq) rs' k hrs' hval'
        obtain ⟨pw, hpw, herr⟩ := hl k hk.1 hk.2
        have hmul : ∃ x, mulBase (some v) (.fin pw) = .ok (.flt x) := by
          rcases hnty with hty | hty
          · obtain ⟨n, rfl⟩ := hkind.1 hty
            obtain ⟨a, ha, -⟩ := get_err (readValue_le hval) (pow10_lower hk.1) (pow10_upper hk.2) herr
            refine ⟨(Flt.fin a).mul (.fin pw), ?_⟩
            unfold mulBase intToFlt
            dsimp only
            rw [ha]
          · obtain ⟨n, rfl, -⟩ := hkind.2.1 hty
            exact ⟨_, rfl⟩
        obtain ⟨x, hx⟩ := hmul
        refine ⟨.flt x, ?_, by simp⟩
        unfold getValue
        rw [hso]
        dsimp only
        rw [hpw]
        dsimp only
        rw [hbase]
        exact hx

/-! ### The command -/

theorem reportable_loaded {types : Int → Py ModelType} {mem : RegMem} {f : Found} (h : Reportable types mem f) :
    (foundModel types f).mtype ≠ none ∧ Wrappable (foundModel types f) := by
  obtain ⟨mt, h1, h2, h3, -⟩ := h.known
  have hl : mdlLoad (.ok mt) (mdlNew f.id f.addr f.len) = (foundModel types f, .ok ()) := by
    unfold foundModel at h2 ⊢
    rw [h1] at h2 ⊢
    generalize mdlLoad (.ok mt) (mdlNew f.id f.addr f.len) = X at h2
    obtain ⟨m, r⟩ := X
    cases r with
    | ok u => rfl
    | error e => simp at h2
  obtain ⟨F, R, n, ho⟩ := loadWith_ok _ mt f.id f.addr f.len _ hl
  refine ⟨by rw [ho.htype]; simp, ?_, ?_⟩
  · intro t ht
    rw [ho.htype] at ht
    cases ht
    exact h3
  · have := mdlLoad_tailRep (.ok mt) f.id f.addr f.len
    rw [hl] at this
    exact this

/-- C89: on a device whose memory is `SunS`, at one of the three addresses, followed by models that can be shown, the script prints one section for
each model, in order, and ends normally. `ms'` are the models with the values of the registers; exactly the points that are implemented have values,
for each of which there is one line (`ModelShows`). The registers are not changed. What is missing: devices with models that cannot be shown
(C66_unknown, C89_violated). -/
theorem C89_report_partial {σ} {dev : ScanDev σ} {R : σ → RegMem → Prop} {wr : Nat → Prop} (hdev : ScanMem dev R wr)
    (types : Int → Py ModelType) (hd : Definitions types) (lib : FloatLib) (hl : PowOK lib) (mem : RegMem) (s : σ) (hs : R s mem)
    (pre : List Int) (b : Int) (post : List Int) (hbases : [40000, 0, 50000] = pre ++ b :: post)
    (hpre : ∀ a ∈ pre, ¬ SunSAt mem a ∧ memRegs mem a 3 ≠ none) (hsun : SunSAt mem b) (fs : List Found) (hch : Chain mem (b + 2) fs)
    (hf : ∀ f ∈ fs, Reportable types mem f) (fuel : Nat) (hfuel : fs.length < fuel) :
    ∃ s' ms' secs, sunsRun fuel dev types lib s = (s', .report secs.flatten, .done) ∧ R s' mem ∧
      List.Forall₂ (ModelRead mem) (fs.map (foundModel types)) ms' ∧ List.Forall₂ (ModelShows lib) ms' secs ∧
      ∀ m ∈ ms', ∀ b ∈ m.blocks, ∀ p ∈ b.pts, ∃ v, getValue lib p = .ok v ∧ (v = .none ↔ p.base = none) := by
  obtain ⟨c, hscan, hc, -, -, hlist, -⟩ := C38_scan_partial hdev types hd mem { st := s } hs rfl pre b post hbases hpre hsun fs hch fuel hfuel
  have hlist : c.list = fs.map (foundModel types) := by rw [hlist]; rfl
  have hmem : ∀ m ∈ c.list, ∃ f ∈ fs, m = foundModel types f := by
    intro m hm
    rw [hlist] at hm
    obtain ⟨f, h1, h2⟩ := List.mem_map.1 hm
    exact ⟨f, h1, h2.symm⟩
  obtain ⟨d, hwrap, -⟩ := wrapDevice_ok lib c.list
    (fun m hm => by obtain ⟨f, h1, rfl⟩ := hmem m hm; exact (reportable_loaded (hf f h1)).2)
    (fun m hm => by obtain ⟨f, h1, rfl⟩ := hmem m hm; exact (hf f h1).name)
  obtain ⟨s', ms', hread, hs', hms⟩ := C55_loaded hdev.mem mem types fs
    (fun f h1 => by
      obtain ⟨mt, k1, k2, -, k4, k5⟩ := (hf f h1).known
      exact ⟨mt, k1, k2, k4, k5, (hf f h1).regs⟩) c.st hc
  have hval : ∀ m ∈ ms', ∀ b ∈ m.blocks, ∀ p ∈ b.pts, ∃ v, getValue lib p = .ok v ∧ (v = .none ↔ p.base = none) := by
    intro m hm
    obtain ⟨i, hi⟩ := List.mem_iff_getElem?.1 hm
    have hil : i < (fs.map (foundModel types)).length := by rw [hms.length_eq]; exact (List.getElem?_eq_some_iff.1 hi).1
    have hil' : i < fs.length := by simpa using hil
    have hr := hms.get hil (List.getElem?_eq_some_iff.1 hi).1
    have e : ms'.get ⟨i, (List.getElem?_eq_some_iff.1 hi).1⟩ = m := (List.getElem?_eq_some_iff.1 hi).2
    rw [e] at hr
    simp only [List.get_eq_getElem, List.getElem_map] at hr
    exact read_readable hl (hf _ (List.getElem_mem hil')) hr
  obtain ⟨secs, hrep, hshow⟩ := C66_read_partial lib dev.toMbDev c.st (fs.map (foundModel types))
    (fun m hm => by obtain ⟨f, h1, rfl⟩ := List.mem_map.1 hm; exact (reportable_loaded (hf f h1)).1)
    (fun m hm => by obtain ⟨f, h1, rfl⟩ := List.mem_map.1 hm; exact foundModel_fresh types f)
    (fun m hm b hb p hp ht => by
      obtain ⟨f, h1, rfl⟩ := List.mem_map.1 hm
      by_contra hne
      have := (hf f h1).numbers b hb p hp hne
      rcases ht with ht | ht
      · exact this.2.1 ht
      · exact this.2.2 ht)
    (by
      rw [hread]
      intro m hm b hb p hp
      obtain ⟨v, h1, -⟩ := hval m hm b hb p hp
      exact ⟨v, h1⟩)
  rw [hread] at hrep hshow
  refine ⟨s', ms', secs, ?_, hs', hms, hshow, hval⟩
  have hopen : openDevice fuel dev types lib s = (c.st, .ok c.list) := by
    unfold openDevice
    rw [hscan]
    dsimp only
    rw [hwrap]
  unfold sunsRun
  rw [hopen]
  dsimp only
  rw [hlist, hread]
  dsimp only at hrep ⊢
  rw [hrep]

/-- C89: a device that presents `SunS` at none of the three addresses: `Error: ...` and exit status 1. -/
theorem C89_not_found {σ} (dev : ScanDev σ) (types : Int → Py ModelType) (lib : FloatLib) (fuel : Nat) (s0 s s1 : σ)
    (hcon : Connected dev s0 s) (hno : NoneSunS dev.toMbDev s [40000, 0, 50000] s1) :
    sunsRun fuel dev types lib s0 = (dev.disc s1, .error, .exit1) := by
  have h := C40_none dev types (fun _ _ => true) fuel { st := s0 } s s1 hcon rfl hno
  have hopen : openDevice fuel dev types lib s0 = (dev.disc s1, .error .sunSpecClientError) := by
    unfold openDevice
    rw [h]
  unfold sunsRun
  rw [hopen]
  rfl

/-- C89: an unknown transport, and a device object that cannot be created (a serial port that cannot be opened, no map file given): a message and
exit status 1. Not so for a map file that cannot be loaded: `C89_map_error`. -/
theorem C89_no_device_partial {Map} (loadMap : String → Py Map) (portOk : String → Bool) (ports : Lines) (hp : ports.Reached) (o : Options)
    (run : Option (MbObj Map) → Printed × CmdEnd) :
    (o.t ≠ "tcp" → o.t ≠ "rtu" → o.t ≠ "mapped" → sunsMain loadMap portOk ports o run = (.unknownOption o.t, .exit1)) ∧
    (o.t = "rtu" → dictGet ports.ports.registry o.p = none → portOk o.p = false → sunsMain loadMap portOk ports o run = (.error, .exit1)) ∧
    (o.t = "mapped" → o.m = none → sunsMain loadMap portOk ports o run = (.error, .exit1)) := by
  refine ⟨?_, ?_, ?_⟩
  · intro h1 h2 h3
    unfold sunsMain sunsArgs
    rw [if_neg h1, if_neg h2, if_neg h3]
  · intro ht hreg hno
    have harg : sunsArgs o = some { type := "RTU", slave := o.a, name := some o.p, baud := some o.b, timeout := some o.T } := by
      unfold sunsArgs
      rw [ht]
      rfl
    generalize ha : ({ type := "RTU", slave := o.a, name := some o.p, baud := some o.b, timeout := some o.T } : DevArgs) = a at harg
    have hty : a.type = "RTU" := by rw [← ha]
    have hnm : a.name.getD "" = o.p := by rw [← ha]; rfl
    have hiff := C64_rtu_possible loadMap portOk ports hp a hty
    rw [hnm, hreg, hno] at hiff
    have herr : ∃ e, (clientDeviceNew loadMap portOk ports a).2 = .error e := by
      cases hc : (clientDeviceNew loadMap portOk ports a).2 with
      | error e => exact ⟨e, rfl⟩
      | ok x =>
        rw [hc] at hiff
        have := hiff.1 ⟨x, rfl⟩
        simp at this
    obtain ⟨e, he⟩ := herr
    have := ((C64_created_partial loadMap portOk ports hp a (.inl hty) (fun h => by rw [hty] at h; exact absurd h (by decide))
      (clientDeviceNew loadMap portOk ports a).1).2 e (by rw [← he])).1
    subst this
    unfold sunsMain
    rw [harg]
    dsimp only
    rw [he]
    rfl
  · intro ht hm
    unfold sunsMain sunsArgs
    rw [ht, hm]
    rfl

/-- C89: otherwise the script uses the device that the options describe. -/
theorem C89_options {Map} (loadMap : String → Py Map) (portOk : String → Bool) (ports : Lines) (hp : ports.Reached) (o : Options)
    (run : Option (MbObj Map) → Printed × CmdEnd) :
    (o.t = "tcp" → ∃ conf : TlsConf, sunsMain loadMap portOk ports o run = run (some (.tcp o.a conf o.P o.T)) ∧
      conf.ipaddr = o.i ∧ conf.tls = false) ∧
    (o.t = "mapped" → ∀ n m, o.m = some n → loadMap n = .ok m → sunsMain loadMap portOk ports o run = run (some (.mapped o.a m))) ∧
    (o.t = "rtu" → dictGet ports.ports.registry o.p = none → portOk o.p = true →
      ∃ d ports', sunsMain loadMap portOk ports o run = run (some (.rtu d)) ∧
        (clientDeviceNew loadMap portOk ports { type := "RTU", slave := o.a, name := some o.p, baud := some o.b, timeout := some o.T }).1 = ports' ∧
        IsRtu ports'.ports d o.a o.p (some o.b) none ∧ timeoutOf ports' d = some o.T) := by
  refine ⟨?_, ?_, ?_⟩
  · intro ht
    refine ⟨{ ipaddr := o.i }, ?_, rfl, rfl⟩
    unfold sunsMain sunsArgs
    rw [ht]
    rfl
  · intro ht n m hn hm
    unfold sunsMain sunsArgs
    rw [ht, hn]
    simp only [String.reduceEq, ↓reduceIte]
    unfold clientDeviceNew
    simp only [String.reduceEq, ↓reduceIte, hm]
  · intro ht hreg hok
    have harg : sunsArgs o = some { type := "RTU", slave := o.a, name := some o.p, baud := some o.b, timeout := some o.T } := by
      unfold sunsArgs
      rw [ht]
      rfl
    generalize ha : ({ type := "RTU", slave := o.a, name := some o.p, baud := some o.b, timeout := some o.T } : DevArgs) = a at harg ⊢
    have hty : a.type = "RTU" := by rw [← ha]
    have hnm : a.name.getD "" = o.p := by rw [← ha]; rfl
    obtain ⟨x, hx⟩ := (C64_rtu_possible loadMap portOk ports hp a hty).2 (.inr (by rw [hnm]; exact ⟨hreg, hok⟩))
    have hall : clientDeviceNew loadMap portOk ports a = ((clientDeviceNew loadMap portOk ports a).1, .ok x) := by rw [← hx]
    have hasked := (C64_created_partial loadMap portOk ports hp a (.inl hty) (fun h => by rw [hty] at h; exact absurd h (by decide))
      (clientDeviceNew loadMap portOk ports a).1).1 x hall
    match x, hx, hall, hasked with
    | some (.rtu d), hx, hall, hasked =>
      refine ⟨d, _, ?_, rfl, ?_, ?_⟩
      · unfold sunsMain
        rw [harg]
        dsimp only
        rw [hx]
      · have := hasked.2
        rw [← ha] at this ⊢
        exact this
      · exact (C64_timeout loadMap portOk ports _ hp a d hall).1 o.T (by rw [← ha])
    | some (.tcp _ _ _ _), _, _, hasked => rw [hasked.1] at hty; exact absurd hty (by decide)
    | some (.mapped _ _), _, _, hasked => rw [hasked.1] at hty; exact absurd hty (by decide)

/-- C89 is violated for a map file that cannot be loaded: the exception of `from_xml` is not caught. -/
theorem C89_map_error {Map} (loadMap : String → Py Map) (portOk : String → Bool) (ports : Lines) (o : Options)
    (run : Option (MbObj Map) → Printed × CmdEnd) (ht : o.t = "mapped") (n : String) (hn : o.m = some n) (e : Exc)
    (he : loadMap n = .error e) (hc : e.isModbusClient = false) (hs : e ≠ .sunSpecClientError) :
    sunsMain loadMap portOk ports o run = (.nothing, .raised e) := by
  have harg : sunsArgs o = some { type := "Mapped", slave := o.a, name := o.m } := by
    unfold sunsArgs
    rw [ht]
    rfl
  unfold sunsMain
  rw [harg]
  dsimp only
  rw [C64_map_error loadMap portOk ports _ rfl n hn e he hc]
  dsimp only
  rw [if_neg hs]

/-- C89 is violated for a model that cannot be read: the exception of `read()` is not caught, and no model is shown. -/
theorem C89_read_error {σ} (fuel : Nat) (dev : ScanDev σ) (types : Int → Py ModelType) (lib : FloatLib) (s s1 s2 : σ) (ms ms' : List MdlObj) (e : Exc)
    (ho : openDevice fuel dev types lib s = (s1, .ok ms)) (hr : readModels dev.toMbDev ms s1 = (s2, ms', .error e)) :
    sunsRun fuel dev types lib s = (s2, .report [], .raised e) := by
  unfold sunsRun
  rw [ho]
  dsimp only
  rw [hr]

/-- The whole claim: whatever the device is and does, the script ends with its report or with a message and exit status 1, not with a
traceback. -/
def C89_full : Prop :=
  ∀ (σ : Type) (dev : ScanDev σ) (types : Int → Py ModelType) (lib : FloatLib) (s : σ) (fuel : Nat) (e : Exc),
    Definitions types → PowOK lib → (sunsRun fuel dev types lib s).2.2 ≠ .raised e

/-! ### Examples -/

/-- A device with the models 900 (with scale factors) and 901 of the examples. -/
def evtMap : MbMap := { newMap with
  base := .int 40000
  regs := [⟨.int 0, .int 17, some [0x53, 0x75, 0x6e, 0x53, 3, 0x84, 0, 5, 0, 100, 0, 0, 255, 254, 0, 7, 0xff, 0xff,
    3, 0x85, 0, 5, 0, 0, 0, 0x12, 0xff, 0xff, 0xff, 0x38, 0, 42, 255, 255], (t!"r")⟩] }

def evtRegs : List Reg := [(0x53, 0x75), (0x6e, 0x53), (3, 0x84), (0, 5), (0, 100), (0, 0), (255, 254), (0, 7), (0xff, 0xff),
  (3, 0x85), (0, 5), (0, 0), (0, 0x12), (0xff, 0xff), (0xff, 0x38), (0, 42), (255, 255)]

/-- The definitions 900 and 901. -/
def evtLib (id : Int) : Py ModelType := if id = 900 then .ok exType else if id = 901 then .ok evtType else .error .sunSpecError

/-- `repr` of the floats of the example. -/
def evtRepr (f : Flt) : Text := if f = .fin 1 then t!"1.0" else t!"0.07"

/-- Non-vacuity: what the script shows of this device. -/
example : (sunsRun 5 mapScanDev evtLib { exactLib with repr := evtRepr } evtMap).2 = (.report [t!"\nmodel: (900)\n",
      t!"      (A):                                                1.0           ",
      t!"   01:(V):                                               0.07           ",
      t!"\nmodel: Events (901)\n",
      t!"      Event (Evt):                                 0x00000012           ",
      t!"   01:Temp (T):                                          -200 C         ",
      t!"   02:Temp (T):                                            42 C         "], .done) := by decide +kernel

theorem evtMap_ok : MapOK evtMap 40000 [⟨0, evtRegs, t!"r"⟩] :=
  ⟨by decide +kernel, by decide +kernel, by simp [Gapped]⟩

theorem evtMap_chain : SunSAt (mapMem 40000 [⟨0, evtRegs, t!"r"⟩]) 40000 ∧
    Chain (mapMem 40000 [⟨0, evtRegs, t!"r"⟩]) (40000 + 2) [⟨900, 40004, 5⟩, ⟨901, 40011, 5⟩] := by
  refine ⟨⟨by decide +kernel, by decide +kernel⟩, ?_⟩
  refine .model (i := (3, 0x84)) (l := (0, 5)) (by decide +kernel) (by decide) (by decide +kernel) ?_
  refine .model (i := (3, 0x85)) (l := (0, 5)) (by decide +kernel) (by decide) (by decide +kernel) ?_
  exact .stop (by decide +kernel)

theorem repLen_ex {rb : BlockType} {n : Int} (h : exType.rep = some rb) (hn : rb.len.toInt = .ok n) : rb = exType.rep.get rfl ∧ n = 2 := by
  have : rb = (exType.rep.get rfl) := by simp [exType] at h ⊢; exact h.symm
  subst this
  have h2 : (exType.rep.get rfl).len.toInt = .ok 2 := by decide
  rw [h2] at hn
  cases hn
  exact ⟨rfl, rfl⟩

theorem repLen_evt {rb : BlockType} {n : Int} (h : evtType.rep = some rb) (hn : rb.len.toInt = .ok n) : rb = evtType.rep.get rfl ∧ n = 1 := by
  have : rb = (evtType.rep.get rfl) := by simp [evtType] at h ⊢; exact h.symm
  subst this
  have h2 : (evtType.rep.get rfl).len.toInt = .ok 1 := by decide
  rw [h2] at hn
  cases hn
  exact ⟨rfl, rfl⟩

theorem evtLib_ok : Definitions evtLib := by
  intro id
  unfold evtLib
  split
  · refine ⟨by simp, ?_⟩
    intro t rb n h1 h2 h3
    cases h1
    have := repLen_ex h2 h3
    omega
  · split
    · refine ⟨by simp, ?_⟩
      intro t rb n h1 h2 h3
      cases h1
      have := repLen_evt h2 h3
      omega
    · exact ⟨by simp, by simp⟩

theorem evt_noClash : NoClash evtType := by
  refine ⟨by decide, ?_, ?_⟩
  · intro rb h; cases h; decide
  · intro rb h; cases h; decide

theorem evtMap_reportable : ∀ f ∈ [(⟨900, 40004, 5⟩ : Found), ⟨901, 40011, 5⟩], Reportable evtLib (mapMem 40000 [⟨0, evtRegs, t!"r"⟩]) f := by
  have hmem : ∀ x : Int, 40000 ≤ x → x < 40017 → mapMem 40000 [⟨0, evtRegs, t!"r"⟩] x ≠ none := by
    intro x h1 h2
    have : x = ((x - 40000).toNat : Int) + 40000 := by omega
    have hn : (x - 40000).toNat < 17 := by omega
    rw [this]
    generalize (x - 40000).toNat = n at hn
    revert n
    decide +kernel
  have h900 : (foundModel evtLib ⟨900, 40004, 5⟩).len = 5 := by decide +kernel
  have h901 : (foundModel evtLib ⟨901, 40011, 5⟩).len = 5 := by decide +kernel
  intro f hf
  simp only [List.mem_cons, List.not_mem_nil, or_false] at hf
  rcases hf with rfl | rfl
  · refine ⟨⟨exType, rfl, by decide +kernel, exType_noClash, ?_, ?_⟩, ?_, ?_, by decide +kernel, ?_, ?_⟩
    · intro F hF
      have h3 : exType.fixed.len.toInt = .ok 3 := by decide
      rw [h3] at hF
      cases hF
      refine ⟨by decide +kernel, ⟨by decide +kernel, by decide +kernel, by decide +kernel⟩, by decide +kernel⟩
    · intro rb R h1 h2
      obtain ⟨rfl, rfl⟩ := repLen_ex h1 h2
      refine ⟨by decide +kernel, ⟨by decide +kernel, by decide +kernel, by decide +kernel⟩, by decide +kernel⟩
    · intro x h1 h2
      rw [h900] at h2
      exact hmem x (by dsimp only at h1 h2; omega) (by dsimp only at h1 h2; omega)
    · have : modelName (foundModel evtLib ⟨900, 40004, 5⟩) = t!"example" := by decide +kernel
      rw [this]
      unfold FreeName
      decide
    · intro b hb p hp c hc
      have hall : ∀ b ∈ (foundModel evtLib ⟨900, 40004, 5⟩).blocks, ∀ p ∈ b.pts, p.sf ∈ [none, some (.const (-1)), some (.point 0 (t!"A_SF"))] := by decide +kernel
      have := hall b hb p hp
      rw [hc] at this
      simp at this
      omega
    · intro b hb q hq rs k hrs hk
      have hall : ∀ b ∈ (foundModel evtLib ⟨900, 40004, 5⟩).blocks, ∀ q ∈ b.sfs, q.pt.type = .sunssf ∧
          memRegs (mapMem 40000 [⟨0, evtRegs, t!"r"⟩]) q.addr q.pt.len.toNat = some [(255, 254)] := by decide +kernel
      obtain ⟨h1, h2⟩ := hall b hb q hq
      rw [h2] at hrs
      cases hrs
      rw [h1, show PT.sunssf.readValue (regBytes [(255, 254)]) = .ok (some (.int (-2))) from by decide +kernel] at hk
      cases hk
      decide
  · refine ⟨⟨evtType, rfl, by decide +kernel, evt_noClash, ?_, ?_⟩, ?_, ?_, by decide +kernel, ?_, ?_⟩
    · intro F hF
      have h3 : evtType.fixed.len.toInt = .ok 3 := by decide
      rw [h3] at hF
      cases hF
      refine ⟨by decide +kernel, ⟨by decide +kernel, by decide +kernel, by decide +kernel⟩, by decide +kernel⟩
    · intro rb R h1 h2
      obtain ⟨rfl, rfl⟩ := repLen_evt h1 h2
      refine ⟨by decide +kernel, ⟨by decide +kernel, by decide +kernel, by decide +kernel⟩, by decide +kernel⟩
    · intro x h1 h2
      rw [h901] at h2
      exact hmem x (by dsimp only at h1 h2; omega) (by dsimp only at h1 h2; omega)
    · have : modelName (foundModel evtLib ⟨901, 40011, 5⟩) = t!"events" := by decide +kernel
      rw [this]
      unfold FreeName
      decide
    · intro b hb p hp c hc
      have hall : ∀ b ∈ (foundModel evtLib ⟨901, 40011, 5⟩).blocks, ∀ p ∈ b.pts, p.sf ∈ [none, some (.const (-1)), some (.point 0 (t!"A_SF"))] := by decide +kernel
      have := hall b hb p hp
      rw [hc] at this
      simp at this
      omega
    · intro b hb q hq
      have hall : ∀ b ∈ (foundModel evtLib ⟨901, 40011, 5⟩).blocks, b.sfs = [] := by decide +kernel
      rw [hall b hb] at hq
      cases hq

/-- Non-vacuity of `C89_report_partial`: this device. -/
example : ∃ (s' : MbMap) (ms' : List MdlObj) (secs : List (List Text)),
    sunsRun 5 mapScanDev evtLib exactLib evtMap = (s', .report secs.flatten, .done) ∧ ms'.length = 2 ∧
    List.Forall₂ (ModelShows exactLib) ms' secs := by
  obtain ⟨s', ms', secs, h1, -, h3, h4, -⟩ := C89_report_partial (mapScan_mem 40000) evtLib evtLib_ok exactLib exactLib_ok _ evtMap
    ⟨_, evtMap_ok, rfl⟩ [] 40000 [0, 50000] rfl (by simp) evtMap_chain.1 _ evtMap_chain.2 evtMap_reportable 5 (by decide)
  exact ⟨s', ms', secs, h1, h3.length_eq.symm, h4⟩

/-- Non-vacuity of `C89_not_found`: a device that does not answer. -/
example : (sunsRun 5 silentDev evtLib exactLib ()).2 = (.error, .exit1) := by
  rw [C89_not_found silentDev evtLib exactLib 5 () () () (.inl ⟨rfl, rfl⟩)
    ⟨(), .inl ⟨_, rfl, .inr (.inl rfl)⟩, (), .inl ⟨_, rfl, .inr (.inl rfl)⟩, (), .inl ⟨_, rfl, .inr (.inl rfl)⟩, rfl⟩]

/-- Non-vacuity of `C89_no_device_partial` and `C89_options`: no port is open at first. -/
example (run : Option (MbObj Unit) → Printed × CmdEnd) :
    sunsMain (fun _ => .ok ()) (fun _ => false) ⟨Ports.init, []⟩ { t := "udp" } run = (.unknownOption "udp", .exit1) ∧
    sunsMain (fun _ => .ok ()) (fun _ => false) ⟨Ports.init, []⟩ { t := "rtu" } run = (.error, .exit1) ∧
    sunsMain (fun _ => .ok ()) (fun _ => false) ⟨Ports.init, []⟩ { t := "mapped" } run = (.error, .exit1) ∧
    sunsMain (fun _ => .ok ()) (fun _ => false) ⟨Ports.init, []⟩ { t := "mapped", m := some "dev.xml" } run = run (some (.mapped 1 ())) ∧
    ∃ d, sunsMain (fun _ => .ok ()) (fun _ => true) ⟨Ports.init, []⟩ { t := "rtu" } run = run (some (.rtu d)) := by
  refine ⟨(C89_no_device_partial _ _ _ ⟨[], rfl⟩ _ run).1 (by decide) (by decide) (by decide),
    (C89_no_device_partial _ _ _ ⟨[], rfl⟩ _ run).2.1 rfl rfl rfl, (C89_no_device_partial _ _ _ ⟨[], rfl⟩ _ run).2.2 rfl rfl,
    (C89_options _ _ _ ⟨[], rfl⟩ _ run).2.1 rfl "dev.xml" () rfl rfl, ?_⟩
  obtain ⟨d, _, h, -⟩ := (C89_options (fun _ => .ok ()) (fun _ => true) ⟨Ports.init, []⟩ ⟨[], rfl⟩ { t := "rtu" } run).2.2 rfl rfl rfl
  exact ⟨d, h⟩

/-- Non-vacuity of `C89_map_error`. -/
example (run : Option (MbObj Unit) → Printed × CmdEnd) :
    sunsMain (fun _ => .error .modbusMapError) (fun _ => false) ⟨Ports.init, []⟩ { t := "mapped", m := some "dev.xml" } run = (.nothing, .raised .modbusMapError) :=
  C89_map_error _ _ _ _ run rfl "dev.xml" rfl .modbusMapError rfl rfl (by decide)

/-- A server that refuses connections. -/
def refusing : TcpServer Unit := ⟨fun _ => ((), false), fun _ _ => ((), none)⟩

/-- C89 is violated: if the connection is refused, the script ends with a traceback (`scan` connects outside of the code that turns the
exceptions of the transport into `SunSpecClientError`). -/
theorem C89_violated : ¬ C89_full := by
  intro h
  exact h _ (tcpScanDev refusing 1) evtLib exactLib (freshTcp ()) 5 .modbusClientError evtLib_ok exactLib_ok (by decide +kernel)

/-- Non-vacuity of `C89_read_error`, and C89 is violated for a device that can be read no more after the scan; and for a device with a model
that has no definition. -/
def dyingDev : ScanDev Nat where
  read n a c := if n < 5 then (n + 1, (mapDev.read evtMap a c).2) else (n + 1, .error .modbusClientTimeout)
  write n _ _ := (n, .ok ())
  conn := none
  disc := id

example : ∃ ms', openDevice 5 dyingDev evtLib exactLib 0 = (5, .ok ms') ∧ (readModels dyingDev.toMbDev ms' 5).2.2 = .error .sunSpecClientError ∧
    (sunsRun 5 dyingDev evtLib exactLib 0).2 = (.report [], .raised .sunSpecClientError) := by
  have h1 : (openDevice 5 dyingDev evtLib exactLib 0).1 = 5 ∧ ((openDevice 5 dyingDev evtLib exactLib 0).2 matches .ok _) = true := by decide +kernel
  have h2 : ((openDevice 5 dyingDev evtLib exactLib 0).2.toOption.map fun ms => (readModels dyingDev.toMbDev ms 5).2.2) = some (.error .sunSpecClientError) := by
    decide +kernel
  generalize ho : openDevice 5 dyingDev evtLib exactLib 0 = X at h1 h2
  obtain ⟨s1, r⟩ := X
  obtain ⟨rfl, h1⟩ := h1
  cases r with
  | error e => simp at h1
  | ok ms =>
    have h2 : (readModels dyingDev.toMbDev ms 5).2.2 = .error .sunSpecClientError := Option.some.inj h2
    refine ⟨ms, rfl, h2, ?_⟩
    rw [C89_read_error 5 dyingDev evtLib exactLib 0 5 _ ms _ .sunSpecClientError ho (by rw [← h2])]

example : (sunsRun 5 mapScanDev exLib exactLib evtMap).2.2 = .raised .attributeError := by decide +kernel

end Verif
