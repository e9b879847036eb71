import Verif.Lemmas.ClientRead
import Verif.Lemmas.Mem
import Verif.Model.Devices
import Verif.Props.Mbmap
import Verif.Props.Rtu
import Verif.Props.Tcp
import Verif.Props.Codec
import Verif.Props.Load

/-!
# C32, C33: reading models
-/

namespace Verif
open Spec

/-! ## C32 -/

/-- The core of C32, for a memory that agrees with what has been delivered. -/
theorem readPoints_mem {σ} (dev : MbDev σ) (s s' : σ) (m : MdlObj) (log : List (Int × Bytes)) (mem : RegMem) (hm : ModelOK m)
    (ht : Tiles m.addr (m.addr + m.len) (readPlan m)) (h : Reads dev s (readPlan m) s' log)
    (hmem : ∀ x, m.addr ≤ x → x < m.addr + m.len → mem x = replyMem log x) :
    ∃ m', readPoints dev s m = (s', m', .ok ()) ∧ ModelRead mem m m' := by
  obtain ⟨f1, f2⟩ := flat_get _ s s' log _ _ h ht
  have hd : readData dev m s = (s', .ok (some (flatLog log))) := by
    unfold readData
    by_cases h1 : m.readBlocks.length = 1
    · rw [if_pos h1]
      have hp : readPlan m = [(m.addr, m.len)] := by unfold readPlan; rw [if_pos h1]
      rw [hp] at h
      obtain ⟨s1, d, log1, r1, r2, ⟨rfl, rfl⟩, rfl⟩ := h
      rw [cdRead_ok r1]
      simp [flatLog]
    · rw [if_neg h1, readChunks_reads _ s s' log [] h]
      rfl
  have e : m.addr + m.len - m.addr = m.len := by omega
  rw [e] at f1
  obtain ⟨m', a1, a2⟩ := readApply_ok m hm (flatLog log) mem f1 (fun x h1 h2 => by rw [hmem x h1 h2]; exact f2 x h1 h2)
  refine ⟨m', ?_, a2⟩
  unfold readPoints
  rw [if_neg hm.mtype, hd]
  dsimp only
  rw [a1]
  rfl

/-- C32: if the device delivers the registers of the reads of a model (C31), then `read_points` succeeds, and each point
has the value of its own registers and the scale factor of the same read; nothing else of the model changes. -/
theorem C32_read {σ} (dev : MbDev σ) (s s' : σ) (m : MdlObj) (log : List (Int × Bytes)) (hm : ModelOK m)
    (ht : Tiles m.addr (m.addr + m.len) (readPlan m)) (h : Reads dev s (readPlan m) s' log) :
    ∃ m', readPoints dev s m = (s', m', .ok ()) ∧ ModelRead (replyMem log) m m' :=
  readPoints_mem dev s s' m log _ hm ht h (fun _ _ _ => rfl)

/-- C32: in terms of the SunSpec formats (`C03_sentinels_partial`: except for 64 bit unsigned values from 2^63 on), each
point is None if its registers have the unimplemented pattern, else it has the value that its registers denote. -/
theorem C32_values_partial (mem : RegMem) (p p' : PointObj) (hl : LenOK p.pt) (h : PointRead mem p p') :
    ∃ rs, memRegs mem p.addr p.pt.len.toNat = some rs ∧
      ((p.pt.type = .uint64 ∨ p.pt.type = .acc64 → bigEndian (regBytes rs) < 2 ^ 63) →
        PointValue p.pt.type (regBytes rs) p'.base) := by
  obtain ⟨rs, h1, h2, h3⟩ := h
  refine ⟨rs, h1, ?_⟩
  intro hu
  have hlen : rs.length = p.pt.len.toNat := memRegs_length h1
  have hb : (regBytes rs).length = 2 * p.pt.len.toNat := by rw [regBytes_length, hlen]
  have hty : ∀ n, typeRegs p.pt.type = some n → (regBytes rs).length = 2 * n := by
    intro n hn
    unfold LenOK at hl
    rw [hn] at hl
    dsimp only at hl
    rw [hb, hl]
    simp
  have key : (Unimpl p.pt.type (regBytes rs) → p.pt.type.readValue (regBytes rs) = .ok none) ∧
      (¬ Unimpl p.pt.type (regBytes rs) → ∃ v, p.pt.type.readValue (regBytes rs) = .ok (some v) ∧ Denotes p.pt.type (regBytes rs) v) := by
    by_cases h64 : p.pt.type = .uint64 ∨ p.pt.type = .acc64
    · exact C03_u64_partial p.pt.type h64 _ (by rw [hty 4 (by rcases h64 with h | h <;> rw [h] <;> rfl)]) (hu h64)
    · exact C03_sentinels_partial p.pt.type ⟨fun h => h64 (.inl h), fun h => h64 (.inr h)⟩ _ hty
  rw [h2] at key
  refine ⟨fun hx => by have := key.1 hx; simpa using this, fun hx => ?_⟩
  obtain ⟨v, hv, hd⟩ := key.2 hx
  exact ⟨v, by simpa using hv, hd⟩

/-- Loading gives models that meet the assumptions of C32, if the points of the definition lie inside their blocks and
have the lengths of their types. -/
theorem loaded_modelOK (fuel : Nat) (mt : ModelType) (id addr len : Int) (m : MdlObj)
    (h : loadWith fuel (.ok mt) (mdlNew id addr len) = (m, .ok ()))
    (hof : ∀ F, mt.fixed.len.toInt = .ok F → BlockFits mt.fixed (fixedLen id m.len F) ∧ 0 ≤ fixedLen id m.len F)
    (hor : ∀ rb R, mt.rep = some rb → rb.len.toInt = .ok R → BlockFits rb R ∧ 0 ≤ R) : ModelOK m := by
  obtain ⟨F, R, n, hl⟩ := loadWith_ok fuel mt id addr len m h
  have hlen := hl.hlen
  obtain ⟨ho, hF0⟩ := hof F hl.flen
  rw [hlen] at ho hF0
  -- every point lies in the model and has the right length
  have hpt : ∀ b ∈ m.blocks, ∀ p, p ∈ b.pts ∨ p ∈ b.sfs →
      (addr ≤ p.addr ∧ p.addr + p.pt.len ≤ addr + effLen mt len) ∧ LenOK p.pt := by
    intro b hb p hp
    have hbe : ∃ a bl i, b = mkBlock mt.fixed b.bt a bl i ∧ BlockFits b.bt bl ∧ addr ≤ a ∧ a + bl ≤ addr + effLen mt len := by
      obtain ⟨i, hi⟩ := List.getElem?_of_mem hb
      rw [hl.blocks] at hi
      cases i with
      | zero =>
        simp at hi
        have hbt : b.bt = mt.fixed := by rw [← hi]; rfl
        rw [hbt]
        refine ⟨_, _, 0, hi.symm, ho, by omega, ?_⟩
        rcases hl.fits with ⟨_, _, hf⟩ | ⟨hr', hf⟩
        · omega
        · cases hr : mt.rep with
          | none => exact absurd hr hr'
          | some rb =>
            have := (hor rb R hr (hl.rlen rb hr)).2
            have hnR : (0 : Int) ≤ n * R := Int.mul_nonneg (by omega) this
            omega
      | succ i =>
        rw [List.getElem?_cons_succ] at hi
        cases hr : mt.rep with
        | none => rw [hr] at hi; simp at hi
        | some rb =>
          rw [hr] at hi
          dsimp only at hi
          have hb' := repBlocks_get _ _ _ _ _ _ _ _ hi
          have hlt : i < n := by
            have := (List.getElem?_eq_some_iff.1 hi).1
            rwa [repBlocks_length] at this
          have hbt : b.bt = rb := by rw [hb']; rfl
          rw [hbt]
          have hR := hor rb R hr (hl.rlen rb hr)
          refine ⟨_, _, _, hb', hR.1, ?_, ?_⟩
          · have : (0 : Int) ≤ i * R := Int.mul_nonneg (by omega) hR.2
            omega
          · rcases hl.fits with ⟨hr', _⟩ | ⟨_, hf⟩
            · rw [hr] at hr'; cases hr'
            · have e : ((i : Int) + 1) * R ≤ n * R := Int.mul_le_mul_of_nonneg_right (by omega) hR.2
              rw [Int.add_mul] at e
              omega
    obtain ⟨a, bl, i, hbe, hfit, h1, h2⟩ := hbe
    have hpe : ∃ t ∈ b.bt.points, t.type ≠ .pad ∧ p.addr = a + t.offset ∧ p.pt = t := by
      rw [hbe] at hp
      rcases hp with hp | hp
      · simp only [mkBlock] at hp
        obtain ⟨t, ht, rfl⟩ := List.mem_map.1 hp
        have ht' := List.mem_filter.1 ht
        exact ⟨t, ht'.1, by have := ht'.2; simp at this; exact this.1, rfl, rfl⟩
      · simp only [mkBlock] at hp
        obtain ⟨t, ht, rfl⟩ := List.mem_map.1 hp
        have ht' := List.mem_filter.1 ht
        exact ⟨t, ht'.1, by have := ht'.2; simp at this; rw [this]; decide, rfl, rfl⟩
    obtain ⟨t, ht, htp, ha, hpp⟩ := hpe
    obtain ⟨f1, f2, f3⟩ := hfit t ht htp
    rw [ha, hpp]
    exact ⟨by omega, f3⟩
  refine ⟨by rw [hl.htype]; simp, ?_, fun b hb p hp => (hpt b hb p hp).2, ?_⟩
  · rw [hl.haddr, hlen]
    exact fun b hb p hp => (hpt b hb p hp).1
  · intro i b hb p hp blk sid hsf
    have hbm := List.mem_of_getElem? hb
    obtain ⟨r1, r2⟩ := C30_resolved fuel mt id addr len m h b hbm p hp
    obtain ⟨b', q, q1, q2, q3⟩ := r2 blk sid hsf
    refine ⟨?_, b', q1, q, q2, q3⟩
    have hidx : b.index = i := by
      rw [hl.blocks] at hb
      cases i with
      | zero => simp at hb; rw [← hb]; rfl
      | succ i =>
        rw [List.getElem?_cons_succ] at hb
        cases hr : mt.rep with
        | none => rw [hr] at hb; simp at hb
        | some rb =>
          rw [hr] at hb
          dsimp only at hb
          rw [repBlocks_get _ _ _ _ _ _ _ _ hb]
          show 1 + i = i + 1
          omega
    have ht := r1
    rw [hsf, hidx] at ht
    unfold sfTarget at ht
    cases hs : p.pt.sf with
    | none => rw [hs] at ht; simp at ht
    | some s =>
      rw [hs] at ht
      dsimp only at ht
      cases hi : pyInt 10 s with
      | some v => rw [hi] at ht; simp at ht
      | none =>
        rw [hi] at ht
        dsimp only at ht
        by_cases c1 : s ∈ (sfPoints b.bt).map (·.id)
        · rw [if_pos c1] at ht
          simp at ht; omega
        · rw [if_neg c1] at ht
          by_cases c2 : 0 < i ∧ s ∈ (sfPoints mt.fixed).map (·.id)
          · rw [if_pos c2] at ht; simp at ht; omega
          · rw [if_neg c2] at ht; simp at ht

/-! ### Devices with register memory -/

/-- A device with memory delivers the registers of every plan of reads. -/
theorem reads_of_mem {σ} {dev : MbDev σ} {R : σ → RegMem → Prop} {wr : Nat → Prop} (hdev : IsMem dev R wr) (mem : RegMem)
    (plan : List (Int × Int)) : ∀ (s : σ) (a b : Int), R s mem → Tiles a b plan → (∀ c ∈ plan, 0 ≤ c.2) →
    (∀ x, a ≤ x → x < b → mem x ≠ none) →
    ∃ s' log, Reads dev s plan s' log ∧ R s' mem ∧ a ≤ b ∧ ∀ x, a ≤ x → x < b → mem x = replyMem log x := by
  induction plan with
  | nil =>
    intro s a b hR hT _ _
    have hT' : a = b := hT
    exact ⟨s, [], ⟨rfl, rfl⟩, hR, by omega, fun x h1 h2 => by omega⟩
  | cons c plan ih =>
    intro s a b hR hT hpos hm
    obtain ⟨c1, n⟩ := c
    obtain ⟨rfl, hT⟩ := hT
    have hn : 0 ≤ n := hpos (c1, n) (by simp)
    have hnn : ((n.toNat : Nat) : Int) = n := by omega
    have hle : ∀ (plan : List (Int × Int)) (u v : Int), Tiles u v plan → (∀ c ∈ plan, 0 ≤ c.2) → u ≤ v := by
      intro plan
      induction plan with
      | nil => intro u v h _; exact (show u = v from h) ▸ Int.le_refl u
      | cons c plan ih' =>
        intro u v h hp
        obtain ⟨e1, e2⟩ := h
        have := ih' _ _ e2 (fun c hc => hp c (by simp [hc]))
        have := hp c (by simp)
        omega
    have hle1 := hle plan _ _ hT (fun c hc => hpos c (by simp [hc]))
    obtain ⟨rs, hrs⟩ := memRegs_exists (mem := mem) (a := c1) (n := n.toNat) (fun x h1 h2 => hm x h1 (by omega))
    obtain ⟨hl, hg⟩ := memRegs_get hrs
    obtain ⟨s1, r1, r2⟩ := hdev.read s mem c1 n.toNat rs hR hrs
    rw [hnn] at r1
    obtain ⟨s', log, q1, q2, q3, q4⟩ := ih s1 (c1 + n) b r2 hT (fun c hc => hpos c (by simp [hc])) (fun x h1 h2 => hm x (by omega) h2)
    refine ⟨s', (c1, regBytes rs) :: log, ⟨s1, regBytes rs, log, r1, by rw [regBytes_length]; omega, q1, rfl⟩, q2, by omega, ?_⟩
    intro x h1 h2
    unfold replyMem
    rw [regBytes_length]
    by_cases hx : x < c1 + n
    · rw [if_pos (by omega)]
      have e := hg (x - c1).toNat (by omega)
      rw [show c1 + ((x - c1).toNat : Int) = x by omega] at e
      rw [e, regBytes_get rs _ (by omega), show (2 * (x - c1)).toNat = 2 * (x - c1).toNat by omega, show (2 * (x - c1) + 1).toNat = 2 * (x - c1).toNat + 1 by omega]
    · rw [if_neg (by omega)]
      exact q4 x (by omega) h2

/-- C32 for devices with memory: reading a model whose registers exist succeeds, each point getting the value of its own
registers; the memory does not change. -/
theorem C32_memory {σ} {dev : MbDev σ} {R : σ → RegMem → Prop} {wr : Nat → Prop} (hdev : IsMem dev R wr) (mem : RegMem)
    (s : σ) (hs : R s mem) (m : MdlObj) (hm : ModelOK m) (ht : Tiles m.addr (m.addr + m.len) (readPlan m))
    (hpos : ∀ c ∈ readPlan m, 0 ≤ c.2) (hex : ∀ x, m.addr ≤ x → x < m.addr + m.len → mem x ≠ none) :
    ∃ s' m', readPoints dev s m = (s', m', .ok ()) ∧ R s' mem ∧ ModelRead mem m m' := by
  obtain ⟨s', log, h1, h2, _, h3⟩ := reads_of_mem hdev mem (readPlan m) s _ _ hs ht hpos hex
  obtain ⟨m', h4, h5⟩ := readPoints_mem dev s s' m log mem hm ht h1 h3
  exact ⟨s', m', h4, h2, h5⟩

/-- Mapped devices are memories (C23). -/
theorem mapDev_isMem (base : Int) : IsMem mapDev (fun m mem => ∃ bs, MapOK m base bs ∧ mem = mapMem base bs) (fun _ => True) := by
  constructor
  · rintro s mem a n rs ⟨bs, h1, rfl⟩ h2
    refine ⟨s, ?_, bs, h1, rfl⟩
    show (s, (mapRead s a n none).map some) = _
    rw [C23_read s base bs h1, h2]
    rfl
  · rintro s mem a rs ⟨bs, h1, rfl⟩ _ h2
    obtain ⟨m', bs', w1, w2, w3, _⟩ := C23_write s base bs h1 a rs
    refine ⟨m', ?_, bs', w2, w3.symm⟩
    show mapWrite s a (regBytes rs) = _
    rw [w1, memStore_all rs _ _ h2]
    rfl

theorem memRegs_regMem {m : Mem} {a : Int} {n : Nat} {rs : List Reg} (h : memRegs (regMem m) a n = some rs) (hn : 0 < n) :
    0 ≤ a ∧ a + n ≤ 65536 := by
  have h1 := memRegs_iff.1 (h ▸ Option.some_ne_none rs : memRegs (regMem m) a n ≠ none)
  have h2 := h1 a (by omega) (by omega)
  have h3 := h1 (a + n - 1) (by omega) (by omega)
  unfold regMem at h2 h3
  constructor
  · by_cases c : 0 ≤ a ∧ a < 65536
    · omega
    · rw [if_neg c] at h2; exact absurd rfl h2
  · by_cases c : 0 ≤ a + n - 1 ∧ a + n - 1 < 65536
    · omega
    · rw [if_neg c] at h3; exact absurd rfl h3

theorem memRead_succ (m : Mem) (a n : Nat) : memRead m a (n + 1) = wordBytes (m a) ++ memRead m (a + 1) n := by
  unfold memRead
  rw [List.range_succ_eq_map, List.flatMap_cons, List.flatMap_map]
  congr 1
  congr 1
  funext i
  congr 2
  omega

theorem regMem_nat (m : Mem) (a : Nat) (r : Reg) (h : regMem m (a : Int) = some r) :
    r = ((m a >>> 8).setWidth 8, (m a).setWidth 8) := by
  have e : ((a : Int)).toNat = a := by omega
  unfold regMem at h
  rw [e] at h
  split at h
  · exact (Option.some.inj h).symm
  · cases h

theorem memRegs_memRead' (m : Mem) (mem : RegMem)
    (hm : ∀ (a : Nat) (r : Reg), mem (a : Int) = some r → r = ((m a >>> 8).setWidth 8, (m a).setWidth 8)) (n : Nat) :
    ∀ (a : Nat) (rs : List Reg), memRegs mem a n = some rs → regBytes rs = memRead m a n := by
  induction n with
  | zero => intro a rs h; simp [memRegs] at h; subst h; rfl
  | succ n ih =>
    intro a rs h
    unfold memRegs at h
    cases h1 : mem a with
    | none => rw [h1] at h; simp at h
    | some r =>
      cases h2 : memRegs mem ((a : Int) + 1) n with
      | none => rw [h1, h2] at h; simp at h
      | some rs' =>
        rw [h1, h2] at h
        simp only [Option.some.injEq] at h
        subst h
        have e := ih (a + 1) rs' (by rw [← h2, Int.natCast_add]; simp only [Int.natCast_one])
        rw [memRead_succ, ← e, hm a r h1]
        simp [regBytes, wordBytes]

theorem memRegs_memRead (m : Mem) (n : Nat) (a : Nat) (rs : List Reg) (h : memRegs (regMem m) a n = some rs) :
    regBytes rs = memRead m a n := memRegs_memRead' m _ (regMem_nat m) n a rs h

theorem byteWord (h l : Byte) : (((h ++ l : BitVec 16) >>> 8).setWidth 8, (h ++ l : BitVec 16).setWidth 8) = (h, l) := by
  have hl := l.isLt
  have hh := h.isLt
  have e : (h ++ l : BitVec 16).toNat = h.toNat * 256 + l.toNat := by
    rw [BitVec.toNat_append, ← Nat.shiftLeft_add_eq_or_of_lt hl, Nat.shiftLeft_eq]
  refine Prod.ext (BitVec.eq_of_toNat_eq ?_) (BitVec.eq_of_toNat_eq ?_)
  · rw [BitVec.toNat_setWidth, BitVec.toNat_ushiftRight, e, Nat.shiftRight_eq_div_pow]
    dsimp only
    omega
  · rw [BitVec.toNat_setWidth, e]
    dsimp only
    omega

theorem regMem_write (m : Mem) (a : Nat) (rs : List Reg) (h : memRegs (regMem m) a rs.length ≠ none) :
    regMem (memWrite m a (regBytes rs)) = (memStore (regMem m) a rs).1 := by
  rw [memStore_all rs _ _ h]
  rw [memRegs_iff] at h
  dsimp only
  funext x
  have hl : (regBytes rs).length / 2 = rs.length := by rw [regBytes_length]; omega
  by_cases c : (a : Int) ≤ x ∧ x < a + rs.length
  · rw [if_pos c]
    have hx := h x c.1 c.2
    unfold regMem at hx ⊢
    by_cases c2 : 0 ≤ x ∧ x < 65536
    · rw [if_pos c2]
      unfold memWrite
      rw [hl, if_pos (by omega), byteWord, regBytes_get rs _ (by omega)]
      have e : x.toNat - a = (x - a).toNat := by omega
      rw [e]
    · rw [if_neg c2] at hx; exact absurd rfl hx
  · rw [if_neg c]
    unfold regMem
    by_cases c2 : 0 ≤ x ∧ x < 65536
    · rw [if_pos c2, if_pos c2]
      unfold memWrite
      rw [hl, if_neg (by omega)]
    · rw [if_neg c2, if_neg c2]

theorem rtuRead_zero {σ} (slave : Slave σ) (l : Line σ) (sid a : Int) : rtuRead slave l sid 3 a 0 125 = (l, .ok (some [])) := rfl

theorem tcpRead_zero_addr {σ} (srv : TcpServer σ) (t : Tcp σ) (sid a b : Int) : tcpRead srv t sid 3 a 0 125 = tcpRead srv t sid 3 b 0 125 := by
  have h : ∀ t', tcpReadF srv sid 3 125 (0 + 1) a 0 [] t' = tcpReadF srv sid 3 125 (0 + 1) b 0 [] t' := fun _ => rfl
  unfold tcpRead
  rw [show tcpReadF srv sid 3 125 (0 + 1) a 0 [] = tcpReadF srv sid 3 125 (0 + 1) b 0 [] from funext h]

/-- RTU devices whose slave conforms to Modbus are memories (C11, C14). -/
theorem rtuDev_isMem {σ} {slave : Slave σ} {abs : σ → Mem} {sid : Byte} (hc : ConformsRtu slave abs sid) :
    IsMem (rtuDev slave sid.toNat) (fun l mem => mem = regMem (abs l.dev)) (fun n => 0 < n ∧ n ≤ 123) := by
  constructor
  · rintro l mem a n rs rfl h2
    have key : ∀ (b : Nat), b + n ≤ 65536 → memRegs (regMem (abs l.dev)) b n = some rs →
        ∃ s', rtuRead slave l sid.toNat 3 b n 125 = (s', .ok (some (regBytes rs))) ∧ regMem (abs l.dev) = regMem (abs s'.dev) := by
      intro b hb h2
      obtain ⟨l', r1, r2⟩ := C11_read hc l 3 (.inl rfl) b n 125 (by decide) (.inl (by decide)) hb
      exact ⟨l', by rw [memRegs_memRead _ n b rs h2]; exact r1, by rw [r2]⟩
    show ∃ s', rtuRead slave l sid.toNat 3 a (n : Int).toNat 125 = _ ∧ _
    rw [Int.toNat_natCast]
    rcases Nat.eq_zero_or_pos n with rfl | hn
    · cases h2
      exact ⟨l, rtuRead_zero .., rfl⟩
    · have hr := memRegs_regMem h2 hn
      have ha : ((a.toNat : Nat) : Int) = a := by omega
      rw [← ha]
      exact key a.toNat (by omega) (by rw [ha]; exact h2)
  · rintro l mem a rs rfl ⟨hw0, hw⟩ h2
    obtain ⟨rs', hrs'⟩ := Option.ne_none_iff_exists'.1 h2
    have hr := memRegs_regMem hrs' hw0
    have ha : ((a.toNat : Nat) : Int) = a := by omega
    have hlen := regBytes_length rs
    obtain ⟨l', w1, w2⟩ := C14_write hc l a.toNat (regBytes rs) 125 (by decide) (.inr (by omega)) (by omega) (by omega)
    rw [ha] at w1
    refine ⟨l', w1, ?_⟩
    show (memStore (regMem (abs l.dev)) a rs).1 = regMem (abs l'.dev)
    rw [w2, regMem_write _ _ _ (by rw [ha]; exact h2), ha]

/-- TCP devices whose server conforms to Modbus are memories, as long as no unread reply is left on the connection
(C17, C18). -/
theorem tcpDev_isMem {σ} {srv : TcpServer σ} {abs : σ → Mem} {unit : Byte} (hc : ConformsTcp srv.accept srv.react abs unit) :
    IsMem (tcpDev srv unit.toNat) (fun t mem => Idle t ∧ mem = regMem (abs t.dev)) (fun n => 0 < n ∧ n ≤ 123) := by
  constructor
  · rintro t mem a n rs ⟨hi, rfl⟩ h2
    have key : ∀ (b : Nat), b + n ≤ 65536 → memRegs (regMem (abs t.dev)) b n = some rs →
        ∃ s', ((tcpRead srv t unit.toNat 3 b n 125).1, (tcpRead srv t unit.toNat 3 b n 125).2.map some) = (s', .ok (some (regBytes rs))) ∧
          Idle s' ∧ regMem (abs t.dev) = regMem (abs s'.dev) := by
      intro b hb h2
      obtain ⟨t', r1, r2, r3⟩ := C17_read hc t hi 3 (.inl rfl) b n 125 (by decide) (.inl (by decide)) hb
      have r1' : tcpRead srv t unit.toNat 3 b n 125 = (t', .ok (memRead (abs t.dev) b n)) := r1
      refine ⟨t', ?_, ?_, by rw [r2]⟩
      · rw [r1', memRegs_memRead _ n b rs h2]; rfl
      · unfold Idle; rw [r3]; exact hi
    show ∃ s', ((tcpRead srv t unit.toNat 3 a (n : Int).toNat 125).1, (tcpRead srv t unit.toNat 3 a (n : Int).toNat 125).2.map some) = _ ∧ _
    rw [Int.toNat_natCast]
    rcases Nat.eq_zero_or_pos n with rfl | hn
    · rw [tcpRead_zero_addr srv t _ a (0 : Nat)]
      exact key 0 (by omega) (by cases h2; rfl)
    · have hr := memRegs_regMem h2 hn
      have ha : ((a.toNat : Nat) : Int) = a := by omega
      rw [← ha]
      exact key a.toNat (by omega) (by rw [ha]; exact h2)
  · rintro t mem a rs ⟨hi, rfl⟩ ⟨hw0, hw⟩ h2
    obtain ⟨rs', hrs'⟩ := Option.ne_none_iff_exists'.1 h2
    have hr := memRegs_regMem hrs' hw0
    have ha : ((a.toNat : Nat) : Int) = a := by omega
    have hlen := regBytes_length rs
    obtain ⟨t', w1, w2, w3⟩ := C18_write_partial hc t hi a.toNat (regBytes rs) 125 (by omega) (by omega) (by omega) (by omega)
    rw [ha] at w1
    refine ⟨t', w1, by unfold Idle; rw [w3]; exact hi, ?_⟩
    show (memStore (regMem (abs t.dev)) a rs).1 = regMem (abs t'.dev)
    rw [w2, regMem_write _ _ _ (by rw [ha]; exact h2), ha]

/-- C32: reading a loaded model from a device with memory (definition: the points lie in order inside their blocks and
have the lengths of their types). -/
theorem C32_loaded {σ} {dev : MbDev σ} {R : σ → RegMem → Prop} {wr : Nat → Prop} (hdev : IsMem dev R wr) (mem : RegMem)
    (s : σ) (hs : R s mem) (fuel : Nat) (mt : ModelType) (id addr len : Int) (m : MdlObj)
    (h : loadWith fuel (.ok mt) (mdlNew id addr len) = (m, .ok ()))
    (hof : ∀ F, mt.fixed.len.toInt = .ok F → BlockFits mt.fixed (fixedLen id m.len F) ∧ BlockOrdered mt.fixed (fixedLen id m.len F) ∧ 0 ≤ fixedLen id m.len F)
    (hor : ∀ rb R, mt.rep = some rb → rb.len.toInt = .ok R → BlockFits rb R ∧ BlockOrdered rb R ∧ 0 ≤ R)
    (hex : ∀ x, addr ≤ x → x < addr + m.len → mem x ≠ none) :
    ∃ s' m', readPoints dev s m = (s', m', .ok ()) ∧ R s' mem ∧ ModelRead mem m m' := by
  have haddr : m.addr = addr := by obtain ⟨_, _, _, hl⟩ := loadWith_ok fuel mt id addr len m h; exact hl.haddr
  refine C32_memory hdev mem s hs m ?_ ?_ ?_ ?_
  · exact loaded_modelOK fuel mt id addr len m h (fun F hF => ⟨(hof F hF).1, (hof F hF).2.2⟩) (fun rb R h1 h2 => ⟨(hor rb R h1 h2).1, (hor rb R h1 h2).2.2⟩)
  · rw [haddr]; exact C31_cover fuel mt id addr len m h
  · exact (C31_whole fuel mt id addr len m h (fun F hF => (hof F hF).2) (fun rb R h1 h2 => (hor rb R h1 h2).2)).1
  · rw [haddr]; exact hex

/-- The example definition with 7 registers at 40002. -/
def exModel : MdlObj := (mdlLoad (.ok exType) (mdlNew 900 40002 7)).1

instance (t : PointType) : Decidable (LenOK t) := by
  unfold LenOK
  cases typeRegs t.type <;> infer_instance

instance (bt : BlockType) (n : Int) : Decidable (BlockFits bt n) := by
  unfold BlockFits
  infer_instance

theorem exModel_loaded : loadWith (loadFuel (.ok exType) (mdlNew 900 40002 7)) (.ok exType) (mdlNew 900 40002 7) = (exModel, .ok ()) :=
  Prod.ext rfl (by decide +kernel)

theorem exModel_ok : ModelOK exModel := by
  refine loaded_modelOK _ exType 900 40002 7 exModel exModel_loaded ?_ ?_
  · intro F hF
    have h3 : exType.fixed.len.toInt = .ok 3 := by decide
    rw [h3] at hF
    cases hF
    decide +kernel
  · intro rb R hr hR
    have : rb = (exType.rep.get rfl) := by simp [exType] at hr ⊢; exact hr.symm
    subst this
    have h2 : (exType.rep.get rfl).len.toInt = .ok 2 := by decide
    rw [h2] at hR
    cases hR
    decide +kernel

theorem exModel_plan : readPlan exModel = [(40002, 7)] := by decide +kernel
theorem exModel_span : exModel.addr = 40002 ∧ exModel.len = 7 := by decide +kernel

theorem exModel_tiles : Tiles exModel.addr (exModel.addr + exModel.len) (readPlan exModel) := by
  rw [exModel_plan, exModel_span.1, exModel_span.2]
  exact ⟨rfl, rfl⟩

/-- C32: the three kinds of devices are memories in the sense used by the theorems on reading and writing models
(`C32_memory`, `C32_loaded`, `C35_write_partial`, `C37_write_read_partial`): mapped devices with a well-formed map, RTU and
TCP devices whose slave conforms to Modbus (however it fragments its replies). -/
theorem C32_devices :
    (∀ base, IsMem mapDev (fun m mem => ∃ bs, MapOK m base bs ∧ mem = mapMem base bs) (fun _ => True)) ∧
    (∀ (σ : Type) (slave : Slave σ) (abs : σ → Mem) (sid : Byte), ConformsRtu slave abs sid →
      IsMem (rtuDev slave sid.toNat) (fun l mem => mem = regMem (abs l.dev)) (fun n => 0 < n ∧ n ≤ 123)) ∧
    (∀ (σ : Type) (srv : TcpServer σ) (abs : σ → Mem) (unit : Byte), ConformsTcp srv.accept srv.react abs unit →
      IsMem (tcpDev srv unit.toNat) (fun t mem => Idle t ∧ mem = regMem (abs t.dev)) (fun n => 0 < n ∧ n ≤ 123)) :=
  ⟨mapDev_isMem, fun _ _ _ _ h => rtuDev_isMem h, fun _ _ _ _ h => tcpDev_isMem h⟩

/-- Non-vacuity: reading the example over RTU, byte by byte, and over TCP. -/
example : ∃ s' m', readPoints (rtuDev (drippingSlave 7) 7) ⟨exMem, []⟩ exModel = (s', m', .ok ()) ∧
    regMem exMem = regMem s'.dev ∧ ModelRead (regMem exMem) exModel m' :=
  C32_memory (rtuDev_isMem (drippingSlave_conforms 7)) (regMem exMem) ⟨exMem, []⟩ rfl exModel exModel_ok exModel_tiles
    (by rw [exModel_plan]; simp) (by
      rw [exModel_span.1, exModel_span.2]; intro x h1 h2; unfold regMem; rw [if_pos (by omega)]; simp)

example : ∃ s' m', readPoints (tcpDev (idealServer 1) 1) ⟨exMem, .connected [], [], 0, 0⟩ exModel = (s', m', .ok ()) ∧
    (Idle s' ∧ regMem exMem = regMem s'.dev) ∧ ModelRead (regMem exMem) exModel m' :=
  C32_memory (tcpDev_isMem (idealServer_conforms 1)) (regMem exMem) ⟨exMem, .connected [], [], 0, 0⟩ ⟨.inr rfl, rfl⟩ exModel exModel_ok exModel_tiles
    (by rw [exModel_plan]; simp) (by
      rw [exModel_span.1, exModel_span.2]; intro x h1 h2; unfold regMem; rw [if_pos (by omega)]; simp)

/-- The values of points and scale factors of a model. -/
def values (m : MdlObj) : List (List (Option Val × Option Val)) := m.blocks.map fun b => (b.pts ++ b.sfs).map fun p => (p.base, p.vsf)

/-- A map with the registers of the example. -/
def exMap : MbMap := { newMap with base := .int 40002, regs := [⟨.int 0, .int 7, some [0, 100, 0, 0, 255, 255, 0, 1, 0, 2, 255, 255, 0, 4], (t!"rw")⟩] }

example : values (readPoints mapDev exMap exModel).2.1 =
    [[(some (.int 100), some (.int (-1))), (some (.int (-1)), none)],
     [(some (.int 1), some (.int (-1))), (some (.int 2), some (.int (-1)))],
     [(none, none), (some (.int 4), some (.int (-1)))]] := by decide +kernel

/-! ## C33 -/

/-- C33, full statement: when `read_points` returns, the device has delivered all registers of the model in this call
and the points have their values. -/
def C33_full : Prop :=
  ∀ (σ : Type) (slave : Slave σ) (sid : Int) (s s' : Line σ) (m m' : MdlObj), ModelOK m →
    Tiles m.addr (m.addr + m.len) (readPlan m) → (∀ c ∈ readPlan m, 0 ≤ c.2) →
    readPoints (rtuDev slave sid) s m = (s', m', .ok ()) →
    ∃ log, Reads (rtuDev slave sid) s (readPlan m) s' log ∧ ModelRead (replyMem log) m m'

/-- A read of this device returns as many registers as requested or raises an error. -/
def FullReplies {σ} (dev : MbDev σ) (I : σ → Prop) : Prop :=
  ∀ s a n s' r, I s → 0 ≤ n → dev.read s a n = (s', .ok r) → I s' ∧ ∃ d, r = some d ∧ (d.length : Int) = 2 * n

theorem cdRead_ok_iff {σ} {dev : MbDev σ} {s s' : σ} {a n : Int} {r : Option Bytes} (h : cdRead dev s a n = (s', .ok r)) :
    dev.read s a n = (s', .ok r) := by
  unfold cdRead at h
  cases hx : dev.read s a n with
  | mk s1 r1 =>
    rw [hx] at h
    simp only [Prod.mk.injEq] at h
    obtain ⟨rfl, h⟩ := h
    cases r1 with
    | ok v => have h' : Except.ok v = Except.ok r := h; rw [h']
    | error e => unfold cdWrap at h; cases h

theorem readChunks_full {σ} {dev : MbDev σ} {I : σ → Prop} (hd : FullReplies dev I) (plan : List (Int × Int)) :
    ∀ (s s' : σ) (acc data : Bytes), I s → (∀ c ∈ plan, 0 ≤ c.2) → readChunks dev plan acc s = (s', .ok data) →
    ∃ log, Reads dev s plan s' log := by
  induction plan with
  | nil =>
    intro s s' acc data _ _ h
    simp only [readChunks, Prod.mk.injEq] at h
    exact ⟨[], h.1.symm, rfl⟩
  | cons c plan ih =>
    intro s s' acc data hI hpos h
    obtain ⟨a, n⟩ := c
    unfold readChunks at h
    cases hx : cdRead dev s a n with
    | mk s1 r1 =>
      rw [hx] at h
      cases r1 with
      | error e => simp at h
      | ok r =>
        have hr := cdRead_ok_iff hx
        obtain ⟨hI1, d, rfl, hl⟩ := hd s a n s1 r hI (hpos (a, n) (by simp)) hr
        dsimp only at h
        obtain ⟨log, hlog⟩ := ih s1 s' _ data hI1 (fun c hc => hpos c (by simp [hc])) h
        exact ⟨(a, d) :: log, s1, d, log, hr, hl, hlog, rfl⟩

/-- C33 for devices that never return less or more than requested (mapped devices; RTU and TCP devices if the slave
conforms to Modbus: see below). -/
theorem C33_refreshed_partial {σ} {dev : MbDev σ} {I : σ → Prop} (hd : FullReplies dev I) (s s' : σ) (hI : I s) (m m' : MdlObj)
    (hm : ModelOK m) (ht : Tiles m.addr (m.addr + m.len) (readPlan m)) (hpos : ∀ c ∈ readPlan m, 0 ≤ c.2)
    (h : readPoints dev s m = (s', m', .ok ())) :
    ∃ log, Reads dev s (readPlan m) s' log ∧ ModelRead (replyMem log) m m' := by
  have key : ∃ log, Reads dev s (readPlan m) s' log := by
    unfold readPoints at h
    rw [if_neg hm.mtype] at h
    unfold readData at h
    by_cases h1 : m.readBlocks.length = 1
    · rw [if_pos h1] at h
      have hp : readPlan m = [(m.addr, m.len)] := by unfold readPlan; rw [if_pos h1]
      cases hx : cdRead dev s m.addr m.len with
      | mk s1 r1 =>
        rw [hx] at h
        cases r1 with
        | error e => simp [rpWrap] at h
        | ok r =>
          have hr := cdRead_ok_iff hx
          obtain ⟨hI1, d, rfl, hl⟩ := hd s _ _ s1 r hI (hpos (m.addr, m.len) (by rw [hp]; simp)) hr
          simp only [Prod.mk.injEq] at h
          rw [hp]
          exact ⟨[(m.addr, d)], s1, d, [], hr, hl, ⟨h.1.symm, rfl⟩, rfl⟩
    · rw [if_neg h1] at h
      cases hx : readChunks dev (readPlan m) [] s with
      | mk s1 r1 =>
        rw [hx] at h
        cases r1 with
        | error e => simp [rpWrap] at h
        | ok data =>
          simp only [Prod.mk.injEq] at h
          obtain ⟨log, hl⟩ := readChunks_full hd _ s s1 [] data hI hpos hx
          rw [← h.1]
          exact ⟨log, hl⟩
  obtain ⟨log, hlog⟩ := key
  obtain ⟨m2, h1, h2⟩ := C32_read dev s s' m log hm ht hlog
  rw [h1] at h
  cases h
  exact ⟨log, hlog, h2⟩

/-- Mapped devices deliver what is requested or raise, whatever the map. -/
theorem mapDev_full : FullReplies mapDev (fun _ => True) := by
  intro m a n m' r _ hn h
  refine ⟨trivial, ?_⟩
  have h' : (m, (mapRead m a n none).map some) = (m', .ok r) := h
  simp only [Prod.mk.injEq] at h'
  obtain ⟨_, h'⟩ := h'
  cases hx : mapRead m a n none with
  | error e => rw [hx] at h'; cases h'
  | ok d =>
    rw [hx] at h'
    refine ⟨d, (Except.ok.inj h').symm, ?_⟩
    unfold mapRead at hx
    rw [if_neg (by simp)] at hx
    cases hb : m.base.toInt with
    | error e => rw [hb] at hx; cases hx
    | ok base =>
      rw [hb] at hx
      dsimp only at hx
      cases hl : mapReadLoop m.regs (.int (a - base)) (.int n) [] with
      | error e => rw [hl] at hx; cases hx
      | ok d' =>
        rw [hl] at hx
        dsimp only at hx
        by_cases hc : (d'.length : Int) = n * 2
        · rw [if_pos hc] at hx; cases hx; omega
        · rw [if_neg hc] at hx; cases hx

/-- Non-vacuity of `C33_refreshed_partial`. -/
example : ∃ log, Reads mapDev exMap (readPlan exModel) (readPoints mapDev exMap exModel).1 log ∧
    ModelRead (replyMem log) exModel (readPoints mapDev exMap exModel).2.1 :=
  C33_refreshed_partial mapDev_full exMap _ trivial exModel _ exModel_ok exModel_tiles (by rw [exModel_plan]; simp)
    (Prod.ext rfl (Prod.ext rfl (by decide +kernel)))

/-- RTU devices with a conforming slave deliver what is requested or raise. -/
theorem rtuDev_full {σ} {slave : Slave σ} {abs : σ → Mem} {sid : Byte} (hc : ConformsRtu slave abs sid) :
    FullReplies (rtuDev slave sid.toNat) (fun _ => True) := by
  intro l a n l' r _ hn h
  have h' : rtuRead slave l sid.toNat 3 a n.toNat 125 = (l', .ok r) := h
  refine ⟨trivial, _, C11_read_sound hc l l' 3 a n.toNat 125 r h', ?_⟩
  rw [memRead_length]
  omega

/-- TCP devices with a conforming server (and no unread reply on the connection) deliver what is requested or raise. -/
theorem tcpDev_full {σ} {srv : TcpServer σ} {abs : σ → Mem} {unit : Byte} (hc : ConformsTcp srv.accept srv.react abs unit) :
    FullReplies (tcpDev srv unit.toNat) Idle := by
  intro t a n t' r hI hn h
  have h' : ((tcpRead srv t unit.toNat 3 a n.toNat 125).1, (tcpRead srv t unit.toNat 3 a n.toNat 125).2.map some) = (t', .ok r) := h
  have hidle := tcpStep_idle hc 125 t hI (.read 3 a n.toNat)
  have hs : tcpStep srv unit.toNat 125 t (.read 3 a n.toNat) = tcpRead srv t unit.toNat 3 a n.toNat 125 := rfl
  rw [hs] at hidle
  cases hx : tcpRead srv t unit.toNat 3 a n.toNat 125 with
  | mk t1 r1 =>
    rw [hx] at h' hidle
    simp only [Prod.mk.injEq] at h'
    obtain ⟨rfl, h'⟩ := h'
    refine ⟨hidle, ?_⟩
    cases r1 with
    | error e => cases h'
    | ok d =>
      refine ⟨d, (Except.ok.inj h').symm, ?_⟩
      rw [C17_read_sound hc t t1 hI 3 a n.toNat 125 d hx, memRead_length]
      omega

/-- C33 is violated: if an RTU slave answers a read with an empty reply, `read_points` returns normally and leaves the
old values. -/
theorem C33_violated : ¬ C33_full := by
  intro h
  have h2 : (readPoints (rtuDev (constSlave (rtuFrame 1 [3, 0])) 1) ⟨(), []⟩ exModel).2 = (exModel, .ok ()) := by decide +kernel
  generalize hX : readPoints (rtuDev (constSlave (rtuFrame 1 [3, 0])) 1) ⟨(), []⟩ exModel = X at h2
  obtain ⟨s', m', r⟩ := X
  simp only [Prod.mk.injEq] at h2
  rw [h2.1, h2.2] at hX
  obtain ⟨log, h1, _⟩ := h Unit (constSlave (rtuFrame 1 [3, 0])) 1 ⟨(), []⟩ s' exModel exModel exModel_ok exModel_tiles
    (by rw [exModel_plan]; simp) hX
  rw [exModel_plan] at h1
  obtain ⟨s1, d, log1, r1, _⟩ := h1
  have r2 : ((rtuDev (constSlave (rtuFrame 1 [3, 0])) 1).read ⟨(), []⟩ 40002 7).2 = .ok none := by decide +kernel
  rw [r1] at r2
  cases r2

/-- C33: if a read raises, so does `read_points`, and the model is unchanged. -/
theorem C33_raises {σ} (dev : MbDev σ) (s s' : σ) (m : MdlObj) (e : Exc) (h : readData dev m s = (s', .error e)) (hm : m.mtype ≠ none) :
    ∃ e', readPoints dev s m = (s', m, .error e') := by
  unfold readPoints
  rw [if_neg hm, h]
  exact ⟨_, rfl⟩

/-- C33: data of the wrong total size is refused and the model is unchanged (but see `C33_violated` for no data). -/
theorem C33_wrong_size {σ} (dev : MbDev σ) (s s' : σ) (m : MdlObj) (d : Bytes) (h : readData dev m s = (s', .ok (some d)))
    (hm : m.mtype ≠ none) (hd : d ≠ []) (hl : (d.length : Int) ≠ 2 * m.len) :
    readPoints dev s m = (s', m, .error .sunSpecClientError) := by
  unfold readPoints
  rw [if_neg hm, h]
  dsimp only
  unfold readApply
  dsimp only
  rw [if_neg hd, if_pos hl]
  rfl

end Verif
