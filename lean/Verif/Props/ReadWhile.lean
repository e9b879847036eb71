import Verif.Props.Torn
import Verif.Props.Atomic
import Verif.Props.Sends
import Verif.Props.WriteRead
import Verif.Props.CopyBack

/-!
# C103: reading while another client writes
-/

namespace Verif
open Verif.Spec

/-- While a device with registers `mem0` receives the requests `ws` of another client one after the other: at moment `k` of the reader,
the first `done k` of them have been executed. The other client may be at any point, may pause, and may stop before the end. -/
structure Spec.Receiving (mem0 : Mem) (ws : List (Int × Bytes)) (done : Nat → Nat) (env : Nat → Mem) : Prop where
  forward : ∀ k k', k ≤ k' → done k ≤ done k'
  regs : ∀ k, regMem (env k) = storeAll (regMem mem0) (ws.take (done k))

/-- After reading, the point `p` (now `p'`) has the value its registers had before the other client wrote. -/
def Spec.OldValue (mem0 : Mem) (p p' : PointObj) : Prop := PointRead (regMem mem0) p p'

/-- After reading, the point `p` (now `p'`) has the value that the registers denote in which the other client stores its point `q`. -/
def Spec.NewValue (q p p' : PointObj) : Prop :=
  ∃ rs, Encoded q rs ∧ p.pt.type.readValue (regBytes rs) = .ok p'.base ∧ p' = { p with base := p'.base, vsf := p'.vsf }

theorem encoded_unique {p : PointObj} {rs rs' : List Reg} (h : Encoded p rs) (h' : Encoded p rs') : rs = rs' := by
  have e : regBytes rs = regBytes rs' := Except.ok.inj (h.1.symm.trans h'.1)
  have hl : rs.length = rs'.length := by have := h.2; have := h'.2; omega
  apply List.ext_getElem?
  intro i
  by_cases hi : i < rs.length
  · have f1 := regBytes_get rs i hi
    have f2 := regBytes_get rs' i (by omega)
    rw [f1, f2, e]
  · rw [List.getElem?_eq_none (by omega), List.getElem?_eq_none (by omega)]

theorem separate_sf {m : MdlObj} (h : Separate m) {b b' : BlockObj} {p q : PointObj} (hb : b ∈ m.blocks) (hb' : b' ∈ m.blocks)
    (hp : p ∈ b.sfs) (hq : q ∈ b'.pts) : p.addr + p.pt.len ≤ q.addr ∨ q.addr + q.pt.len ≤ p.addr := by
  unfold Separate at h
  generalize m.blocks = bs at h hb hb'
  induction bs with
  | nil => cases hb
  | cons c bs ih =>
    rw [List.flatMap_cons, List.pairwise_append] at h
    obtain ⟨h1, h2, h3⟩ := h
    rcases List.mem_cons.1 hb with e | hc <;> rcases List.mem_cons.1 hb' with e' | hc'
    · subst e; subst e'
      rw [List.pairwise_append] at h1
      exact (h1.2.2 q hq p hp).symm
    · subst e
      exact h3 p (List.mem_append_right _ hp) q (List.mem_flatMap.2 ⟨b', hc', List.mem_append_left _ hq⟩)
    · subst e'
      exact (h3 q (List.mem_append_left _ hq) p (List.mem_flatMap.2 ⟨b, hc, List.mem_append_right _ hp⟩)).symm
    · exact ih h2 hc hc'

/-- What the first requests of `write_points` have stored. -/
theorem requests_prefix {mem : RegMem} {wr : Nat → Prop} {m : MdlObj} (hm : CanStore mem wr m) {ws : List (Int × Bytes)} (hws : Requests m ws) :
    (∀ k mem0 x, ¬ Mine m x → storeAll mem0 (ws.take k) x = mem0 x) ∧
    ∀ b ∈ m.blocks, ∀ p ∈ b.pts, p.dirty = true → ∃ rs, Encoded p rs ∧
      (∀ k mem0, memRegs (storeAll mem0 (ws.take k)) p.addr p.pt.len.toNat = memRegs mem0 p.addr p.pt.len.toNat ∨
        memRegs (storeAll mem0 (ws.take k)) p.addr p.pt.len.toNat = some rs) ∧
      (∀ k mem0, ws.length ≤ k → memRegs (storeAll mem0 (ws.take k)) p.addr p.pt.len.toNat = some rs) ∧
      (∀ k k' mem0, k ≤ k' → memRegs (storeAll mem0 (ws.take k)) p.addr p.pt.len.toNat = some rs →
        memRegs (storeAll mem0 (ws.take k')) p.addr p.pt.len.toNat = some rs) := by
  obtain ⟨gs, hg, hw⟩ := hws
  obtain ⟨g1, g2⟩ := runOf_grouped hg
  have hall : ∀ w ∈ ws, ∃ g, RunOf m g ∧ RunData g w := by
    clear g2 hg
    induction hw with
    | nil => intro w h; cases h
    | @cons g w gs ws h _ ih =>
      intro v hv
      rcases List.mem_cons.1 hv with rfl | hv
      · exact ⟨g, g1 g (by simp), h⟩
      · exact ih (fun g hg => g1 g (by simp [hg])) v hv
  have htake : ∀ k, ∀ w ∈ ws.take k, ∃ g, RunOf m g ∧ RunData g w := fun k w h => hall w (List.mem_of_mem_take h)
  refine ⟨fun k mem0 x hx => (runs_write hm _ (htake k) mem0).1 x hx, ?_⟩
  intro b hb p hp hd
  obtain ⟨g, hgm, hpg⟩ := g2 b hb p hp hd
  obtain ⟨w, hwm, hrd⟩ := forall₂_left hw hgm
  obtain ⟨rs, e1, _⟩ := ((runs_write hm ws hall mem).2 b hb p hp hd).2 ⟨w, hwm, g, g1 g hgm, hrd, hpg⟩
  refine ⟨rs, e1, ?_, ?_, ?_⟩
  · intro k mem0
    rcases ((runs_write hm _ (htake k) mem0).2 b hb p hp hd).1 with h | ⟨rs', f1, f2⟩
    · exact .inl h
    · rw [encoded_unique e1 f1]; exact .inr f2
  · intro k mem0 hk
    rw [List.take_of_length_le hk]
    obtain ⟨rs', f1, f2⟩ := ((runs_write hm ws hall mem0).2 b hb p hp hd).2 ⟨w, hwm, g, g1 g hgm, hrd, hpg⟩
    rw [encoded_unique e1 f1]; exact f2
  · intro k k' mem0 hk h
    have e : ws.take k' = ws.take k ++ (ws.drop k).take (k' - k) := by
      rw [← List.take_add, Nat.add_sub_cancel' hk]
    have e2 : storeAll mem0 (ws.take k') = storeAll (storeAll mem0 (ws.take k)) ((ws.drop k).take (k' - k)) := by
      rw [e]; unfold storeAll; rw [List.foldl_append]
    rw [e2]
    rcases ((runs_write hm ((ws.drop k).take (k' - k)) (fun w h => hall w (List.mem_of_mem_drop (List.mem_of_mem_take h)))
      (storeAll mem0 (ws.take k))).2 b hb p hp hd).1 with h' | ⟨rs', f1, f2⟩
    · rw [h']; exact h
    · rw [encoded_unique e1 f1]; exact f2

/-- What reading the model needs (C80): the reads cover the model, each point lies in one request, and the model in the address space. -/
structure Spec.CanRead (m : MdlObj) : Prop where
  ok : ModelOK m
  tiles : Tiles m.addr (m.addr + m.len) (readPlan m)
  plan : ∀ c ∈ readPlan m, 0 ≤ c.2
  whole : InOneRequest m
  low : 0 ≤ m.addr
  high : m.addr + m.len ≤ 65536

theorem sf_layout {m m0 : MdlObj} (hl : layout m = layout m0) {b : BlockObj} {p : PointObj} (hb : b ∈ m.blocks) (hp : p ∈ b.sfs) :
    ∃ b0 ∈ m0.blocks, ∃ q ∈ b0.sfs, unvalued p = unvalued q := by
  have e : (layout m).blocks = (layout m0).blocks := by rw [hl]
  have h : ({ b with pts := b.pts.map unvalued, sfs := b.sfs.map unvalued } : BlockObj) ∈ (layout m).blocks :=
    List.mem_map.2 ⟨b, hb, rfl⟩
  rw [e] at h
  obtain ⟨b0, h1, h2⟩ := List.mem_map.1 h
  have e2 : b0.sfs.map unvalued = b.sfs.map unvalued := by
    have := congrArg (fun x : BlockObj => x.sfs) h2; exact this
  have hp' : unvalued p ∈ b0.sfs.map unvalued := by rw [e2]; exact List.mem_map.2 ⟨p, hp, rfl⟩
  obtain ⟨q, q1, q2⟩ := List.mem_map.1 hp'
  exact ⟨b0, h1, q, q1, q2.symm⟩

theorem memRegs_off {mem mem' : RegMem} {m : MdlObj} (h : ∀ x, ¬ Mine m x → mem x = mem' x) {p : PointObj}
    (hp : ∀ b ∈ m.blocks, ∀ q ∈ b.pts, q.dirty = true → p.addr + p.pt.len ≤ q.addr ∨ q.addr + q.pt.len ≤ p.addr) :
    memRegs mem p.addr p.pt.len.toNat = memRegs mem' p.addr p.pt.len.toNat := by
  apply memRegs_congr
  intro x x1 x2
  apply h
  rintro ⟨b, hb, q, hq, hd, y1, y2⟩
  have := hp b hb q hq hd
  omega

theorem unvalued_at {p q : PointObj} (h : unvalued p = unvalued q) : p.addr = q.addr ∧ p.pt = q.pt := by
  obtain ⟨a, b, c, d, e, f, g⟩ := p
  obtain ⟨a', b', c', d', e', f', g'⟩ := q
  simp only [unvalued, PointObj.mk.injEq] at h
  obtain ⟨rfl, rfl, _⟩ := h
  exact ⟨rfl, rfl⟩

/-- The value read at a moment is old or new. -/
theorem read_moment {mem0 : Mem} {wr : Nat → Prop} {m : MdlObj} (hst : CanStore (regMem mem0) wr m)
    {ws : List (Int × Bytes)} (hws : Requests m ws) {done : Nat → Nat} {env : Nat → Mem} (henv : Receiving mem0 ws done env)
    {b : BlockObj} {q : PointObj} (hb : b ∈ m.blocks) (hq : q ∈ b.pts) (hd : q.dirty = true) :
    ∃ rs, Encoded q rs ∧
      (∀ k, memRegs (regMem (env k)) q.addr q.pt.len.toNat = memRegs (regMem mem0) q.addr q.pt.len.toNat ∨
        memRegs (regMem (env k)) q.addr q.pt.len.toNat = some rs) ∧
      (∀ k, ws.length ≤ done k → memRegs (regMem (env k)) q.addr q.pt.len.toNat = some rs) ∧
      (∀ k k', k ≤ k' → memRegs (regMem (env k)) q.addr q.pt.len.toNat = some rs →
        memRegs (regMem (env k')) q.addr q.pt.len.toNat = some rs) := by
  obtain ⟨rs, e1, e2, e3, e4⟩ := (requests_prefix hst hws).2 b hb q hq hd
  refine ⟨rs, e1, fun k => ?_, fun k hk => ?_, fun k k' hk h => ?_⟩
  · rw [henv.regs]; exact e2 _ _
  · rw [henv.regs]; exact e3 _ _ hk
  · rw [henv.regs] at h ⊢
    exact e4 _ _ _ (henv.forward k k' hk) h

theorem newValue_of {mem : RegMem} {p p' q : PointObj} {rs : List Reg} (hu : p.addr = q.addr ∧ p.pt = q.pt) (he : Encoded q rs)
    (hm : memRegs mem q.addr q.pt.len.toNat = some rs) (h : PointRead mem p p') : NewValue q p p' := by
  obtain ⟨rs', h1, h2, h3⟩ := h
  rw [hu.1, hu.2, hm] at h1
  have := Option.some.inj h1
  subst this
  exact ⟨rs, he, h2, h3⟩

theorem oldValue_of {mem0 : Mem} {mem : RegMem} {p p' q : PointObj} (hu : p.addr = q.addr ∧ p.pt = q.pt)
    (hm : memRegs mem q.addr q.pt.len.toNat = memRegs (regMem mem0) q.addr q.pt.len.toNat) (h : PointRead mem p p') : OldValue mem0 p p' := by
  obtain ⟨rs', h1, h2, h3⟩ := h
  refine ⟨rs', ?_, h2, h3⟩
  rw [← h1, hu.1, hu.2, hm]

theorem ptAt_blocks {m : MdlObj} {i j : Nat} {p : PointObj} (h : ptAt m i j = some p) :
    ∃ b, m.blocks[i]? = some b ∧ b.pts[j]? = some p := by
  unfold ptAt at h
  cases hb : m.blocks[i]? with
  | none => rw [hb] at h; cases h
  | some b => rw [hb] at h; exact ⟨b, rfl, h⟩

/-- C103, one read: while another client writes its model with `write_points`, whatever requests of it the device has already received at each moment,
`read_points` of a model of the same layout returns; each point that the other client has not modified and each scale factor has its
old value; each point that it has modified has the old or the new value - the new one if the other client has finished before. -/
theorem C103_read_partial {σ} {dev : MbDev σ} {now : σ → Nat} {ready : σ → Prop} {env : Nat → Mem} (hd : Live dev now ready env)
    (mem0 : Mem) (wr : Nat → Prop) (m : MdlObj) (hst : CanStore (regMem mem0) wr m)
    (ws : List (Int × Bytes)) (hws : Requests m ws) (done : Nat → Nat) (henv : Receiving mem0 ws done env)
    (s : σ) (hs : ready s) (mr : MdlObj) (hlay : layout mr = layout m) (hm : CanRead mr) :
    ∃ s' m', readPoints dev s mr = (s', m', .ok ()) ∧ ready s' ∧
      (∀ i j p p' q, ptAt mr i j = some p → ptAt m' i j = some p' → ptAt m i j = some q →
        (q.dirty = false → OldValue mem0 p p') ∧
        (q.dirty = true → OldValue mem0 p p' ∨ NewValue q p p') ∧
        (q.dirty = true → ws.length ≤ done (now s) → NewValue q p p') ∧
        (p'.base ≠ none → ∀ ref, p.sf = some ref → IsScale m'.blocks ref p'.vsf)) ∧
      (∀ (i : Nat) (b b' : BlockObj), mr.blocks[i]? = some b → m'.blocks[i]? = some b' → ∀ (j : Nat) (p p' : PointObj),
        b.sfs[j]? = some p → b'.sfs[j]? = some p' → OldValue mem0 p p') := by
  obtain ⟨s', m', h1, h2, h3⟩ := C80_point_partial hd s hs mr hm.ok hm.tiles hm.plan hm.whole hm.low hm.high
  have hoff : ∀ k x, ¬ Mine m x → regMem (env k) x = regMem mem0 x := by
    intro k x hx
    rw [henv.regs]
    exact (requests_prefix hst hws).1 _ _ _ hx
  refine ⟨s', m', h1, h2, ?_, ?_⟩
  · intro i j p p' q hp hp' hq
    obtain ⟨b, b1, b2⟩ := ptAt_blocks hp
    obtain ⟨b', b1', b2'⟩ := ptAt_blocks hp'
    obtain ⟨⟨k, k1, k2, k3⟩, k4⟩ := (h3 i b b' b1 b1').1 j p p' b2 b2'
    obtain ⟨q0, q1, q2⟩ := same_layout hlay i j p hp
    rw [hq] at q1
    cases q1
    have hu := unvalued_at q2
    obtain ⟨b0, c1, c2⟩ := ptAt_blocks hq
    have hbm := List.mem_of_getElem? c1
    have hqm := List.mem_of_getElem? c2
    refine ⟨fun hf => ?_, fun ht => ?_, fun ht hdone => ?_, k4⟩
    · refine oldValue_of hu ?_ k3
      refine memRegs_off (hoff k) ?_
      intro b2 hb2 q2 hq2 hd2
      exact pairwise_two (fun _ _ h => h.symm) hst.separate (a := q) (b := q2)
        (List.mem_flatMap.2 ⟨b0, hbm, List.mem_append_left _ hqm⟩) (List.mem_flatMap.2 ⟨b2, hb2, List.mem_append_left _ hq2⟩)
        (by rintro rfl; rw [hf] at hd2; cases hd2)
    · obtain ⟨rs, e1, e2, _⟩ := read_moment hst hws henv hbm hqm ht
      rcases e2 k with h | h
      · exact .inl (oldValue_of hu h k3)
      · exact .inr (newValue_of hu e1 h k3)
    · obtain ⟨rs, e1, _, e3, _⟩ := read_moment hst hws henv hbm hqm ht
      exact newValue_of hu e1 (e3 k (Nat.le_trans hdone (henv.forward _ _ k1))) k3
  · intro i b b' b1 b1' j p p' hp hp'
    obtain ⟨k, k1, k2, k3⟩ := (h3 i b b' b1 b1').2 j p p' hp hp'
    obtain ⟨b0, c1, q, q1, q2⟩ := sf_layout hlay (List.mem_of_getElem? b1) (List.mem_of_getElem? hp)
    refine oldValue_of (unvalued_at q2) ?_ k3
    refine memRegs_off (hoff k) ?_
    intro b2 hb2 q2 hq2 hd2
    exact separate_sf hst.separate c1 hb2 q1 hq2

/-- C103, two reads: of two reads, by the same or by different clients, of which the second begins after the end of the first, the second does not
show an older value of a modified point than the first: both show the old value, or the second shows the new one. -/
theorem C103_order_partial {σ τ} {dev : MbDev σ} {now : σ → Nat} {ready : σ → Prop} {env : Nat → Mem} (hd : Live dev now ready env)
    {dev2 : MbDev τ} {now2 : τ → Nat} {ready2 : τ → Prop} (hd2 : Live dev2 now2 ready2 env)
    (mem0 : Mem) (wr : Nat → Prop) (m : MdlObj) (hst : CanStore (regMem mem0) wr m)
    (ws : List (Int × Bytes)) (hws : Requests m ws) (done : Nat → Nat) (henv : Receiving mem0 ws done env)
    (s : σ) (hs : ready s) (mr : MdlObj) (hlay : layout mr = layout m) (hm : CanRead mr)
    (s2 : τ) (hs2 : ready2 s2) (mr2 : MdlObj) (hlay2 : layout mr2 = layout m) (hm2 : CanRead mr2) :
    ∃ s' m' s2' m2', readPoints dev s mr = (s', m', .ok ()) ∧ readPoints dev2 s2 mr2 = (s2', m2', .ok ()) ∧
      (now s' ≤ now2 s2 → ∀ i j p p' p2 p2' q, ptAt mr i j = some p → ptAt m' i j = some p' → ptAt mr2 i j = some p2 → ptAt m2' i j = some p2' →
        ptAt m i j = some q → q.dirty = true →
          OldValue mem0 p p' ∧ OldValue mem0 p2 p2' ∨ NewValue q p2 p2' ∧ (OldValue mem0 p p' ∨ NewValue q p p')) := by
  obtain ⟨s', m', h1, h2, h3⟩ := C80_point_partial hd s hs mr hm.ok hm.tiles hm.plan hm.whole hm.low hm.high
  obtain ⟨s2', m2', g1, g2, g3⟩ := C80_point_partial hd2 s2 hs2 mr2 hm2.ok hm2.tiles hm2.plan hm2.whole hm2.low hm2.high
  refine ⟨s', m', s2', m2', h1, g1, ?_⟩
  intro hlater i j p p' p2 p2' q hp hp' hp2 hp2' hq ht
  obtain ⟨b, b1, b2⟩ := ptAt_blocks hp
  obtain ⟨b', b1', b2'⟩ := ptAt_blocks hp'
  obtain ⟨c, c1, c2⟩ := ptAt_blocks hp2
  obtain ⟨c', c1', c2'⟩ := ptAt_blocks hp2'
  obtain ⟨⟨k, k1, k2, k3⟩, _⟩ := (h3 i b b' b1 b1').1 j p p' b2 b2'
  obtain ⟨⟨l, l1, l2, l3⟩, _⟩ := (g3 i c c' c1 c1').1 j p2 p2' c2 c2'
  obtain ⟨q0, q1, q2⟩ := same_layout hlay i j p hp
  obtain ⟨r0, r1, r2⟩ := same_layout hlay2 i j p2 hp2
  rw [hq] at q1 r1
  cases q1
  cases r1
  have hu := unvalued_at q2
  have hv := unvalued_at r2
  obtain ⟨b0, d1, d2⟩ := ptAt_blocks hq
  obtain ⟨rs, e1, e2, _, e4⟩ := read_moment hst hws henv (List.mem_of_getElem? d1) (List.mem_of_getElem? d2) ht
  rcases e2 k with h | h
  · rcases e2 l with h' | h'
    · exact .inl ⟨oldValue_of hu h k3, oldValue_of hv h' l3⟩
    · exact .inr ⟨newValue_of hv e1 h' l3, .inl (oldValue_of hu h k3)⟩
  · exact .inr ⟨newValue_of hv e1 (e4 k l (by omega) h) l3, .inr (newValue_of hu e1 h k3)⟩

/-- C103, the new value is the one that was assigned: for values that a point can have (C37). -/
theorem C103_value_partial (q p p' : PointObj) (hl : LenOK q.pt) (hw : Writable q) (hpt : p.pt = q.pt) (h : NewValue q p p') : p'.base = q.base := by
  obtain ⟨rs, h1, h2, _⟩ := h
  obtain ⟨rs', e1, e2⟩ := writable_encoded q hl hw
  rw [hpt, encoded_unique h1 e1, e2] at h2
  exact (Except.ok.inj h2).symm

/-! ## Devices -/

/-- The registers after writes. -/
def writesDone (mem : Mem) (ws : List (Int × Bytes)) : Mem := ws.foldl (fun m w => memWrite m w.1.toNat w.2) mem

theorem writesDone_regs {wr : Nat → Prop} (ws : List (Int × Bytes)) : ∀ {mem : Mem} {D : Int → Prop}, (∀ w ∈ ws, w.2 ≠ [] ∧ GoodReq (regMem mem) wr D w) →
    regMem (writesDone mem ws) = storeAll (regMem mem) ws := by
  induction ws with
  | nil => intro mem D _; rfl
  | cons w ws ih =>
    intro mem D h
    obtain ⟨h0, rs, e1, e2, e3⟩ := h w (by simp)
    have hpos : 0 < rs.length := by
      cases rs with
      | nil => exact absurd (by rw [e1]; rfl) h0
      | cons r rs => simp
    have hw0 : 0 ≤ w.1 := by
      have := (e3 w.1 (Int.le_refl _) (by omega)).2
      unfold regMem at this
      by_cases hx : 0 ≤ w.1 ∧ w.1 < 65536
      · exact hx.1
      · rw [if_neg hx] at this; exact absurd rfl this
    have hex : memRegs (regMem mem) w.1 rs.length ≠ none := memRegs_iff.2 fun x x1 x2 => (e3 x x1 x2).2
    have hst : regMem (memWrite mem w.1.toNat w.2) = putBytes (regMem mem) w.1 w.2 := by
      have hn : ((w.1.toNat : Nat) : Int) = w.1 := by omega
      rw [e1, regMem_write mem w.1.toNat rs (by rw [hn]; exact hex), hn, putBytes_regs _ _ _ hex]
    show regMem (writesDone (memWrite mem w.1.toNat w.2) ws) = storeAll (putBytes (regMem mem) w.1 w.2) ws
    rw [← hst]
    refine ih (D := fun _ => True) fun v hv => ?_
    obtain ⟨g0, rs', f1, f2, f3⟩ := h v (by simp [hv])
    refine ⟨g0, rs', f1, f2, fun x x1 x2 => ⟨trivial, ?_⟩⟩
    rw [hst]
    exact putBytes_ne (f3 x x1 x2).2

/-- C103, devices: whenever `write_points` can be executed and in whatever pace its requests arrive, there are RTU and TCP devices that receive them
while they are read, and their registers at each moment are those of C103. -/
theorem C103_devices (mem0 : Mem) (wr : Nat → Prop) (m : MdlObj) (hst : CanStore (regMem mem0) wr m)
    (ws : List (Int × Bytes)) (hws : Requests m ws) (done : Nat → Nat) (hdone : ∀ k k', k ≤ k' → done k ≤ done k') (sid : Byte) :
    Receiving mem0 ws done (fun k => writesDone mem0 (ws.take (done k))) ∧
    Live (rtuDev (liveSlave (fun k => writesDone mem0 (ws.take (done k))) sid) sid.toNat) (fun l => l.dev) (fun _ => True)
      (fun k => writesDone mem0 (ws.take (done k))) ∧
    Live (tcpDev (liveServer (fun k => writesDone mem0 (ws.take (done k))) sid) sid.toNat) (fun t => t.dev) Idle
      (fun k => writesDone mem0 (ws.take (done k))) := by
  refine ⟨⟨hdone, fun k => ?_⟩, rtu_live (liveSlave_live _ sid), tcp_live (liveServer_live _ sid)⟩
  obtain ⟨gs, hg, hw⟩ := hws
  obtain ⟨g1, _⟩ := runOf_grouped hg
  refine writesDone_regs (wr := wr) (D := fun _ => True) _ fun w hwm => ?_
  have hwm' := List.mem_of_mem_take hwm
  obtain ⟨g, hgm, hrd⟩ := forall₂_left hw.flip hwm'
  obtain ⟨⟨rs, r1, r2, r3, r4⟩, _⟩ := run_write hst (g1 g hgm) hrd
  refine ⟨?_, rs, r1, r3, fun x x1 x2 => ⟨trivial, r4 x x1 x2⟩⟩
  intro h
  have := congrArg List.length r1
  rw [h, regBytes_length, List.length_nil] at this
  omega

theorem exModel_canRead : CanRead exModel := by
  have hspan := exModel_span
  refine ⟨exModel_ok, exModel_tiles, ?_, ?_, ?_, ?_⟩
  · decide +kernel
  · have h : ∀ b ∈ exModel.blocks, ∀ p ∈ b.pts ++ b.sfs, ∃ c ∈ readPlan exModel, c.1 ≤ p.addr ∧ p.addr + p.pt.len ≤ c.1 + min c.2 125 := by decide +kernel
    exact fun b hb p hp => h b hb p (List.mem_append.2 hp)
  · decide +kernel
  · decide +kernel

theorem strModel0_canRead : CanRead strModel0 := by
  have hplan : readPlan strModel0 = [(0, 5)] := by decide +kernel
  have h1 : strModel0.addr = 0 ∧ strModel0.len = 5 := by decide +kernel
  refine ⟨strModel0_ok, ?_, ?_, ?_, ?_, ?_⟩
  · rw [hplan, h1.1, h1.2]; exact ⟨rfl, rfl⟩
  · decide +kernel
  · have h : ∀ b ∈ strModel0.blocks, ∀ p ∈ b.pts ++ b.sfs, ∃ c ∈ readPlan strModel0, c.1 ≤ p.addr ∧ p.addr + p.pt.len ≤ c.1 + min c.2 125 := by decide +kernel
    exact fun b hb p hp => h b hb p (List.mem_append.2 hp)
  · decide +kernel
  · decide +kernel

/-- All points of the example model are set to 5 by another client (three requests), while the model is read over RTU; the requests arrive at any pace. -/
example (done : Nat → Nat) (hdone : ∀ k k', k ≤ k' → done k ≤ done k') (sid : Byte) :
    ∃ ws s' m', Requests (mapPts allSet exModel) ws ∧ ws.length = 3 ∧
      readPoints (rtuDev (liveSlave (fun k => writesDone exMem (ws.take (done k))) sid) sid.toNat) ⟨0, []⟩ exModel = (s', m', .ok ()) ∧
      (∀ i j p p' q, ptAt exModel i j = some p → ptAt m' i j = some p' → ptAt (mapPts allSet exModel) i j = some q → q.dirty = true →
        OldValue exMem p p' ∨ NewValue q p p') := by
  have hr := C81_requests mapDev exMap (mapPts allSet exModel) (by decide +kernel)
  have hlen : (writePoints (recording mapDev) (exMap, []) (mapPts allSet exModel)).1.2.length = 3 := by decide +kernel
  generalize (writePoints (recording mapDev) (exMap, []) (mapPts allSet exModel)).1.2 = ws at hr hlen
  have hst := allSet_store
  have hl : layout exModel = layout (mapPts allSet exModel) := by decide +kernel
  generalize mapPts allSet exModel = m at *
  obtain ⟨h1, h2, _⟩ := C103_devices exMem _ m hst ws hr done hdone sid
  obtain ⟨s', m', r1, _, r2, _⟩ := C103_read_partial h2 exMem _ m hst ws hr done h1 ⟨0, []⟩ trivial exModel hl exModel_canRead
  exact ⟨ws, s', m', hr, hlen, r1, fun i j p p' q a b c d => (r2 i j p p' q a b c).2.1 d⟩

/-- The first request arrives before the read and the others after it: `A` is new, the repeating blocks are old. -/
example :
    ((readPoints (rtuDev (liveSlave (fun k => writesDone exMem ([(40002, [0, 5]), (40005, [0, 5, 0, 5]), (40007, [0, 5, 0, 5])].take (k + 1))) 1) 1) ⟨0, []⟩ exModel).2.1.blocks.map
      fun b => b.pts.map fun p => p.base) = [[some (.int 5)], [some (.int 40005), some (.int 40006)], [some (.int 40007), some (.int 40008)]] := by decide +kernel

/-! ## Short strings -/

/-- C103, full statement: strings of any length. -/
def C103_full : Prop :=
  ∀ (sid : Byte) (mem0 : Mem) (m mr : MdlObj) (ws : List (Int × Bytes)) (done : Nat → Nat) (l' : Line Nat) (m' : MdlObj), Separate m →
    (∀ b ∈ m.blocks, ∀ p ∈ b.pts, p.dirty = true → LenOK p.pt ∧ (∃ d, p.pt.type.toData p.base (p.pt.len * 2).toNat = .ok d) ∧
      ∀ x, p.addr ≤ x → x < p.addr + p.pt.len → regMem mem0 x ≠ none) →
    Requests m ws → (∀ k k', k ≤ k' → done k ≤ done k') → layout mr = layout m → CanRead mr →
    readPoints (rtuDev (liveSlave (fun k => writesDone mem0 (ws.take (done k))) sid) sid.toNat) ⟨0, []⟩ mr = (l', m', .ok ()) →
    ∀ i j p p' q, ptAt mr i j = some p → ptAt m' i j = some p' → ptAt m i j = some q →
      (q.dirty = false → OldValue mem0 p p') ∧ (q.dirty = true → OldValue mem0 p p' ∨ NewValue q p p')

/-- C103 is violated for strings of less than 8 registers: as they are encoded with one byte too many (C05), a client that writes two of them
changes the integer after them; the reader sees a value of the integer that nobody has assigned. -/
theorem C103_violated : ¬ C103_full := by
  intro h
  have hp : ∀ b ∈ strModel.blocks, ∀ p ∈ b.pts, p.dirty = true → LenOK p.pt ∧ (∃ d, p.pt.type.toData p.base (p.pt.len * 2).toNat = .ok d) ∧
      0 ≤ p.addr ∧ p.addr + p.pt.len ≤ 4 := by decide +kernel
  have hsep : Separate strModel := by unfold Separate; decide +kernel
  have hr := C81_requests mapDev strMap strModel (by decide +kernel)
  have hws : (writePoints (recording mapDev) (strMap, []) strModel).1.2 = [(0, [0x61, 0x62, 0, 0, 0, 0x61, 0x62, 0, 0, 0])] := by decide +kernel
  rw [hws] at hr
  have r0 : (readPoints (rtuDev (liveSlave (fun k => writesDone exMem (List.take ((fun _ => 1) k) [(0, [0x61, 0x62, 0, 0, 0, 0x61, 0x62, 0, 0, 0])])) 1) (1 : Byte).toNat)
      ⟨0, []⟩ strModel0).2.2 = .ok () := by decide +kernel
  have r2 : (ptAt (readPoints (rtuDev (liveSlave (fun k => writesDone exMem (List.take ((fun _ => 1) k) [(0, [0x61, 0x62, 0, 0, 0, 0x61, 0x62, 0, 0, 0])])) 1) (1 : Byte).toNat)
      ⟨0, []⟩ strModel0).2.1 0 2).map (fun p => p.base) = some (some (.int 0)) := by decide +kernel
  generalize r1 : readPoints (rtuDev (liveSlave (fun k => writesDone exMem (List.take ((fun _ => 1) k) [(0, [0x61, 0x62, 0, 0, 0, 0x61, 0x62, 0, 0, 0])])) 1) (1 : Byte).toNat)
      ⟨0, []⟩ strModel0 = X at r0 r2
  obtain ⟨l', m', r⟩ := X
  dsimp only at r0 r2
  subst r0
  obtain ⟨p', hp', r3⟩ := Option.map_eq_some_iff.1 r2
  have hq : ∃ q, ptAt strModel 0 2 = some q ∧ q.dirty = false := by decide +kernel
  obtain ⟨q, q1, q2⟩ := hq
  have hp0 : ∃ p, ptAt strModel0 0 2 = some p ∧ p.addr = 4 ∧ p.pt.len = 1 ∧ p.pt.type = .uint16 := by decide +kernel
  obtain ⟨p, p1, p2, p3, p4⟩ := hp0
  obtain ⟨rs, f1, f2, _⟩ := (h 1 exMem strModel strModel0 _ (fun _ => 1) l' m' hsep (fun b hb p hpp hd => by
    obtain ⟨k1, k2, k3, k4⟩ := hp b hb p hpp hd
    exact ⟨k1, k2, fun x x1 x2 => regMem_some exMem (by omega) (by omega)⟩) hr (fun _ _ _ => Nat.le_refl _) (by decide +kernel) strModel0_canRead r1
    0 2 p p' q p1 hp' q1).1 q2
  rw [p2, p3] at f1
  rw [p4, r3] at f2
  have e : memRegs (regMem exMem) 4 (1 : Int).toNat = some [(0, 4)] := by decide +kernel
  rw [e] at f1
  have := Option.some.inj f1
  subst this
  revert f2
  decide +kernel

end Verif
