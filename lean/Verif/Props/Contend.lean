import Verif.Props.ReadWhile

/-!
# C104: clients that write the same points at the same time
-/

namespace Verif
open Verif.Spec

/-- The requests that the device has executed (`l`, with the numbers of the clients) come from clients that call `write_points` at the same time, client
number `c` for the model `ms[c]`: those of each client are the first ones of its call, in their order. -/
structure Spec.Contending (ms : List MdlObj) (l : List (Nat × (Int × Bytes))) : Prop where
  from_client : ∀ w ∈ l, w.1 < ms.length
  in_order : ∀ (c : Nat) (m : MdlObj), ms[c]? = some m → ∃ ws, Requests m ws ∧ sentBy c l <+: ws

/-- One of the clients has modified point `j` of block `i`, and `rs` are the registers of its value. -/
def Spec.AssignedBy (ms : List MdlObj) (i j : Nat) (rs : List Reg) : Prop :=
  ∃ m ∈ ms, ∃ q, ptAt m i j = some q ∧ q.dirty = true ∧ Encoded q rs

/-- One of the clients that have modified point `j` of block `i` has finished. -/
def Spec.FinishedBy (ms : List MdlObj) (l : List (Nat × (Int × Bytes))) (i j : Nat) : Prop :=
  ∃ c m q, ms[c]? = some m ∧ Requests m (sentBy c l) ∧ ptAt m i j = some q ∧ q.dirty = true

theorem run_at {mem : RegMem} {wr : Nat → Prop} {m : MdlObj} (hm : CanStore mem wr m) {g : List PointObj} (hg : RunOf m g) {w : Int × Bytes}
    (hw : RunData g w) {i j : Nat} {q : PointObj} (hq : ptAt m i j = some q) :
    (∀ mem0, memRegs (putBytes mem0 w.1 w.2) q.addr q.pt.len.toNat = memRegs mem0 q.addr q.pt.len.toNat) ∨
    (q.dirty = true ∧ ∃ rs, Encoded q rs ∧ ∀ mem0, memRegs (putBytes mem0 w.1 w.2) q.addr q.pt.len.toNat = some rs) := by
  obtain ⟨_, h2, h3⟩ := run_write hm hg hw
  obtain ⟨b, c1, c2⟩ := ptAt_blocks hq
  have hb := List.mem_of_getElem? c1
  have hqm := List.mem_of_getElem? c2
  cases hd : q.dirty with
  | true =>
    rcases h3 b hb q hqm hd with ⟨_, h⟩ | ⟨_, h⟩
    · exact .inl h
    · exact .inr ⟨rfl, h⟩
  | false =>
    refine .inl fun mem0 => ?_
    refine memRegs_off (m := m) (fun x hx => h2 mem0 x hx) ?_
    intro b2 hb2 q2 hq2 hd2
    exact pairwise_two (fun _ _ h => h.symm) hm.separate (a := q) (b := q2)
      (List.mem_flatMap.2 ⟨b, hb, List.mem_append_left _ hqm⟩) (List.mem_flatMap.2 ⟨b2, hb2, List.mem_append_left _ hq2⟩)
      (by rintro rfl; rw [hd] at hd2; cases hd2)

/-- Each request comes from a run of points of its client. -/
theorem contending_runs {ms : List MdlObj} {l : List (Nat × (Int × Bytes))} (h : Contending ms l) :
    ∀ w ∈ l, ∃ m ∈ ms, ∃ g, RunOf m g ∧ RunData g w.2 := by
  intro w hw
  have hm := List.getElem?_eq_getElem (h.from_client w hw)
  obtain ⟨ws, ⟨gs, hg, hf⟩, hpre⟩ := h.in_order w.1 _ hm
  have hws : w.2 ∈ ws := hpre.subset (by unfold sentBy; exact List.mem_map.2 ⟨w, List.mem_filter.2 ⟨hw, by simp⟩, rfl⟩)
  obtain ⟨g, hgm, hrd⟩ := forall₂_left hf.flip hws
  exact ⟨_, List.getElem_mem _, g, (runOf_grouped hg).1 g hgm, hrd⟩

theorem runs_contend {mem : RegMem} {wr : Nat → Prop} {ms : List MdlObj} {m0 : MdlObj} (hms : ∀ m ∈ ms, CanStore mem wr m ∧ layout m = layout m0)
    (i j : Nat) (p : PointObj) (hp : ptAt m0 i j = some p) (l : List (Int × Bytes)) (hl : ∀ w ∈ l, ∃ m ∈ ms, ∃ g, RunOf m g ∧ RunData g w) :
    ∀ mem0, (memRegs (storeAll mem0 l) p.addr p.pt.len.toNat = memRegs mem0 p.addr p.pt.len.toNat ∨
        ∃ rs, AssignedBy ms i j rs ∧ memRegs (storeAll mem0 l) p.addr p.pt.len.toNat = some rs) ∧
      ((∃ w ∈ l, ∃ m ∈ ms, ∃ g q, RunOf m g ∧ RunData g w ∧ ptAt m i j = some q ∧ q.dirty = true ∧ q ∈ g) →
        ∃ rs, AssignedBy ms i j rs ∧ memRegs (storeAll mem0 l) p.addr p.pt.len.toNat = some rs) := by
  induction l with
  | nil => intro mem0; exact ⟨.inl rfl, by rintro ⟨w, hw, _⟩; cases hw⟩
  | cons w l ih =>
    intro mem0
    obtain ⟨m, hm, g, g1, g2⟩ := hl w (by simp)
    obtain ⟨i1, i2⟩ := ih (fun v hv => hl v (by simp [hv])) (putBytes mem0 w.1 w.2)
    have hnew : (∃ rs, AssignedBy ms i j rs ∧ memRegs (putBytes mem0 w.1 w.2) p.addr p.pt.len.toNat = some rs) →
        ∃ rs, AssignedBy ms i j rs ∧ memRegs (storeAll mem0 (w :: l)) p.addr p.pt.len.toNat = some rs := by
      rintro ⟨rs, e1, e2⟩
      rcases i1 with h | h
      · exact ⟨rs, e1, h.trans e2⟩
      · exact h
    constructor
    · obtain ⟨q, hq, hu⟩ := same_layout (hms m hm).2.symm i j p hp
      have hu := unvalued_at hu
      rcases run_at (hms m hm).1 g1 g2 hq with h | ⟨hd, rs, e1, e2⟩
      · rcases i1 with h' | h'
        · refine .inl (h'.trans ?_)
          rw [hu.1, hu.2]; exact h mem0
        · exact .inr h'
      · exact .inr (hnew ⟨rs, ⟨m, hm, q, hq, hd, e1⟩, by rw [hu.1, hu.2]; exact e2 mem0⟩)
    · rintro ⟨v, hv, m', hm', g', q, k1, k2, k3, k4, k5⟩
      rcases List.mem_cons.1 hv with rfl | hv
      · obtain ⟨q', hq', hu⟩ := same_layout (hms m' hm').2.symm i j p hp
        rw [k3] at hq'
        cases hq'
        have hu := unvalued_at hu
        obtain ⟨b, c1, c2⟩ := ptAt_blocks k3
        rcases (run_write (hms m' hm').1 k1 k2).2.2 b (List.mem_of_getElem? c1) q (List.mem_of_getElem? c2) k4 with ⟨h, _⟩ | ⟨_, rs, e1, e2⟩
        · exact absurd k5 h
        · exact hnew ⟨rs, ⟨m', hm', q, k3, k4, e1⟩, by rw [hu.1, hu.2]; exact e2 mem0⟩
      · exact i2 ⟨v, hv, m', hm', g', q, k1, k2, k3, k4, k5⟩

/-- C104: any number of clients of one device call `write_points` at the same time, each for its own object of the same model; any of them may have
modified the same points. In whatever order the device gets their requests, and wherever each of the clients stops, all requests succeed, and
afterwards the registers of each point are unchanged or all of the value that one of the clients has assigned to it - the latter if one of
the clients that have modified it has finished; registers of points that nobody has modified, and of no point, are unchanged. -/
theorem C104_points_partial {σ} {dev : MbDev σ} {R : σ → RegMem → Prop} {wr : Nat → Prop} (hdev : IsMem dev R wr)
    (s : σ) (mem : RegMem) (hs : R s mem) (m0 : MdlObj) (ms : List MdlObj) (hms : ∀ m ∈ ms, CanStore mem wr m ∧ layout m = layout m0)
    (l : List (Nat × (Int × Bytes))) (hl : Contending ms l) :
    ∃ s' mem', sendAll dev s (l.map (·.2)) = (s', .ok ()) ∧ R s' mem' ∧
      (∀ i j p, ptAt m0 i j = some p →
        (memRegs mem' p.addr p.pt.len.toNat = memRegs mem p.addr p.pt.len.toNat ∨
          ∃ rs, AssignedBy ms i j rs ∧ memRegs mem' p.addr p.pt.len.toNat = some rs) ∧
        (FinishedBy ms l i j → ∃ rs, AssignedBy ms i j rs ∧ memRegs mem' p.addr p.pt.len.toNat = some rs)) ∧
      ∀ x, (∀ m ∈ ms, ¬ Mine m x) → mem' x = mem x := by
  have hruns : ∀ w ∈ l.map (·.2), ∃ m ∈ ms, ∃ g, RunOf m g ∧ RunData g w := by
    intro w hw
    obtain ⟨v, hv, rfl⟩ := List.mem_map.1 hw
    exact contending_runs hl v hv
  obtain ⟨s', r1, r2⟩ := sendAll_ok hdev (fun _ => True) (l.map (·.2)) s mem hs (fun w hw => by
    obtain ⟨m, hm, g, g1, g2⟩ := hruns w hw
    obtain ⟨⟨rs, e1, e2, e3, e4⟩, _⟩ := run_write (hms m hm).1 g1 g2
    exact ⟨rs, e1, e3, fun x x1 x2 => ⟨trivial, e4 x x1 x2⟩⟩)
  refine ⟨s', _, r1, r2, ?_, ?_⟩
  · intro i j p hp
    obtain ⟨k1, k2⟩ := runs_contend hms i j p hp (l.map (·.2)) hruns mem
    refine ⟨k1, ?_⟩
    rintro ⟨c, m, q, hm, ⟨gs, hg, hf⟩, hq, hd⟩
    apply k2
    obtain ⟨b, c1, c2⟩ := ptAt_blocks hq
    obtain ⟨g1, g2⟩ := runOf_grouped hg
    obtain ⟨g, hgm, hqg⟩ := g2 b (List.mem_of_getElem? c1) q (List.mem_of_getElem? c2) hd
    obtain ⟨w, hw, hrd⟩ := forall₂_left hf hgm
    refine ⟨w, ?_, m, List.mem_of_getElem? hm, g, q, g1 g hgm, hrd, hq, hd, hqg⟩
    unfold sentBy at hw
    obtain ⟨v, hv, rfl⟩ := List.mem_map.1 hw
    exact List.mem_map.2 ⟨v, (List.mem_filter.1 hv).1, rfl⟩
  · intro x hx
    clear r1 r2 hl
    generalize l.map (·.2) = ws at hruns
    clear hs
    have : ∀ mem1 : RegMem, storeAll mem1 ws x = mem1 x := by
      induction ws with
      | nil => intro _; rfl
      | cons w ws ih =>
        intro mem1
        obtain ⟨m, hm, g, g1, g2⟩ := hruns w (by simp)
        have := (run_write (hms m hm).1 g1 g2).2.1 mem1 x (hx m hm)
        show storeAll (putBytes mem1 w.1 w.2) ws x = mem1 x
        rw [ih (fun v hv => hruns v (by simp [hv])), this]
    exact this mem

/-- C104, the last client: the values of a client all of whose requests come after those of the others are those that remain. -/
theorem C104_last_partial {mem : RegMem} {wr : Nat → Prop} (m : MdlObj) (hm : CanStore mem wr m) (before ws : List (Int × Bytes)) (hws : Requests m ws) :
    Written m (storeAll mem (before ++ ws)) := by
  intro b hb p hp hd
  obtain ⟨rs, e1, _, e3, _⟩ := (requests_prefix hm hws).2 b hb p hp hd
  refine ⟨rs, e1, ?_⟩
  have := e3 ws.length (storeAll mem before) (Nat.le_refl _)
  rw [List.take_length] at this
  rw [← this]
  unfold storeAll
  rw [List.foldl_append]

theorem contending_take {ms : List MdlObj} {l : List (Nat × (Int × Bytes))} (h : Contending ms l) (k : Nat) : Contending ms (l.take k) := by
  refine ⟨fun w hw => h.from_client w (List.mem_of_mem_take hw), fun c m hm => ?_⟩
  obtain ⟨ws, h1, h2⟩ := h.in_order c m hm
  refine ⟨ws, h1, List.IsPrefix.trans ?_ h2⟩
  unfold sentBy
  exact ((List.take_prefix k l).filter _).map _

/-- C104, readers: who reads the model meanwhile sees for each point the old value or that of one of the clients that have modified it; for points
that nobody has modified the old one. -/
theorem C104_read_partial {σ} {dev : MbDev σ} {now : σ → Nat} {ready : σ → Prop} {env : Nat → Mem} (hd : Live dev now ready env)
    (mem0 : Mem) (wr : Nat → Prop) (ms : List MdlObj) (mr : MdlObj) (hms : ∀ m ∈ ms, CanStore (regMem mem0) wr m ∧ layout m = layout mr)
    (l : List (Nat × (Int × Bytes))) (hl : Contending ms l) (done : Nat → Nat) (henv : Receiving mem0 (l.map (·.2)) done env)
    (s : σ) (hs : ready s) (hm : CanRead mr) :
    ∃ s' m', readPoints dev s mr = (s', m', .ok ()) ∧ ready s' ∧
      ∀ i j p p', ptAt mr i j = some p → ptAt m' i j = some p' →
        OldValue mem0 p p' ∨ ∃ rs, AssignedBy ms i j rs ∧ p.pt.type.readValue (regBytes rs) = .ok p'.base := by
  obtain ⟨s', m', h1, h2, h3⟩ := C80_point_partial hd s hs mr hm.ok hm.tiles hm.plan hm.whole hm.low hm.high
  refine ⟨s', m', h1, h2, ?_⟩
  intro i j p p' hp hp'
  obtain ⟨b, b1, b2⟩ := ptAt_blocks hp
  obtain ⟨b', b1', b2'⟩ := ptAt_blocks hp'
  obtain ⟨⟨k, k1, k2, k3⟩, _⟩ := (h3 i b b' b1 b1').1 j p p' b2 b2'
  have hruns : ∀ w ∈ (l.take (done k)).map (·.2), ∃ m ∈ ms, ∃ g, RunOf m g ∧ RunData g w := by
    intro w hw
    obtain ⟨v, hv, rfl⟩ := List.mem_map.1 hw
    exact contending_runs (contending_take hl (done k)) v hv
  have hk := henv.regs k
  rw [← List.map_take] at hk
  rcases (runs_contend hms i j p hp _ hruns (regMem mem0)).1 with h | ⟨rs, e1, e2⟩
  · rw [← hk] at h
    exact .inl (oldValue_of ⟨rfl, rfl⟩ h k3)
  · rw [← hk] at e2
    obtain ⟨rs', f1, f2, _⟩ := k3
    rw [e2] at f1
    have := Option.some.inj f1
    subst this
    exact .inr ⟨rs, e1, f2⟩

/-! ### Non-vacuity -/

theorem setOnly_store (v : Int) (h : ∀ b ∈ (mapPts (setOnly (t!"V") v) exModel).blocks, ∀ p ∈ b.pts, p.dirty = true →
      40002 ≤ p.addr ∧ p.addr < 40009 ∧ p.pt.len = 1 ∧ LenOK p.pt ∧ p.pt.type ≠ .string) :
    CanStore (mapMem 40002 [⟨0, [(0, 100), (0, 0), (255, 255), (0, 1), (0, 2), (255, 255), (0, 4)], t!"rw"⟩]) (fun _ => True) (mapPts (setOnly (t!"V") v) exModel) := by
  refine ⟨mapPts_separate _ (setOnly_same (t!"V") v) exModel_separate, fun _ _ _ _ _ => trivial, ?_⟩
  intro b hb p hp hd
  obtain ⟨h1, h2, h3, h4, h5⟩ := h b hb p hp hd
  refine ⟨h4, fun e => absurd e h5, ?_⟩
  intro x x1 x2
  exact exMap_exists x (by rw [exModel_span.1]; omega) (by rw [exModel_span.1, exModel_span.2]; omega)

/-- Two clients set the two points V, one to 5 and one to 7; the requests alternate. The first V ends up with the value of the second client, the
second V with that of the first one. -/
theorem contend_example : Contending [mapPts (setOnly (t!"V") 5) exModel, mapPts (setOnly (t!"V") 7) exModel]
    [(0, (40005, [0, 5])), (1, (40005, [0, 7])), (1, (40007, [0, 7])), (0, (40007, [0, 5]))] := by
  have r1 := C81_requests mapDev exMap (mapPts (setOnly (t!"V") 5) exModel) (by decide +kernel)
  have r2 := C81_requests mapDev exMap (mapPts (setOnly (t!"V") 7) exModel) (by decide +kernel)
  rw [show (writePoints (recording mapDev) (exMap, []) (mapPts (setOnly (t!"V") 5) exModel)).1.2 = [(40005, [0, 5]), (40007, [0, 5])] by decide +kernel] at r1
  rw [show (writePoints (recording mapDev) (exMap, []) (mapPts (setOnly (t!"V") 7) exModel)).1.2 = [(40005, [0, 7]), (40007, [0, 7])] by decide +kernel] at r2
  generalize mapPts (setOnly (t!"V") 5) exModel = m1 at *
  generalize mapPts (setOnly (t!"V") 7) exModel = m2 at *
  refine ⟨by simp, ?_⟩
  intro c m hm
  match c, hm with
  | 0, hm => cases hm; exact ⟨_, r1, by decide⟩
  | 1, hm => cases hm; exact ⟨_, r2, by decide⟩

example : ∃ s' mem', sendAll mapDev exMap [(40005, [0, 5]), (40005, [0, 7]), (40007, [0, 7]), (40007, [0, 5])] = (s', .ok ()) ∧
    (∃ bs, MapOK s' 40002 bs ∧ mem' = mapMem 40002 bs) ∧
    ∀ i j p, ptAt exModel i j = some p →
        (memRegs mem' p.addr p.pt.len.toNat = memRegs (mapMem 40002 [⟨0, [(0, 100), (0, 0), (255, 255), (0, 1), (0, 2), (255, 255), (0, 4)], t!"rw"⟩]) p.addr p.pt.len.toNat ∨
          ∃ rs, AssignedBy [mapPts (setOnly (t!"V") 5) exModel, mapPts (setOnly (t!"V") 7) exModel] i j rs ∧ memRegs mem' p.addr p.pt.len.toNat = some rs) := by
  have c1 := setOnly_store 5 (by decide +kernel)
  have c2 := setOnly_store 7 (by decide +kernel)
  have l1 : layout (mapPts (setOnly (t!"V") 5) exModel) = layout exModel := by decide +kernel
  have l2 : layout (mapPts (setOnly (t!"V") 7) exModel) = layout exModel := by decide +kernel
  have hc := contend_example
  generalize mapPts (setOnly (t!"V") 5) exModel = m1 at *
  generalize mapPts (setOnly (t!"V") 7) exModel = m2 at *
  obtain ⟨s', mem', h1, h2, h3, _⟩ := C104_points_partial (mapDev_isMem 40002) exMap _ ⟨_, exMap_ok, rfl⟩ exModel [m1, m2] (by
    intro m hm
    simp only [List.mem_cons, List.not_mem_nil, or_false] at hm
    rcases hm with rfl | rfl
    · exact ⟨c1, l1⟩
    · exact ⟨c2, l2⟩) _ hc
  exact ⟨s', mem', h1, h2, fun i j p hp => (h3 i j p hp).1⟩

example : (sendAll mapDev exMap [(40005, [0, 5]), (40005, [0, 7]), (40007, [0, 7]), (40007, [0, 5])]).1.regs.map (fun r => r.data) =
    [some [0, 100, 0, 0, 255, 255, 0, 7, 0, 2, 0, 5, 0, 4]] := by decide +kernel

/-! ## Short strings -/

/-- C104, full statement: strings of any length. -/
def C104_full : Prop :=
  ∀ (base : Int) (bs bs' : List Blk) (mm mm' : MbMap) (m0 : MdlObj) (ms : List MdlObj), MapOK mm base bs →
    (∀ m ∈ ms, ModelOK m ∧ Separate m ∧ layout m = layout m0 ∧
      ∀ b ∈ m.blocks, ∀ p ∈ b.pts, p.dirty = true → (∃ d, p.pt.type.toData p.base (p.pt.len * 2).toNat = .ok d) ∧
        ∀ x, p.addr ≤ x → x < p.addr + p.pt.len → mapMem base bs x ≠ none) →
    ∀ l, Contending ms l → sendAll mapDev mm (l.map (·.2)) = (mm', .ok ()) → MapOK mm' base bs' →
      ∀ i j p, ptAt m0 i j = some p →
        memRegs (mapMem base bs') p.addr p.pt.len.toNat = memRegs (mapMem base bs) p.addr p.pt.len.toNat ∨
          ∃ rs, AssignedBy ms i j rs ∧ memRegs (mapMem base bs') p.addr p.pt.len.toNat = some rs

/-- C104 is violated for strings of less than 8 registers: as they are encoded with one byte too many (C05), a client that writes two of them changes
the integer after them, which nobody has modified. -/
theorem C104_violated : ¬ C104_full := by
  intro h
  have hex : ∀ x, 0 ≤ x → x < 5 → mapMem 0 [⟨0, List.replicate 5 (7, 7), t!"rw"⟩] x ≠ none := by
    intro x h1 h2
    have : x = 0 ∨ x = 1 ∨ x = 2 ∨ x = 3 ∨ x = 4 := by omega
    rcases this with rfl | rfl | rfl | rfl | rfl <;> decide +kernel
  have p1 : ∀ b ∈ strModel.blocks, ∀ p ∈ b.pts, p.dirty = true → (∃ d, p.pt.type.toData p.base (p.pt.len * 2).toNat = .ok d) ∧ 0 ≤ p.addr ∧ p.addr + p.pt.len ≤ 4 := by
    decide +kernel
  have r1 := C81_requests mapDev strMap strModel (by decide +kernel)
  have e1 : (writePoints (recording mapDev) (strMap, []) strModel).1.2 = [(0, [0x61, 0x62, 0, 0, 0, 0x61, 0x62, 0, 0, 0])] := by decide +kernel
  rw [e1] at r1
  have hN : ∃ p, ptAt strModel 0 2 = some p ∧ p.addr = 4 ∧ p.pt.len = 1 ∧ p.dirty = false := by decide +kernel
  obtain ⟨p, q1, q2, q3, q4⟩ := hN
  have key := h 0 _ _ strMap strMap' strModel [strModel] strMap_ok ?_ [(0, (0, [0x61, 0x62, 0, 0, 0, 0x61, 0x62, 0, 0, 0]))] ?_ (by decide +kernel) strMap'_ok
    0 2 p q1
  · rcases key with h | ⟨rs, ⟨m, hm, q, k1, k2, _⟩, _⟩
    · rw [q2, q3] at h
      revert h
      decide +kernel
    · rw [List.mem_singleton.1 hm, q1] at k1
      cases k1
      rw [q4] at k2
      cases k2
  · intro m hm
    rw [List.mem_singleton.1 hm]
    refine ⟨strModel_ok, by unfold Separate; decide +kernel, rfl, ?_⟩
    intro b hb p hp hd
    have := (p1 b hb p hp hd).2
    exact ⟨(p1 b hb p hp hd).1, fun x x1 x2 => hex x (by omega) (by omega)⟩
  · generalize strModel = m at *
    refine ⟨by simp, ?_⟩
    intro c m' hm
    match c, hm with
    | 0, hm => cases hm; exact ⟨_, r1, by decide⟩

end Verif
