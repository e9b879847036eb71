import Verif.Props.Grouped
import Verif.Props.ClientWrite
import Verif.Props.Session

/-!
# C81: several clients of one device
-/

namespace Verif
open Verif.Spec

/-- The device `dev` while others are using it: before request number `k` of this client, `other k` happens. -/
def Spec.disturbed {σ} (dev : MbDev σ) (other : Nat → σ → σ) : MbDev (σ × Nat) where
  read s a n := (((dev.read (other s.2 s.1) a n).1, s.2 + 1), (dev.read (other s.2 s.1) a n).2)
  write s a d := (((dev.write (other s.2 s.1) a d).1, s.2 + 1), (dev.write (other s.2 s.1) a d).2)

/-- The others do not change the registers in `D`. -/
def Spec.Spares {σ} (R : σ → RegMem → Prop) (D : Int → Prop) (other : Nat → σ → σ) : Prop :=
  ∀ k s mem, R s mem → ∃ mem', R (other k s) mem' ∧ ∀ x, D x → mem' x = mem x

/-- Those registers of `mem` that are in `D`. -/
noncomputable def Spec.within (D : Int → Prop) (mem : RegMem) : RegMem := by
  classical exact fun x => if D x then mem x else none

theorem within_some {D : Int → Prop} {mem : RegMem} {x : Int} (h : within D mem x ≠ none) : D x ∧ within D mem x = mem x := by
  unfold within at h ⊢
  split at h
  · rename_i hd; exact ⟨hd, by rw [if_pos hd]⟩
  · exact absurd rfl h

theorem within_in {D : Int → Prop} {mem : RegMem} {x : Int} (h : D x) : within D mem x = mem x := by
  unfold within; rw [if_pos h]

theorem within_congr {D : Int → Prop} {mem mem' : RegMem} (h : ∀ x, D x → mem' x = mem x) : within D mem' = within D mem := by
  funext x
  unfold within
  split
  · rename_i hd; exact h x hd
  · rfl

/-- C81: while others use the device, the registers that they do not change behave as if this client were alone. -/
theorem C81_alone {σ} {dev : MbDev σ} {R : σ → RegMem → Prop} {wr : Nat → Prop} (hdev : IsMem dev R wr) (D : Int → Prop)
    (other : Nat → σ → σ) (hsp : Spares R D other) :
    IsMem (disturbed dev other) (fun s mem => ∃ full, R s.1 full ∧ mem = within D full) wr := by
  constructor
  · rintro ⟨s, k⟩ mem a n rs ⟨full, hR, rfl⟩ hrs
    obtain ⟨mem', h1, h2⟩ := hsp k s full hR
    have hin : ∀ x, a ≤ x → x < a + n → within D full x ≠ none := memRegs_iff.1 (by rw [hrs]; simp)
    have hrs' : memRegs mem' a n = some rs := by
      rw [← hrs]
      apply memRegs_congr
      intro x x1 x2
      obtain ⟨hd, he⟩ := within_some (hin x x1 x2)
      rw [he, h2 x hd]
    obtain ⟨s', r1, r2⟩ := hdev.read (other k s) mem' a n rs h1 hrs'
    refine ⟨(s', k + 1), ?_, mem', r2, (within_congr h2).symm⟩
    show (((dev.read (other k s) a n).1, k + 1), (dev.read (other k s) a n).2) = _
    rw [r1]
  · rintro ⟨s, k⟩ mem a rs ⟨full, hR, rfl⟩ hwr hex
    obtain ⟨mem', h1, h2⟩ := hsp k s full hR
    have hin : ∀ x, a ≤ x → x < a + rs.length → within D full x ≠ none := memRegs_iff.1 hex
    have hex' : memRegs mem' a rs.length ≠ none := by
      apply memRegs_iff.2
      intro x x1 x2
      obtain ⟨hd, he⟩ := within_some (hin x x1 x2)
      rw [h2 x hd, ← he]
      exact hin x x1 x2
    obtain ⟨s', r1, r2⟩ := hdev.write (other k s) mem' a rs h1 hwr hex'
    refine ⟨(s', k + 1), ?_, _, r2, ?_⟩
    · show (((dev.write (other k s) a (regBytes rs)).1, k + 1), (dev.write (other k s) a (regBytes rs)).2) = _
      rw [r1]
    · rw [memStore_all rs _ _ hex, memStore_all rs _ _ hex']
      funext x
      dsimp only
      by_cases hx : a ≤ x ∧ x < a + rs.length
      · rw [if_pos hx, within_in (within_some (hin x hx.1 hx.2)).1]
        rw [if_pos hx]
      · rw [if_neg hx]
        unfold within
        split
        · rename_i hd; dsimp only; rw [if_neg hx, h2 x hd]
        · rfl

/-- The registers of the modified points of a model. -/
def Spec.Mine (m : MdlObj) (x : Int) : Prop := ∃ b ∈ m.blocks, ∃ p ∈ b.pts, p.dirty = true ∧ p.addr ≤ x ∧ x < p.addr + p.pt.len

/-- What `write_points` needs (C35): points do not share registers, the modified ones have values that can be encoded, their registers
exist, and the device accepts writes of as many registers as are modified in a block. -/
structure Spec.CanWrite (mem : RegMem) (wr : Nat → Prop) (m : MdlObj) : Prop where
  separate : Separate m
  size : ∀ b ∈ m.blocks, ∀ n, 0 < n → n ≤ dirtyLen b.pts → wr n
  points : ∀ b ∈ m.blocks, ∀ p ∈ b.pts, p.dirty = true → 0 < p.pt.len ∧ (∃ rs, Encoded p rs) ∧
    ∀ x, p.addr ≤ x → x < p.addr + p.pt.len → mem x ≠ none

/-- The modified points have been stored. -/
def Spec.Written (m : MdlObj) (mem : RegMem) : Prop :=
  ∀ b ∈ m.blocks, ∀ p ∈ b.pts, p.dirty = true → ∃ rs, Encoded p rs ∧ memRegs mem p.addr p.pt.len.toNat = some rs

theorem CanWrite.restrict {mem : RegMem} {wr : Nat → Prop} {m : MdlObj} (h : CanWrite mem wr m) : CanWrite (within (Mine m) mem) wr m := by
  refine ⟨h.separate, h.size, ?_⟩
  intro b hb p hp hd
  obtain ⟨h1, h2, h3⟩ := h.points b hb p hp hd
  refine ⟨h1, h2, fun x x1 x2 => ?_⟩
  rw [within_in ⟨b, hb, p, hp, hd, x1, x2⟩]
  exact h3 x x1 x2

/-- C81, one client: whatever others do to other registers between the requests of `write_points`, it returns, and then the registers of the
modified points have the values of this client. -/
theorem C81_write_partial {σ} {dev : MbDev σ} {R : σ → RegMem → Prop} {wr : Nat → Prop} (hdev : IsMem dev R wr)
    (s : σ) (mem : RegMem) (hs : R s mem) (m : MdlObj) (hm : CanWrite mem wr m) (other : Nat → σ → σ) (hsp : Spares R (Mine m) other) :
    ∃ s' n mem', writePoints (disturbed dev other) (s, 0) m = ((s', n), cleanModel m, .ok ()) ∧ R s' mem' ∧ Written m mem' := by
  have hr := CanWrite.restrict hm
  obtain ⟨s', mem', w1, ⟨full, w2, rfl⟩, w3, _⟩ := C35_write_partial (C81_alone hdev (Mine m) other hsp) (s, 0) (within (Mine m) mem) ⟨mem, hs, rfl⟩ m
    hr.separate hr.size hr.points
  refine ⟨s'.1, s'.2, full, w1, w2, ?_⟩
  intro b hb p hp hd
  obtain ⟨rs, e1, e2⟩ := w3 b hb p hp hd
  refine ⟨rs, e1, ?_⟩
  rw [← e2]
  apply memRegs_congr
  intro x x1 x2
  exact (within_in ⟨b, hb, p, hp, hd, x1, by omega⟩).symm

/-! ## Two clients -/

/-- The requests that `write_points` makes (C76: on every device, if it returns). -/
def Spec.Requests (m : MdlObj) (ws : List (Int × Bytes)) : Prop := ∃ gs, ModelGrouped m gs ∧ List.Forall₂ RunData gs ws

/-- `l` consists of the elements of two lists, each in its order. -/
inductive Spec.Interleaved {α} : List α → List α → List α → Prop
  | nil : Interleaved [] [] []
  | left {x xs ys l} : Interleaved xs ys l → Interleaved (x :: xs) ys (x :: l)
  | right {y xs ys l} : Interleaved xs ys l → Interleaved xs (y :: ys) (y :: l)

/-- Writes one after the other; stops at the first error. -/
def Spec.sendAll {σ} (dev : MbDev σ) : σ → List (Int × Bytes) → σ × Py Unit
  | s, [] => (s, .ok ())
  | s, w :: ws =>
    match dev.write s w.1 w.2 with
    | (s', .ok ()) => sendAll dev s' ws
    | (s', .error e) => (s', .error e)

/-- Memory with the bytes `d` stored from `a` on. -/
def putBytes (mem : RegMem) (a : Int) (d : Bytes) : RegMem := fun x =>
  if a ≤ x ∧ x < a + (d.length / 2 : Nat) then some (d.getD (2 * (x - a).toNat) 0, d.getD (2 * (x - a).toNat + 1) 0) else mem x

def storeAll (mem : RegMem) (ws : List (Int × Bytes)) : RegMem := ws.foldl (fun m w => putBytes m w.1 w.2) mem

theorem putBytes_regs (mem : RegMem) (a : Int) (rs : List Reg) (h : memRegs mem a rs.length ≠ none) :
    putBytes mem a (regBytes rs) = (memStore mem a rs).1 := by
  rw [memStore_all rs mem a h]
  funext x
  unfold putBytes
  rw [regBytes_length, show 2 * rs.length / 2 = rs.length by omega]
  dsimp only
  by_cases hx : a ≤ x ∧ x < a + rs.length
  · rw [if_pos hx, if_pos hx, regBytes_get rs (x - a).toNat (by omega)]
  · rw [if_neg hx, if_neg hx]

/-- A request that lies in the registers of `D`, all of which exist. -/
def GoodReq (mem : RegMem) (wr : Nat → Prop) (D : Int → Prop) (w : Int × Bytes) : Prop :=
  ∃ rs, w.2 = regBytes rs ∧ wr rs.length ∧ ∀ x, w.1 ≤ x → x < w.1 + rs.length → D x ∧ mem x ≠ none

/-- A device that is nothing but memory. -/
noncomputable def memDevice : MbDev RegMem where
  read mem a n := (mem, .ok ((memRegs mem a n.toNat).map regBytes))
  write mem a d := (putBytes mem a d, .ok ())

theorem putBytes_ne {mem : RegMem} {a : Int} {d : Bytes} {x : Int} (h : mem x ≠ none) : putBytes mem a d x ≠ none := by
  unfold putBytes; split
  · simp
  · exact h

theorem storeAll_ne (ws : List (Int × Bytes)) : ∀ {mem : RegMem} {x : Int}, mem x ≠ none → storeAll mem ws x ≠ none := by
  induction ws with
  | nil => intro mem x h; exact h
  | cons w ws ih => intro mem x h; exact ih (putBytes_ne h)

theorem storeAll_none (D : Int → Prop) (wr : Nat → Prop) (mem : RegMem) (ws : List (Int × Bytes)) : ∀ {m : RegMem} {x : Int}, (∀ w ∈ ws, GoodReq mem wr D w) →
    ¬ D x → storeAll m ws x = m x := by
  induction ws with
  | nil => intro m x _ _; rfl
  | cons w ws ih =>
    intro m x h hx
    show storeAll (putBytes m w.1 w.2) ws x = m x
    rw [ih (fun w hw => h w (by simp [hw])) hx]
    obtain ⟨rs, e1, _, e2⟩ := h w (by simp)
    unfold putBytes
    rw [e1, regBytes_length, show 2 * rs.length / 2 = rs.length by omega, if_neg (fun hr => hx (e2 x hr.1 hr.2).1)]

/-- The value of a register after writes depends on its value before only. -/
theorem storeAll_at (ws : List (Int × Bytes)) : ∀ {m m' : RegMem} {x : Int}, m x = m' x → storeAll m ws x = storeAll m' ws x := by
  induction ws with
  | nil => intro m m' x h; exact h
  | cons w ws ih =>
    intro m m' x h
    apply ih
    show putBytes m w.1 w.2 x = putBytes m' w.1 w.2 x
    unfold putBytes
    split
    · rfl
    · exact h

theorem forall₂_unique {α β} {P : α → β → Prop} {l : List α} {r : List β} (h : List.Forall₂ P l r) :
    ∀ {r' : List β}, (∀ a ∈ l, ∀ b b', P a b → P a b' → b = b') → List.Forall₂ P l r' → r = r' := by
  induction h with
  | nil => intro r' _ h'; cases h'; rfl
  | cons h1 _ ih =>
    intro r' hu h'
    cases h' with
    | cons h2 h3 => rw [hu _ (by simp) _ _ h1 h2, ih (fun a ha => hu a (by simp [ha])) h3]

theorem requests_spec {mem : RegMem} {wr : Nat → Prop} {m : MdlObj} (hm : CanWrite mem wr m) {ws : List (Int × Bytes)} (hws : Requests m ws) :
    (∀ w ∈ ws, GoodReq mem wr (Mine m) w) ∧ Written m (storeAll mem ws) := by
  obtain ⟨gs, hg, hw⟩ := hws
  have hr := CanWrite.restrict hm
  generalize hD : within (Mine m) mem = memD at hr
  have hdev : IsMem (recording memDevice) (fun s mm => s.1 = mm ∧ s.1 = storeAll memD s.2 ∧ ∀ w ∈ s.2, GoodReq memD wr (Mine m) w) wr := by
    constructor
    · rintro ⟨s, log⟩ mm a n rs ⟨rfl, h1, h2⟩ hrs
      refine ⟨(s, log), ?_, rfl, h1, h2⟩
      show ((s, log), (.ok ((memRegs s a (n : Int).toNat).map regBytes) : Py (Option Bytes))) = _
      rw [Int.toNat_natCast]
      have hrs' : memRegs s a n = some rs := hrs
      rw [hrs']; rfl
    · rintro ⟨s, log⟩ mm a rs ⟨rfl, h1, h2⟩ hwr hex
      dsimp only at h1 h2 hex
      have hgood : GoodReq memD wr (Mine m) (a, regBytes rs) := by
        refine ⟨rs, rfl, hwr, fun x x1 x2 => ?_⟩
        have hsx : s x ≠ none := memRegs_iff.1 hex x x1 x2
        by_cases hx : Mine m x
        · refine ⟨hx, ?_⟩
          rw [← hD, within_in hx]
          obtain ⟨b, hb, p, hp, hd, y1, y2⟩ := hx
          exact (hm.points b hb p hp hd).2.2 x y1 y2
        · exfalso
          apply hsx
          rw [h1, storeAll_none (Mine m) wr memD log h2 hx, ← hD]
          unfold within; rw [if_neg hx]
      refine ⟨(putBytes s a (regBytes rs), log ++ [(a, regBytes rs)]), rfl, ?_, ?_, ?_⟩
      · exact putBytes_regs s a rs hex
      · show putBytes s a (regBytes rs) = storeAll memD (log ++ [(a, regBytes rs)])
        unfold storeAll
        rw [List.foldl_append]
        rw [h1]; rfl
      · intro w hw
        rcases List.mem_append.1 hw with hw | hw
        · exact h2 w hw
        · rw [List.mem_singleton.1 hw]; exact hgood
  obtain ⟨s', mem', w1, ⟨w2, w3, w4⟩, w5, _⟩ := C35_write_partial hdev (memD, []) memD ⟨rfl, rfl, by simp⟩ m hr.separate hr.size hr.points
  obtain ⟨k, ws', c1, c2, c3⟩ := C76_requests memDevice memD m gs hg
  rw [w1] at c2 c3
  have hk := c3 rfl
  rw [List.take_of_length_le hk] at c1
  dsimp only at c2
  have hu : ∀ (g : List PointObj) (w w' : Int × Bytes), g ≠ [] → RunData g w → RunData g w' → w = w' := by
    intro g w w' hne ⟨a1, es, a2, a3⟩ ⟨b1, es', b2, b3⟩
    have : es = es' := forall₂_unique a2 (fun p _ e e' h h' => Except.ok.inj (h.symm.trans h')) b2
    subst this
    cases g with
    | nil => exact absurd rfl hne
    | cons p g =>
      have e1 := a1 p (by simp)
      have e2 := b1 p (by simp)
      exact Prod.ext (by rw [e1, e2]) (by rw [a3, b3])
  have hne : ∀ g ∈ gs, g ≠ [] := by
    obtain ⟨parts, q1, q2⟩ := hg
    intro g hgm
    rw [q2] at hgm
    obtain ⟨part, hp1, hp2⟩ := List.mem_flatten.1 hgm
    have hb : ∃ b ∈ m.blocks, Grouped (b.pts.filter fun p => p.dirty) part := by
      clear q2 hgm hp2
      generalize m.blocks = bs at q1 ⊢
      induction q1 with
      | nil => cases hp1
      | cons r _ ih =>
        rcases List.mem_cons.1 hp1 with rfl | hp1
        · exact ⟨_, by simp, r⟩
        · obtain ⟨b, hb1, hb2⟩ := ih hp1
          exact ⟨b, by simp [hb1], hb2⟩
    obtain ⟨b, _, hb⟩ := hb
    exact hb.nonempty g hp2
  have hlog : ws = s'.2 := by
    rw [c2]
    exact forall₂_unique hw (fun g hgm w w' h h' => hu g w w' (hne g hgm) h h') c1
  rw [hlog]
  refine ⟨?_, ?_⟩
  · intro w hwm
    obtain ⟨rs, e1, e2, e3⟩ := w4 w hwm
    refine ⟨rs, e1, e2, fun x x1 x2 => ⟨(e3 x x1 x2).1, ?_⟩⟩
    have := e3 x x1 x2
    rw [← hD, within_in this.1] at this
    exact this.2
  · intro b hb p hp hd
    obtain ⟨rs, e1, e2⟩ := w5 b hb p hp hd
    refine ⟨rs, e1, ?_⟩
    rw [← e2]
    apply memRegs_congr
    intro x x1 x2
    rw [← w2, w3]
    apply storeAll_at
    rw [← hD, within_in ⟨b, hb, p, hp, hd, x1, by omega⟩]

theorem interleaved_at {xs ys l : List (Int × Bytes)} (h : Interleaved xs ys l) (x : Int)
    (hy : ∀ w ∈ ys, ∀ m : RegMem, putBytes m w.1 w.2 x = m x) : ∀ {m m' : RegMem}, m x = m' x → storeAll m l x = storeAll m' xs x := by
  induction h with
  | nil => intro m m' e; exact e
  | left _ ih =>
    intro m m' e
    apply ih hy
    show putBytes m _ _ x = putBytes m' _ _ x
    unfold putBytes
    split
    · rfl
    · exact e
  | right _ ih =>
    intro m m' e
    apply ih (fun w hw => hy w (by simp [hw]))
    show putBytes m _ _ x = m' x
    rw [hy _ (by simp), e]

theorem Spec.Interleaved.symm {α} {xs ys l : List α} (h : Interleaved xs ys l) : Interleaved ys xs l := by
  induction h with
  | nil => exact .nil
  | left _ ih => exact .right ih
  | right _ ih => exact .left ih

theorem interleaved_mem {α} {xs ys l : List α} (h : Interleaved xs ys l) : ∀ w ∈ l, w ∈ xs ∨ w ∈ ys := by
  induction h with
  | nil => intro w hw; cases hw
  | left _ ih =>
    intro w hw
    rcases List.mem_cons.1 hw with rfl | hw
    · exact .inl (by simp)
    · rcases ih w hw with h | h
      · exact .inl (by simp [h])
      · exact .inr h
  | right _ ih =>
    intro w hw
    rcases List.mem_cons.1 hw with rfl | hw
    · exact .inr (by simp)
    · rcases ih w hw with h | h
      · exact .inl h
      · exact .inr (by simp [h])

theorem sendAll_ok {σ} {dev : MbDev σ} {R : σ → RegMem → Prop} {wr : Nat → Prop} (hdev : IsMem dev R wr) (D : Int → Prop) (l : List (Int × Bytes)) :
    ∀ (s : σ) (mem : RegMem), R s mem → (∀ w ∈ l, GoodReq mem wr D w) → ∃ s', sendAll dev s l = (s', .ok ()) ∧ R s' (storeAll mem l) := by
  induction l with
  | nil => intro s mem hs _; exact ⟨s, rfl, hs⟩
  | cons w l ih =>
    intro s mem hs hl
    obtain ⟨rs, e1, e2, e3⟩ := hl w (by simp)
    have hex : memRegs mem w.1 rs.length ≠ none := memRegs_iff.2 fun x x1 x2 => (e3 x x1 x2).2
    obtain ⟨s1, r1, r2⟩ := hdev.write s mem w.1 rs hs e2 hex
    rw [← putBytes_regs mem w.1 rs hex] at r2
    obtain ⟨s', r3, r4⟩ := ih s1 _ r2 (fun v hv => by
      obtain ⟨rs', f1, f2, f3⟩ := hl v (by simp [hv])
      exact ⟨rs', f1, f2, fun x x1 x2 => ⟨(f3 x x1 x2).1, putBytes_ne (f3 x x1 x2).2⟩⟩)
    refine ⟨s', ?_, ?_⟩
    · rw [sendAll, e1, r1]; exact r3
    · rw [← e1] at r4; exact r4

theorem goodReq_off {mem : RegMem} {wr : Nat → Prop} {D : Int → Prop} {w : Int × Bytes} (h : GoodReq mem wr D w) {x : Int} (hx : ¬ D x) (m : RegMem) :
    putBytes m w.1 w.2 x = m x := by
  obtain ⟨rs, e1, _, e2⟩ := h
  unfold putBytes
  rw [e1, regBytes_length, show 2 * rs.length / 2 = rs.length by omega, if_neg (fun hr => hx (e2 x hr.1 hr.2).1)]

/-- C81, two clients: two clients of one device call `write_points` at the same time; they have not modified points with common registers.
In whatever order the device gets their requests, all succeed, and at the end the modified points of both have been stored and nothing
else has changed. -/
theorem C81_two_partial {σ} {dev : MbDev σ} {R : σ → RegMem → Prop} {wr : Nat → Prop} (hdev : IsMem dev R wr)
    (s : σ) (mem : RegMem) (hs : R s mem) (m₁ m₂ : MdlObj) (h₁ : CanWrite mem wr m₁) (h₂ : CanWrite mem wr m₂)
    (hdis : ∀ x, ¬ (Mine m₁ x ∧ Mine m₂ x)) (ws₁ ws₂ : List (Int × Bytes)) (hw₁ : Requests m₁ ws₁) (hw₂ : Requests m₂ ws₂)
    (l : List (Int × Bytes)) (hl : Interleaved ws₁ ws₂ l) :
    ∃ s' mem', sendAll dev s l = (s', .ok ()) ∧ R s' mem' ∧ Written m₁ mem' ∧ Written m₂ mem' ∧
      ∀ x, ¬ Mine m₁ x → ¬ Mine m₂ x → mem' x = mem x := by
  obtain ⟨a1, a2⟩ := requests_spec h₁ hw₁
  obtain ⟨b1, b2⟩ := requests_spec h₂ hw₂
  obtain ⟨s', r1, r2⟩ := sendAll_ok hdev (fun _ => True) l s mem hs (fun w hw => by
    rcases interleaved_mem hl w hw with h | h
    · obtain ⟨rs, f1, f2, f3⟩ := a1 w h
      exact ⟨rs, f1, f2, fun x x1 x2 => ⟨trivial, (f3 x x1 x2).2⟩⟩
    · obtain ⟨rs, f1, f2, f3⟩ := b1 w h
      exact ⟨rs, f1, f2, fun x x1 x2 => ⟨trivial, (f3 x x1 x2).2⟩⟩)
  have at1 : ∀ x, ¬ Mine m₂ x → storeAll mem l x = storeAll mem ws₁ x := fun x hx =>
    interleaved_at hl x (fun w hw m => goodReq_off (b1 w hw) hx m) rfl
  have at2 : ∀ x, ¬ Mine m₁ x → storeAll mem l x = storeAll mem ws₂ x := fun x hx =>
    interleaved_at hl.symm x (fun w hw m => goodReq_off (a1 w hw) hx m) rfl
  refine ⟨s', _, r1, r2, ?_, ?_, ?_⟩
  · intro b hb p hp hd
    obtain ⟨rs, e1, e2⟩ := a2 b hb p hp hd
    refine ⟨rs, e1, ?_⟩
    rw [← e2]
    exact memRegs_congr fun x x1 x2 => at1 x fun h => hdis x ⟨⟨b, hb, p, hp, hd, x1, by omega⟩, h⟩
  · intro b hb p hp hd
    obtain ⟨rs, e1, e2⟩ := b2 b hb p hp hd
    refine ⟨rs, e1, ?_⟩
    rw [← e2]
    exact memRegs_congr fun x x1 x2 => at2 x fun h => hdis x ⟨h, ⟨b, hb, p, hp, hd, x1, by omega⟩⟩
  · intro x x1 x2
    rw [at1 x x2]
    exact storeAll_none (Mine m₁) wr mem ws₁ a1 x1


/-- What client number `i` has sent, of the requests the device received (with the numbers of the clients). -/
def Spec.sentBy {α} (i : Nat) (l : List (Nat × α)) : List α := (l.filter fun w => decide (w.1 = i)).map (·.2)

theorem sentBy_at {l : List (Nat × (Int × Bytes))} (i : Nat) (x : Int)
    (ho : ∀ w ∈ l, w.1 ≠ i → ∀ m : RegMem, putBytes m w.2.1 w.2.2 x = m x) :
    ∀ {m m' : RegMem}, m x = m' x → storeAll m (l.map (·.2)) x = storeAll m' (sentBy i l) x := by
  induction l with
  | nil => intro m m' e; exact e
  | cons w l ih =>
    intro m m' e
    have ih' : ∀ {m m' : RegMem}, m x = m' x → storeAll m (l.map (·.2)) x = storeAll m' (sentBy i l) x :=
      ih fun v hv => ho v (by simp [hv])
    by_cases h : w.1 = i
    · have e1 : sentBy i (w :: l) = w.2 :: sentBy i l := by simp [sentBy, h]
      rw [e1]
      apply ih'
      show putBytes m _ _ x = putBytes m' _ _ x
      unfold putBytes
      split
      · rfl
      · exact e
    · have e1 : sentBy i (w :: l) = sentBy i l := by simp [sentBy, h]
      rw [e1]
      apply ih'
      show putBytes m _ _ x = m' x
      rw [ho w (by simp) h, e]

/-- C81, any number of clients: clients of one device call `write_points` at the same time; no two of them have modified points with common
registers. In whatever order the device gets the requests, all succeed, and at the end the modified points of all have been stored and
nothing else has changed. -/
theorem C81_many_partial {σ} {dev : MbDev σ} {R : σ → RegMem → Prop} {wr : Nat → Prop} (hdev : IsMem dev R wr)
    (s : σ) (mem : RegMem) (hs : R s mem) (ms : List MdlObj) (hms : ∀ m ∈ ms, CanWrite mem wr m)
    (hdis : ∀ (i j : Nat) m₁ m₂, i ≠ j → ms[i]? = some m₁ → ms[j]? = some m₂ → ∀ x, ¬ (Mine m₁ x ∧ Mine m₂ x))
    (l : List (Nat × (Int × Bytes))) (hl : ∀ w ∈ l, w.1 < ms.length) (hreq : ∀ (i : Nat) m, ms[i]? = some m → Requests m (sentBy i l)) :
    ∃ s' mem', sendAll dev s (l.map (·.2)) = (s', .ok ()) ∧ R s' mem' ∧ (∀ m ∈ ms, Written m mem') ∧
      ∀ x, (∀ m ∈ ms, ¬ Mine m x) → mem' x = mem x := by
  have good : ∀ w ∈ l, ∀ m, ms[w.1]? = some m → GoodReq mem wr (Mine m) w.2 := by
    intro w hw m hm
    refine (requests_spec (hms m (List.mem_of_getElem? hm)) (hreq w.1 m hm)).1 w.2 ?_
    unfold sentBy
    exact List.mem_map.2 ⟨w, List.mem_filter.2 ⟨hw, by simp⟩, rfl⟩
  obtain ⟨s', r1, r2⟩ := sendAll_ok hdev (fun _ => True) (l.map (·.2)) s mem hs (fun v hv => by
    obtain ⟨w, hw, rfl⟩ := List.mem_map.1 hv
    obtain ⟨rs, f1, f2, f3⟩ := good w hw _ (List.getElem?_eq_getElem (hl w hw))
    exact ⟨rs, f1, f2, fun x x1 x2 => ⟨trivial, (f3 x x1 x2).2⟩⟩)
  have own : ∀ (i : Nat) x, (∀ (j : Nat) m, j ≠ i → ms[j]? = some m → ¬ Mine m x) →
      storeAll mem (l.map (·.2)) x = storeAll mem (sentBy i l) x := by
    intro i x hx
    refine sentBy_at i x ?_ rfl
    intro w hw hne m
    have hm := List.getElem?_eq_getElem (hl w hw)
    exact goodReq_off (good w hw _ hm) (hx w.1 _ hne hm) m
  refine ⟨s', _, r1, r2, ?_, ?_⟩
  · intro m hm b hb p hp hd
    obtain ⟨i, hi⟩ := List.getElem?_of_mem hm
    obtain ⟨rs, e1, e2⟩ := (requests_spec (hms m hm) (hreq i m hi)).2 b hb p hp hd
    refine ⟨rs, e1, ?_⟩
    rw [← e2]
    refine memRegs_congr fun x x1 x2 => own i x fun j m' hj hm' h => ?_
    exact hdis j i m' m hj hm' hi x ⟨h, b, hb, p, hp, hd, x1, by omega⟩
  · intro x hx
    rw [own ms.length x fun j m _ hm => hx m (List.mem_of_getElem? hm)]
    have e1 : sentBy ms.length l = [] := by
      unfold sentBy
      rw [List.map_eq_nil_iff, List.filter_eq_nil_iff]
      intro w hw h
      have h1 : w.1 = ms.length := by simpa using h
      have h2 := hl w hw
      omega
    rw [e1]
    rfl

/-- The requests in C81 are those that `write_points` makes on any device - also while others are using it - if it returns. -/
theorem C81_requests {σ} (dev : MbDev σ) (s : σ) (m : MdlObj) (h : (writePoints (recording dev) (s, []) m).2.2 = .ok ()) :
    Requests m (writePoints (recording dev) (s, []) m).1.2 := by
  obtain ⟨gs, hg, _⟩ := C76_grouping m
  obtain ⟨k, ws, c1, c2, c3⟩ := C76_requests dev s m gs hg
  rw [List.take_of_length_le (c3 h)] at c1
  exact ⟨gs, hg, by rw [c2]; exact c1⟩

/-- C81, full statement: without the assumption that the values are encoded to the size of their points. -/
def C81_full : Prop :=
  ∀ (base : Int) (bs bs' : List Blk) (mm mm' : MbMap) (m₁ m₂ : MdlObj), MapOK mm base bs → ModelOK m₁ → Separate m₁ → ModelOK m₂ → Separate m₂ →
    (∀ m ∈ [m₁, m₂], ∀ b ∈ m.blocks, ∀ p ∈ b.pts, p.dirty = true → (∃ d, p.pt.type.toData p.base (p.pt.len * 2).toNat = .ok d) ∧
      ∀ x, p.addr ≤ x → x < p.addr + p.pt.len → mapMem base bs x ≠ none) →
    (∀ x, ¬ (Mine m₁ x ∧ Mine m₂ x)) →
    ∀ ws₁ ws₂ l, Requests m₁ ws₁ → Requests m₂ ws₂ → Interleaved ws₁ ws₂ l → sendAll mapDev mm l = (mm', .ok ()) → MapOK mm' base bs' →
      Written m₁ (mapMem base bs') ∧ Written m₂ (mapMem base bs')

/-- The model of C35 whose integer has been modified by another client. -/
def strModelN : MdlObj :=
  let m := (mdlLoad (.ok strType) (mdlNew 903 0 5)).1
  { m with blocks := m.blocks.map fun b => { b with pts := b.pts.map fun p =>
      if p.pt.type = .uint16 then { p with base := some (.int 9), dirty := true } else p } }

theorem strModelN_ok : ModelOK strModelN := by
  have h0 : ∀ b ∈ strModelN.blocks, b.sfs = [] ∧ ∀ p ∈ b.pts, (0 ≤ p.addr ∧ p.addr + p.pt.len ≤ 5) ∧ LenOK p.pt ∧ p.sf = none := by decide +kernel
  have h1 : strModelN.addr = 0 ∧ strModelN.len = 5 := by decide +kernel
  refine ⟨by decide +kernel, ?_, ?_, ?_⟩
  · intro b hb p hp
    obtain ⟨e, h⟩ := h0 b hb
    rw [e] at hp
    rcases hp with hp | hp
    · have := (h p hp).1; omega
    · cases hp
  · intro b hb p hp
    obtain ⟨e, h⟩ := h0 b hb
    rw [e] at hp
    rcases hp with hp | hp
    · exact (h p hp).2.1
    · cases hp
  · intro i b hi p hp blk id hsf
    have := ((h0 b (List.mem_of_getElem? hi)).2 p hp).2.2
    rw [this] at hsf
    cases hsf

/-- C81 does not hold fully: the other client's value in the register after two short strings is lost (C35_violated). -/
theorem C81_violated : ¬ C81_full := by
  intro h
  have hex : ∀ x, 0 ≤ x → x < 5 → mapMem 0 [⟨0, List.replicate 5 (7, 7), t!"rw"⟩] x ≠ none := by
    intro x h1 h2
    have : x = 0 ∨ x = 1 ∨ x = 2 ∨ x = 3 ∨ x = 4 := by omega
    rcases this with rfl | rfl | rfl | rfl | rfl <;> decide +kernel
  have p1 : ∀ b ∈ strModel.blocks, ∀ p ∈ b.pts, p.dirty = true → (∃ d, p.pt.type.toData p.base (p.pt.len * 2).toNat = .ok d) ∧ 0 ≤ p.addr ∧ p.addr + p.pt.len ≤ 4 := by
    decide +kernel
  have p2 : ∀ b ∈ strModelN.blocks, ∀ p ∈ b.pts, p.dirty = true → (∃ d, p.pt.type.toData p.base (p.pt.len * 2).toNat = .ok d) ∧ 4 ≤ p.addr ∧ p.addr + p.pt.len ≤ 5 := by
    decide +kernel
  have r1 := C81_requests mapDev strMap strModel (by decide +kernel)
  have r2 := C81_requests mapDev strMap strModelN (by decide +kernel)
  have e1 : (writePoints (recording mapDev) (strMap, []) strModel).1.2 = [(0, [0x61, 0x62, 0, 0, 0, 0x61, 0x62, 0, 0, 0])] := by decide +kernel
  have e2 : (writePoints (recording mapDev) (strMap, []) strModelN).1.2 = [(4, [0, 9])] := by decide +kernel
  rw [e1] at r1
  rw [e2] at r2
  have hw := (h 0 _ _ strMap strMap' strModel strModelN strMap_ok strModel_ok (by unfold Separate; decide +kernel) strModelN_ok
    (by unfold Separate; decide +kernel) ?_ ?_ _ _ _ r1 r2 (.right (.left .nil)) (by decide +kernel) strMap'_ok).2
  · have hp : ∃ b ∈ strModelN.blocks, ∃ p ∈ b.pts, p.dirty = true ∧ p.addr = 4 ∧ p.pt.len = 1 ∧
        p.pt.type.toData p.base (p.pt.len * 2).toNat = .ok [0, 9] := by decide +kernel
    obtain ⟨b, hb, p, hp, hd, q1, q2, q3⟩ := hp
    obtain ⟨rs, ⟨f1, _⟩, f2⟩ := hw b hb p hp hd
    rw [q3] at f1
    have e : regBytes rs = regBytes [(0, 9)] := (Except.ok.inj f1).symm
    have := regBytes_inj e
    subst this
    rw [q1, q2] at f2
    revert f2
    decide +kernel
  · intro m hm b hb p hp hd
    simp only [List.mem_cons, List.not_mem_nil, or_false] at hm
    rcases hm with rfl | rfl
    · exact ⟨(p1 b hb p hp hd).1, fun x x1 x2 => by have := (p1 b hb p hp hd).2; exact hex x (by omega) (by omega)⟩
    · exact ⟨(p2 b hb p hp hd).1, fun x x1 x2 => by have := (p2 b hb p hp hd).2; exact hex x (by omega) (by omega)⟩
  · rintro x ⟨⟨b, hb, p, hp, hd, x1, x2⟩, ⟨b', hb', p', hp', hd', y1, y2⟩⟩
    have := (p1 b hb p hp hd).2
    have := (p2 b' hb' p' hp' hd').2
    omega

/-! ### Non-vacuity -/

def setOnly (id : Text) (v : Int) (p : PointObj) : PointObj := if p.pt.id = id then { p with base := some (.int v), dirty := true } else p

theorem setOnly_same (id : Text) (v : Int) (p : PointObj) : (setOnly id v p).addr = p.addr ∧ (setOnly id v p).pt = p.pt ∧ (setOnly id v p).sf = p.sf := by
  unfold setOnly; split <;> exact ⟨rfl, rfl, rfl⟩

theorem setOnly_can (id : Text) (h : ∀ b ∈ (mapPts (setOnly id 5) exModel).blocks, ∀ p ∈ b.pts, p.dirty = true →
      40002 ≤ p.addr ∧ p.addr < 40009 ∧ p.pt.len = 1 ∧ p.pt.type.toData p.base (p.pt.len * 2).toNat = .ok [0, 5]) :
    CanWrite (mapMem 40002 [⟨0, [(0, 100), (0, 0), (255, 255), (0, 1), (0, 2), (255, 255), (0, 4)], t!"rw"⟩]) (fun _ => True) (mapPts (setOnly id 5) exModel) := by
  refine ⟨mapPts_separate _ (setOnly_same id 5) exModel_separate, fun _ _ _ _ _ => trivial, ?_⟩
  intro b hb p hp hd
  obtain ⟨h1, h2, h3, h4⟩ := h b hb p hp hd
  refine ⟨by omega, ⟨[(0, 5)], h4, by rw [h3]; rfl⟩, ?_⟩
  intro x x1 x2
  exact exMap_exists x (by rw [exModel_span.1]; omega) (by rw [exModel_span.1, exModel_span.2]; omega)

/-- Two clients, one setting A and one setting V (twice in the model), in any order. -/
example (l : List (Int × Bytes)) (hl : Interleaved [(40002, [0, 5])] [(40005, [0, 5]), (40007, [0, 5])] l) :
    ∃ s' mem', sendAll mapDev exMap l = (s', .ok ()) ∧ (∃ bs, MapOK s' 40002 bs ∧ mem' = mapMem 40002 bs) ∧
      Written (mapPts (setOnly (t!"A") 5) exModel) mem' ∧ Written (mapPts (setOnly (t!"V") 5) exModel) mem' ∧
      ∀ x, ¬ Mine (mapPts (setOnly (t!"A") 5) exModel) x → ¬ Mine (mapPts (setOnly (t!"V") 5) exModel) x →
        mem' x = mapMem 40002 [⟨0, [(0, 100), (0, 0), (255, 255), (0, 1), (0, 2), (255, 255), (0, 4)], t!"rw"⟩] x := by
  have r1 := C81_requests mapDev exMap (mapPts (setOnly (t!"A") 5) exModel) (by decide +kernel)
  have r2 := C81_requests mapDev exMap (mapPts (setOnly (t!"V") 5) exModel) (by decide +kernel)
  rw [show (writePoints (recording mapDev) (exMap, []) (mapPts (setOnly (t!"A") 5) exModel)).1.2 = [(40002, [0, 5])] by decide +kernel] at r1
  rw [show (writePoints (recording mapDev) (exMap, []) (mapPts (setOnly (t!"V") 5) exModel)).1.2 = [(40005, [0, 5]), (40007, [0, 5])] by decide +kernel] at r2
  have c1 := setOnly_can (t!"A") (by decide +kernel)
  have c2 := setOnly_can (t!"V") (by decide +kernel)
  refine C81_two_partial (mapDev_isMem 40002) exMap _ ⟨_, exMap_ok, rfl⟩ _ _ c1 c2 ?_ _ _ r1 r2 l hl
  rintro x ⟨⟨b, hb, p, hp, hd, x1, x2⟩, ⟨b', hb', p', hp', hd', y1, y2⟩⟩
  have f1 : ∀ b ∈ (mapPts (setOnly (t!"A") 5) exModel).blocks, ∀ p ∈ b.pts, p.dirty = true → p.addr = 40002 ∧ p.pt.len = 1 := by decide +kernel
  have f2 : ∀ b ∈ (mapPts (setOnly (t!"V") 5) exModel).blocks, ∀ p ∈ b.pts, p.dirty = true → 40005 ≤ p.addr := by decide +kernel
  have := f1 b hb p hp hd
  have := f2 b' hb' p' hp' hd'
  omega

/-- Three clients, one of A, one of the two V and one of the two W, in one of the possible orders. -/
example : ∃ s' mem', sendAll mapDev exMap [(40006, [0, 5]), (40002, [0, 5]), (40005, [0, 5]), (40008, [0, 5]), (40007, [0, 5])] = (s', .ok ()) ∧
      (∃ bs, MapOK s' 40002 bs ∧ mem' = mapMem 40002 bs) ∧
      (∀ m ∈ [mapPts (setOnly (t!"A") 5) exModel, mapPts (setOnly (t!"V") 5) exModel, mapPts (setOnly (t!"W") 5) exModel], Written m mem') := by
  have r1 := C81_requests mapDev exMap (mapPts (setOnly (t!"A") 5) exModel) (by decide +kernel)
  have r2 := C81_requests mapDev exMap (mapPts (setOnly (t!"V") 5) exModel) (by decide +kernel)
  have r3 := C81_requests mapDev exMap (mapPts (setOnly (t!"W") 5) exModel) (by decide +kernel)
  rw [show (writePoints (recording mapDev) (exMap, []) (mapPts (setOnly (t!"A") 5) exModel)).1.2 = [(40002, [0, 5])] by decide +kernel] at r1
  rw [show (writePoints (recording mapDev) (exMap, []) (mapPts (setOnly (t!"V") 5) exModel)).1.2 = [(40005, [0, 5]), (40007, [0, 5])] by decide +kernel] at r2
  rw [show (writePoints (recording mapDev) (exMap, []) (mapPts (setOnly (t!"W") 5) exModel)).1.2 = [(40006, [0, 5]), (40008, [0, 5])] by decide +kernel] at r3
  have c1 := setOnly_can (t!"A") (by decide +kernel)
  have c2 := setOnly_can (t!"V") (by decide +kernel)
  have c3 := setOnly_can (t!"W") (by decide +kernel)
  have f1 : ∀ b ∈ (mapPts (setOnly (t!"A") 5) exModel).blocks, ∀ p ∈ b.pts, p.dirty = true → p.addr = 40002 ∧ p.pt.len = 1 := by decide +kernel
  have f2 : ∀ b ∈ (mapPts (setOnly (t!"V") 5) exModel).blocks, ∀ p ∈ b.pts, p.dirty = true → (p.addr = 40005 ∨ p.addr = 40007) ∧ p.pt.len = 1 := by decide +kernel
  have f3 : ∀ b ∈ (mapPts (setOnly (t!"W") 5) exModel).blocks, ∀ p ∈ b.pts, p.dirty = true → (p.addr = 40006 ∨ p.addr = 40008) ∧ p.pt.len = 1 := by decide +kernel
  have g1 : ∀ x, Mine (mapPts (setOnly (t!"A") 5) exModel) x → x = 40002 := by
    rintro x ⟨b, hb, p, hp, hd, x1, x2⟩
    have := f1 b hb p hp hd
    omega
  have g2 : ∀ x, Mine (mapPts (setOnly (t!"V") 5) exModel) x → x = 40005 ∨ x = 40007 := by
    rintro x ⟨b, hb, p, hp, hd, x1, x2⟩
    have := f2 b hb p hp hd
    omega
  have g3 : ∀ x, Mine (mapPts (setOnly (t!"W") 5) exModel) x → x = 40006 ∨ x = 40008 := by
    rintro x ⟨b, hb, p, hp, hd, x1, x2⟩
    have := f3 b hb p hp hd
    omega
  generalize mapPts (setOnly (t!"A") 5) exModel = m1 at *
  generalize mapPts (setOnly (t!"V") 5) exModel = m2 at *
  generalize mapPts (setOnly (t!"W") 5) exModel = m3 at *
  have key := C81_many_partial (mapDev_isMem 40002) exMap _ ⟨_, exMap_ok, rfl⟩ [m1, m2, m3] (by
      intro m hm
      simp only [List.mem_cons, List.not_mem_nil, or_false] at hm
      rcases hm with rfl | rfl | rfl
      · exact c1
      · exact c2
      · exact c3) (by
      intro i j a b hij ha hb x hx
      rcases i with _ | _ | _ | i <;> rcases j with _ | _ | _ | j <;> simp at ha hb hij <;> subst ha hb <;>
        first
          | (have := g1 x hx.1; have := g2 x hx.2; omega)
          | (have := g1 x hx.1; have := g3 x hx.2; omega)
          | (have := g2 x hx.1; have := g1 x hx.2; omega)
          | (have := g2 x hx.1; have := g3 x hx.2; omega)
          | (have := g3 x hx.1; have := g1 x hx.2; omega)
          | (have := g3 x hx.1; have := g2 x hx.2; omega))
    [(2, (40006, [0, 5])), (0, (40002, [0, 5])), (1, (40005, [0, 5])), (2, (40008, [0, 5])), (1, (40007, [0, 5]))] (by simp) (by
      intro i m hm
      rcases i with _ | _ | _ | i <;> simp at hm <;> subst hm
      · exact r1
      · exact r2
      · exact r3)
  obtain ⟨s', mem', k1, k2, k3, -⟩ := key
  exact ⟨s', mem', k1, k2, k3⟩

/-- One client writes A over RTU while register 40005 (a V) changes before each request. -/
example : ∃ s' n mem', writePoints (disturbed (rtuDev (drippingSlave 7) (7 : Byte).toNat)
      (fun k l => { l with dev := fun x => if x = 40005 then BitVec.ofNat 16 (k + 77) else l.dev x })) (⟨exMem, []⟩, 0) (mapPts (setOnly (t!"A") 5) exModel) =
      ((s', n), cleanModel (mapPts (setOnly (t!"A") 5) exModel), .ok ()) ∧ mem' = regMem s'.dev ∧
      Written (mapPts (setOnly (t!"A") 5) exModel) mem' := by
  have f1 : ∀ b ∈ (mapPts (setOnly (t!"A") 5) exModel).blocks, ∀ p ∈ b.pts, p.dirty = true →
      p.addr = 40002 ∧ p.pt.len = 1 ∧ p.pt.type.toData p.base (p.pt.len * 2).toNat = .ok [0, 5] := by decide +kernel
  have f2 : ∀ b ∈ (mapPts (setOnly (t!"A") 5) exModel).blocks, dirtyLen b.pts ≤ 1 := by decide +kernel
  refine C81_write_partial (rtuDev_isMem (drippingSlave_conforms 7)) ⟨exMem, []⟩ (regMem exMem) rfl _ ?_ _ ?_
  · refine ⟨mapPts_separate _ (setOnly_same _ 5) exModel_separate, ?_, ?_⟩
    · intro b hb n h1 h2
      have := f2 b hb
      exact ⟨h1, by omega⟩
    · intro b hb p hp hd
      obtain ⟨h1, h2, h3⟩ := f1 b hb p hp hd
      refine ⟨by omega, ⟨[(0, 5)], h3, by rw [h2]; rfl⟩, ?_⟩
      intro x x1 x2
      unfold regMem
      rw [if_pos (by omega)]
      simp
  · rintro k l mem rfl
    refine ⟨_, rfl, ?_⟩
    rintro x ⟨b, hb, p, hp, hd, x1, x2⟩
    have := f1 b hb p hp hd
    unfold regMem
    dsimp only [id]
    rw [if_neg (show ¬ x.toNat = 40005 by omega)]

end Verif
