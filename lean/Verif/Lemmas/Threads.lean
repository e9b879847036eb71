import Verif.Spec.Threads
import Verif.Lemmas.WireSame
import Verif.Lemmas.AtomicDev

/-! Lemmas for C96. -/

namespace Verif
open Verif.Spec

/-- An invariant of the port that receiving keeps. -/
theorem portRecvF_inv {τ} (p : Port τ) (I : τ → Prop) (hI : ∀ s n, I s → I (p.read s n).1) (total : Bytes → Int) :
    ∀ (fuel : Nat) (r : Int) (found : Bool) (resp : Bytes) (exc : Option Nat) (w : Waited τ), I w.st →
      I (portRecvF p total fuel r found resp exc w).1.st := by
  intro fuel
  induction fuel with
  | zero => intro r found resp exc w h; exact h
  | succ fuel ih =>
    intro r found resp exc w h
    have h' : ∀ n, I (portRead p w n).1.st := fun n => hI w.st n h
    rw [portRecvF]
    dsimp only
    split
    · split
      · split
        · split
          · exact ih _ _ _ _ _ (h' _)
          · exact ih _ _ _ _ _ (h' _)
        · exact ih _ _ _ _ _ (h' _)
      · exact h' _
    · exact h

/-- What is received is processed like a list of chunks. -/
theorem portRecvF_chunks {τ} (p : Port τ) (hle : ∀ s n, (p.read s n).2.length ≤ n) (total : Bytes → Int) :
    ∀ (fuel : Nat) (r : Int) (found : Bool) (resp : Bytes) (exc : Option Nat) (w w' : Waited τ) (x : Bytes × Option Nat),
      portRecvF p total fuel r found resp exc w = (w', .ok x) →
      ∃ chunks, Reading p w.st chunks w'.st ∧ (∀ c ∈ chunks, c ≠ []) ∧ ∀ f, fuel ≤ f → recvLoopF total f r found resp exc chunks = .ok x := by
  intro fuel
  induction fuel with
  | zero => intro r found resp exc w w' x h; cases h
  | succ fuel ih =>
    intro r found resp exc w w' x h
    rw [portRecvF] at h
    by_cases hr : r > 0
    · rw [if_pos hr] at h
      dsimp only at h
      have hw : (portRead p w r.toNat).1.st = (p.read w.st r.toNat).1 := rfl
      have hc : (portRead p w r.toNat).2 = (p.read w.st r.toNat).2 := rfl
      have hl := hle w.st r.toNat
      rw [← hc] at hl
      generalize hq : portRead p w r.toNat = q at *
      obtain ⟨w1, c⟩ := q
      dsimp only at h hw hc hl
      by_cases h0 : 0 < c.length
      · rw [if_pos h0] at h
        have hne : c ≠ [] := List.length_pos_iff.1 h0
        have fin : ∀ (r' : Int) (found' : Bool) (resp' : Bytes) (exc' : Option Nat), portRecvF p total fuel r' found' resp' exc' w1 = (w', .ok x) →
            (∀ (f : Nat) (rest : List Bytes), recvLoopF total (f + 1) r found resp exc (c :: rest) = recvLoopF total f r' found' resp' exc' rest) →
            ∃ chunks, Reading p w.st chunks w'.st ∧ (∀ c ∈ chunks, c ≠ []) ∧ ∀ f, fuel + 1 ≤ f → recvLoopF total f r found resp exc chunks = .ok x := by
          intro r' found' resp' exc' h1 h2
          obtain ⟨chunks, k1, k2, k3⟩ := ih _ _ _ _ _ _ _ h1
          refine ⟨c :: chunks, ?_, ?_, ?_⟩
          · rw [hc]
            rw [hw] at k1
            exact .cons _ _ _ _ k1
          · intro d hd
            rcases List.mem_cons.1 hd with rfl | hd
            · exact hne
            · exact k2 d hd
          · intro f hf
            obtain ⟨f, rfl⟩ : ∃ g, f = g + 1 := ⟨f - 1, by omega⟩
            rw [h2]
            exact k3 f (by omega)
        have hs : ∀ rest, serialRead r.toNat (c :: rest) = (c, rest) := fun rest => by unfold serialRead; dsimp only; rw [if_pos hl]
        by_cases c1 : found = false ∧ (resp ++ c).length ≥ 5
        · rw [if_pos c1] at h
          by_cases c2 : (resp ++ c).getD 1 0 &&& 0x80 = 0
          · rw [if_pos c2] at h
            refine fin _ _ _ _ h fun f rest => ?_
            rw [recvLoopF, if_pos hr, hs]
            dsimp only
            rw [if_pos h0, if_pos c1, if_pos c2]
          · rw [if_neg c2] at h
            refine fin _ _ _ _ h fun f rest => ?_
            rw [recvLoopF, if_pos hr, hs]
            dsimp only
            rw [if_pos h0, if_pos c1, if_neg c2]
        · rw [if_neg c1] at h
          refine fin _ _ _ _ h fun f rest => ?_
          rw [recvLoopF, if_pos hr, hs]
          dsimp only
          rw [if_pos h0, if_neg c1]
      · rw [if_neg h0] at h
        cases h
    · rw [if_neg hr] at h
      cases h
      refine ⟨[], .nil _, by simp, fun f hf => ?_⟩
      obtain ⟨f, rfl⟩ : ∃ g, f = g + 1 := ⟨f - 1, by omega⟩
      rw [recvLoopF, if_neg hr]

theorem portRead1_frame {τ} (p : Port τ) (hle : ∀ s n, (p.read s n).2.length ≤ n) (N : Nat) (w w' : Waited τ) (sid : Byte) (a : Int) (q : Nat) (d : Bytes)
    (h : portRead1 p N w sid.toNat 3 a q = (w', .ok d)) (hd : d ≠ []) :
    0 ≤ a ∧ ∃ s1 chunks, p.write (p.flush w.st) (rtuFrame sid (readPdu 3 a.toNat q)) = (s1, true) ∧ Reading p s1 chunks w'.st ∧ IsReadReply chunks.flatten d := by
  unfold portRead1 at h
  rw [packBBHH_eq] at h
  by_cases hr : (0 ≤ (sid.toNat : Int) ∧ (sid.toNat : Int) < 256) ∧ ((0 : Int) ≤ 3 ∧ (3 : Int) < 256) ∧ (0 ≤ a ∧ a < 65536) ∧ (0 ≤ (q : Int) ∧ (q : Int) < 65536)
  · rw [if_pos hr] at h
    dsimp only at h
    simp only [crcField_eq, Int.toNat_natCast, BitVec.ofNat_toNat, BitVec.setWidth_eq] at h
    have e : ∀ b : Bytes, (sid :: b) ++ crcBytes (sid :: b) = rtuFrame sid b := fun b => rfl
    rw [e] at h
    have e3 : BitVec.ofNat 8 (3 : Int).toNat = 3 := rfl
    rw [e3] at h
    generalize rtuFrame sid (readPdu 3 a.toNat q) = req at h ⊢
    refine ⟨hr.2.2.1.1, ?_⟩
    unfold portExchange at h
    generalize hq : p.write (p.flush w.st) req = o at h ⊢
    obtain ⟨s1, b⟩ := o
    cases b with
    | false =>
      simp only [Prod.mk.injEq] at h
      obtain ⟨_, h⟩ := h
      cases h
    | true =>
      dsimp only at h
      simp only [Prod.mk.injEq] at h
      obtain ⟨rfl, h⟩ := h
      generalize hx : portRecvF p readTotal N 5 false [] none ⟨s1, w.waits⟩ = o at h ⊢
      obtain ⟨w', x⟩ := o
      cases x with
      | error e => cases h
      | ok x =>
        obtain ⟨chunks, k1, k2, k3⟩ := portRecvF_chunks p hle readTotal N 5 false [] none _ _ _ hx
        have h1 := k3 (N + (bytesLeft chunks + 1)) (by omega)
        have h2 := recvLoopF_header readTotal readTotal_ge (N + (bytesLeft chunks + 1)) 5 [] (by decide) rfl chunks (by omega)
        have h1 : recvFlat readTotal ([] ++ received chunks) = .ok x := h2.symm.trans h1
        rw [List.nil_append] at h1
        rw [← h1] at h
        have := rtuReadReply_ok h hd
        rw [received_of_nonempty k2] at this
        exact ⟨s1, chunks, rfl, k1, this⟩
  · rw [if_neg hr] at h
    cases h

theorem portReadF_calls {τ} (p : Port τ) (hle : ∀ s n, (p.read s n).2.length ≤ n) (N : Nat) (sid : Byte) : ∀ (fuel : Nat) (a : Int) (count : Nat) (resp : Bytes)
    (w w' : Waited τ) (d : Bytes), portReadF p N sid.toNat 3 125 fuel a count resp w = (w', .ok (some d)) →
    ∃ rest, d = resp ++ rest ∧ ReadCalls p sid w.st a count rest w'.st := by
  intro fuel
  induction fuel with
  | zero => intro a count resp w w' d h; cases h
  | succ fuel ih =>
    intro a count resp w w' d h
    rw [portReadF] at h
    by_cases hc : count > 0
    · rw [if_pos hc] at h
      dsimp only at h
      have hq : (if count > 125 then 125 else count) = min 125 count := by split <;> omega
      rw [hq] at h
      generalize hx : portRead1 p N w sid.toNat 3 a (min 125 count : Nat) = o at h
      obtain ⟨w1, x⟩ := o
      cases x with
      | error e => cases h
      | ok x =>
        dsimp only at h
        by_cases h0 : x.length > 0
        · rw [if_pos h0] at h
          have hne : x ≠ [] := List.length_pos_iff.1 h0
          obtain ⟨_, s1, chunks, k1, k2, k3⟩ := portRead1_frame p hle N w w1 sid a (min 125 count) x hx hne
          obtain ⟨rest, r1, r2⟩ := ih _ _ _ _ _ _ h
          refine ⟨x ++ rest, by rw [r1, List.append_assoc], ?_⟩
          exact .step _ s1 w1.st _ _ _ chunks x rest hc k1 k2 k3 hne r2
        · rw [if_neg h0] at h
          cases h
    · rw [if_neg hc] at h
      cases h
      refine ⟨[], by simp, ?_⟩
      have : count = 0 := by omega
      subst this
      exact .done _ _

/-! ## Writes -/

theorem act_harmless {τ} {p : Port τ} {abs : τ → Mem} {sid : Byte} (hp : Executes p abs sid) {D : Int → Prop} (l : List PortAct)
    (hl : ∀ req, PortAct.write req ∈ l → Harmless sid D req) : ∀ (s : τ) (x : Int), D x → regMem (abs (l.foldl (act p) s)) x = regMem (abs s) x := by
  induction l with
  | nil => intro s x _; rfl
  | cons o l ih =>
    intro s x hx
    rw [List.foldl_cons, ih (fun req h => hl req (by simp [h])) _ x hx]
    cases o with
    | flush => show regMem (abs (p.flush s)) x = _; rw [hp.flush]
    | read n => show regMem (abs (p.read s n).1) x = _; rw [hp.read]
    | write req =>
      show regMem (abs (p.write s req).1) x = _
      cases hb : (p.write s req).2 with
      | true => rw [hp.sent s req hb]; exact hl req (by simp) (abs s) x hx
      | false => rw [hp.unsent s req hb]

theorem turn_harmless {τ} {p : Port τ} {abs : τ → Mem} {sid : Byte} (hp : Executes p abs sid) {D : Int → Prop} {s : τ × List (List PortAct)}
    (hs : HarmlessThreads sid D s.2) : HarmlessThreads sid D s.2.tail ∧ ∀ x, D x → regMem (abs (turn p s)) x = regMem (abs s.1) x := by
  obtain ⟨s, l⟩ := s
  refine ⟨fun o ho => hs o (List.mem_of_mem_tail ho), ?_⟩
  cases l with
  | nil => intro x _; rfl
  | cons o l => exact act_harmless hp o (hs o (by simp)) s

/-- The memory as the thread sees it: the registers `D` are as in `mem`, and the other threads do not change them. -/
def ThreadMem {τ} (abs : τ → Mem) (sid : Byte) (D : Int → Prop) (s : τ × List (List PortAct)) (mem : RegMem) : Prop :=
  HarmlessThreads sid D s.2 ∧ mem = within D (regMem (abs s.1))

theorem within_ext {D : Int → Prop} {f g : RegMem} (h : ∀ x, D x → f x = g x) : within D f = within D g := by
  funext x
  unfold within
  split
  · rename_i hd; exact h x hd
  · rfl

theorem portExchange_threads {τ} {p : Port τ} {abs : τ → Mem} {sid : Byte} (hp : Executes p abs sid) {D : Int → Prop} (N : Nat) (total : Bytes → Int)
    (w : Waited (τ × List (List PortAct))) (mem : RegMem) (hw : ThreadMem abs sid D w.st mem) (req : Bytes) (a : Int) (rs : List Reg)
    (hreq : ∀ m, within D (regMem m) = mem → regMem (serveRtu sid m req).1 = stored (regMem m) a rs)
    (hD : ∀ x, a ≤ x → x < a + rs.length → D x) :
    ThreadMem abs sid D (portExchange (sharedPort p) N total w req).1.st (stored mem a rs) ∨
      (∃ e, (portExchange (sharedPort p) N total w req).2 = .error e) ∧ ThreadMem abs sid D (portExchange (sharedPort p) N total w req).1.st mem := by
  obtain ⟨w1, w2⟩ := hw
  obtain ⟨t1, t2⟩ := turn_harmless hp w1
  have hf : ThreadMem abs sid D ((sharedPort p).flush w.st) mem := by
    refine ⟨t1, ?_⟩
    rw [w2]
    apply within_ext
    intro x hx
    show _ = regMem (abs (p.flush (turn p w.st))) x
    rw [hp.flush, t2 x hx]
  obtain ⟨f1, f2⟩ := hf
  unfold portExchange
  generalize (sharedPort p).flush w.st = s at f1 f2
  obtain ⟨t1, t2⟩ := turn_harmless hp f1
  have hm : within D (regMem (abs (turn p s))) = mem := by rw [f2]; exact within_ext t2
  have hwr : (sharedPort p).write s req = (((p.write (turn p s) req).1, s.2.tail), (p.write (turn p s) req).2) := rfl
  rw [hwr]
  cases hb : (p.write (turn p s) req).2 with
  | false =>
    refine .inr ⟨⟨_, rfl⟩, t1, ?_⟩
    show mem = within D (regMem (abs (p.write (turn p s) req).1))
    rw [hp.unsent _ _ hb, hm]
  | true =>
    refine .inl ?_
    dsimp only
    refine portRecvF_inv (sharedPort p) (fun s => ThreadMem abs sid D s (stored mem a rs)) ?_ total N 5 false [] none _ ?_
    · intro s n hs
      obtain ⟨u1, u2⟩ := turn_harmless hp hs.1
      refine ⟨u1, ?_⟩
      rw [hs.2]
      apply within_ext
      intro x hx
      show _ = regMem (abs (p.read (turn p s) n).1) x
      rw [hp.read, u2 x hx]
    · refine ⟨t1, ?_⟩
      show stored mem a rs = within D (regMem (abs (p.write (turn p s) req).1))
      rw [hp.sent _ _ hb, hreq _ hm, ← hm]
      funext x
      unfold stored within
      by_cases hx : a ≤ x ∧ x < a + rs.length
      · rw [if_pos hx]
        have := hD x hx.1 hx.2
        simp only [this, if_true]
        rw [if_pos hx]
      · rw [if_neg hx]
        split
        · dsimp only; rw [if_neg hx]
        · rfl

theorem threads_atomic {τ} {p : Port τ} {abs : τ → Mem} {sid : Byte} (hp : Executes p abs sid) (N : Nat) (hN : 8 < N) (D : Int → Prop) :
    AtomicMem (portDev (sharedPort p) N sid.toNat).toMbDev (fun w mem => ThreadMem abs sid D w.st mem) (fun _ => True) (fun n => n ≤ 123) := by
  intro w mem a rs hR _ h0 hl hx
  have hd : (regBytes rs).length = 2 * rs.length := regBytes_length rs
  have hR2 := hR.2
  have hin : ∀ x, a ≤ x → x < a + rs.length → D x ∧ regMem (abs w.st.1) x ≠ none := by
    intro x x1 x2
    have := hx x x1 x2
    rw [hR2] at this
    obtain ⟨k1, k2⟩ := within_some this
    exact ⟨k1, by rw [← k2]; exact this⟩
  obtain ⟨⟨r1, r2⟩, _⟩ := serve_store (m := abs w.st.1) h0 (by omega) (fun x x1 x2 => (hin x x1 x2).2)
  have hs := sid.isLt
  have key := portExchange_threads hp N writeTotal w mem hR (rtuFrame sid (writePdu a.toNat (regBytes rs))) a rs (by
    intro m hm
    have hxm : ∀ x, a ≤ x → x < a + rs.length → regMem m x ≠ none := by
      intro x x1 x2
      have := hx x x1 x2
      rw [← hm] at this
      obtain ⟨_, k2⟩ := within_some this
      rw [← k2]; exact this
    obtain ⟨_, s2, s3⟩ := serve_store h0 (by omega) hxm
    rw [serveRtu_frame, s2, if_neg (by omega)]
    exact s3) (fun x x1 x2 => (hin x x1 x2).1)
  have hw1 : portWrite1 (sharedPort p) N w sid.toNat a (regBytes rs) =
      ((portExchange (sharedPort p) N writeTotal w (rtuFrame sid (writePdu a.toNat (regBytes rs)))).1,
        rtuWriteReply sid.toNat a ((regBytes rs).length / 2 : Nat) (portExchange (sharedPort p) N writeTotal w (rtuFrame sid (writePdu a.toNat (regBytes rs)))).2) := by
    unfold portWrite1
    rw [packBBHHB_eq, if_pos (by omega)]
    dsimp only
    have hreq : ∀ y : Bytes, y = sid :: writePdu a.toNat (regBytes rs) → y ++ crcField y = rtuFrame sid (writePdu a.toNat (regBytes rs)) := by
      intro y hy
      rw [hy, crcField_eq]; rfl
    rw [hreq _ (by simp only [writePdu, Int.toNat_natCast]; simp)]
  have hwF : (portDev (sharedPort p) N sid.toNat).toMbDev.write w a (regBytes rs) = portWrite1 (sharedPort p) N w sid.toNat a (regBytes rs) := by
    show portWriteF (sharedPort p) N sid.toNat 125 ((regBytes rs).length + 1) a (regBytes rs) w = _
    rw [portWriteF, if_pos (by omega)]
    dsimp only
    rw [if_neg (by omega), List.take_of_length_le (Nat.le_refl _), List.drop_eq_nil_of_le (Nat.le_refl _)]
    generalize portWrite1 (sharedPort p) N w sid.toNat a (regBytes rs) = o
    obtain ⟨w1, x⟩ := o
    cases x with
    | error e => rfl
    | ok u =>
      dsimp only
      obtain ⟨k, hk⟩ : ∃ k, (regBytes rs).length = k + 1 := ⟨(regBytes rs).length - 1, by omega⟩
      rw [hk, portWriteF]
      rfl
  rw [hwF, hw1]
  generalize portExchange (sharedPort p) N writeTotal w (rtuFrame sid (writePdu a.toNat (regBytes rs))) = o at key
  obtain ⟨w1, x⟩ := o
  refine ⟨w1, _, rfl, ?_⟩
  rcases key with k | ⟨⟨e, k1⟩, k2⟩
  · by_cases hok : rtuWriteReply sid.toNat a ((regBytes rs).length / 2 : Nat) x = .ok ()
    · exact .inl ⟨hok, trivial, k⟩
    · exact .inr ⟨hok, .inl k⟩
  · dsimp only at k1
    rw [k1]
    exact .inr ⟨by simp [rtuWriteReply], .inr k2⟩

end Verif
