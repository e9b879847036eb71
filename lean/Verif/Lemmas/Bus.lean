import Verif.Spec.Bus
import Verif.Lemmas.Alike

/-! Lemmas: a device on a shared serial line behaves as if it were alone on the line. -/

namespace Verif
open Verif.Spec

/-- On the shared line `l` device `b` is in the state, and has received the requests, of the device alone on line `t`; all other
devices are as in line `l0`. -/
def OnBus {σ} (b : Byte) (l0 l : Line (Byte → σ)) (t : Line σ) : Prop :=
  l.dev b = t.dev ∧ requestsFor b l.sent = t.sent ∧
    ∀ k, k ≠ b → l.dev k = l0.dev k ∧ requestsFor k l.sent = requestsFor k l0.sent

theorem bus_cons {σ} (slaves : Byte → Slave σ) (d : Byte → σ) {b : Byte} (hb : b ≠ 0) (r : Bytes) :
    bus slaves d (b :: r) =
      (fun k => if k = b then (slaves b (d b) (b :: r)).1 else d k, (slaves b (d b) (b :: r)).2) := by
  unfold bus
  dsimp only
  rw [if_neg hb]

theorem bus_send {σ} (slaves : Byte → Slave σ) {b : Byte} (hb : b ≠ 0) {l0 l : Line (Byte → σ)} {t : Line σ}
    (h : OnBus b l0 l t) (r : Bytes) :
    (bus slaves l.dev (b :: r)).2 = (slaves b t.dev (b :: r)).2 ∧
    OnBus b l0 ⟨(bus slaves l.dev (b :: r)).1, l.sent ++ [b :: r]⟩ ⟨(slaves b t.dev (b :: r)).1, t.sent ++ [b :: r]⟩ := by
  obtain ⟨h1, h2, h3⟩ := h
  rw [bus_cons slaves l.dev hb, h1]
  refine ⟨rfl, if_pos rfl, ?_, fun k hk => ⟨(if_neg hk).trans (h3 k hk).1, ?_⟩⟩
  · unfold requestsFor at h2 ⊢
    rw [List.filter_append, h2]
    simp
  · have := (h3 k hk).2
    unfold requestsFor at this ⊢
    dsimp only
    rw [List.filter_append, this]
    have hk' : ¬ b = k := fun e => hk e.symm
    simp [hk']

theorem rtuRead1_bus {σ} (slaves : Byte → Slave σ) {b : Byte} (hb : b ≠ 0) {l0 l : Line (Byte → σ)} {t : Line σ}
    (h : OnBus b l0 l t) (op addr count : Int) :
    (rtuRead1 (bus slaves) l b.toNat op addr count).2 = (rtuRead1 (slaves b) t b.toNat op addr count).2 ∧
    OnBus b l0 (rtuRead1 (bus slaves) l b.toNat op addr count).1 (rtuRead1 (slaves b) t b.toNat op addr count).1 := by
  rw [rtuRead1_eq, rtuRead1_eq]
  split
  · simp only [Int.toNat_natCast, BitVec.ofNat_toNat, BitVec.setWidth_eq]
    obtain ⟨e1, e2⟩ := bus_send slaves hb h
      (readPdu (BitVec.ofNat 8 op.toNat) addr.toNat count.toNat ++ crcField (b :: readPdu (BitVec.ofNat 8 op.toNat) addr.toNat count.toNat))
    have e : rtuFrame b (readPdu (BitVec.ofNat 8 op.toNat) addr.toNat count.toNat) =
        b :: (readPdu (BitVec.ofNat 8 op.toNat) addr.toNat count.toNat ++ crcField (b :: readPdu (BitVec.ofNat 8 op.toNat) addr.toNat count.toNat)) := by
      rw [crcField_eq]; rfl
    rw [e]
    exact ⟨by rw [e1], e2⟩
  · exact ⟨rfl, h⟩

theorem rtuWrite1_bus {σ} (slaves : Byte → Slave σ) {b : Byte} (hb : b ≠ 0) {l0 l : Line (Byte → σ)} {t : Line σ}
    (h : OnBus b l0 l t) (addr : Int) (data : Bytes) :
    (rtuWrite1 (bus slaves) l b.toNat addr data).2 = (rtuWrite1 (slaves b) t b.toNat addr data).2 ∧
    OnBus b l0 (rtuWrite1 (bus slaves) l b.toNat addr data).1 (rtuWrite1 (slaves b) t b.toNat addr data).1 := by
  rw [rtuWrite1_eq, rtuWrite1_eq]
  split
  · simp only [Int.toNat_natCast, BitVec.ofNat_toNat, BitVec.setWidth_eq]
    obtain ⟨e1, e2⟩ := bus_send slaves hb h (writePdu addr.toNat data ++ crcField (b :: writePdu addr.toNat data))
    have e : rtuFrame b (writePdu addr.toNat data) = b :: (writePdu addr.toNat data ++ crcField (b :: writePdu addr.toNat data)) := by
      rw [crcField_eq]; rfl
    rw [e]
    exact ⟨by rw [e1], e2⟩
  · exact ⟨rfl, h⟩

theorem rtuReadF_bus {σ} (slaves : Byte → Slave σ) {b : Byte} (hb : b ≠ 0) (l0 : Line (Byte → σ)) (op : Int) (mc fuel : Nat)
    (addr : Int) (count : Nat) (resp : Bytes) {l : Line (Byte → σ)} {t : Line σ} (h : OnBus b l0 l t) :
    (rtuReadF (bus slaves) b.toNat op mc fuel addr count resp l).2 = (rtuReadF (slaves b) b.toNat op mc fuel addr count resp t).2 ∧
    OnBus b l0 (rtuReadF (bus slaves) b.toNat op mc fuel addr count resp l).1 (rtuReadF (slaves b) b.toNat op mc fuel addr count resp t).1 := by
  induction fuel generalizing addr count resp l t with
  | zero => exact ⟨rfl, h⟩
  | succ fuel ih =>
    rw [rtuReadF, rtuReadF]
    split
    · dsimp only
      generalize (if count > mc then mc else count) = q
      obtain ⟨e1, e2⟩ := rtuRead1_bus slaves hb h op addr q
      rcases x1 : rtuRead1 (bus slaves) l b.toNat op addr q with ⟨l', r⟩
      rcases x2 : rtuRead1 (slaves b) t b.toNat op addr q with ⟨t', r'⟩
      rw [x1, x2] at e1 e2
      dsimp only at e1 e2
      subst e1
      cases r with
      | error e => exact ⟨rfl, e2⟩
      | ok d =>
        dsimp only
        split
        · exact ih _ _ _ e2
        · exact ⟨rfl, e2⟩
    · exact ⟨rfl, h⟩

theorem rtuWriteF_bus {σ} (slaves : Byte → Slave σ) {b : Byte} (hb : b ≠ 0) (l0 : Line (Byte → σ)) (mc fuel : Nat)
    (addr : Int) (data : Bytes) {l : Line (Byte → σ)} {t : Line σ} (h : OnBus b l0 l t) :
    (rtuWriteF (bus slaves) b.toNat mc fuel addr data l).2 = (rtuWriteF (slaves b) b.toNat mc fuel addr data t).2 ∧
    OnBus b l0 (rtuWriteF (bus slaves) b.toNat mc fuel addr data l).1 (rtuWriteF (slaves b) b.toNat mc fuel addr data t).1 := by
  induction fuel generalizing addr data l t with
  | zero => exact ⟨rfl, h⟩
  | succ fuel ih =>
    rw [rtuWriteF, rtuWriteF]
    split
    · dsimp only
      generalize (if data.length > 2 * mc then 2 * mc else data.length) = q
      obtain ⟨e1, e2⟩ := rtuWrite1_bus slaves hb h addr (data.take q)
      rcases x1 : rtuWrite1 (bus slaves) l b.toNat addr (data.take q) with ⟨l', r⟩
      rcases x2 : rtuWrite1 (slaves b) t b.toNat addr (data.take q) with ⟨t', r'⟩
      rw [x1, x2] at e1 e2
      dsimp only at e1 e2
      subst e1
      cases r with
      | error e => exact ⟨rfl, e2⟩
      | ok d => exact ih _ _ e2
    · exact ⟨rfl, h⟩

theorem bus_alike {σ} (slaves : Byte → Slave σ) {b : Byte} (hb : b ≠ 0) (l0 : Line (Byte → σ)) :
    Alike (rtuDev (bus slaves) b.toNat) (rtuDev (slaves b) b.toNat) (OnBus b l0) := by
  constructor
  · intro s t a n h
    have := rtuReadF_bus slaves hb l0 3 125 (n.toNat + 1) a n.toNat [] h
    unfold rtuDev
    dsimp only
    unfold rtuRead
    exact this
  · intro s t a d h
    have := rtuWriteF_bus slaves hb l0 125 (d.length + 1) a d h
    unfold rtuDev
    dsimp only
    unfold rtuWrite
    exact ⟨.inl this.1, this.2⟩

theorem bus_scanAlike {σ} (slaves : Byte → Slave σ) {b : Byte} (hb : b ≠ 0) (l0 : Line (Byte → σ)) :
    ScanAlike (rtuScanDev (bus slaves) b.toNat) (rtuScanDev (slaves b) b.toNat) (OnBus b l0) where
  toAlike := bus_alike slaves hb l0
  conn1 := by intro f h; simp [rtuScanDev] at h
  conn2 := by intro f h; simp [rtuScanDev] at h
  disc1 := fun _ _ h => h
  disc2 := fun _ _ h => h

theorem onLine_visible {σ} (c : CliDev σ) : onLine (visible c) c.st = c := rfl
theorem visible_onLine {σ} (c : CliDev Unit) (s : σ) : visible (onLine c s) = c := rfl

/-- A converse that makes one more call. -/
theorem converse_snoc {σ} (dev : ScanDev σ) (fuel : Nat) (lib : Int → Py ModelType) (next : Transcript → Option Call) (n : Nat)
    (tr : Transcript) (c : CliDev σ) :
    converse dev fuel lib next (n + 1) tr c =
      converse dev fuel lib next 1 (converse dev fuel lib next n tr c).2 (converse dev fuel lib next n tr c).1 := by
  induction n generalizing tr c with
  | zero => rfl
  | succ n ih =>
    rw [converse]
    cases hn : next tr with
    | none =>
      have e : ∀ k, converse dev fuel lib next k tr c = (c, tr) := by
        intro k
        cases k with
        | zero => rfl
        | succ k => rw [converse, hn]
      dsimp only
      rw [e, e]
    | some call =>
      dsimp only
      rw [ih]
      have : converse dev fuel lib next (n + 1) tr c = converse dev fuel lib next n
          (tr ++ [((perform dev fuel lib c call).2, visible (perform dev fuel lib c call).1)]) (perform dev fuel lib c call).1 := by
        rw [converse, hn]
      rw [this]

end Verif
