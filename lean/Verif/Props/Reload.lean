import Verif.Spec.Reload
import Verif.Props.Alike
import Verif.Props.MapDoc

/-!
# C99: a simulated device that has been saved behaves as before
-/

namespace Verif
open Spec

theorem map_alike : Alike mapDev mapDev SameRegisters := by
  refine ⟨?_, ?_⟩
  · intro m m' a n hr
    refine ⟨?_, hr⟩
    obtain ⟨base, bs, base', bs', h, h', e⟩ := hr
    show (mapRead m a n none).map some = (mapRead m' a n none).map some
    congr 1
    by_cases hn : n < 0
    · rw [C23_read_negative m base bs h a n hn, C23_read_negative m' base' bs' h' a n hn]
    · have : n = (n.toNat : Int) := by omega
      rw [this, C23_read m base bs h a n.toNat, C23_read m' base' bs' h' a n.toNat, e]
  · intro m m' a d hr
    show BothFail (mapWrite m a d).2 (mapWrite m' a d).2 ∧ SameRegisters (mapWrite m a d).1 (mapWrite m' a d).1
    by_cases hd : d.length % 2 = 1
    · rw [C23_write_odd m a d hd, C23_write_odd m' a d hd]
      exact ⟨.inl rfl, hr⟩
    · obtain ⟨base, bs, base', bs', h, h', e⟩ := hr
      obtain ⟨m1, b1, w1, k1, e1, _⟩ := C23_write m base bs h a (pairUp d)
      obtain ⟨m2, b2, w2, k2, e2, _⟩ := C23_write m' base' bs' h' a (pairUp d)
      rw [regBytes_pairUp d (by omega)] at w1 w2
      rw [w1, w2, e]
      exact ⟨.inl rfl, base, b1, base', b2, k1, k2, by rw [e1, e2, e]⟩

theorem map_scanAlike : ScanAlike mapScanDev mapScanDev SameRegisters :=
  { map_alike with
    conn1 := fun f hf => by cases hf
    conn2 := fun f hf => by cases hf
    disc1 := fun s t h => h
    disc2 := fun s t h => h }

/-- C99, one request: maps with the same registers answer every read and every write alike, exceptions included, and hold the same
registers afterwards. -/
theorem C99_request (m m' : MbMap) (h : SameRegisters m m') :
    (∀ a n, mapRead m a n none = mapRead m' a n none) ∧
    ∀ a d, (mapWrite m a d).2 = (mapWrite m' a d).2 ∧ SameRegisters (mapWrite m a d).1 (mapWrite m' a d).1 := by
  refine ⟨fun a n => ?_, fun a d => ⟨?_, (map_alike.write m m' a d h).2⟩⟩
  · have h1 : (mapRead m a n none).map some = (mapRead m' a n none).map some := (map_alike.read m m' a n h).1
    generalize mapRead m a n none = x at h1 ⊢
    generalize mapRead m' a n none = y at h1 ⊢
    cases x with
    | error e =>
      cases y with
      | error e' => cases h1; rfl
      | ok y => cases h1
    | ok x =>
      cases y with
      | error e' => cases h1
      | ok y => cases h1; rfl
  · by_cases hd : d.length % 2 = 1
    · rw [C23_write_odd m a d hd, C23_write_odd m' a d hd]
    · obtain ⟨base, bs, base', bs', h, h', e⟩ := h
      obtain ⟨m1, b1, w1, _⟩ := C23_write m base bs h a (pairUp d)
      obtain ⟨m2, b2, w2, _⟩ := C23_write m' base' bs' h' a (pairUp d)
      rw [regBytes_pairUp d (by omega)] at w1 w2
      rw [w1, w2, e]

/-- C99: a program cannot tell simulated devices with the same registers apart, whatever the base addresses and blocks of their maps: it
sees the same after every call and leaves the same registers. -/
theorem C99_program (fuel : Nat) (lib : Int → Py ModelType) (next : Transcript → Option Call) (n : Nat) (c d : CliDev MbMap)
    (hv : visible c = visible d) (hm : SameRegisters c.st d.st) :
    (converse mapScanDev fuel lib next n [] c).2 = (converse mapScanDev fuel lib next n [] d).2 ∧
    visible (converse mapScanDev fuel lib next n [] c).1 = visible (converse mapScanDev fuel lib next n [] d).1 ∧
    SameRegisters (converse mapScanDev fuel lib next n [] c).1.st (converse mapScanDev fuel lib next n [] d).1.st := by
  obtain ⟨h1, h2, h3⟩ := converse_alike map_scanAlike lib fuel next n [] (c := c) (d := d) ⟨hv, hm⟩
  exact ⟨h1, h2, h3⟩

/-- A map that can be saved (see `C26_violated`): of holding or input registers, no block empty or before the base address. -/
def Saveable (m : MbMap) : Prop :=
  ∃ base bs, MapOK m base bs ∧ (m.func = 3 ∨ m.func = 4) ∧ (∀ b ∈ bs, b.regs ≠ []) ∧ ∀ b ∈ bs, 0 ≤ b.off

theorem mapWrite_func (m : MbMap) (a : Int) (d : Bytes) : (mapWrite m a d).1.func = m.func := by
  unfold mapWrite
  split
  · rfl
  · split
    · rfl
    · split <;> rfl

theorem write_saveable {m : MbMap} (h : Saveable m) (a : Int) (d : Bytes) : Saveable (mapWrite m a d).1 := by
  by_cases hd : d.length % 2 = 1
  · rw [C23_write_odd m a d hd]; exact h
  · obtain ⟨base, bs, h, hf, hne, h0⟩ := h
    obtain ⟨m1, b1, w1, k1, _, sh⟩ := C23_write m base bs h a (pairUp d)
    have hfu := mapWrite_func m a d
    rw [regBytes_pairUp d (by omega)] at w1
    rw [w1] at hfu ⊢
    dsimp only at hfu ⊢
    have key : ∀ b ∈ b1, ∃ c ∈ bs, c.off = b.off ∧ c.regs.length = b.regs.length := by
      intro b hb
      have := List.mem_map_of_mem (f := fun b : Blk => (b.off, b.regs.length, b.access)) hb
      rw [sh] at this
      obtain ⟨c, hc, e⟩ := List.mem_map.1 this
      simp only [Prod.mk.injEq] at e
      exact ⟨c, hc, e.1, e.2.1⟩
    refine ⟨base, b1, k1, by rw [hfu]; exact hf, ?_, ?_⟩
    · intro b hb he
      obtain ⟨c, hc, _, e⟩ := key b hb
      rw [he] at e
      exact hne c hc (List.length_eq_zero_iff.1 e)
    · intro b hb
      obtain ⟨c, hc, e, _⟩ := key b hb
      rw [← e]; exact h0 c hc

theorem converse_saveable (fuel : Nat) (lib : Int → Py ModelType) (next : Transcript → Option Call) (n : Nat) (c : CliDev MbMap)
    (h : Saveable c.st) : Saveable (converse mapScanDev fuel lib next n [] c).1.st := by
  have hA : ScanAlike mapScanDev mapScanDev (fun s t => s = t ∧ Saveable s) :=
    { read := by rintro s t a n ⟨rfl, h⟩; exact ⟨rfl, rfl, h⟩
      write := by rintro s t a d ⟨rfl, h⟩; exact ⟨.inl rfl, rfl, write_saveable h a d⟩
      conn1 := fun f hf => by cases hf
      conn2 := fun f hf => by cases hf
      disc1 := fun s t h => h
      disc2 := fun s t h => h }
  obtain ⟨_, _, h3⟩ := converse_alike hA lib fuel next n [] (c := c) (d := c) ⟨rfl, rfl, h⟩
  exact h3.2

/-- C99: a program may save the map of a simulated device at any time and go on with the map loaded from the document: it sees the same
as if it had gone on with the map itself, and the map keeps holding the same registers (provided that the map can be saved: see
`C26_violated`). `n0` calls have been made before, `n` follow. -/
theorem C99_reload_partial (F : FloatText) (fuel : Nat) (lib : Int → Py ModelType) (next0 next : Transcript → Option Call) (n0 n : Nat)
    (c c1 : CliDev MbMap) (hc : Saveable c.st) (fresh : MbMap) (hfresh : fresh.regs = [])
    (h1 : (converse mapScanDev fuel lib next0 n0 [] c).1 = c1) :
    ∃ doc m', toXml c1.st false = .ok doc ∧ fromXml F fresh doc = (m', .ok ()) ∧
      (converse mapScanDev fuel lib next n [] { c1 with st := m' }).2 = (converse mapScanDev fuel lib next n [] c1).2 ∧
      SameRegisters (converse mapScanDev fuel lib next n [] { c1 with st := m' }).1.st (converse mapScanDev fuel lib next n [] c1).1.st := by
  have hs := converse_saveable fuel lib next0 n0 c hc
  rw [h1] at hs
  obtain ⟨base, bs, h, hf, hne, h0⟩ := hs
  obtain ⟨doc, m', e1, e2, ⟨bs', h3, h4⟩, _⟩ := C26_roundtrip_partial F c1.st fresh hfresh base bs h hf hne h0
  have key := C99_program fuel lib next n { c1 with st := m' } c1 rfl ⟨base, bs', base, bs, h3, h, h4⟩
  exact ⟨doc, m', e1, e2, key.1, key.2.2⟩

/-- Non-vacuity: the program of C73 writes to the map `scanMap` before it is saved. -/
example : ∃ doc m', toXml (converse mapScanDev 9 exLib exProgram 8 [] { st := scanMap }).1.st false = .ok doc ∧
    fromXml noFloats newMap doc = (m', .ok ()) ∧
    (converse mapScanDev 9 exLib exProgram 8 [] { (converse mapScanDev 9 exLib exProgram 8 [] { st := scanMap }).1 with st := m' }).2 =
      (converse mapScanDev 9 exLib exProgram 8 [] (converse mapScanDev 9 exLib exProgram 8 [] { st := scanMap }).1).2 := by
  obtain ⟨doc, m', a, b, c, _⟩ := C99_reload_partial noFloats 9 exLib exProgram exProgram 8 8 { st := scanMap } _
    ⟨40000, _, scanMap_ok, by decide +kernel, by decide +kernel, by decide +kernel⟩ newMap rfl rfl
  exact ⟨doc, m', a, b, c⟩

/-- The program has returned from all its calls, the write among them. -/
example : (converse mapScanDev 9 exLib exProgram 8 [] { st := scanMap }).2.map (fun x => x.1) =
    [.returned, .returned, .returned, .returned, .returned] ∧
    (converse mapScanDev 9 exLib exProgram 8 [] { st := scanMap }).1.st ≠ scanMap := by
  decide +kernel

end Verif
