import Verif.Lemmas.Mimic
import Verif.Props.Alike

/-!
# C82: what works on a simulated device works on a real one
-/

namespace Verif
open Verif.Spec

theorem memRegs_mono {m1 m2 : RegMem} (h : ∀ a r, m1 a = some r → m2 a = some r) {n : Nat} {a : Int} {rs : List Reg}
    (e : memRegs m1 a n = some rs) : memRegs m2 a n = some rs := by
  induction n generalizing a rs with
  | zero => exact e
  | succ n ih =>
    unfold memRegs at e ⊢
    rcases h1 : m1 a with _ | r
    · rw [h1] at e; simp at e
    · rcases h2 : memRegs m1 (a + 1) n with _ | l
      · rw [h1, h2] at e; cases e
      · rw [h1, h2] at e
        rw [h a r h1, ih h2]
        exact e

theorem memStore_true {m : RegMem} {a : Int} {rs : List Reg} (h : (memStore m a rs).2 = true) : memRegs m a rs.length ≠ none := by
  rw [memRegs_iff]
  induction rs generalizing m a with
  | nil => intro x h1 h2; simp at h2; omega
  | cons r rs ih =>
    intro x h1 h2
    rw [memStore] at h
    cases hm : m a with
    | none => rw [hm] at h; cases h
    | some q =>
      rw [hm] at h
      by_cases hx : x = a
      · rw [hx, hm]; simp
      · have := ih h x (by omega) (by simp only [List.length_cons] at h2; push_cast at h2; omega)
        simpa [memSet, hx] using this

theorem map_mimics {σ} {dev : ScanDev σ} {R : σ → RegMem → Prop} {wr : Nat → Prop} [DecidablePred wr] (hdev : ScanMem dev R wr) :
    ScanMimics (restricted wr mapScanDev) dev (fun m t => ∃ mem, R t mem ∧ PartOf m mem) where
  conn1 := rfl
  conn2 := by
    rintro f hf s t ⟨mem, h1, h2⟩
    obtain ⟨t', h3, h4⟩ := hdev.conn f hf t mem h1
    rw [h3]
    exact ⟨rfl, mem, h4, h2⟩
  disc2 := by
    rintro s t ⟨mem, h1, h2⟩
    exact ⟨mem, hdev.disc _ _ h1, h2⟩
  read := by
    rintro m t a n s' d ⟨mem, h1, base, bs, h2, h3⟩ e
    have e' : (m, (mapRead m a n none).map some) = (s', Except.ok d) := e
    rw [Prod.mk.injEq] at e'
    obtain ⟨rfl, e'⟩ := e'
    rcases Int.lt_or_le n 0 with hn | hn
    · rw [C23_read_negative m base bs h2 a n hn] at e'; cases e'
    · obtain ⟨k, rfl⟩ : ∃ k : Nat, n = k := ⟨n.toNat, by omega⟩
      rw [C23_read m base bs h2] at e'
      cases hrs : memRegs (mapMem base bs) a k with
      | none => rw [hrs] at e'; cases e'
      | some rs =>
        rw [hrs] at e'
        cases e'
        obtain ⟨t', r1, r2⟩ := hdev.mem.read t mem a k rs h1 (memRegs_mono h3 hrs)
        exact ⟨t', r1, mem, r2, base, bs, h2, h3⟩
  write := by
    rintro m t a d s' ⟨mem, h1, base, bs, h2, h3⟩ e
    have e' : (if d.length % 2 = 0 ∧ wr (d.length / 2) then mapWrite m a d else (m, .error .modbusMapError)) = (s', .ok ()) := e
    by_cases hc : d.length % 2 = 0 ∧ wr (d.length / 2)
    · rw [if_pos hc] at e'
      have hd := regBytes_pairUp d hc.1
      obtain ⟨m', bs', w1, w2, w3, _⟩ := C23_write m base bs h2 a (pairUp d)
      rw [hd] at w1
      rw [w1] at e'
      by_cases hst : (memStore (mapMem base bs) a (pairUp d)).2
      · rw [if_pos hst, Prod.mk.injEq] at e'
        obtain ⟨rfl, _⟩ := e'
        have hex := memStore_true hst
        have hex2 : memRegs mem a (pairUp d).length ≠ none := by
          obtain ⟨rs, hrs⟩ := Option.ne_none_iff_exists'.1 hex
          rw [memRegs_mono h3 hrs]; simp
        have hlen : d.length / 2 = (pairUp d).length := by
          have := congrArg List.length hd
          rw [regBytes_length] at this
          omega
        obtain ⟨t', r1, r2⟩ := hdev.mem.write t mem a (pairUp d) h1 (hlen ▸ hc.2) hex2
        rw [hd] at r1
        refine ⟨t', r1, _, r2, base, bs', w2, ?_⟩
        intro x r hx
        rw [w3, memStore_all _ _ _ hex] at hx
        rw [memStore_all _ _ _ hex2]
        dsimp only at hx ⊢
        split at hx
        · rw [if_pos (by assumption)]; exact hx
        · rw [if_neg (by assumption)]; exact h3 _ _ hx
      · rw [if_neg hst, Prod.mk.injEq] at e'
        exact absurd e'.2 (by simp)
    · rw [if_neg hc, Prod.mk.injEq] at e'
      exact absurd e'.2 (by simp)
  err := by
    rintro m t a n s' e ⟨mem, h1, base, bs, h2, h3⟩ he
    have he' : (m, (mapRead m a n none).map some) = (s', Except.error e) := he
    rw [Prod.mk.injEq] at he'
    have : e = .modbusMapError := by
      rcases Int.lt_or_le n 0 with hn | hn
      · rw [C23_read_negative m base bs h2 a n hn] at he'
        exact (Except.error.inj he'.2).symm
      · obtain ⟨k, rfl⟩ : ∃ k : Nat, n = k := ⟨n.toNat, by omega⟩
        rw [C23_read m base bs h2] at he'
        cases hrs : memRegs (mapMem base bs) a k with
        | none => rw [hrs] at he'; exact (Except.error.inj he'.2).symm
        | some rs => rw [hrs] at he'; exact absurd he'.2 (by simp [Except.map])
    subst this
    simp [cdWrap, Exc.isModbusClient]

/-- C82: a program, which may choose each call by all it has seen so far, is run on a mapped device; it writes between 1 and 123 registers at a time
and no call raises. Then it does the same on every real device that behaves as a register memory of which the map is a part (it may have more
registers): each call returns, with the same base address, models and values after it; and afterwards the map is still a part of the memory of the device,
that is, the program has stored the same. -/
theorem C82_program_partial {σ} {dev : ScanDev σ} {R : σ → RegMem → Prop} (hdev : ScanMem dev R OneWrite)
    (fuel : Nat) (lib : Int → Py ModelType) (next : Transcript → Option Call) (n : Nat)
    (c : CliDev MbMap) (d : CliDev σ) (hv : visible c = visible d) (mem : RegMem) (hmem : R d.st mem) (hpart : PartOf c.st mem)
    (hok : NoException (converse (restricted OneWrite mapScanDev) fuel lib next n [] c).2) :
    (converse dev fuel lib next n [] d).2 = (converse (restricted OneWrite mapScanDev) fuel lib next n [] c).2 ∧
    ∃ mem', R (converse dev fuel lib next n [] d).1.st mem' ∧
      PartOf (converse (restricted OneWrite mapScanDev) fuel lib next n [] c).1.st mem' := by
  obtain ⟨h1, _, h3⟩ := converse_mimics (map_mimics hdev) lib fuel next n [] (c := c) (d := d) ⟨hv, mem, hmem, hpart⟩ hok
  exact ⟨h1, h3⟩

/-- C82 for a conforming slave on a serial line. -/
theorem C82_rtu_partial {σ} {slave : Slave σ} {abs : σ → Mem} {sid : Byte} (hc : ConformsRtu slave abs sid)
    (fuel : Nat) (lib : Int → Py ModelType) (next : Transcript → Option Call) (n : Nat)
    (c : CliDev MbMap) (d : CliDev (Line σ)) (hv : visible c = visible d) (hpart : PartOf c.st (regMem (abs d.st.dev)))
    (hok : NoException (converse (restricted OneWrite mapScanDev) fuel lib next n [] c).2) :
    (converse (rtuScanDev slave sid.toNat) fuel lib next n [] d).2 = (converse (restricted OneWrite mapScanDev) fuel lib next n [] c).2 ∧
    PartOf (converse (restricted OneWrite mapScanDev) fuel lib next n [] c).1.st
      (regMem (abs (converse (rtuScanDev slave sid.toNat) fuel lib next n [] d).1.st.dev)) := by
  obtain ⟨h1, mem, h2, h3⟩ := C82_program_partial (rtuScan_mem hc) fuel lib next n c d hv _ rfl hpart hok
  exact ⟨h1, h2 ▸ h3⟩

/-- C82 for a conforming server on the network, the connection being open or not. -/
theorem C82_tcp_partial {σ} {srv : TcpServer σ} {abs : σ → Mem} {unit : Byte} (hc : ConformsTcp srv.accept srv.react abs unit)
    (fuel : Nat) (lib : Int → Py ModelType) (next : Transcript → Option Call) (n : Nat)
    (c : CliDev MbMap) (d : CliDev (Tcp σ)) (hv : visible c = visible d) (hi : Idle d.st) (hpart : PartOf c.st (regMem (abs d.st.dev)))
    (hok : NoException (converse (restricted OneWrite mapScanDev) fuel lib next n [] c).2) :
    (converse (tcpScanDev srv unit.toNat) fuel lib next n [] d).2 = (converse (restricted OneWrite mapScanDev) fuel lib next n [] c).2 ∧
    PartOf (converse (restricted OneWrite mapScanDev) fuel lib next n [] c).1.st
      (regMem (abs (converse (tcpScanDev srv unit.toNat) fuel lib next n [] d).1.st.dev)) := by
  obtain ⟨h1, mem, h2, h3⟩ := C82_program_partial (tcpScan_mem hc) fuel lib next n c d hv _ ⟨hi, rfl⟩ hpart hok
  exact ⟨h1, h2.2 ▸ h3⟩

/-- The restriction to writes of 1 to 123 registers changes nothing for programs to which C82 applies: on the mapped device itself they see the
same, too. -/
theorem C82_restriction (fuel : Nat) (lib : Int → Py ModelType) (next : Transcript → Option Call) (n : Nat)
    (c : CliDev MbMap) (base : Int) (bs : List Blk) (hm : MapOK c.st base bs)
    (hok : NoException (converse (restricted OneWrite mapScanDev) fuel lib next n [] c).2) :
    (converse mapScanDev fuel lib next n [] c).2 = (converse (restricted OneWrite mapScanDev) fuel lib next n [] c).2 :=
  (C82_program_partial (dev := mapScanDev)
    ⟨⟨(mapScan_mem base).mem.read, fun s mem a rs h1 _ h2 => (mapScan_mem base).mem.write s mem a rs h1 trivial h2⟩,
      (mapScan_mem base).conn, (mapScan_mem base).disc⟩
    fuel lib next n c c rfl (mapMem base bs) ⟨bs, hm, rfl⟩ ⟨base, bs, hm, fun _ _ h => h⟩ hok).1

/-- The map of the two models of `scanMap` is a part of the memory `scanMem`. -/
theorem scanMap_part : PartOf scanMap (regMem scanMem) := by
  refine ⟨40000, _, scanMap_ok, fun a r h => ?_⟩
  have hb : 40000 ≤ a ∧ a < 40013 := by
    unfold mapMem blkMem at h
    split at h
    · rename_i hc
      have : (Blk.stop ⟨0, scanRegs, t!"r"⟩) = 13 := by decide
      rw [this] at hc
      dsimp only at hc
      omega
    · cases h
  obtain ⟨k, rfl, hk⟩ : ∃ k : Nat, a = 40000 + k ∧ k < 13 := ⟨(a - 40000).toNat, by omega, by omega⟩
  have key : ∀ k < 13, mapMem 40000 [⟨0, scanRegs, t!"r"⟩] (40000 + (k : Nat)) = regMem scanMem (40000 + (k : Nat)) := by decide +kernel
  rw [← key k hk]
  exact h

/-- Non-vacuity: the program of C73 (scan, read, assign, write, read again) runs on the map without exception... -/
theorem exProgram_map :
    (converse (restricted OneWrite mapScanDev) 9 exLib exProgram 8 [] { st := scanMap }).2.map (fun x => x.1) =
      [.returned, .returned, .returned, .returned, .returned] := by
  decide +kernel

/-- ...hence also on a serial line. -/
example : (converse (rtuScanDev (drippingSlave 7) (7 : Byte).toNat) 9 exLib exProgram 8 [] { st := ⟨scanMem, []⟩ }).2.map (fun x => x.1) =
      [.returned, .returned, .returned, .returned, .returned] := by
  rw [(C82_rtu_partial (drippingSlave_conforms 7) 9 exLib exProgram 8 { st := scanMap } { st := ⟨scanMem, []⟩ } rfl scanMap_part ?_).1]
  · exact exProgram_map
  · intro x hx
    have := List.mem_map_of_mem (f := fun x => x.1) hx
    rw [exProgram_map] at this
    simpa using this

/-- The full property, without the limit of 123 registers per write, for devices on the network. -/
def C82_full : Prop :=
  ∀ (σ : Type) (srv : TcpServer σ) (abs : σ → Mem) (unit : Byte), ConformsTcp srv.accept srv.react abs unit →
    ∀ (fuel : Nat) (lib : Int → Py ModelType) (next : Transcript → Option Call) (n : Nat) (c : CliDev MbMap) (d : CliDev (Tcp σ)),
    visible c = visible d → Idle d.st → PartOf c.st (regMem (abs d.st.dev)) →
    NoException (converse mapScanDev fuel lib next n [] c).2 →
    (converse (tcpScanDev srv unit.toNat) fuel lib next n [] d).2 = (converse mapScanDev fuel lib next n [] c).2

/-- A model with one string of 124 registers, which has been assigned. -/
def longText : MdlObj :=
  { id := 900, addr := 40002, len := 124,
    blocks := [⟨⟨false, .int 124, [], []⟩, 40002, 124, 0,
      [{ pt := { id := t!"A", offset := 0, type := .string, len := 124 }, addr := 40002, base := some (.str (List.replicate 248 'x')), dirty := true }], []⟩] }

/-- 124 registers with contents 0. -/
def longMap : MbMap := { newMap with base := .int 40002, regs := [⟨.int 0, .int 124, some (List.replicate 248 0), (t!"rw")⟩] }

def writeOnce (tr : Transcript) : Option Call := if tr = [] then some (.writeModel 0) else none

theorem longMap_ok : MapOK longMap 40002 [⟨0, List.replicate 124 (0, 0), t!"rw"⟩] :=
  ⟨by decide +kernel, by decide +kernel, by simp [Gapped]⟩

theorem longMap_part : PartOf longMap (regMem fun _ => 0) := by
  refine ⟨40002, _, longMap_ok, fun a r h => ?_⟩
  unfold mapMem blkMem at h
  split at h
  · rename_i hc
    have hs : (Blk.stop ⟨0, List.replicate 124 (0, 0), t!"rw"⟩) = 124 := by simp [Blk.stop]
    rw [hs] at hc
    dsimp only at hc h
    rw [List.getElem?_replicate] at h
    split at h
    · cases h
      unfold regMem
      rw [if_pos (by omega)]
      simp
    · cases h
  · cases h

/-- C82 is violated beyond 123 registers: a text of 124 registers, written on the mapped device, cannot be written on the network (C51: the
client sends a request for 124 registers, which the protocol does not allow). -/
theorem C82_violated : ¬ C82_full := by
  intro h
  have h1 := h Mem (drippingServer 9) id 9 (drippingServer_conforms 9) 9 exLib writeOnce 1
    { st := longMap, list := [longText] } { st := freshTcp fun _ => 0, list := [longText] } rfl (.inl rfl) longMap_part
  have e1 : (converse mapScanDev 9 exLib writeOnce 1 [] { st := longMap, list := [longText] }).2.map (fun x => x.1) = [.returned] := by
    decide +kernel
  have e2 : (converse (tcpScanDev (drippingServer 9) (9 : Byte).toNat) 9 exLib writeOnce 1 [] { st := freshTcp fun _ => 0, list := [longText] }).2.map
      (fun x => x.1) = [.writeFailed] := by
    decide +kernel
  rw [h1 (by
    intro x hx
    have := List.mem_map_of_mem (f := fun x => x.1) hx
    rw [e1] at this
    simpa using this)] at e2
  rw [e1] at e2
  exact absurd e2 (by decide)

end Verif
