import Verif.Lemmas.Alike
import Verif.Props.Rtu
import Verif.Props.Scan

/-!
# C73: a program cannot tell a serial line from a network connection
-/

namespace Verif
open Verif.Spec

/-- C73: let an RTU slave and a TCP server conform to Modbus and hold the same registers. Then every program, which may choose
each call by all it has seen so far, sees the same in both cases: the same outcome of each call and the same base address, models
and values after it; and it leaves the same registers. Only the class of the exception raised by a failing write is not
compared: see `C73_exception_violated`. The connection may be open or not (`Idle`: no unread reply is left on it). -/
theorem C73_program {α β} {slave : Slave α} {a1 : α → Mem} {sid : Byte} (hc1 : ConformsRtu slave a1 sid)
    {srv : TcpServer β} {a2 : β → Mem} {unit : Byte} (hc2 : ConformsTcp srv.accept srv.react a2 unit)
    (fuel : Nat) (lib : Int → Py ModelType) (next : Transcript → Option Call) (n : Nat)
    (c : CliDev (Line α)) (d : CliDev (Tcp β))
    (hv : visible c = visible d) (hm : a1 c.st.dev = a2 d.st.dev) (hi : Idle d.st) :
    (converse (rtuScanDev slave sid.toNat) fuel lib next n [] c).2 = (converse (tcpScanDev srv unit.toNat) fuel lib next n [] d).2 ∧
    visible (converse (rtuScanDev slave sid.toNat) fuel lib next n [] c).1 =
      visible (converse (tcpScanDev srv unit.toNat) fuel lib next n [] d).1 ∧
    a1 (converse (rtuScanDev slave sid.toNat) fuel lib next n [] c).1.st.dev =
      a2 (converse (tcpScanDev srv unit.toNat) fuel lib next n [] d).1.st.dev := by
  obtain ⟨h1, h2, h3⟩ := converse_alike (rtu_tcp_scanAlike hc1 hc2) lib fuel next n [] (c := c) (d := d) ⟨hv, hm, hi⟩
  exact ⟨h1, h2, h3.1⟩

/-- C73, one request: reading any registers gives the same result, exceptions included, and so does writing of at most 125
registers; both leave the same registers. -/
theorem C73_request {α β} {slave : Slave α} {a1 : α → Mem} {sid : Byte} (hc1 : ConformsRtu slave a1 sid)
    {srv : TcpServer β} {a2 : β → Mem} {unit : Byte} (hc2 : ConformsTcp srv.accept srv.react a2 unit)
    (l : Line α) (t : Tcp β) (hm : a1 l.dev = a2 t.dev) (hi : Idle t) :
    (∀ a n, ((rtuDev slave sid.toNat).read l a n).2 = ((tcpDev srv unit.toNat).read t a n).2 ∧
      a1 ((rtuDev slave sid.toNat).read l a n).1.dev = a2 ((tcpDev srv unit.toNat).read t a n).1.dev) ∧
    ∀ a d, (d.length ≤ 250 → ((rtuDev slave sid.toNat).write l a d).2 = ((tcpDev srv unit.toNat).write t a d).2) ∧
      a1 ((rtuDev slave sid.toNat).write l a d).1.dev = a2 ((tcpDev srv unit.toNat).write t a d).1.dev := by
  refine ⟨fun a n => ?_, fun a d => ?_⟩
  · obtain ⟨h1, h2⟩ := (rtu_tcp_alike hc1 hc2).read l t a n ⟨hm, hi⟩
    exact ⟨h1, h2.1⟩
  · obtain ⟨h1, h2⟩ := write_alike hc1 hc2 a d l t ⟨hm, hi⟩
    exact ⟨h1.1, h2.1⟩

/-- The memory of a device with the two models of `scanMap`. -/
def scanMem : Mem := fun a =>
  if 40000 ≤ a then ((scanRegs.map fun r => r.1 ++ r.2)[a - 40000]?).getD 0 else 0

/-- A program: scan, read everything, assign 7 to the first point of the first model if it has read 100 there, write the model,
read it again. -/
def exProgram (tr : Transcript) : Option Call :=
  match tr.length with
  | 0 => some (.scan fun _ _ => true)
  | 1 => some .readAll
  | 2 =>
    match tr.getLast? with
    | some (.returned, v) =>
      if (v.list.flatMap fun m => m.blocks.flatMap fun b => b.pts.map fun p => p.base).head? = some (some (.int 100)) then
        some (.edit fun ms => ms.map (mapPts fun p => if p.base = some (.int 100) then { p with base := some (.int 7), dirty := true } else p))
      else none
    | _ => none
  | 3 => some (.writeModel 0)
  | 4 => some (.readModel 0)
  | _ => none

/-- Non-vacuity: on the network the program runs to its end, and 7 is in the register afterwards... -/
theorem exProgram_tcp :
    (converse (tcpScanDev (drippingServer 9) (9 : Byte).toNat) 9 exLib exProgram 8 [] { st := freshTcp scanMem }).2.map (fun x => x.1) =
      [.returned, .returned, .returned, .returned, .returned] ∧
    (converse (tcpScanDev (drippingServer 9) (9 : Byte).toNat) 9 exLib exProgram 8 [] { st := freshTcp scanMem }).1.st.dev 40004 = 7 := by
  decide +kernel

/-- ...hence also on a serial line, where the replies come byte by byte. -/
example : (converse (rtuScanDev (drippingSlave 7) (7 : Byte).toNat) 9 exLib exProgram 8 [] { st := ⟨scanMem, []⟩ }).2.map (fun x => x.1) =
      [.returned, .returned, .returned, .returned, .returned] ∧
    (converse (rtuScanDev (drippingSlave 7) (7 : Byte).toNat) 9 exLib exProgram 8 [] { st := ⟨scanMem, []⟩ }).1.st.dev 40004 = 7 := by
  obtain ⟨h1, h2, h3⟩ := C73_program (drippingSlave_conforms 7) (drippingServer_conforms 9) 9 exLib exProgram 8
    { st := ⟨scanMem, []⟩ } { st := freshTcp scanMem } rfl rfl (.inl rfl)
  rw [h1]
  refine ⟨exProgram_tcp.1, ?_⟩
  rw [← exProgram_tcp.2]
  exact congrFun h3 40004

/-- With the class of the exception, C73 is violated: writing more than 125 registers at once raises `SunSpecClientError` on a
serial line (the slave refuses 125 registers) and `UnboundLocalError` on the network (see C18). -/
theorem C73_exception_violated {α β} {slave : Slave α} {a1 : α → Mem} {sid : Byte} (hc1 : ConformsRtu slave a1 sid)
    {srv : TcpServer β} {a2 : β → Mem} {unit : Byte} (hc2 : ConformsTcp srv.accept srv.react a2 unit)
    (l : Line α) (t : Tcp β) (hm : a1 l.dev = a2 t.dev) (hi : Idle t) (a : Int) (ha : 0 ≤ a ∧ a < 65536) (d : Bytes)
    (hd : 250 < d.length) :
    (cdWrite (rtuDev slave sid.toNat) l a d).2 = .error .sunSpecClientError ∧
    (cdWrite (tcpDev srv unit.toNat) t a d).2 = .error .unboundLocal := by
  obtain ⟨⟨_, h1⟩, _⟩ := write_alike hc1 hc2 a d l t ⟨hm, hi⟩
  obtain ⟨e, h2, h3, h4⟩ := h1 hd
  rw [h3 ha] at h2
  exact ⟨congrArg cdWrap h2, congrArg cdWrap h4⟩

example := C73_exception_violated (drippingSlave_conforms 7) (drippingServer_conforms 9) ⟨exMem, []⟩ (freshTcp exMem) rfl (.inl rfl)
  40000 ⟨by decide, by decide⟩ (List.replicate 252 0) (by rw [List.length_replicate]; decide)

example := C73_request (drippingSlave_conforms 7) (drippingServer_conforms 9) ⟨exMem, []⟩ (freshTcp exMem) rfl (.inl rfl)

end Verif
