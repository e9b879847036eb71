import Verif.Spec.Alike
import Verif.Model.Devices

/-!
# Specification: several devices on one serial line, used by several programs

The devices of a serial line have ids; each holds its own state and reacts in its own way, conforming to Modbus or not. Programs
share the line: each uses its own `ClientDevice` object. The calls of the programs come in any order.
-/

namespace Verif.Spec
open Verif

/-- A serial line with a device of each id in `slaves`, device `b` being in state `d b`. A request names the device it is for in
its first byte: only this device acts and answers. Id 0 is for all devices: all act, none answers. -/
def bus {σ} (slaves : Byte → Slave σ) : Slave (Byte → σ) := fun d req =>
  match req with
  | [] => (d, some [])
  | b :: _ =>
    if b = 0 then (fun k => (slaves k (d k) req).1, some [])
    else (fun k => if k = b then (slaves b (d b) req).1 else d k, (slaves b (d b) req).2)

/-- The same line where the answers of the devices in `slow` come too late for the client, which has given up waiting: they are
received during the next exchange, before the answer to it. -/
def lateBus {σ} (slaves : Byte → Slave σ) (slow : Byte → Bool) : Slave (List Bytes × (Byte → σ)) := fun s req =>
  let r := bus slaves s.2 req
  if (req.head?.map slow).getD false then ((r.2.getD [], r.1), some s.1)
  else (([], r.1), r.2.map fun answer => s.1 ++ answer)

/-- A program that uses a device. -/
structure User where
  /-- a bound on the models of one scan -/
  fuel : Nat
  /-- the model definitions -/
  lib : Int → Py ModelType
  /-- the next call, given all it has seen -/
  next : Transcript → Option Call

/-- A device object whose line (connection, device) is in state `s`. -/
def onLine {σ} (c : CliDev Unit) (s : σ) : CliDev σ := ⟨s, c.base, c.bases, c.list, c.dict⟩

/-- The line, and for each program its device object and what it has seen. A program goes by the id of the device it uses. -/
structure Station (σ : Type) where
  line : Line (Byte → σ)
  obj : Byte → CliDev Unit
  seen : Byte → Transcript

/-- The program of device `b` makes its next call, if it has not ended. -/
def Station.step {σ} (slaves : Byte → Slave σ) (users : Byte → User) (st : Station σ) (b : Byte) : Station σ :=
  match (users b).next (st.seen b) with
  | none => st
  | some call =>
    let r := perform (rtuScanDev (bus slaves) b.toNat) (users b).fuel (users b).lib (onLine (st.obj b) st.line) call
    { line := r.1.st
      obj := fun i => if i = b then visible r.1 else st.obj i
      seen := fun i => if i = b then st.seen b ++ [(r.2, visible r.1)] else st.seen i }

/-- The calls of the programs in the order of the schedule. -/
def Station.run {σ} (slaves : Byte → Slave σ) (users : Byte → User) (sched : List Byte) (st : Station σ) : Station σ :=
  sched.foldl (Station.step slaves users) st

/-- The requests for device `b`. -/
def requestsFor (b : Byte) (sent : List Bytes) : List Bytes := sent.filter fun r => r.head? == some b

end Verif.Spec
