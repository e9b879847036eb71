import Verif.Model.Scan
import Verif.Spec.Tcp

/-!
# Specification: programs that use a device, whatever its transport

A program calls the methods of a `ClientDevice` and of its models and points, one after the other; which call comes next may
depend on everything the program can see: the outcomes of the calls so far and the models with their values after each.
-/

namespace Verif.Spec
open Verif

/-- A call of a program. Models are numbered as in `models_list`, blocks as in `blocks`, points as in `points_list`. -/
inductive Call where
  /-- `device.scan(progress)` -/
  | scan (progress : List MdlObj → Int → Bool)
  /-- `device.read_points()` -/
  | readAll
  /-- `device.models_list[i].read_points()` -/
  | readModel (i : Nat)
  /-- `device.models_list[i].write_points()` -/
  | writeModel (i : Nat)
  /-- `device.models_list[i].blocks[j].points_list[k].write()` -/
  | writePoint (i j k : Nat)
  /-- whatever the program does with the models in memory, such as assigning values -/
  | edit (f : List MdlObj → List MdlObj)

/-- The outcome of a call as the program sees it: it returns, or it raises. Which exception a write raises is left out. -/
inductive Seen where
  | returned
  | raised (e : Exc)
  | writeFailed
  deriving DecidableEq

def Seen.ofRead : Py Unit → Seen
  | .ok _ => .returned
  | .error e => .raised e

def Seen.ofWrite : Py Unit → Seen
  | .ok _ => .returned
  | .error _ => .writeFailed

/-- All that a program sees of a device object: base address, the addresses to probe, models and values (not the state `st`
of line, connection and device). -/
def visible {σ} (c : CliDev σ) : CliDev Unit := ⟨(), c.base, c.bases, c.list, c.dict⟩

/-- One call. Model definitions come from `lib`. A call on a model, block or point that does not exist does nothing. -/
def perform {σ} (dev : ScanDev σ) (fuel : Nat) (lib : Int → Py ModelType) (c : CliDev σ) : Call → CliDev σ × Seen
  | .scan progress => ((scan fuel dev lib progress c).1, .ofRead (scan fuel dev lib progress c).2)
  | .readAll =>
    let r := readModels dev.toMbDev c.list c.st
    ({ c with st := r.1, list := r.2.1 }, .ofRead r.2.2)
  | .readModel i =>
    match c.list[i]? with
    | none => (c, .returned)
    | some m =>
      let r := readPoints dev.toMbDev c.st m
      ({ c with st := r.1, list := c.list.set i r.2.1 }, .ofRead r.2.2)
  | .writeModel i =>
    match c.list[i]? with
    | none => (c, .returned)
    | some m =>
      let r := writePoints dev.toMbDev c.st m
      ({ c with st := r.1, list := c.list.set i r.2.1 }, .ofWrite r.2.2)
  | .writePoint i j k =>
    match c.list[i]? with
    | none => (c, .returned)
    | some m =>
      match m.blocks[j]? with
      | none => (c, .returned)
      | some b =>
        match b.pts[k]? with
        | none => (c, .returned)
        | some p =>
          let r := writePoint dev.toMbDev c.st p
          ({ c with st := r.1, list := c.list.set i { m with blocks := m.blocks.set j { b with pts := b.pts.set k r.2.1 } } },
            .ofWrite r.2.2)
  | .edit f => ({ c with list := f c.list }, .returned)

/-- What a program has seen: the outcome of each call and what was visible after it. -/
abbrev Transcript := List (Seen × CliDev Unit)

/-- At most `n` calls of the program that chooses its next call, if any, by `next`. -/
def converse {σ} (dev : ScanDev σ) (fuel : Nat) (lib : Int → Py ModelType) (next : Transcript → Option Call) :
    Nat → Transcript → CliDev σ → CliDev σ × Transcript
  | 0, tr, c => (c, tr)
  | n + 1, tr, c =>
    match next tr with
    | none => (c, tr)
    | some call =>
      let r := perform dev fuel lib c call
      converse dev fuel lib next n (tr ++ [(r.2, visible r.1)]) r.1

end Verif.Spec
