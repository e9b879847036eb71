import Verif.Model.Mbmap
import Verif.Spec.Memory

/-!
# Specification: register maps as register memory
-/

namespace Verif
open Spec

/-- A regular block: integer offset and count, and data of the right length. -/
structure Blk where
  off : Int
  regs : List Reg
  access : Text

/-- The `ModbusMapRegs` object of a block. -/
def Blk.toRegs (b : Blk) : Regs := ⟨.int b.off, .int b.regs.length, some (regBytes b.regs), b.access⟩

/-- First offset after a block. -/
def Blk.stop (b : Blk) : Int := b.off + b.regs.length

/-- Blocks in ascending order with gaps between them. -/
def Gapped (bs : List Blk) : Prop := bs.Pairwise fun a b => a.stop < b.off

/-- The register at an offset of a list of blocks. -/
def blkMem : List Blk → RegMem
  | [], _ => none
  | b :: bs, o => if b.off ≤ o ∧ o < b.stop then b.regs[(o - b.off).toNat]? else blkMem bs o

/-- The map `m` has base address `base` and consists of the register blocks `bs`: ascending, with gaps between
them. -/
structure MapOK (m : MbMap) (base : Int) (bs : List Blk) : Prop where
  base : m.base.toInt = .ok base
  regs : m.regs = bs.map Blk.toRegs
  gapped : Gapped bs

/-- The register memory of a map with blocks `bs` at `base`. -/
def mapMem (base : Int) (bs : List Blk) : RegMem := fun a => blkMem bs (a - base)

/-- Registers from bytes. -/
def pairUp : Bytes → List Reg
  | a :: b :: d => (a, b) :: pairUp d
  | _ => []

/-- An access to a map. -/
inductive MapOp where
  | read (addr count : Int)
  | write (addr : Int) (data : Bytes)

/-- An access according to the code. -/
def mapStep (m : MbMap) : MapOp → MbMap × Py Bytes
  | .read a n => (m, mapRead m a n none)
  | .write a d => match mapWrite m a d with
    | (m', .ok _) => (m', .ok [])
    | (m', .error e) => (m', .error e)

/-- An access according to the specification: a read returns the registers if they all exist; a write stores
its registers one after the other until a register does not exist. -/
def memStep (mem : RegMem) : MapOp → RegMem × Py Bytes
  | .read a n =>
    if n < 0 then (mem, .error .modbusMapError)
    else match memRegs mem a n.toNat with
      | some rs => (mem, .ok (regBytes rs))
      | none => (mem, .error .modbusMapError)
  | .write a d =>
    if d.length % 2 ≠ 0 then (mem, .error .modbusMapError)
    else match memStore mem a (pairUp d) with
      | (mem', true) => (mem', .ok [])
      | (mem', false) => (mem', .error .modbusMapError)

/-- The results of a history of accesses. -/
def mapRun (m : MbMap) : List MapOp → MbMap × List (Py Bytes)
  | [] => (m, [])
  | o :: os => let (m', r) := mapStep m o; let (m'', rs) := mapRun m' os; (m'', r :: rs)

/-- The results of a history of accesses, according to the specification. -/
def memRun (mem : RegMem) : List MapOp → RegMem × List (Py Bytes)
  | [] => (mem, [])
  | o :: os => let (m', r) := memStep mem o; let (m'', rs) := memRun m' os; (m'', r :: rs)

end Verif
