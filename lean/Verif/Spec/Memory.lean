import Verif.Py.Basic

/-!
# Specification: register memory

A partial map from register addresses to 16 bit registers (high byte, low byte).
-/

namespace Verif.Spec
open Verif

/-- A register: high and low byte. -/
abbrev Reg := Byte × Byte

/-- Register memory; `none` is an address without a register. -/
abbrev RegMem := Int → Option Reg

/-- The bytes of registers. -/
def regBytes (rs : List Reg) : Bytes := rs.flatMap fun r => [r.1, r.2]

/-- The `n` registers from `addr` on, if they all exist. -/
def memRegs (mem : RegMem) (addr : Int) : Nat → Option (List Reg)
  | 0 => some []
  | n + 1 =>
    match mem addr, memRegs mem (addr + 1) n with
    | some r, some rs => some (r :: rs)
    | _, _ => none

/-- Memory with one register changed. -/
def memSet (mem : RegMem) (addr : Int) (r : Reg) : RegMem := fun a => if a = addr then some r else mem a

/-- Store registers one after the other from `addr` on, until done (`true`) or until a register does
not exist (`false`). -/
def memStore (mem : RegMem) (addr : Int) : List Reg → RegMem × Bool
  | [] => (mem, true)
  | r :: rs =>
    match mem addr with
    | none => (mem, false)
    | some _ => memStore (memSet mem addr r) (addr + 1) rs

end Verif.Spec
