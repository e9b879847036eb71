import Verif.Spec.Files
import Verif.Spec.MapDoc
import Verif.Spec.Scan

/-!
# Specification: map documents in files
-/

namespace Verif
namespace Spec

/-- The outcome of looking up the map document with this name: in the first of the places that has it, if places are given, else the file with
this name. -/
def MapFile (fs : FS) (given : Option (List Place)) (name : Text) (r : Py Bytes) : Prop :=
  match given with
  | none => OpenFile fs name r
  | some ps => FirstMatch fs name ps r

/-- The document holds the registers `rs`, at these offsets from the base address (see C25): its base address is a number, its function is one of
those supported, its elements are well formed, and none starts before the end of the previous one. -/
def MapDocument (F : FloatText) (root : Elem) (base : Int) (rs : List (Int × List Reg)) : Prop :=
  (match root.get "addr" with
    | none => base = 40000
    | some s => DecText s base) ∧
  (root.get "func" = none ∨ root.get "func" = some (t!"holding") ∨ root.get "func" = some (t!"input")) ∧
  ∃ ls, DocHolds F (root.findall "regs") ls ∧ place 0 ls = some rs

/-- The document is well formed but for elements that overlap or descend. -/
def OverlappingDocument (F : FloatText) (root : Elem) : Prop :=
  (∃ base, match root.get "addr" with
    | none => base = 40000
    | some s => DecText s base) ∧
  (root.get "func" = none ∨ root.get "func" = some (t!"holding") ∨ root.get "func" = some (t!"input")) ∧
  ∃ ls, DocHolds F (root.findall "regs") ls ∧ place 0 ls = none

/-- The contents of a device with these registers at the base address. -/
def docMem (base : Int) (rs : List (Int × List Reg)) : RegMem := fun a => placedMem rs (a - base)

/-- A model that can be read: its definition is known and was loaded, the points of its blocks lie in the blocks in ascending order, and all of
its registers exist. -/
def Presented (lib : Int → Py ModelType) (mem : RegMem) (f : Found) : Prop :=
  ∃ mt, lib f.id = .ok mt ∧ (foundModel lib f).loadError = false ∧
    (∀ F, mt.fixed.len.toInt = .ok F → BlockFits mt.fixed (fixedLen f.id (foundModel lib f).len F) ∧
      BlockOrdered mt.fixed (fixedLen f.id (foundModel lib f).len F) ∧ 0 ≤ fixedLen f.id (foundModel lib f).len F) ∧
    (∀ rb R, mt.rep = some rb → rb.len.toInt = .ok R → BlockFits rb R ∧ BlockOrdered rb R ∧ 0 ≤ R) ∧
    ∀ x, f.addr ≤ x → x < f.addr + (foundModel lib f).len → mem x ≠ none

end Spec
end Verif
