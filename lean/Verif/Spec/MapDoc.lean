import Verif.Spec.Mbmap
import Verif.Spec.Formats
import Verif.Spec.Value

/-!
# Specification: map documents
-/

namespace Verif
open Spec

/-- Value of a hexadecimal digit. -/
def hexNibble (c : Char) : Option Nat :=
  if '0' ≤ c ∧ c ≤ '9' then some (c.toNat - '0'.toNat)
  else if 'a' ≤ c ∧ c ≤ 'f' then some (c.toNat - 'a'.toNat + 10)
  else if 'A' ≤ c ∧ c ≤ 'F' then some (c.toNat - 'A'.toNat + 10)
  else none

/-- A text of pairs of hexadecimal digits denotes bytes. -/
inductive HexText : Text → Bytes → Prop
  | nil : HexText [] []
  | cons {a b : Char} {x y : Nat} {s : Text} {d : Bytes} : hexNibble a = some x → hexNibble b = some y →
      HexText s d → HexText (a :: b :: s) (BitVec.ofNat 8 (16 * x + y) :: d)

/-- The integer element types. -/
def elemFmt (ty : Text) : Option IntFmt :=
  if ty = t!"s16" then some ⟨2, true⟩ else if ty = t!"u16" then some ⟨2, false⟩
  else if ty = t!"s32" then some ⟨4, true⟩ else if ty = t!"u32" then some ⟨4, false⟩
  else if ty = t!"s64" then some ⟨8, true⟩ else if ty = t!"u64" then some ⟨8, false⟩
  else none

/-- The text of an element, with a default for an empty one. -/
def elemTxt (e : Elem) (dflt : Text) : Text :=
  match e.text with
  | some (c :: cs) => c :: cs
  | _ => dflt

/-- `n` is the integer value of an optional attribute. -/
def AttrInt (e : Elem) (k : String) (dflt n : Int) : Prop :=
  match e.get k with
  | none => n = dflt
  | some s => Spec.DecText s n

/-- The registers that an element of a map document describes: an integer (the text may be decimal or have a
base prefix; 0 if empty) in big-endian two's complement; a single or double; the characters of a text, cut or
padded with NUL to the given length; or hexadecimal digits (spaces ignored), padded with zeros to the given
length. -/
def ElemHolds (F : FloatText) (e : Elem) (rs : List Reg) : Prop :=
  ∃ n : Int, AttrInt e "len" 0 n ∧
  let ty := (e.get "type").getD (t!"hexstr")
  (∃ f v, elemFmt ty = some f ∧ Spec.IntText (elemTxt e ['0']) v ∧ f.Encodes v (regBytes rs)) ∨
  (∃ b, ty = t!"f32" ∧ F.f32 (elemTxt e ['0']) = .ok b ∧ IntFmt.Encodes ⟨4, false⟩ b.toNat (regBytes rs)) ∨
  (∃ b, ty = t!"f64" ∧ F.f64 (elemTxt e ['0']) = .ok b ∧ IntFmt.Encodes ⟨8, false⟩ b.toNat (regBytes rs)) ∨
  (ty = t!"string" ∧ 0 < n ∧ (∀ c ∈ elemTxt e [], c.toNat < 256) ∧
    regBytes rs = ((elemTxt e []).map (fun c => BitVec.ofNat 8 c.toNat) ++ List.replicate (2 * n.toNat) 0#8).take (2 * n.toNat)) ∨
  (∃ d, ty = t!"hexstr" ∧ 0 < n ∧ HexText ((elemTxt e []).filter (· != ' ')) d ∧ d.length % 2 = 0 ∧
    d.length ≤ 2 * n ∧ regBytes rs = d ++ List.replicate (2 * n.toNat - d.length) 0#8)

/-- Positions of consecutive elements: at the given offset, or after the previous one; refused if an element
does not start after the end of the previous one. -/
def place : Int → List (Option Int × List Reg) → Option (List (Int × List Reg))
  | _, [] => some []
  | next, (o, rs) :: rest =>
    if o.getD next < next then none
    else match place (o.getD next + rs.length) rest with
      | none => none
      | some ps => some ((o.getD next, rs) :: ps)

/-- The memory that placed registers make up. -/
def placedMem : List (Int × List Reg) → RegMem
  | [], _ => none
  | (o, rs) :: ps, a => if o ≤ a ∧ a < o + rs.length then rs[(a - o).toNat]? else placedMem ps a

/-- The elements `es` have the offset attributes and registers `ls`. -/
def DocHolds (F : FloatText) : List Elem → List (Option Int × List Reg) → Prop
  | [], [] => True
  | e :: es, (o, rs) :: ls =>
    ElemHolds F e rs ∧ (match e.get "offset" with
      | none => o = none
      | some s => ∃ i, Spec.DecText s i ∧ o = some i) ∧ DocHolds F es ls
  | _, _ => False

end Verif
