import Verif.Model.Script
import Verif.Spec.Wrapper
import Verif.Spec.Session
import Verif.Spec.Value

/-!
# Specification: printing
-/

namespace Verif
namespace Spec

/-- A model whose blocks have the points of its definition, with different ids. -/
structure WellLaid (m : MdlObj) : Prop where
  head : ∀ b, m.blocks[0]? = some b → ∃ mt, m.mtype = some mt ∧ b.bt = mt.fixed
  pts : ∀ b ∈ m.blocks, b.pts.map (·.pt) = dataPoints b.bt ∧ UniqueIds b.pts
  shown : m.exposed = true → m.blocks ≠ []

/-- All points have values that can be computed. -/
def Readable (lib : FloatLib) (m : MdlObj) : Prop := ∀ b ∈ m.blocks, ∀ p ∈ b.pts, ∃ v, getValue lib p = .ok v

/-- `id:  value` for each implemented point of a block, in order. -/
def valueLines (lib : FloatLib) (b : BlockObj) : Text :=
  b.pts.flatMap fun p =>
    match getValue lib p with
    | .ok .none => []
    | .ok v => p.pt.id ++ t!":  " ++ sunsToStr lib v ++ t!"\n"
    | .error _ => []

/-- The text that shows a model: name and id, the points of the fixed block, and the repeating blocks with name, index and points. -/
def printed (lib : FloatLib) (m : MdlObj) : Text :=
  t!"\n" ++ modelName m ++ t!" (" ++ intDec m.id ++ t!"):\n" ++
    (match m.blocks with
      | [] => []
      | b :: bs => (if m.exposed then valueLines lib b else []) ++
          bs.flatMap fun b => t!"\n" ++ b.bt.name ++ t!"[" ++ natDec b.index ++ t!"]:\n" ++ valueLines lib b)

/-- The implemented points of a model with their blocks and values, in order. -/
def shown (lib : FloatLib) (m : MdlObj) : List (BlockObj × PointObj × UVal) :=
  m.blocks.flatMap fun b => b.pts.filterMap fun p =>
    match getValue lib p with
    | .ok .none => none
    | .ok v => some (b, p, v)
    | .error _ => none

/-- A text shows a value: ints can be read back (bitfields with the prefix `0x`, of which there are at least 4 or 8 digits), texts are shown
without trailing NUL characters, floats as `str` shows them. -/
def ValueText (lib : FloatLib) (t : PT) : UVal → Text → Prop
  | .none, _ => False
  | .int i, s => IntText s i ∧ (t = .bitfield16 → ∃ h, s = t!"0x" ++ h ∧ 4 ≤ h.length) ∧ (t = .bitfield32 → ∃ h, s = t!"0x" ++ h ∧ 8 ≤ h.length)
  | .str x, s => s = rstripNul x
  | .flt f, s => s = rstripNul (lib.repr f)

/-- The label of a point: the number of the repetition for points of repeating blocks, the label of its definition if there is one, and its id. -/
def LabelText (k : Nat) (t : PointType) (s : Text) : Prop :=
  ∃ idx, s = t!"   " ++ idx ++ (match t.label with | some (c :: l) => c :: l ++ t!" (" | _ => t!"(") ++ t.id ++ t!"):" ∧
    (k = 0 → idx = t!"   ") ∧ (0 < k → ∃ n, idx = n ++ t!":" ∧ DecText n k)

/-- A line for a point: label, value and units in columns of 40, 20 and 10 characters (wider if need be). -/
def LineShows (lib : FloatLib) (x : BlockObj × PointObj × UVal) (line : Text) : Prop :=
  ∃ lab val, line = lab ++ List.replicate (40 - lab.length) ' ' ++ t!" " ++ List.replicate (20 - val.length) ' ' ++ val ++ t!" " ++
      x.2.1.pt.units.getD [] ++ List.replicate (10 - (x.2.1.pt.units.getD []).length) ' ' ∧
    LabelText x.1.index x.2.1.pt lab ∧ ValueText lib x.2.1.pt.type x.2.2 val

/-- The lines for a model: a heading with its id and the label of its definition, if any, and one line for each implemented point, in order. -/
def ModelShows (lib : FloatLib) (m : MdlObj) (lines : List Text) : Prop :=
  ∃ rest, lines = (t!"\nmodel: " ++ (match m.mtype.bind (·.label) with | some (c :: l) => c :: l ++ t!" " | _ => []) ++ t!"(" ++ intDec m.id ++ t!")\n") :: rest ∧
    List.Forall₂ (LineShows lib) (shown lib m) rest

/-- The values of bit fields are not negative ints. -/
def BitValues (lib : FloatLib) (m : MdlObj) : Prop :=
  ∀ b ∈ m.blocks, ∀ p ∈ b.pts, p.pt.type = .bitfield16 ∨ p.pt.type = .bitfield32 → ∀ v, getValue lib p = .ok v → v = .none ∨ ∃ i : Int, 0 ≤ i ∧ v = .int i

end Spec
end Verif
