import Verif.Model.ShowType

/-!
# Specification: what the texts of definitions and maps tell
-/

namespace Verif
namespace Spec

/-- A text without blanks and line ends. -/
def Word (s : Text) : Prop := ' ' ∉ s ∧ '\n' ∉ s

/-- An optional word that is not the word `None`. -/
def OptWord (s : Option Text) : Prop := ∀ t, s = some t → Word t ∧ t ≠ t!"None"

/-- The names in a point definition are words. -/
def WordPoint (p : PointType) : Prop := Word p.id ∧ OptWord p.sf

/-- The names and the length of a block definition are words. -/
def WordBlock (b : BlockType) : Prop := (∀ s, b.len = .str s → Word s) ∧ ∀ p ∈ b.points, WordPoint p

/-- The names in a definition are words. -/
def WordType (t : ModelType) : Prop := WordBlock t.fixed ∧ ∀ b, t.rep = some b → WordBlock b

/-- The same length: as numbers or as texts. -/
def SameLen : NumText → NumText → Prop
  | .int i, .int j => i = j
  | .str s, .str t => s = t
  | .int i, .str s => s = intDec i
  | .str s, .int i => s = intDec i

/-- What matters of a point definition: id, offset, type, length, scale factor, access, mandatory. -/
def pointFacts (p : PointType) : Text × Int × PT × Int × Option Text × Bool × Bool := (p.id, p.offset, p.type, p.len, p.sf, p.rw, p.mandatory)

/-- The block definitions have the same points. -/
def AlikeBlock (b c : BlockType) : Prop :=
  b.repeating = c.repeating ∧ SameLen b.len c.len ∧ b.points.map pointFacts = c.points.map pointFacts

/-- The definitions have the same points. -/
def AlikeType (t u : ModelType) : Prop :=
  t.id = u.id ∧ t.len = u.len ∧ AlikeBlock t.fixed u.fixed ∧
    (t.rep = none ∧ u.rep = none ∨ ∃ b c, t.rep = some b ∧ u.rep = some c ∧ AlikeBlock b c)

/-- What matters of a register block besides its data. -/
def regsFacts (r : Regs) : Num × Num × Text := (r.offset, r.count, r.access)

/-- A register block of a map: ints are multiples of four quarters; the access is a word. -/
def WordRegs (r : Regs) : Prop := (r.offset.float = false → 4 ∣ r.offset.q) ∧ (r.count.float = false → 4 ∣ r.count.q) ∧ Word r.access

end Spec
end Verif
