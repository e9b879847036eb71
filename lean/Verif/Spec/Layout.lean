import Verif.Model.Device

/-!
# Specification: layout of models
-/

namespace Verif
namespace Spec

/-- The points of a block type that are neither padding nor scale factors. -/
def dataPoints (bt : BlockType) : List PointType := bt.points.filter fun p => p.type ≠ .pad ∧ p.type ≠ .sunssf

/-- The scale factor points of a block type. -/
def sfPoints (bt : BlockType) : List PointType := bt.points.filter fun p => p.type = .sunssf

/-- A block has the points of its type, each at the block's address plus the point's offset. -/
def HasPoints (b : BlockObj) : Prop :=
  b.pts.map (fun p => (p.pt, p.addr)) = (dataPoints b.bt).map (fun t => (t, b.addr + t.offset)) ∧
  b.sfs.map (fun p => (p.pt, p.addr)) = (sfPoints b.bt).map (fun t => (t, b.addr + t.offset))

/-- The length of the fixed block of a model with `len` registers: that of the definition, except that the common
model (id 1) may have 65 registers. -/
def fixedLen (id len flen : Int) : Int := if id = 1 ∧ len = 65 then 65 else flen

/-- The blocks of a model of type `mt` at `addr` with `len` registers: the fixed block and `n` repeating blocks,
contiguous. -/
structure Layout (mt : ModelType) (addr flen : Int) (rlen : Int) (n : Nat) (bs : List BlockObj) : Prop where
  count : bs.length = n + 1
  fixed : ∀ (b : BlockObj), bs[0]? = some b → b.bt = mt.fixed ∧ b.addr = addr ∧ b.len = flen ∧ b.index = 0
  rep : ∀ (i : Nat) (b : BlockObj), bs[i + 1]? = some b → mt.rep = some b.bt ∧ b.addr = addr + flen + i * rlen ∧ b.len = rlen ∧ b.index = i + 1
  points : ∀ b ∈ bs, HasPoints b

/-- What the scale factor of a point type `t` of a block (number `index`, of type `bt`, in a model whose fixed block
has type `bt0`) refers to: nothing if it has none; the constant in the definition; else the scale factor point of
that name in its own block; else (repeating blocks) the one in the fixed block. `none` if there is none. -/
def sfTarget (bt0 bt : BlockType) (index : Nat) (t : PointType) : Option (Option SfRef) :=
  match t.sf with
  | none => some none
  | some s =>
    match pyInt 10 s with
    | some v => some (some (.const v))
    | none =>
      if s ∈ (sfPoints bt).map (·.id) then some (some (.point index s))
      else if 0 < index ∧ s ∈ (sfPoints bt0).map (·.id) then some (some (.point 0 s))
      else none

/-- Every scale factor of a definition can be resolved. -/
def SfOK (mt : ModelType) : Prop :=
  (∀ t ∈ dataPoints mt.fixed, sfTarget mt.fixed mt.fixed 0 t ≠ none) ∧
  ∀ rb, mt.rep = some rb → ∀ t ∈ dataPoints rb, ∀ i, sfTarget mt.fixed rb (i + 1) t ≠ none

/-- The points of a block type other than padding lie one after the other inside a block of `blen` registers and have
between 1 and 125 registers. -/
structure BlockOrdered (bt : BlockType) (blen : Int) : Prop where
  order : (bt.points.filter fun t => t.type ≠ .pad).Pairwise fun a b => a.offset + a.len ≤ b.offset
  inside : ∀ t ∈ bt.points, t.type ≠ .pad → 0 ≤ t.offset ∧ t.offset + t.len ≤ blen
  size : ∀ t ∈ bt.points, t.type ≠ .pad → 1 ≤ t.len ∧ t.len ≤ 125

/-- Reads (address, count) that cover the registers from `a` up to `b`, one after the other. -/
def Tiles (a b : Int) : List (Int × Int) → Prop
  | [] => a = b
  | (c, n) :: r => c = a ∧ Tiles (a + n) b r

end Spec
end Verif
