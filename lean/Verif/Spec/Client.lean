import Verif.Model.Client
import Verif.Spec.Memory
import Verif.Spec.Layout
import Verif.Spec.Formats
import Verif.Spec.Modbus

/-!
# Specification: reading and writing models
-/

namespace Verif
namespace Spec

/-- A device performs reads `plan` from state `s` on, ending in `s'`; each read delivers the requested number of
registers; `log` are the addresses and the data delivered. -/
def Reads {σ} (dev : MbDev σ) : σ → List (Int × Int) → σ → List (Int × Bytes) → Prop
  | s, [], s', log => s' = s ∧ log = []
  | s, (a, n) :: plan, s', log =>
    ∃ s1 d log1, dev.read s a n = (s1, .ok (some d)) ∧ (d.length : Int) = 2 * n ∧ Reads dev s1 plan s' log1 ∧
      log = (a, d) :: log1

/-- The registers that have been delivered. -/
def replyMem : List (Int × Bytes) → RegMem
  | [] => fun _ => none
  | (a, d) :: r => fun x =>
    if a ≤ x ∧ 2 * (x - a) + 1 < d.length then
      some (d.getD (2 * (x - a)).toNat 0, d.getD (2 * (x - a) + 1).toNat 0)
    else replyMem r x

/-- The length of a point is that of its type; a string has at least one register. -/
def LenOK (t : PointType) : Prop :=
  match typeRegs t.type with
  | some k => t.len = k
  | none => 1 ≤ t.len

/-- A model whose points lie inside the model, have the length of their type, and whose scale factors are constants or
scale factor points of the same or an earlier block. All loaded models with reasonable definitions are: see
`loaded_modelOK`. -/
structure ModelOK (m : MdlObj) : Prop where
  mtype : m.mtype ≠ none
  inside : ∀ b ∈ m.blocks, ∀ p, p ∈ b.pts ∨ p ∈ b.sfs → m.addr ≤ p.addr ∧ p.addr + p.pt.len ≤ m.addr + m.len
  len : ∀ b ∈ m.blocks, ∀ p, p ∈ b.pts ∨ p ∈ b.sfs → LenOK p.pt
  refs : ∀ (i : Nat) (b : BlockObj), m.blocks[i]? = some b → ∀ p ∈ b.pts, ∀ blk id, p.sf = some (.point blk id) →
    blk ≤ i ∧ ∃ b', m.blocks[blk]? = some b' ∧ ∃ q ∈ b'.sfs, q.pt.id = id

/-- `p'` is the point `p` with the value of the registers at its own address in `mem` (see C01-C06 for `readValue`). -/
def PointRead (mem : RegMem) (p p' : PointObj) : Prop :=
  ∃ rs, memRegs mem p.addr p.pt.len.toNat = some rs ∧ p.pt.type.readValue (regBytes rs) = .ok p'.base ∧
    p' = { p with base := p'.base, vsf := p'.vsf }

/-- `v` is the value of a scale factor reference. -/
def IsScale (bs : List BlockObj) (ref : SfRef) (v : Option Val) : Prop :=
  match ref with
  | .const c => v = some (.int c)
  | .point blk id => ∃ b q, bs[blk]? = some b ∧ q ∈ b.sfs ∧ q.pt.id = id ∧ v = q.base

/-- `m'` is the model `m` with the values of the registers in `mem`: nothing but the values of the points changes; each
point has the value of its own registers, and each implemented scaled point the scale factor of the same read; the scale
factor of a point that is not implemented is None (or that of before, for an eui48), that of an unscaled point is not
replaced by another. -/
structure ModelRead (mem : RegMem) (m m' : MdlObj) : Prop where
  same : m' = { m with blocks := m'.blocks }
  count : m'.blocks.length = m.blocks.length
  block : ∀ (i : Nat) (b b' : BlockObj), m.blocks[i]? = some b → m'.blocks[i]? = some b' →
    b' = { b with pts := b'.pts, sfs := b'.sfs } ∧ b'.pts.length = b.pts.length ∧ b'.sfs.length = b.sfs.length
  point : ∀ (i : Nat) (b b' : BlockObj), m.blocks[i]? = some b → m'.blocks[i]? = some b' →
    ∀ (j : Nat) (p p' : PointObj), b.pts[j]? = some p → b'.pts[j]? = some p' →
      PointRead mem p p' ∧ (p'.base ≠ none → ∀ ref, p.sf = some ref → IsScale m'.blocks ref p'.vsf)
  scale : ∀ (i : Nat) (b b' : BlockObj), m.blocks[i]? = some b → m'.blocks[i]? = some b' →
    ∀ (j : Nat) (p p' : PointObj), b.sfs[j]? = some p → b'.sfs[j]? = some p' → PointRead mem p p'
  blank : ∀ (i : Nat) (b b' : BlockObj), m.blocks[i]? = some b → m'.blocks[i]? = some b' →
    ∀ (j : Nat) (p p' : PointObj), b.pts[j]? = some p → b'.pts[j]? = some p' →
      (p.pt.type ≠ .eui48 → p'.base = none → p'.vsf = none) ∧ (p.sf = none → p'.vsf = p.vsf ∨ p'.vsf = none)

/-- The points of a block type (padding excepted) lie inside a block of `blen` registers and have the length of their
type. -/
def BlockFits (bt : BlockType) (blen : Int) : Prop :=
  ∀ t ∈ bt.points, t.type ≠ .pad → 0 ≤ t.offset ∧ t.offset + t.len ≤ blen ∧ LenOK t

/-- The value of a point of type `t` whose registers contain `d`: None for the unimplemented pattern, else what the
registers denote. -/
def PointValue (t : PT) (d : Bytes) (v : Option Val) : Prop :=
  (Unimpl t d → v = none) ∧ (¬ Unimpl t d → ∃ w, v = some w ∧ Denotes t d w)

/-- A device that behaves like the register memory related to its state by `R`: reads of existing registers return
them; writes of existing registers (of a length for which `wr` holds) store them. -/
structure IsMem {σ} (dev : MbDev σ) (R : σ → RegMem → Prop) (wr : Nat → Prop) : Prop where
  read : ∀ s mem a (n : Nat) rs, R s mem → memRegs mem a n = some rs →
    ∃ s', dev.read s a n = (s', .ok (some (regBytes rs))) ∧ R s' mem
  write : ∀ s mem a rs, R s mem → wr rs.length → memRegs mem a rs.length ≠ none →
    ∃ s', dev.write s a (regBytes rs) = (s', .ok ()) ∧ R s' (memStore mem a rs).1

/-- The memory of a Modbus device with 65536 registers. -/
def regMem (m : Mem) : RegMem := fun a =>
  if 0 ≤ a ∧ a < 65536 then some (((m a.toNat) >>> 8).setWidth 8, (m a.toNat).setWidth 8) else none

end Spec
end Verif

namespace Verif
namespace Spec

/-- Memory with registers `rs` stored from `a` on. -/
def stored (mem : RegMem) (a : Int) (rs : List Reg) : RegMem := fun x =>
  if a ≤ x ∧ x < a + rs.length then rs[(x - a).toNat]? else mem x

/-- The value of a point is encoded (`value_to_data`, see C01-C06) as the registers `rs`, as many as the point has. -/
def Encoded (p : PointObj) (rs : List Reg) : Prop :=
  p.pt.type.toData p.base (p.pt.len * 2).toNat = .ok (regBytes rs) ∧ (rs.length : Int) = p.pt.len

/-- The memory after the modified points have been written. -/
def DirtyStored : RegMem → List PointObj → RegMem → Prop
  | mem, [], mem' => mem' = mem
  | mem, p :: ps, mem' => if p.dirty then ∃ rs, Encoded p rs ∧ DirtyStored (stored mem p.addr rs) ps mem' else DirtyStored mem ps mem'

/-- The point marked as not modified. -/
def clean (p : PointObj) : PointObj := { p with dirty := false }

/-- The model with no point marked as modified. -/
def cleanModel (m : MdlObj) : MdlObj := { m with blocks := m.blocks.map fun b => { b with pts := b.pts.map clean } }

/-- Number of registers of the modified points. -/
def dirtyLen (ps : List PointObj) : Nat := (ps.map fun p => if p.dirty then p.pt.len.toNat else 0).sum

end Spec
end Verif

namespace Verif
namespace Spec

/-- The points (scale factor points included) of a model do not share registers. -/
def Separate (m : MdlObj) : Prop :=
  (m.blocks.flatMap fun b => b.pts ++ b.sfs).Pairwise fun p q => p.addr + p.pt.len ≤ q.addr ∨ q.addr + q.pt.len ≤ p.addr

/-- The value of the point is one that the point can have after a read (of an implemented point): for integers, one in
the range of the type other than the unimplemented value; and the point is not one whose values cannot be written
(eui48, see `C05_eui48_never_encodes`) or are written with the wrong size (strings of less than 8 registers, see
`C05_violated`). -/
def Writable (p : PointObj) : Prop :=
  p.pt.type ≠ .eui48 ∧ (p.pt.type = .string → 8 ≤ p.pt.len) ∧
  ∃ (d : Bytes) (v : Val), (d.length : Int) = 2 * p.pt.len ∧ p.base = some v ∧ p.pt.type.readValue d = .ok p.base

/-- The point has the value of its registers. -/
def InSync (mem : RegMem) (p : PointObj) : Prop := PointRead mem p p

end Spec
end Verif

namespace Verif
namespace Spec

/-- The device, recording the writes (address, data) that returned normally. -/
def logDev {σ} (dev : MbDev σ) : MbDev (σ × List (Int × Bytes)) where
  read s a n := (((dev.read s.1 a n).1, s.2), (dev.read s.1 a n).2)
  write s a d :=
    match dev.write s.1 a d with
    | (s', .ok u) => ((s', s.2 ++ [(a, d)]), .ok u)
    | (s', .error e) => ((s', s.2), .error e)

/-- Writing `d` at `a` writes the value of the point to its registers. -/
def CoveredBy (w : Int × Bytes) (p : PointObj) : Prop :=
  ∃ rs, Encoded p rs ∧ w.1 ≤ p.addr ∧ 2 * (p.addr - w.1) + 2 * p.pt.len ≤ w.2.length ∧
    (w.2.drop (2 * (p.addr - w.1)).toNat).take (2 * p.pt.len.toNat) = regBytes rs

/-- One of the writes that returned normally has written the value of the point. -/
def Accepted (log : List (Int × Bytes)) (p : PointObj) : Prop := ∃ w ∈ log, CoveredBy w p

end Spec
end Verif
