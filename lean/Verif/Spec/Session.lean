import Verif.Spec.Client
import Verif.Model.Value

/-!
# Specification: histories of a model object

A program assigns values to points of a model, reads it and writes it, in any order and any number of times; in between,
the device may change in any way.
-/

namespace Verif
namespace Spec

/-- Point number `j` of block number `i` of a model. -/
def ptAt (m : MdlObj) (i j : Nat) : Option PointObj := (m.blocks[i]?).bind (·.pts[j]?)

/-- The model with point `j` of block `i` replaced. -/
def putAt (m : MdlObj) (i j : Nat) (p : PointObj) : MdlObj :=
  { m with blocks := m.blocks.modify i fun b => { b with pts := b.pts.set j p } }

/-- What has happened to a model: point `j` of block `i` has been assigned a value (stored as `b`), the model has been
read, the model has been written, the point has been written alone. -/
inductive Event
  | assigned (i j : Nat) (b : Option Val)
  | read
  | written
  | failed
  | writtenOne (i j : Nat)

/-- The histories (last event first) that lead from model `m0` to model `m`, with the device ending in state `s`. Every operation
may raise an exception (a `write_points` that raises is the event `failed`; an assignment or a `write` of one point that raises
is no event). Between the operations the device may change its state in any way. -/
inductive History {σ} (dev : MbDev σ) (lib : FloatLib) (m0 : MdlObj) : List Event → σ → MdlObj → Prop
  | start (s) : History dev lib m0 [] s m0
  | assign {h s m} (i j : Nat) (p p' : PointObj) (v : UVal) : History dev lib m0 h s m → ptAt m i j = some p →
      setValue lib p v = (p', .ok ()) → History dev lib m0 (.assigned i j p'.base :: h) s (putAt m i j p')
  | read {h s m s' m' r} : History dev lib m0 h s m → readPoints dev s m = (s', m', r) → History dev lib m0 (.read :: h) s' m'
  | write {h s m s' m'} : History dev lib m0 h s m → writePoints dev s m = (s', m', .ok ()) → History dev lib m0 (.written :: h) s' m'
  | fail {h s m s' m' e} : History dev lib m0 h s m → writePoints dev s m = (s', m', .error e) → History dev lib m0 (.failed :: h) s' m'
  | refused {h s m} (i j : Nat) (p p' : PointObj) (v : UVal) (e : Exc) : History dev lib m0 h s m → ptAt m i j = some p →
      setValue lib p v = (p', .error e) → History dev lib m0 h s (putAt m i j p')
  | writeOne {h s m s'} (i j : Nat) (p p' : PointObj) : History dev lib m0 h s m → ptAt m i j = some p →
      writePoint dev s p = (s', p', .ok ()) → History dev lib m0 (.writtenOne i j :: h) s' (putAt m i j p')
  | failOne {h s m s'} (i j : Nat) (p p' : PointObj) (e : Exc) : History dev lib m0 h s m → ptAt m i j = some p →
      writePoint dev s p = (s', p', .error e) → History dev lib m0 h s' (putAt m i j p')
  | change {h s m} (s') : History dev lib m0 h s m → History dev lib m0 h s' m

/-- The value last assigned to the point, if no write of it has returned since. -/
def pending : List Event → Nat → Nat → Option (Option Val)
  | [], _, _ => none
  | .assigned i j b :: h, i', j' => if i' = i ∧ j' = j then some b else pending h i' j'
  | .read :: h, i', j' => pending h i' j'
  | .written :: _, _, _ => none
  | .failed :: h, i', j' => pending h i' j'
  | .writtenOne i j :: h, i', j' => if i' = i ∧ j' = j then none else pending h i' j'

/-- A `write_points` has raised since the last assignment to the point. -/
def Tried : List Event → Nat → Nat → Prop
  | [], _, _ => False
  | .assigned i j _ :: h, i', j' => ¬ (i' = i ∧ j' = j) ∧ Tried h i' j'
  | .read :: h, i', j' => Tried h i' j'
  | .written :: h, i', j' => Tried h i' j'
  | .failed :: _, _, _ => True
  | .writtenOne _ _ :: h, i', j' => Tried h i' j'

/-- The model has not been read since the last assignment to the point. -/
def Unread : List Event → Nat → Nat → Prop
  | [], _, _ => False
  | .assigned i j _ :: h, i', j' => (i' = i ∧ j' = j) ∨ Unread h i' j'
  | .read :: _, _, _ => False
  | .written :: h, i', j' => Unread h i' j'
  | .failed :: h, i', j' => Unread h i' j'
  | .writtenOne _ _ :: h, i', j' => Unread h i' j'

/-- The point without its value. -/
def unvalued (p : PointObj) : PointObj := { p with base := none, vsf := none, dirty := false }

/-- The model without its values: its layout. -/
def layout (m : MdlObj) : MdlObj := { m with blocks := m.blocks.map fun b => { b with pts := b.pts.map unvalued, sfs := b.sfs.map unvalued } }

end Spec
end Verif
