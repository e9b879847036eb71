import Verif.Spec.Script

/-!
# Specification: programs that use the scripting interface
-/

namespace Verif
namespace Spec

/-- Statements about model number `i` of a `SunSpecClientDevice` (of which `w` is the object, `b` the object of its repeating block
number `j + 1`): `w.name = v`, `w['name'] = v`, `b.name = v`, `b['name'] = v`, `w.read()`, `w.write()`. -/
inductive Stmt
  | attr (i : Nat) (name : Text) (v : UVal)
  | item (i : Nat) (name : Text) (v : UVal)
  | battr (i j : Nat) (name : Text) (v : UVal)
  | bitem (i j : Nat) (name : Text) (v : UVal)
  | read (i : Nat)
  | write (i : Nat)

/-- The model the statement is about. -/
def Stmt.model : Stmt → Nat
  | .attr i _ _ | .item i _ _ | .battr i _ _ _ | .bitem i _ _ _ | .read i | .write i => i

/-- The block, name and value of an assignment. -/
def Stmt.target : Stmt → Option (Nat × Text × UVal)
  | .attr _ n v | .item _ n v => some (0, n, v)
  | .battr _ j n v | .bitem _ j n v => some (j + 1, n, v)
  | .read _ | .write _ => none

/-- Executing a statement. -/
def Stmt.run {σ} (dev : MbDev σ) (lib : FloatLib) (s : σ) (d : DWrap) : Stmt → σ × DWrap × Py Unit
  | .attr i n v =>
    match d.wraps[i]? with
    | some w => (s, { d with wraps := d.wraps.set i (w.setAttr lib d.models n v).1, models := (w.setAttr lib d.models n v).2.1 }, (w.setAttr lib d.models n v).2.2)
    | none => (s, d, .error .attributeError)
  | .item i n v =>
    match d.wraps[i]? with
    | some w => (s, { d with models := (w.setItem lib d.models n v).1 }, (w.setItem lib d.models n v).2)
    | none => (s, d, .error .attributeError)
  | .battr i j n v =>
    match (d.wraps[i]?).bind fun w => w.reps[j]? with
    | some b => (s, { d with models := (b.setAttr lib d.models i n v).1 }, (b.setAttr lib d.models i n v).2)
    | none => (s, d, .error .indexError)
  | .bitem i j n v =>
    match (d.wraps[i]?).bind fun w => w.reps[j]? with
    | some b => (s, { d with models := (b.setItem lib d.models i n v).1 }, (b.setItem lib d.models i n v).2)
    | none => (s, d, .error .indexError)
  | .read i =>
    match d.wraps[i]? with
    | some w => ((w.read dev s d.models).1, { d with models := (w.read dev s d.models).2.1 }, (w.read dev s d.models).2.2)
    | none => (s, d, .error .attributeError)
  | .write i =>
    match d.wraps[i]? with
    | some w => ((w.write dev s d.models).1, { d with models := (w.write dev s d.models).2.1 }, (w.write dev s d.models).2.2)
    | none => (s, d, .error .attributeError)

/-- Neither a point nor the repeating block of the model is called `read` or `write`. -/
def MethodsFree (m : MdlObj) : Prop :=
  ∀ mt, m.mtype = some mt → (∀ t ∈ dataPoints mt.fixed, t.id ≠ t!"read" ∧ t.id ≠ t!"write") ∧
    ∀ rb, mt.rep = some rb → rb.name ≠ t!"read" ∧ rb.name ≠ t!"write"

/-- The statement is about a loaded model of the device; assignments are to points it has, and `read` and `write` are not names of points or
of the repeating block. -/
def Stmt.Legal (ms : List MdlObj) (st : Stmt) : Prop :=
  ∃ m, ms[st.model]? = some m ∧ m.exposed = true ∧
    match st.target with
    | some (b, n, _) => ∃ k p, ptAt m b k = some p ∧ p.pt.id = n
    | none => MethodsFree m

/-- The executions (last statement first, with the results) of a program that starts with the device object `d0`: exceptions are caught, and
between the statements the device may change in any way. -/
inductive Ran {σ} (dev : MbDev σ) (lib : FloatLib) (d0 : DWrap) : List (Stmt × Py Unit) → σ → DWrap → Prop
  | start (s) : Ran dev lib d0 [] s d0
  | step {l s d} (st : Stmt) : Ran dev lib d0 l s d → Ran dev lib d0 ((st, (st.run dev lib s d).2.2) :: l) (st.run dev lib s d).1 (st.run dev lib s d).2.1
  | change {l s d} (s') : Ran dev lib d0 l s d → Ran dev lib d0 l s' d

/-- What an execution means for model number `i`, which was `m` in the beginning: assignments to its points, reads and writes. -/
inductive Means (lib : FloatLib) (m : MdlObj) (i : Nat) : List (Stmt × Py Unit) → List Event → Prop
  | nil : Means lib m i [] []
  | assigned {l h st b k n v p q q'} : Means lib m i l h → st.model = i → st.target = some (b, n, v) → ptAt m b k = some p → p.pt.id = n →
      unvalued q = unvalued p → setValue lib q v = (q', .ok ()) → Means lib m i ((st, .ok ()) :: l) (.assigned b k q'.base :: h)
  | refused {l h st e x} : Means lib m i l h → st.model = i → st.target = some x → Means lib m i ((st, .error e) :: l) h
  | read {l h r} : Means lib m i l h → Means lib m i ((.read i, r) :: l) (.read :: h)
  | written {l h} : Means lib m i l h → Means lib m i ((.write i, .ok ()) :: l) (.written :: h)
  | failed {l h e} : Means lib m i l h → Means lib m i ((.write i, .error e) :: l) (.failed :: h)
  | other {l h st r} : Means lib m i l h → st.model ≠ i → Means lib m i ((st, r) :: l) h

end Spec
end Verif
