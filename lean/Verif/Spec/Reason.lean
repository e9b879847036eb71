import Verif.Model.Reason

/-!
# Why a scan or a read failed (C106)
-/

namespace Verif.Spec

/-- The device, from `s`, is read `n` registers at `a` several times (any number, at any addresses), which leaves it in `s'`. -/
inductive Later {σ} (dev : MbDev σ) : σ → σ → Prop
  | refl (s) : Later dev s s
  | read {s s'} (a n : Int) : Later dev (dev.read s a n).1 s' → Later dev s s'

/-- Three registers are read at each of the addresses in turn: what the device answered, or the text of the Modbus error. -/
inductive Probed {σ} (say : σ → Exc → Text) (dev : MbDev σ) : List Int → σ → List (Except Text Bytes) → σ → Prop
  | nil (s) : Probed say dev [] s [] s
  | answer {a as s s1 d os s'} : dev.read s a 3 = (s1, .ok (some d)) → Probed say dev as s1 os s' → Probed say dev (a :: as) s (.ok d :: os) s'
  | error {a as s s1 e os s'} : dev.read s a 3 = (s1, .error e) → e.isModbusClient = true → Probed say dev as s1 os s' →
      Probed say dev (a :: as) s (.error (say s1 e) :: os) s'

/-- The text of the error of a scan that found no SunSpec map, if reading at the base addresses went as in `os`. -/
def NoMapText (os : List (Except Text Bytes)) (t : Text) : Prop :=
  (∃ d, .ok d ∈ os) ∧ t = t!"Device responded - not SunSpec register map" ∨
  (¬ ∃ d, .ok d ∈ os) ∧ (∃ w r, os = .error w :: r ∧ t = t!"Modbus read error: " ++ w) ∨
  os = [] ∧ t = t!"Unknown error"

/-- What a scan that fails with the text `t` tells, if the device was in the state `s0` before the first read and is in `s'` in the end: the device did answer at a
base address, without the SunSpec marker; some read failed with the Modbus error whose text is told; the progress callback ended the scan; or there are no base
addresses. -/
def ScanText {σ} (say : σ → Exc → Text) (dev : MbDev σ) (prog : List MdlObj → Int → Bool) (bases : List Int) (s0 s' : σ) (t : Text) : Prop :=
  (∃ a ∈ bases, ∃ s s1 d, Later dev s0 s ∧ dev.read s a 3 = (s1, .ok (some d)) ∧ d.take 4 ≠ sunS ∧ Later dev s1 s') ∧
    t = t!"Device responded - not SunSpec register map" ∨
  (∃ s a n s1 e, Later dev s0 s ∧ dev.read s a n = (s1, .error e) ∧ e.isModbusClient = true ∧ Later dev s1 s' ∧ t = t!"Modbus read error: " ++ say s1 e) ∨
  (∃ ms id, prog ms id = false) ∧ t = t!"Device scan terminated" ∨
  bases = [] ∧ t = t!"Unknown error"

/-- The requests are all answered with data. -/
inductive AllRead {σ} (dev : MbDev σ) : σ → List (Int × Int) → σ → Prop
  | nil (s) : AllRead dev s [] s
  | cons {s s1 s' a n d r} : dev.read s a n = (s1, .ok (some d)) → AllRead dev s1 r s' → AllRead dev s ((a, n) :: r) s'

/-- The requests to write are all carried out. -/
inductive AllWritten {σ} (dev : MbDev σ) : σ → List (Int × Bytes) → σ → Prop
  | nil (s) : AllWritten dev s [] s
  | cons {s s1 s' a d r} : dev.write s a d = (s1, .ok ()) → AllWritten dev s1 r s' → AllWritten dev s ((a, d) :: r) s'

/-- A result without the text of the error. -/
def unsaid {α} : Told α → Py α
  | .ok a => .ok a
  | .error e => .error e.1

/-- What is printed without the text of the error. -/
def unprinted : PrintedT → Printed
  | .nothing => .nothing
  | .error _ => .error
  | .report l => .report l

end Verif.Spec
