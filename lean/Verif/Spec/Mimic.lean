import Verif.Spec.Alike
import Verif.Spec.Client
import Verif.Spec.Mbmap

/-!
# Specification: simulated devices

A program is often tried on a simulated device (`MAPPED`, a register map) before it is run on a real one.
-/

namespace Verif.Spec
open Verif

/-- The device, except that it refuses to write an odd number of bytes or a number of registers for which `wr` does not hold. -/
def restricted {σ} (wr : Nat → Prop) [DecidablePred wr] (dev : ScanDev σ) : ScanDev σ :=
  { dev with write := fun s a d => if d.length % 2 = 0 ∧ wr (d.length / 2) then dev.write s a d else (s, .error .modbusMapError) }

/-- What one Modbus request can write. -/
def OneWrite (n : Nat) : Prop := 0 < n ∧ n ≤ 123

instance : DecidablePred OneWrite := fun n => inferInstanceAs (Decidable (0 < n ∧ n ≤ 123))

/-- All registers of the map exist in the memory `mem`, with the same contents. -/
def PartOf (m : MbMap) (mem : RegMem) : Prop :=
  ∃ base bs, MapOK m base bs ∧ ∀ a r, mapMem base bs a = some r → mem a = some r

/-- No call of the program has raised an exception. -/
def NoException (tr : Transcript) : Prop := ∀ x ∈ tr, x.1 = .returned

end Verif.Spec
