import Verif.Model.Command
import Verif.Spec.Scan
import Verif.Spec.Wrapper
import Verif.Spec.Script
import Verif.Spec.Value

/-!
# Specification: what suns.py shows
-/

namespace Verif
namespace Spec

/-- A model found in the device that the script can show: its definition is known and describes `len` registers that exist, no name in it
clashes with an attribute of the scripting objects, only numbers are scaled, and its scale factors are between -250 and 250 (or not
implemented). -/
structure Reportable (types : Int → Py ModelType) (mem : RegMem) (f : Found) : Prop where
  known : ∃ mt, types f.id = .ok mt ∧ (foundModel types f).loadError = false ∧ NoClash mt ∧
    (∀ F, mt.fixed.len.toInt = .ok F → BlockFits mt.fixed (fixedLen f.id (foundModel types f).len F) ∧
      BlockOrdered mt.fixed (fixedLen f.id (foundModel types f).len F) ∧ 0 ≤ fixedLen f.id (foundModel types f).len F) ∧
    (∀ rb R, mt.rep = some rb → rb.len.toInt = .ok R → BlockFits rb R ∧ BlockOrdered rb R ∧ 0 ≤ R)
  regs : ∀ x, f.addr ≤ x → x < f.addr + (foundModel types f).len → mem x ≠ none
  name : FreeName (modelName (foundModel types f))
  numbers : ∀ b ∈ (foundModel types f).blocks, ∀ p ∈ b.pts, p.sf ≠ none → (p.pt.type.isInt = true ∨ p.pt.type = .float32) ∧
    p.pt.type ≠ .bitfield16 ∧ p.pt.type ≠ .bitfield32
  constants : ∀ b ∈ (foundModel types f).blocks, ∀ p ∈ b.pts, ∀ c, p.sf = some (.const c) → -250 ≤ c ∧ c ≤ 250
  scales : ∀ b ∈ (foundModel types f).blocks, ∀ q ∈ b.sfs, ∀ rs k, memRegs mem q.addr q.pt.len.toNat = some rs →
    q.pt.type.readValue (regBytes rs) = .ok (some (.int k)) → -250 ≤ k ∧ k ≤ 250

end Spec
end Verif
