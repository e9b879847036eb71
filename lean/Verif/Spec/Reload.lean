import Verif.Spec.Alike
import Verif.Spec.Mbmap

/-!
# Specification: maps with the same registers (C99)
-/

namespace Verif
namespace Spec

/-- Two register maps hold the same registers with the same contents, whatever their base addresses and blocks. -/
def SameRegisters (m m' : MbMap) : Prop :=
  ∃ base bs base' bs', MapOK m base bs ∧ MapOK m' base' bs' ∧ mapMem base bs = mapMem base' bs'

end Spec
end Verif
