import Verif.Spec.Session

/-!
# Specification: a read forgets the past (C98)
-/

namespace Verif
namespace Spec

/-- A model as it is loaded: no point has a scale factor value unless it has a scale factor. -/
def Unused (m : MdlObj) : Prop := ∀ i j p, ptAt m i j = some p → p.sf = none → p.vsf = none

/-- The two models show the same: point by point, everything but the mark for writing is the same. -/
def SameReadings (m m' : MdlObj) : Prop := ∀ i j, (ptAt m i j).map clean = (ptAt m' i j).map clean

end Spec
end Verif
