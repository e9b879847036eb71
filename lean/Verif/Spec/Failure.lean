import Verif.Spec.Scan

/-!
# Specification: failures
-/

namespace Verif
namespace Spec

/-- The points of a model (scale factor points included) lie inside the model and have the lengths of their types. -/
def PointsFit (m : MdlObj) : Prop :=
  ∀ b ∈ m.blocks, ∀ p, p ∈ b.pts ∨ p ∈ b.sfs → (m.addr ≤ p.addr ∧ p.addr + p.pt.len ≤ m.addr + m.len) ∧ LenOK p.pt

/-- A definition for model `id` whose points lie inside their blocks and have the lengths of their types (`len` is the
length of the model; the fixed block of a common model of 65 registers has 65 registers). -/
structure DefFits (mt : ModelType) (id len : Int) : Prop where
  fixed : ∀ F, mt.fixed.len.toInt = .ok F → BlockFits mt.fixed (fixedLen id len F) ∧ 0 ≤ fixedLen id len F
  rep : ∀ rb R, mt.rep = some rb → rb.len.toInt = .ok R → BlockFits rb R ∧ 0 ≤ R

/-- All registers that reading the model asks for have Modbus addresses. -/
def Addressable (m : MdlObj) : Prop := ∀ c ∈ readPlan m, 0 ≤ c.1 ∧ c.1 + c.2 ≤ 65536

/-- The modified points have values that can be written and registers with Modbus addresses. -/
def Sendable (m : MdlObj) : Prop :=
  ∀ b ∈ m.blocks, ∀ p ∈ b.pts, p.dirty → (∃ rs, Encoded p rs) ∧ 0 ≤ p.addr ∧ p.addr + p.pt.len ≤ 65536 ∧ 0 < p.pt.len

/-- Nothing is raised but `SunSpecClientError`. -/
def OnlyClient {α} (r : Py α) : Prop := ∀ e, r = .error e → e = .sunSpecClientError

/-- A slave that does not answer: sending fails or not a single byte comes back. -/
def SilentRtu {σ} (slave : Slave σ) : Prop := ∀ d req, (slave d req).2 = none ∨ ∃ chunks, (slave d req).2 = some chunks ∧ chunks.flatten = []

/-- A server that does not answer: it may accept or refuse connections, and close them. -/
def SilentTcp {σ} (srv : TcpServer σ) : Prop := ∀ d req, (srv.react d req).2 = none ∨ ∃ chunks, (srv.react d req).2 = some chunks ∧ chunks.flatten = []

/-- Nothing has been received that has not been used. -/
def NothingPending {σ} (t : Tcp σ) : Prop := ∀ p, t.sock = .connected p → p.flatten = []

end Spec
end Verif
