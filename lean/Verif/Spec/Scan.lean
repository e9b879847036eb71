import Verif.Model.Scan
import Verif.Spec.Client

/-!
# Specification: the SunSpec information model of a device
-/

namespace Verif
namespace Spec

/-- The number in a register. -/
def word (r : Reg) : Int := r.1.toNat * 256 + r.2.toNat

/-- The registers at `a` and `a + 1` contain the text `SunS`. -/
def SunSAt (mem : RegMem) (a : Int) : Prop := mem a = some (0x53, 0x75) ∧ mem (a + 1) = some (0x6e, 0x53)

/-- A model found in a device: id, address (of the first register after id and length) and length. -/
structure Found where
  id : Int
  addr : Int
  len : Int
  deriving DecidableEq, Repr

/-- The memory from `a` on is a chain of models: each has an id (not 0xffff), a length and contents; the end is marked by
the id 0xffff. -/
inductive Chain (mem : RegMem) : Int → List Found → Prop
  | stop {a} : mem a = some (0xff, 0xff) → Chain mem a []
  | model {a i l rest} : mem a = some i → i ≠ (0xff, 0xff) → mem (a + 1) = some l → Chain mem (a + 2 + word l) rest →
      Chain mem a (⟨word i, a + 2, word l⟩ :: rest)

/-- Definitions with repeating blocks of at least one register. -/
def Definitions (lib : Int → Py ModelType) : Prop :=
  ∀ id, lib id ≠ .error .diverge ∧ ∀ t rb n, lib id = .ok t → t.rep = some rb → rb.len.toInt = .ok n → 1 ≤ n

/-- A device that behaves like a memory also when `scan` connects and disconnects it. -/
structure ScanMem {σ} (dev : ScanDev σ) (R : σ → RegMem → Prop) (wr : Nat → Prop) : Prop where
  mem : IsMem dev.toMbDev R wr
  conn : ∀ f, dev.conn = some f → ∀ s mem, R s mem → ∃ s', f s = (s', .ok ()) ∧ R s' mem
  disc : ∀ s mem, R s mem → R (dev.disc s) mem

/-- What is read at address `a` of a device in state `s` is not `SunS`, either because the device does not answer or
because the answer is something else; the state afterwards is `s'`. -/
def NoSunS {σ} (dev : MbDev σ) (s : σ) (a : Int) (s' : σ) : Prop :=
  (∃ e, dev.read s a 3 = (s', .error e) ∧ (e = .modbusClientError ∨ e = .modbusClientTimeout ∨ ∃ n, e = .modbusClientException n)) ∨
  (∃ d, dev.read s a 3 = (s', .ok (some d)) ∧ d.take 4 ≠ [0x53, 0x75, 0x6e, 0x53])

/-- The same for several addresses, one after the other. -/
def NoneSunS {σ} (dev : MbDev σ) : σ → List Int → σ → Prop
  | s, [], s' => s' = s
  | s, a :: r, s' => ∃ s1, NoSunS dev s a s1 ∧ NoneSunS dev s1 r s'

end Spec
end Verif

namespace Verif
namespace Spec

/-- The model object for a model found in the device: loaded (see C28), or with its load error noted. -/
def foundModel (lib : Int → Py ModelType) (f : Found) : MdlObj :=
  let r := mdlLoad (lib f.id) (mdlNew f.id f.addr f.len)
  { r.1 with loadError := match r.2 with | .ok _ => r.1.loadError | .error _ => true }

/-- `models` of a device (a dictionary) lists the models in `models_list` by id. -/
def ById {σ} (c : CliDev σ) : Prop := ∀ id, (dictGet c.dict id).getD [] = c.list.filter fun m => decide (m.id = id)

end Spec
end Verif
