import Verif.Spec.Scan

/-!
# Specification: where models are found
-/

namespace Verif
namespace Spec

/-- A read: address, number of registers, and what came of it. -/
structure ReadEvent where
  addr : Int
  count : Int
  result : Py (Option Bytes)

/-- The device `dev` with a record of all reads. It behaves like `dev`. -/
def recorded {σ} (dev : ScanDev σ) : ScanDev (σ × List ReadEvent) where
  read s a n := (((dev.read s.1 a n).1, s.2 ++ [⟨a, n, (dev.read s.1 a n).2⟩]), (dev.read s.1 a n).2)
  write s a d := (((dev.write s.1 a d).1, s.2), (dev.write s.1 a d).2)
  conn := dev.conn.map fun f s => (((f s.1).1, s.2), (f s.1).2)
  disc s := (dev.disc s.1, s.2)

/-- A client of the recorded device, without the record. -/
def plain {σ} (c : CliDev (σ × List ReadEvent)) : CliDev σ := ⟨c.st.1, c.base, c.bases, c.list, c.dict⟩

/-- In `log` the device has answered a read of the register at `a` with `v`. -/
def Answered (log : List ReadEvent) (a v : Int) : Prop :=
  ∃ e ∈ log, e.addr = a ∧ e.count = 1 ∧ ∃ d : Bytes, e.result = .ok (some d) ∧ d.length = 2 ∧ v = beDec d

/-- In `log` the device has answered a read of three registers at `a` with `SunS` and `v`. -/
def Marked (log : List ReadEvent) (a v : Int) : Prop :=
  ∃ e ∈ log, e.addr = a ∧ e.count = 3 ∧ ∃ d : Bytes, e.result = .ok (some d) ∧ d.take 4 = [0x53, 0x75, 0x6e, 0x53] ∧
    ((d.drop 4).take 2).length = 2 ∧ v = beDec ((d.drop 4).take 2)

/-- The models `ms` follow each other from address `a` on: `id` is the id that the device has given for the first, each has its header
(two registers) in front of it, its id and length are those the device has given for it, and the next begins where it ends. A model
of length 0 gets the length of its definition. -/
def Placed (log : List ReadEvent) : Int → Int → List MdlObj → Prop
  | _, _, [] => True
  | a, id, m :: ms => m.id = id ∧ m.addr = a + 2 ∧ ∃ len, Answered log (a + 1) len ∧ (len ≠ 0 → m.len = len) ∧
    (ms = [] ∨ ∃ id', Answered log (a + 2 + len) id' ∧ Placed log (a + 2 + len) id' ms)

/-- The registers of two models, headers included, are different. -/
def Apart (m m' : MdlObj) : Prop := m.addr + m.len ≤ m'.addr - 2

end Spec
end Verif
