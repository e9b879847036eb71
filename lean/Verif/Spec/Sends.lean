import Verif.Spec.Session
import Verif.Spec.Grouped

/-!
# Specification: the write requests of a program

A program uses a model object of a device: it assigns values to points, reads the model, writes it, and writes single points; any of
these may raise an exception, and in between the device may change in any way. The write requests that the object makes to its device
are kept in a log.
-/

namespace Verif
namespace Spec

/-- What a program does with a model: point `j` of block `i` is assigned a value; the model is written; the write of the model raises;
the point is written alone; the write of the point raises. -/
inductive Did
  | assigned (i j : Nat)
  | wrote
  | failed
  | wroteOne (i j : Nat)
  | failedOne (i j : Nat)
  deriving DecidableEq

/-- The programs (last step first) that lead from model `m0` to model `m`, with the device ending in the state `s`, and with the write
requests `log`. Reading, an assignment that raises, and changes of the device are not listed as steps. -/
inductive Sends {σ} (dev : MbDev σ) (lib : FloatLib) (m0 : MdlObj) : List Did → σ → MdlObj → List (Int × Bytes) → Prop
  | start (s) : Sends dev lib m0 [] s m0 []
  | assign {h s m log} (i j : Nat) (p p' : PointObj) (v : UVal) : Sends dev lib m0 h s m log → ptAt m i j = some p →
      setValue lib p v = (p', .ok ()) → Sends dev lib m0 (.assigned i j :: h) s (putAt m i j p') log
  | refused {h s m log} (i j : Nat) (p p' : PointObj) (v : UVal) (e : Exc) : Sends dev lib m0 h s m log → ptAt m i j = some p →
      setValue lib p v = (p', .error e) → Sends dev lib m0 h s (putAt m i j p') log
  | read {h s m log s' log' m' r} : Sends dev lib m0 h s m log → readPoints (recording dev) (s, log) m = ((s', log'), m', r) →
      Sends dev lib m0 h s' m' log'
  | write {h s m log s' log' m'} : Sends dev lib m0 h s m log → writePoints (recording dev) (s, log) m = ((s', log'), m', .ok ()) →
      Sends dev lib m0 (.wrote :: h) s' m' log'
  | fail {h s m log s' log' m' e} : Sends dev lib m0 h s m log → writePoints (recording dev) (s, log) m = ((s', log'), m', .error e) →
      Sends dev lib m0 (.failed :: h) s' m' log'
  | writeOne {h s m log s' log'} (i j : Nat) (p p' : PointObj) : Sends dev lib m0 h s m log → ptAt m i j = some p →
      writePoint (recording dev) (s, log) p = ((s', log'), p', .ok ()) → Sends dev lib m0 (.wroteOne i j :: h) s' (putAt m i j p') log'
  | failOne {h s m log s' log'} (i j : Nat) (p p' : PointObj) (e : Exc) : Sends dev lib m0 h s m log → ptAt m i j = some p →
      writePoint (recording dev) (s, log) p = ((s', log'), p', .error e) → Sends dev lib m0 (.failedOne i j :: h) s' (putAt m i j p') log'
  | change {h s m log} (s') : Sends dev lib m0 h s m log → Sends dev lib m0 h s' m log

/-- The write request `w` (address and data) has data for register `x`. -/
def touches (x : Int) (w : Int × Bytes) : Bool := decide (w.1 ≤ x ∧ 2 * (x - w.1) < w.2.length)

/-- How often the register `x` has been sent. -/
def timesSent (x : Int) (log : List (Int × Bytes)) : Nat := log.countP (touches x)

/-- The steps that can cause point `(i, j)` to be sent: an assignment to it, a write of the point alone, and a write that raised (after
which the program may have to write again). -/
def causes (i j : Nat) (h : List Did) : Nat :=
  h.countP fun d => decide (d = .assigned i j ∨ d = .failed ∨ d = .wroteOne i j ∨ d = .failedOne i j)

/-- Register `x` is one of point `p`. -/
def Covers (p : PointObj) (x : Int) : Prop := p.addr ≤ x ∧ x < p.addr + p.pt.len

end Spec
end Verif
