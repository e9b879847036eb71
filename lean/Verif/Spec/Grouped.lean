import Mathlib.Data.List.Forall2
import Verif.Model.Client

/-!
# Specification: the requests of `write_points`

A run is a list of points whose registers follow each other without gaps. The modified points of a block are cut into runs that
are as long as possible; each run is one write.
-/

namespace Verif.Spec
open Verif

/-- The registers of the points follow each other without gaps. -/
def Gapless : List PointObj → Prop
  | p :: q :: ps => q.addr = p.addr + p.pt.len ∧ Gapless (q :: ps)
  | _ => True

/-- Between two consecutive runs there is a gap: the second does not start where the first ends. -/
def Cut (g h : List PointObj) : Prop := ∀ p ∈ g.getLast?, ∀ q ∈ h.head?, q.addr ≠ p.addr + p.pt.len

def CutApart : List (List PointObj) → Prop
  | g :: h :: gs => Cut g h ∧ CutApart (h :: gs)
  | _ => True

/-- `gs` are the points `ps`, in the same order, cut into the longest possible runs. -/
structure Grouped (ps : List PointObj) (gs : List (List PointObj)) : Prop where
  all : gs.flatten = ps
  nonempty : ∀ g ∈ gs, g ≠ []
  gapless : ∀ g ∈ gs, Gapless g
  longest : CutApart gs

/-- The modified points of a model in runs, block by block. -/
def ModelGrouped (m : MdlObj) (gs : List (List PointObj)) : Prop :=
  ∃ parts : List (List (List PointObj)),
    List.Forall₂ (fun b part => Grouped (b.pts.filter fun p => p.dirty) part) m.blocks parts ∧ gs = parts.flatten

/-- The write of a run: the address of its first point, and the values of its points as register data, one after the other. -/
def RunData (g : List PointObj) (w : Int × Bytes) : Prop :=
  (∀ p ∈ g.head?, w.1 = p.addr) ∧
  ∃ es, List.Forall₂ (fun p e => p.pt.type.toData p.base (p.pt.len * 2).toNat = .ok e) g es ∧ w.2 = es.flatten

/-- The device `dev`, which also keeps a log of the writes it is asked for. -/
def recording {σ} (dev : MbDev σ) : MbDev (σ × List (Int × Bytes)) where
  read s a n := (((dev.read s.1 a n).1, s.2), (dev.read s.1 a n).2)
  write s a d := (((dev.write s.1 a d).1, s.2 ++ [(a, d)]), (dev.write s.1 a d).2)

end Verif.Spec
