import Verif.Model.Pics

/-!
# Texts of devices

Models `__str__` of `Device`, `Model`, `Block` and `Point` (`sunspec/core/device.py:258-263, 405-410, 602-607,
877-884`).
-/

namespace Verif

/-- `str(x)` of a point value or None. -/
def showVal (lib : FloatLib) : Option Val → Text
  | none => t!"None"
  | some v => valText lib v

/-- `Point.__str__` (device.py:602-607), the blocks of the model being `bs`. -/
def showPoint (lib : FloatLib) (bs : List BlockObj) (p : PointObj) : Text :=
  t!"Point: id = " ++ p.pt.id ++ t!" impl = " ++ (if p.impl then t!"True" else t!"False") ++ t!" addr = " ++
    intDec p.addr ++ t!" value_base = " ++ showVal lib p.base ++
    match p.sf with
    | none => []
    | some r => t!" sf_value = " ++ showVal lib (sfValue bs r)

/-- The loop over the points (device.py:408-409, 880-881). -/
def showPoints (lib : FloatLib) (bs : List BlockObj) : List PointObj → Text
  | [] => []
  | p :: ps => t!"  " ++ showPoint lib bs p ++ '\n' :: showPoints lib bs ps

/-- `Block.__str__` (device.py:405-410). -/
def showBlock (lib : FloatLib) (bs : List BlockObj) (b : BlockObj) : Text :=
  t!"Block: type: " ++ (if b.bt.repeating then t!"repeating" else t!"fixed") ++ t!" index: " ++ natDec b.index ++
    ':' :: '\n' :: showPoints lib bs b.pts

/-- The loop over `self.blocks[1:]` (device.py:882-883). -/
def showBlocks (lib : FloatLib) (bs : List BlockObj) : List BlockObj → Text
  | [] => []
  | b :: r => showBlock lib bs b ++ showBlocks lib bs r

/-- `Model.__str__` (device.py:877-884): `points_list` is that of the first block once the model is loaded. -/
def showModel (lib : FloatLib) (m : MdlObj) : Text :=
  t!"Model " ++ intDec m.id ++ ':' :: '\n' :: ((if m.exposed then
    match m.blocks with
    | [] => []
    | b :: _ => showPoints lib m.blocks b.pts else []) ++ showBlocks lib m.blocks m.blocks.tail)

/-- `Device.__str__` (device.py:258-263) for the models `ms`. -/
def showDevice (lib : FloatLib) : List MdlObj → Text
  | [] => []
  | m :: ms => showModel lib m ++ showDevice lib ms

end Verif
