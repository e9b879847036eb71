import Verif.Model.Smdx
import Verif.Model.Mbmap

/-!
# The texts of definitions and register maps

Models `__str__` of `ModelType`, `BlockType`, `PointType` and `Symbol` (`sunspec/core/device.py:1105-1112, 1216-1221,
1442-1445, 1472-1474`) and of `ModbusMap` and `ModbusMapRegs` (`sunspec/core/modbus/mbmap.py:470-474, 609-611`).
-/

namespace Verif

/-- `str(x)` of a text or None. -/
def strOpt : Option Text → Text
  | none => t!"None"
  | some s => s

/-- `PointType.__str__` (device.py:1442-1445); for the names of access and mandatory see suns.py:56-60. -/
def showPointType (p : PointType) : Text :=
  t!"PointType: id = " ++ p.id ++ t!" offset = " ++ intDec p.offset ++ t!" type = " ++ p.type.name ++ t!" len = " ++ intDec p.len ++
    t!" sf = " ++ strOpt p.sf ++ t!" access = " ++ (if p.rw then t!"rw" else t!"r") ++ t!" mandatory = " ++
    (if p.mandatory then t!"true" else t!"false")

/-- The loop over the points (device.py:1219-1220). -/
def showPointTypes : List PointType → Text
  | [] => []
  | p :: ps => t!"  " ++ showPointType p ++ '\n' :: showPointTypes ps

/-- `str(self.len)` of a block type (device.py:1218). -/
def lenText : NumText → Text
  | .int i => intDec i
  | .str s => s

/-- `BlockType.__str__` (device.py:1216-1221). -/
def showBlockType (b : BlockType) : Text :=
  t!"BlockType: type = " ++ (if b.repeating then t!"repeating" else t!"fixed") ++ t!" len = " ++ lenText b.len ++ '\n' :: showPointTypes b.points

/-- `ModelType.__str__` (device.py:1105-1112). -/
def showType (t : ModelType) : Text :=
  t!"ModelType: id = " ++ intDec t.id ++ t!" len = " ++ intDec t.len ++ '\n' :: (showBlockType t.fixed ++
    match t.rep with
    | none => []
    | some b => showBlockType b)

/-- `Symbol.__str__` (device.py:1472-1474). -/
def showSymbol (s : Symbol) : Text := t!"Symbol: id = " ++ strOpt s.id ++ t!" value = " ++ strOpt s.value

/-- `str(x)` of a number of a map (mbmap.py:610): an int, or a float that is a multiple of 1/4. Simplification: floats of 10^16 and more
have another text. -/
def Num.text (a : Num) : Text :=
  if a.float then
    (if a.q < 0 then t!"-" else []) ++ natDec (a.q.natAbs / 4) ++ '.' ::
      (if a.q.natAbs % 4 = 0 then t!"0" else if a.q.natAbs % 4 = 1 then t!"25" else if a.q.natAbs % 4 = 2 then t!"5" else t!"75")
  else intDec a.toInt

/-- `ModbusMapRegs.__str__` (mbmap.py:609-611). -/
def showRegs (r : Regs) : Text := t!"  offset = " ++ r.offset.text ++ t!" count = " ++ r.count.text ++ t!" access = " ++ r.access

/-- The loop over the register blocks (mbmap.py:472-473). -/
def showAllRegs : List Regs → Text
  | [] => []
  | r :: rs => '\n' :: (showRegs r ++ showAllRegs rs)

/-- `ModbusMap.__str__` (mbmap.py:470-474) of a map with slave id `sid`. -/
def showMap (sid : Option Int) (m : MbMap) : Text :=
  t!"modbus_map: slave id = " ++ strOpt (sid.map intDec) ++ t!" func = " ++ natDec m.func ++ t!" base_addr = " ++ lenText m.base ++ showAllRegs m.regs

end Verif
