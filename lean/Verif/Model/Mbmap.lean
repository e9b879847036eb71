import Verif.Py.Num
import Verif.Py.Xml
import Verif.Model.Points

/-!
# Register maps

Models `sunspec/core/modbus/mbmap.py` (Python 3 semantics). Error messages and `print` are not modelled.
-/

namespace Verif

/-- A `ModbusMapRegs` object (mbmap.py:514-518). -/
structure Regs where
  offset : Num
  count : Num
  data : Option Bytes
  access : Text
  deriving DecidableEq, Repr

/-- `base_addr` is the int default or the text of an attribute (mbmap.py:189). -/
inductive BaseAddr where
  | int (i : Int)
  | str (s : Text)
  deriving DecidableEq, Repr

/-- `int(self.base_addr)` (mbmap.py:383, 425). -/
def BaseAddr.toInt : BaseAddr → Py Int
  | .int i => .ok i
  | .str s => match pyInt 10 s with
    | some i => .ok i
    | none => .error .valueError

/-- A `ModbusMap` object (mbmap.py:107-121); `slave_id` is not used by the modelled functions. `func` is
3 (holding) or 4 (input). -/
structure MbMap where
  func : Nat
  base : BaseAddr
  ns : Option Text
  lid : Option Text
  mapid : Option Text
  time : Option Text
  regs : List Regs
  deriving DecidableEq, Repr

/-- `func_value.get(func)` (mbmap.py:66). -/
def funcValue (f : Text) : Option Nat :=
  if f = t!"input" then some 4 else if f = t!"holding" then some 3 else none

/-- `func_name.get(func, 'holding')` (mbmap.py:67, 301). -/
def funcName (f : Nat) : Text := if f = 4 then t!"input" else t!"holding"

/-- `ModbusMap(func=..., base_addr=...)` (mbmap.py:107-121). -/
def mapNew (func : Text) (base : Int) : Py MbMap :=
  match funcValue func with
  | some v => .ok ⟨v, .int base, none, none, none, none, []⟩
  | none => .error .modbusMapError

/-- `ModbusMapRegs.read` (mbmap.py:520-546). -/
def regsRead (r : Regs) (offset count : Num) : Py (Option Bytes) :=
  if r.offset.q ≤ offset.q ∧ offset.q < (r.offset.add r.count).q then
    let rc := if (r.offset.add r.count).q < (offset.add count).q then (r.offset.add r.count).sub offset else count
    if 0 < rc.q then
      (numSlice r.data (offset.sub r.offset).dbl ((offset.sub r.offset).dbl.add rc.dbl)).map some
    else .ok none
  else .error .modbusMapError

/-- `ModbusMapRegs.write` (mbmap.py:548-565). -/
def regsWrite (r : Regs) (offset : Num) (d : Bytes) : Py Regs :=
  if r.offset.q ≤ offset.q ∧ (offset.add (.half d.length)).q ≤ (r.offset.add r.count).q then
    match r.data, (offset.sub r.offset).dbl.index with
    | some old, .ok start =>
      let stop := ((offset.sub r.offset).dbl.add (Num.half d.length).dbl).toInt
      .ok { r with data := some (pySlice old 0 start ++ d ++ pySlice old stop old.length) }
    | _, _ => .error .typeError
  else .error .modbusMapError

/-- The loop of `ModbusMap.read` (mbmap.py:384-397). -/
def mapReadLoop : List Regs → Num → Num → Bytes → Py Bytes
  | [], _, _, acc => .ok acc
  | r :: rs, offset, remaining, acc =>
    if 0 < remaining.q then
      if r.offset.q ≤ offset.q ∧ offset.q < (r.offset.add r.count).q then
        let rc0 := (r.offset.add r.count).sub offset
        let rc := if remaining.q < rc0.q then remaining else rc0
        match regsRead r offset rc with
        | .ok (some d) => mapReadLoop rs (offset.add rc) (remaining.sub rc) (acc ++ d)
        | .ok none => .error .typeError
        | .error e => .error e
      else mapReadLoop rs offset remaining acc
    else .ok acc

/-- `ModbusMap.read` (mbmap.py:361-404). -/
def mapRead (m : MbMap) (addr count : Int) (op : Option Nat) : Py Bytes :=
  if op ≠ none ∧ op ≠ some 0 ∧ op ≠ some m.func then .error .modbusMapError
  else
    match m.base.toInt with
    | .error e => .error e
    | .ok base =>
      match mapReadLoop m.regs (.int (addr - base)) (.int count) [] with
      | .error e => .error e
      | .ok d => if (d.length : Int) = count * 2 then .ok d else .error .modbusMapError

/-- The loop of `ModbusMap.write` (mbmap.py:426-444); the result is `count_remaining`. -/
def mapWriteLoop : List Regs → Num → Num → Num → Bytes → List Regs × Py Num
  | [], _, remaining, _, _ => ([], .ok remaining)
  | r :: rs, offset, remaining, dataOffset, data =>
    if 0 < remaining.q then
      if r.offset.q ≤ offset.q ∧ offset.q < (r.offset.add r.count).q then
        let wc0 := (r.offset.add r.count).sub offset
        let wc := if remaining.q < wc0.q then remaining else wc0
        match numSlice (some data) dataOffset (.int (dataOffset.add wc.dbl).toInt) with
        | .error e => (r :: rs, .error e)
        | .ok d =>
          match regsWrite r offset d with
          | .error e => (r :: rs, .error e)
          | .ok r' =>
            let (rs', res) := mapWriteLoop rs (offset.add wc) (remaining.sub wc) (dataOffset.add wc) data
            (r' :: rs', res)
      else
        let (rs', res) := mapWriteLoop rs offset remaining dataOffset data
        (r :: rs', res)
    else (r :: rs, .ok remaining)

/-- `ModbusMap.write` (mbmap.py:406-448). -/
def mapWrite (m : MbMap) (addr : Int) (data : Bytes) : MbMap × Py Unit :=
  if data.length % 2 ≠ 0 then (m, .error .modbusMapError)
  else
    match m.base.toInt with
    | .error e => (m, .error e)
    | .ok base =>
      match mapWriteLoop m.regs (.int (addr - base)) (.half data.length) (.int 0) data with
      | (rs, .error e) => ({ m with regs := rs }, .error e)
      | (rs, .ok remaining) =>
        ({ m with regs := rs }, if 0 < remaining.q then .error .modbusMapError else .ok ())

/-- `last_regs.offset + last_regs.count`, or 0 without registers (mbmap.py:207-212, 339-344). -/
def lastNext (rs : List Regs) : Num :=
  match rs.getLast? with
  | some r => r.offset.add r.count
  | none => .int 0

/-- mbmap.py:286-292 and 351-357 with `ModbusMapRegs.append` (mbmap.py:567-588): start a new block unless the
registers follow the last block immediately. `None + bytes` is a `TypeError`. -/
def addRegs (rs : List Regs) (offset count : Num) (data : Option Bytes) (access : Text) : Py (List Regs) :=
  match rs.getLast? with
  | none => .ok [⟨offset, count, data, access⟩]
  | some last =>
    if (lastNext rs).q < offset.q then .ok (rs ++ [⟨offset, count, data, access⟩])
    else
      match last.data, data with
      | some a, some b =>
        .ok (rs.dropLast ++ [{ last with data := some (a ++ b), count := last.count.add count }])
      | _, _ => .error .typeError

/-- `ModbusMap.regs_add` (mbmap.py:332-359). Comparing the address with a text `base_addr`, or an offset
None with a number, is a `TypeError`; a negative count is a `struct.error`. -/
def regsAdd (m : MbMap) (addr offset : Option Int) (count : Int) (access : Text) : MbMap × Py Unit :=
  let off : Py Int :=
    match addr, m.base, offset with
    | some a, .int b, _ => if a < b then .error .modbusMapError else .ok (a - b)
    | some _, .str _, _ => .error .typeError
    | none, _, some o => .ok o
    | none, _, none => .error .typeError
  match off with
  | .error e => (m, .error e)
  | .ok o =>
    if (Num.int o).q < (lastNext m.regs).q then (m, .error .modbusMapError)
    else if count < 0 then (m, .error .structError)
    else
      match addRegs m.regs (.int o) (.int count) (some (packStr (2 * count.toNat) [])) access with
      | .ok rs => ({ m with regs := rs }, .ok ())
      | .error e => (m, .error e)

/-- `struct.pack('>f', float(text))` and `struct.pack('>d', float(text))`: the text syntax and rounding of
floats is not modelled, these are parameters. -/
structure FloatText where
  f32 : Text → Py (BitVec 32)
  f64 : Text → Py (BitVec 64)

/-- mbmap.py:268-274: pairs of hexadecimal digits. -/
def hexPairs : Text → Py Bytes
  | a :: b :: rest =>
    match pyInt 16 [a, b] with
    | none => .error .valueError
    | some v =>
      match packU 1 v, hexPairs rest with
      | .ok c, .ok d => .ok (c ++ d)
      | .error e, _ => .error e
      | _, .error e => .error e
  | [a] =>
    match pyInt 16 [a] with
    | none => .error .valueError
    | some v => packU 1 v
  | [] => .ok []

/-- An integer element: `struct.pack(fmt, int(text, 0))` (mbmap.py:225-242). -/
def elemInt (signed : Bool) (bytes : Nat) (text : Text) : Py (Num × Option Bytes) :=
  match pyInt 0 text with
  | none => .error .valueError
  | some v => ((if signed then packS bytes v else packU bytes v).map fun d => (.int (bytes / 2 : Nat), some d))

/-- `text`, or a default if it is None or empty (mbmap.py:219-223). -/
def textOr (text : Option Text) (dflt : Text) : Text :=
  match text with
  | some (c :: cs) => c :: cs
  | _ => dflt

/-- mbmap.py:219-282: the length and data of an element of a type. -/
def elemData (F : FloatText) (rtype : Text) (rlen : Int) (text : Option Text) : Py (Num × Option Bytes) :=
  let txt : Text := textOr text (if rtype = t!"string" ∨ rtype = t!"hexstr" then [] else ['0'])
  if rtype = t!"s16" then elemInt true 2 txt
  else if rtype = t!"u16" then elemInt false 2 txt
  else if rtype = t!"s32" then elemInt true 4 txt
  else if rtype = t!"u32" then elemInt false 4 txt
  else if rtype = t!"s64" then elemInt true 8 txt
  else if rtype = t!"u64" then elemInt false 8 txt
  else if rtype = t!"f32" then (F.f32 txt).map fun b => (.int 2, some (beEnc 4 b.toNat))
  else if rtype = t!"f64" then (F.f64 txt).map fun b => (.int 4, some (beEnc 8 b.toNat))
  else if rtype = t!"string" then
    -- without a length `rlen` is a float and the format `'4.0s'` is a struct.error (mbmap.py:250-257)
    match latin1Enc txt with
    | .error e => .error e
    | .ok b => if rlen ≤ 0 then .error .structError else .ok (.int rlen, some (packStr (2 * rlen.toNat) b))
  else if rtype = t!"hexstr" then
    let hex := txt.filter (· != ' ')
    if hex.length % 4 ≠ 0 then .error .modbusMapError
    else
      let n : Num := if rlen = 0 then .quarter hex.length else .int rlen
      match hexPairs hex with
      | .error e => .error e
      | .ok d =>
        let pad : Int := 2 * (n.sub (.quarter hex.length)).toInt
        if 0 < pad then .ok (n, some (d ++ List.replicate pad.toNat 0#8))
        else .ok (n, if d = [] then none else some d)
  else .error .modbusMapError

/-- `int(r.attrib.get('offset', next_offset))` (mbmap.py:199-203). -/
def elemOffset (e : Elem) (nextOffset : Num) : Option Num :=
  match e.get "offset" with
  | none => some nextOffset
  | some s => (pyInt 10 s).map .int

/-- `int(r.attrib.get('len', 0))` (mbmap.py:204). -/
def elemLen (e : Elem) : Option Int :=
  match e.get "len" with
  | none => some 0
  | some s => pyInt 10 s

/-- The loop of `ModbusMap.from_xml` (mbmap.py:195-292). Every exception becomes a `ModbusMapError`
(294-295), except that a non-numeric offset makes formatting the message fail with a `TypeError`. -/
def fromXmlLoop (F : FloatText) : List Elem → List Regs → Num → List Regs × Py Unit
  | [], rs, _ => (rs, .ok ())
  | e :: es, rs, nextOffset =>
    match elemOffset e nextOffset with
    | none => (rs, .error .typeError)
    | some offset =>
      match elemLen e with
      | none => (rs, .error .modbusMapError)
      | some rlen =>
        if offset.q < (lastNext rs).q then (rs, .error .modbusMapError)
        else
          match elemData F ((e.get "type").getD (t!"hexstr")) rlen e.text with
          | .error _ => (rs, .error .modbusMapError)
          | .ok (n, data) =>
            match addRegs rs offset n data ((e.get "access").getD (t!"r")) with
            | .error _ => (rs, .error .modbusMapError)
            | .ok rs' => fromXmlLoop F es rs' (offset.add n)

/-- `ModbusMap.from_xml(element=root)` (mbmap.py:153-295). -/
def fromXml (F : FloatText) (m : MbMap) (root : Elem) : MbMap × Py Unit :=
  match funcValue ((root.get "func").getD (t!"holding")) with
  | none => (m, .error .modbusMapError)
  | some v =>
    let m : MbMap := { m with func := v, base := match root.get "addr" with | some s => .str s | none => .int 40000, ns := root.get "ns", lid := root.get "lid", mapid := root.get "mapid", time := root.get "time" }
    let (rs, res) := fromXmlLoop F (root.findall "regs") m.regs (.int 0)
    ({ m with regs := rs }, res)

/-- `str(base_addr)`. -/
def BaseAddr.text : BaseAddr → Text
  | .int i => intDec i
  | .str s => s

/-- The text of a register block (mbmap.py:319-328). Iterating over None is a `TypeError`. -/
def regsToXml (r : Regs) (noData : Bool) : Py Elem :=
  if noData then
    .ok (.mk "regs" [("offset", r.offset.str), ("len", r.count.str)] none [])
  else
    match r.data with
    | none => .error .typeError
    | some d => .ok (.mk "regs" [("offset", r.offset.str), ("len", r.count.str)] (some (d.flatMap hex2L)) [])

/-- The register blocks, in order. -/
def regsListToXml (noData : Bool) : List Regs → Py (List Elem)
  | [] => .ok []
  | r :: rs =>
    match regsToXml r noData, regsListToXml noData rs with
    | .ok e, .ok es => .ok (e :: es)
    | .error e, _ => .error e
    | _, .error e => .error e

/-- An optional attribute (mbmap.py:302-309). -/
def optAttr (k : String) : Option Text → List (String × Text)
  | some v => [(k, v)]
  | none => []

/-- `ModbusMap.to_xml` (mbmap.py:297-330). -/
def toXml (m : MbMap) (noData : Bool) : Py Elem :=
  match regsListToXml noData m.regs with
  | .error e => .error e
  | .ok es =>
    .ok (.mk "mbmap" ([("addr", m.base.text), ("func", funcName m.func)] ++ optAttr "ns" m.ns ++
      optAttr "lid" m.lid ++ optAttr "mapid" m.mapid ++ optAttr "time" m.time) none es)

/-- The bytes of a line of a hex file: `line.rstrip('\r\n').split()` with `int(b, 16)` (mbmap.py:131-141).
The words of the line are given. -/
def hexWords : List Text → Py Bytes
  | [] => .ok []
  | w :: ws =>
    match pyInt 16 w with
    | none => .error .valueError
    | some v =>
      match packU 1 v, hexWords ws with
      | .ok c, .ok d => .ok (c ++ d)
      | .error e, _ => .error e
      | _, .error e => .error e

/-- `ModbusMap.from_hex` (mbmap.py:124-151) for the words of all lines that are not comments. Note that
the count `len(data)/2` is a float. -/
def fromHex (m : MbMap) (words : List Text) : MbMap × Py Unit :=
  match hexWords words with
  | .error _ => (m, .error .modbusMapError)
  | .ok [] => (m, .error .modbusMapError)
  | .ok d => ({ m with regs := m.regs ++ [⟨.int 0, .half d.length, some d, t!"rw"⟩] }, .ok ())

/-- The byte comparison loop of `ModbusMapRegs.not_equal` (mbmap.py:602-604): `true` if a byte differs;
`IndexError` if the other data is too short. -/
def dataDiffers : Bytes → Bytes → Py Bool
  | [], _ => .ok false
  | _ :: _, [] => .error .indexError
  | a :: as, b :: bs => if a ≠ b then .ok true else dataDiffers as bs

/-- `ModbusMapRegs.not_equal` (mbmap.py:590-607): `true` stands for a text saying why. -/
def regsNotEqual (a b : Regs) : Py Bool :=
  if a.offset.q ≠ b.offset.q then .ok true
  else if a.count.q ≠ b.count.q then .ok true
  else
    let tail : Py Bool := .ok (decide (a.access ≠ b.access))
    match a.data, b.data with
    | some x, some y =>
      match dataDiffers x y with
      | .error e => .error e
      | .ok true => .ok true
      | .ok false => tail
    | none, none => tail
    | some [], none => tail
    | some (_ :: _), none => .error .typeError
    | none, some _ => .error .typeError

/-- mbmap.py:464-468. -/
def regsListNotEqual : List Regs → List Regs → Py Bool
  | a :: as, b :: bs =>
    match regsNotEqual a b with
    | .error e => .error e
    | .ok true => .ok true
    | .ok false => regsListNotEqual as bs
  | _, _ => .ok false

/-- `ModbusMap.not_equal` (mbmap.py:450-468); an int is never equal to a text. -/
def mapNotEqual (a b : MbMap) : Py Bool :=
  if a.base ≠ b.base then .ok true
  else if a.func ≠ b.func then .ok true
  else if a.regs.length ≠ b.regs.length then .ok true
  else regsListNotEqual a.regs b.regs

end Verif
