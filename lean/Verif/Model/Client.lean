import Verif.Model.Device

/-!
# Reading and writing models

Models `ClientDevice.read/write`, `ClientModel.read_points/write_points` and `ClientPoint.write`
(`sunspec/core/client.py`) on top of any Modbus device.
-/

namespace Verif

/-- A Modbus device object (modbus/client.py: `ModbusClientDeviceRTU`, `...TCP`, `...Mapped`) as seen by
`ClientDevice`: what its methods `read(addr, count)` and `write(addr, data)` do, over some state `σ` (the device, the
connection...). -/
structure MbDev (σ : Type) where
  read : σ → Int → Int → σ × Py (Option Bytes)
  write : σ → Int → Bytes → σ × Py Unit

/-- `except modbus.ModbusClientError` (the base class of the timeout and exception classes). -/
def Exc.isModbusClient : Exc → Bool
  | .modbusClientError | .modbusClientTimeout | .modbusClientException _ => true
  | _ => false

/-- The `except` clauses of `ClientDevice.read` and `write` (client.py:198-199, 218-219). -/
def cdWrap {α} : Py α → Py α
  | .error e => .error (if e.isModbusClient then .sunSpecClientError else e)
  | .ok a => .ok a

/-- `ClientDevice.read` (client.py:178-199). -/
def cdRead {σ} (dev : MbDev σ) (s : σ) (addr count : Int) : σ × Py (Option Bytes) :=
  ((dev.read s addr count).1, cdWrap (dev.read s addr count).2)

/-- `ClientDevice.write` (client.py:201-219). -/
def cdWrite {σ} (dev : MbDev σ) (s : σ) (addr : Int) (d : Bytes) : σ × Py Unit :=
  ((dev.write s addr d).1, cdWrap (dev.write s addr d).2)

/-- The loop over `read_blocks` (client.py:357-366): address and register count of each read; `stop` is the end of
the model. -/
def readPlanLoop (stop : Int) : List Int → List (Int × Int)
  | [] => []
  | [a] => [(a, stop - a)]
  | a :: b :: r => (a, b - a) :: readPlanLoop stop (b :: r)

/-- The reads of `read_points` (client.py:353-366). -/
def readPlan (m : MdlObj) : List (Int × Int) :=
  if m.readBlocks.length = 1 then [(m.addr, m.len)] else readPlanLoop (m.addr + m.len) m.readBlocks

/-- The loop of client.py:359-366, `data` being what has been read. `bytes += None` is a `TypeError`. -/
def readChunks {σ} (dev : MbDev σ) : List (Int × Int) → Bytes → σ → σ × Py Bytes
  | [], data, s => (s, .ok data)
  | (a, n) :: r, data, s =>
    match cdRead dev s a n with
    | (s', .error e) => (s', .error e)
    | (s', .ok none) => (s', .error .typeError)
    | (s', .ok (some d)) => readChunks dev r (data ++ d) s'

/-- `data` of `read_points` (client.py:353-366). -/
def readData {σ} (dev : MbDev σ) (m : MdlObj) (s : σ) : σ × Py (Option Bytes) :=
  if m.readBlocks.length = 1 then cdRead dev s m.addr m.len
  else
    match readChunks dev (readPlan m) [] s with
    | (s', .error e) => (s', .error e)
    | (s', .ok d) => (s', .ok (some d))

/-- The bytes of a point in the data of a model (client.py:377-381, 389-393). -/
def pointBytes (maddr : Int) (data : Bytes) (p : PointObj) : Bytes :=
  pySlice data ((p.addr - maddr) * 2) ((p.addr - maddr) * 2 + p.pt.len * 2)

/-- `sf_point.value_base` (client.py:399), the blocks of the model being `bs`. -/
def sfValue (bs : List BlockObj) : SfRef → Option Val
  | .const v => some (.int v)
  | .point blk id =>
    match bs[blk]? with
    | none => none
    | some b =>
      match b.sfs.find? fun q => decide (q.pt.id = id) with
      | none => none
      | some q => q.base

/-- The loop over the scale factor points of a block (client.py:376-385). `data_to` is never None: `set` in
device.py takes it from the table in suns.py. -/
def readSfs (maddr : Int) (data : Bytes) : List PointObj → List PointObj × Py Unit
  | [] => ([], .ok ())
  | p :: ps =>
    match p.pt.type.fromData (pointBytes maddr data p) with
    | .error e => (p :: ps, .error e)
    | .ok v =>
      let (ps', r) := readSfs maddr data ps
      ({ p with base := if p.pt.type.isImpl v then v else none } :: ps', r)

/-- The update of one point (client.py:389-402). -/
def readPoint (maddr : Int) (data : Bytes) (bs : List BlockObj) (p : PointObj) : Py PointObj :=
  match p.pt.type.fromData (pointBytes maddr data p) with
  | .error e => .error e
  | .ok v =>
    if p.pt.type.isImpl v then
      match p.sf with
      | some ref => .ok { p with base := v, vsf := sfValue bs ref }
      | none => .ok { p with base := v }
    else .ok { p with base := none, vsf := none }

/-- The loop over the points of a block (client.py:388-404). -/
def readPts (maddr : Int) (data : Bytes) (bs : List BlockObj) : List PointObj → List PointObj × Py Unit
  | [] => ([], .ok ())
  | p :: ps =>
    match readPoint maddr data bs p with
    | .error e => (p :: ps, .error e)
    | .ok p' => let (ps', r) := readPts maddr data bs ps; (p' :: ps', r)

/-- The loop over the blocks (client.py:374-404): `done` are the blocks already updated. -/
def readBlocksLoop (maddr : Int) (data : Bytes) : List BlockObj → List BlockObj → List BlockObj × Py Unit
  | done, [] => (done, .ok ())
  | done, b :: rest =>
    match readSfs maddr data b.sfs with
    | (sfs, .error e) => (done ++ { b with sfs := sfs } :: rest, .error e)
    | (sfs, .ok _) =>
      match readPts maddr data (done ++ { b with sfs := sfs } :: rest) b.pts with
      | (pts, .error e) => (done ++ { b with sfs := sfs, pts := pts } :: rest, .error e)
      | (pts, .ok _) => readBlocksLoop maddr data (done ++ [{ b with sfs := sfs, pts := pts }]) rest

/-- The use of the data in `read_points` (client.py:367-404). -/
def readApply (m : MdlObj) (data : Option Bytes) : MdlObj × Py Unit :=
  match data with
  | none => (m, .ok ())
  | some data =>
    if data = [] then (m, .ok ())
    else if (data.length : Int) ≠ 2 * m.len then (m, .error .sunSpecClientError)
    else
      let (bs, r) := readBlocksLoop m.addr data [] m.blocks
      ({ m with blocks := bs }, r)

/-- The `except` clauses of `read_points` (client.py:406-411). `SunSpecClientError` is a `SunSpecError`. -/
def rpWrap : Py Unit → Py Unit
  | .error e => .error (if e = .sunSpecError ∨ e.isModbusClient then .sunSpecClientError else e)
  | .ok a => .ok a

/-- `ClientModel.read_points` (client.py:346-411). -/
def readPoints {σ} (dev : MbDev σ) (s : σ) (m : MdlObj) : σ × MdlObj × Py Unit :=
  if m.mtype = none then (s, m, .ok ())
  else
    match readData dev m s with
    | (s', .error e) => (s', m, rpWrap (.error e))
    | (s', .ok data) => (s', (readApply m data).1, rpWrap (readApply m data).2)

/-- The state of `write_points` (client.py:418-420): the device, the address and the data of the registers not yet
written (if any) and the address after them. -/
structure WAcc (σ : Type) where
  s : σ
  addr : Option Int := none
  next : Int := 0
  data : Bytes := []

/-- The body of the loop over the points (client.py:424-438). -/
def wpPoint {σ} (dev : MbDev σ) (acc : WAcc σ) (p : PointObj) : PointObj × WAcc σ × Py Unit :=
  if p.dirty then
    match p.pt.type.toData p.base (p.pt.len * 2).toNat with
    | .error e => (p, acc, .error e)
    | .ok pd =>
      match acc.addr with
      | none => ({ p with dirty := false }, ⟨acc.s, some p.addr, p.addr + p.pt.len, pd⟩, .ok ())
      | some a =>
        if p.addr = acc.next then ({ p with dirty := false }, ⟨acc.s, some a, p.addr + p.pt.len, acc.data ++ pd⟩, .ok ())
        else
          match cdWrite dev acc.s a acc.data with
          | (s', .error e) => (p, { acc with s := s' }, .error e)
          | (s', .ok _) => ({ p with dirty := false }, ⟨s', some p.addr, p.addr + p.pt.len, pd⟩, .ok ())
  else (p, acc, .ok ())

/-- The loop over the points of a block (client.py:423-438). -/
def wpPoints {σ} (dev : MbDev σ) : List PointObj → WAcc σ → List PointObj × WAcc σ × Py Unit
  | [], acc => ([], acc, .ok ())
  | p :: ps, acc =>
    match wpPoint dev acc p with
    | (p', acc', .error e) => (p' :: ps, acc', .error e)
    | (p', acc', .ok _) =>
      let (ps', acc'', r) := wpPoints dev ps acc'
      (p' :: ps', acc'', r)

/-- `if addr is not None: ...write...; addr = None` (client.py:439-441). -/
def wpFlush {σ} (dev : MbDev σ) (acc : WAcc σ) : σ × Py Unit :=
  match acc.addr with
  | none => (acc.s, .ok ())
  | some a => cdWrite dev acc.s a acc.data

/-- The loop over the blocks (client.py:422-441). -/
def wpBlocks {σ} (dev : MbDev σ) : List BlockObj → σ → σ × List BlockObj × Py Unit
  | [], s => (s, [], .ok ())
  | b :: bs, s =>
    match wpPoints dev b.pts { s := s } with
    | (pts, acc, .error e) => (acc.s, { b with pts := pts } :: bs, .error e)
    | (pts, acc, .ok _) =>
      match wpFlush dev acc with
      | (s', .error e) => (s', { b with pts := pts } :: bs, .error e)
      | (s', .ok _) =>
        let (s'', bs', r) := wpBlocks dev bs s'
        (s'', { b with pts := pts } :: bs', r)

/-- `ClientModel.write_points` (client.py:413-441). -/
def writePoints {σ} (dev : MbDev σ) (s : σ) (m : MdlObj) : σ × MdlObj × Py Unit :=
  let (s', bs, r) := wpBlocks dev m.blocks s
  (s', { m with blocks := bs }, r)

/-- `ClientPoint.write` (client.py:500-506). -/
def writePoint {σ} (dev : MbDev σ) (s : σ) (p : PointObj) : σ × PointObj × Py Unit :=
  match p.pt.type.toData p.base (p.pt.len * 2).toNat with
  | .error e => (s, p, .error e)
  | .ok d =>
    match cdWrite dev s p.addr d with
    | (s', .error e) => (s', p, .error e)
    | (s', .ok _) => (s', { p with dirty := false }, .ok ())

end Verif
