import Verif.Model.Scan
import Verif.Model.Command
import Verif.Py.Text

/-!
# The texts of the errors of scanning, reading and writing

`Model/Client.lean` and `Model/Scan.lean` leave out the texts of exceptions. Here the same functions with the texts: an error is an exception together with
`str(e)`. `say s e` is `str(e)` of an exception `e` that a Modbus device raises (or that is raised while a model is decoded); some of these texts come from the
operating system, and exceptions of one class have several texts, so that `say` may depend on the state `s` in which the exception leaves the device (which may
contain anything).
-/

namespace Verif

/-- A result or an exception with its text. -/
abbrev Told (α : Type) := Except (Exc × Text) α

/-- The texts of the exceptions that RTU reads raise when there is no reply or an exception reply (`sunspec/core/modbus/client.py:264, 277`); `other`: those of
the other exceptions. -/
def rtuSay {σ} (other : σ → Exc → Text) (s : σ) : Exc → Text
  | .modbusClientTimeout => t!"Response timeout"
  | .modbusClientException c => t!"Modbus exception " ++ natDec c
  | e => other s e

/-- `ClientDevice.read` (client.py:178-199). -/
def cdReadT {σ} (say : σ → Exc → Text) (dev : MbDev σ) (s : σ) (addr count : Int) : σ × Told (Option Bytes) :=
  match dev.read s addr count with
  | (s', .ok d) => (s', .ok d)
  | (s', .error e) => (s', .error (if e.isModbusClient then (.sunSpecClientError, t!"Modbus read error: " ++ say s' e) else (e, say s' e)))

/-- The loop over `base_addr_list` (client.py:245-262) with the variable `error`; without a result, the final `error`. -/
def probeT {σ} (say : σ → Exc → Text) (dev : MbDev σ) : List Int → Text → σ → σ × Told (Text ⊕ Int × Bytes)
  | [], error, s => (s, .ok (.inl error))
  | a :: rest, error, s =>
    match cdReadT say dev s a 3 with
    | (s', .error e) =>
      if e.1 = .sunSpecClientError then probeT say dev rest (if error = [] then e.2 else error) s' else (s', .error e)
    | (s', .ok none) => (s', .error (.typeError, say s' .typeError))
    | (s', .ok (some d)) =>
      if d.take 4 = sunS then (s', .ok (.inr (a, d))) else probeT say dev rest (t!"Device responded - not SunSpec register map") s'

/-- The `while` loop (client.py:268-299), as `scanLoop`. -/
def scanLoopT {σ} (say : σ → Exc → Text) (dev : MbDev σ) (lib : Int → Py ModelType) (prog : List MdlObj → Int → Bool) :
    Nat → Int → Int → CliDev σ → CliDev σ × Told Unit
  | 0, _, _, c => (c, .error (.diverge, []))
  | fuel + 1, id, addr, c =>
    if id = 65535 then (c, .ok ())
    else
      match cdReadT say dev c.st (addr + 1) 1 with
      | (s1, .error e) => ({ c with st := s1 }, .error e)
      | (s1, .ok d1) =>
        match wordOf d1 with
        | none => ({ c with st := s1 }, .ok ())
        | some len =>
          if prog c.list id = false then ({ c with st := s1 }, .error (.sunSpecClientError, t!"Device scan terminated"))
          else
            match scanLoad (lib id) (mdlNew id (addr + 2) len) with
            | .error e => ({ c with st := s1 }, .error (e, say s1 e))
            | .ok m =>
              match cdReadT say dev s1 (addr + (len + 2)) 1 with
              | (s2, .error e) => ({ addModel c m with st := s2 }, .error e)
              | (s2, .ok d2) =>
                match wordOf d2 with
                | none => ({ addModel c m with st := s2 }, .ok ())
                | some id2 => scanLoopT say dev lib prog fuel id2 (addr + (len + 2)) { addModel c m with st := s2 }

/-- `scan` from line 265 on (client.py:265-299), as `scanFrom`. -/
def scanFromT {σ} (say : σ → Exc → Text) (fuel : Nat) (dev : MbDev σ) (lib : Int → Py ModelType) (prog : List MdlObj → Int → Bool) (c : CliDev σ)
    (a : Int) (d : Bytes) : CliDev σ × Told Unit :=
  match wordOf (some ((d.drop 4).take 2)) with
  | none => (c, .error (.structError, say c.st .structError))
  | some id => scanLoopT say dev lib prog fuel id (a + 2) c

/-- `scan` without connecting and disconnecting (client.py:235-304), as `scanBody`; `if not error: error = 'Unknown error'` (302-303). -/
def scanBodyT {σ} (say : σ → Exc → Text) (fuel : Nat) (dev : MbDev σ) (lib : Int → Py ModelType) (prog : List MdlObj → Int → Bool) (c : CliDev σ) :
    CliDev σ × Told Unit :=
  match c.base with
  | some _ => (c, .error (.unboundLocal, say c.st .unboundLocal))
  | none =>
    match probeT say dev c.bases [] c.st with
    | (s, .error e) => ({ c with st := s }, .error e)
    | (s, .ok (.inl error)) => ({ c with st := s }, .error (.sunSpecClientError, if error = [] then t!"Unknown error" else error))
    | (s, .ok (.inr (a, d))) => scanFromT say fuel dev lib prog { c with st := s, base := some a } a d

/-- `if connect: self.modbus_device.disconnect()` (client.py:306-307), as `scanEnd`. -/
def scanEndT {σ} (disc : σ → σ) : CliDev σ × Told Unit → CliDev σ × Told Unit
  | (c, .ok _) => ({ c with st := disc c.st }, .ok ())
  | (c, .error e) => (c, .error e)

/-- `ClientDevice.scan` (client.py:229-307), as `scan`. -/
def scanT {σ} (say : σ → Exc → Text) (fuel : Nat) (dev : ScanDev σ) (lib : Int → Py ModelType) (prog : List MdlObj → Int → Bool) (c : CliDev σ) :
    CliDev σ × Told Unit :=
  match dev.conn with
  | none => scanBodyT say fuel dev.toMbDev lib prog c
  | some f =>
    match f c.st with
    | (s, .error e) => ({ c with st := s }, .error (e, say s e))
    | (s, .ok _) => scanEndT dev.disc (scanBodyT say fuel dev.toMbDev lib prog { c with st := s })

/-- The loop of client.py:359-366, as `readChunks`. -/
def readChunksT {σ} (say : σ → Exc → Text) (dev : MbDev σ) : List (Int × Int) → Bytes → σ → σ × Told Bytes
  | [], data, s => (s, .ok data)
  | (a, n) :: r, data, s =>
    match cdReadT say dev s a n with
    | (s', .error e) => (s', .error e)
    | (s', .ok none) => (s', .error (.typeError, say s' .typeError))
    | (s', .ok (some d)) => readChunksT say dev r (data ++ d) s'

/-- `data` of `read_points` (client.py:353-366), as `readData`. -/
def readDataT {σ} (say : σ → Exc → Text) (dev : MbDev σ) (m : MdlObj) (s : σ) : σ × Told (Option Bytes) :=
  if m.readBlocks.length = 1 then cdReadT say dev s m.addr m.len
  else
    match readChunksT say dev (readPlan m) [] s with
    | (s', .error e) => (s', .error e)
    | (s', .ok d) => (s', .ok (some d))

/-- The `except` clauses of `read_points` (client.py:406-411), as `rpWrap`: `SunSpecClientError(e)` has the text of `e`. -/
def rpWrapT : Told Unit → Told Unit
  | .error e =>
    .error (if e.1 = .sunSpecError then (.sunSpecClientError, e.2)
      else if e.1.isModbusClient then (.sunSpecClientError, t!"Modbus error: " ++ e.2) else e)
  | .ok a => .ok a

/-- An exception raised while the data is decoded, with its text. -/
def tell (say : Exc → Text) : Py Unit → Told Unit
  | .error e => .error (e, say e)
  | .ok a => .ok a

/-- `ClientModel.read_points` (client.py:346-411), as `readPoints`. -/
def readPointsT {σ} (say : σ → Exc → Text) (dev : MbDev σ) (s : σ) (m : MdlObj) : σ × MdlObj × Told Unit :=
  if m.mtype = none then (s, m, .ok ())
  else
    match readDataT say dev m s with
    | (s', .error e) => (s', m, rpWrapT (.error e))
    | (s', .ok data) => (s', (readApply m data).1, rpWrapT (tell (say s') (readApply m data).2))

/-- `ClientDevice.write` (client.py:201-219). -/
def cdWriteT {σ} (say : σ → Exc → Text) (dev : MbDev σ) (s : σ) (addr : Int) (d : Bytes) : σ × Told Unit :=
  match dev.write s addr d with
  | (s', .ok u) => (s', .ok u)
  | (s', .error e) => (s', .error (if e.isModbusClient then (.sunSpecClientError, t!"Modbus write error: " ++ say s' e) else (e, say s' e)))

/-- The body of the loop over the points (client.py:424-438), as `wpPoint`. -/
def wpPointT {σ} (say : σ → Exc → Text) (dev : MbDev σ) (acc : WAcc σ) (p : PointObj) : PointObj × WAcc σ × Told Unit :=
  if p.dirty then
    match p.pt.type.toData p.base (p.pt.len * 2).toNat with
    | .error e => (p, acc, .error (e, say acc.s e))
    | .ok pd =>
      match acc.addr with
      | none => ({ p with dirty := false }, ⟨acc.s, some p.addr, p.addr + p.pt.len, pd⟩, .ok ())
      | some a =>
        if p.addr = acc.next then ({ p with dirty := false }, ⟨acc.s, some a, p.addr + p.pt.len, acc.data ++ pd⟩, .ok ())
        else
          match cdWriteT say dev acc.s a acc.data with
          | (s', .error e) => (p, { acc with s := s' }, .error e)
          | (s', .ok _) => ({ p with dirty := false }, ⟨s', some p.addr, p.addr + p.pt.len, pd⟩, .ok ())
  else (p, acc, .ok ())

/-- The loop over the points of a block (client.py:423-438), as `wpPoints`. -/
def wpPointsT {σ} (say : σ → Exc → Text) (dev : MbDev σ) : List PointObj → WAcc σ → List PointObj × WAcc σ × Told Unit
  | [], acc => ([], acc, .ok ())
  | p :: ps, acc =>
    match wpPointT say dev acc p with
    | (p', acc', .error e) => (p' :: ps, acc', .error e)
    | (p', acc', .ok _) =>
      let (ps', acc'', r) := wpPointsT say dev ps acc'
      (p' :: ps', acc'', r)

/-- `if addr is not None: ...write...; addr = None` (client.py:439-441), as `wpFlush`. -/
def wpFlushT {σ} (say : σ → Exc → Text) (dev : MbDev σ) (acc : WAcc σ) : σ × Told Unit :=
  match acc.addr with
  | none => (acc.s, .ok ())
  | some a => cdWriteT say dev acc.s a acc.data

/-- The loop over the blocks (client.py:422-441), as `wpBlocks`. -/
def wpBlocksT {σ} (say : σ → Exc → Text) (dev : MbDev σ) : List BlockObj → σ → σ × List BlockObj × Told Unit
  | [], s => (s, [], .ok ())
  | b :: bs, s =>
    match wpPointsT say dev b.pts { s := s } with
    | (pts, acc, .error e) => (acc.s, { b with pts := pts } :: bs, .error e)
    | (pts, acc, .ok _) =>
      match wpFlushT say dev acc with
      | (s', .error e) => (s', { b with pts := pts } :: bs, .error e)
      | (s', .ok _) =>
        let (s'', bs', r) := wpBlocksT say dev bs s'
        (s'', { b with pts := pts } :: bs', r)

/-- `ClientModel.write_points` (client.py:413-441), as `writePoints`. -/
def writePointsT {σ} (say : σ → Exc → Text) (dev : MbDev σ) (s : σ) (m : MdlObj) : σ × MdlObj × Told Unit :=
  let (s', bs, r) := wpBlocksT say dev m.blocks s
  (s', { m with blocks := bs }, r)

/-- `ClientPoint.write` (client.py:500-506), as `writePoint`. -/
def writePointT {σ} (say : σ → Exc → Text) (dev : MbDev σ) (s : σ) (p : PointObj) : σ × PointObj × Told Unit :=
  match p.pt.type.toData p.base (p.pt.len * 2).toNat with
  | .error e => (s, p, .error (e, say s e))
  | .ok d =>
    match cdWriteT say dev s p.addr d with
    | (s', .error e) => (s', p, .error e)
    | (s', .ok _) => (s', { p with dirty := false }, .ok ())

/-- `SunSpecClientDevice.__init__` from the scan on (client.py:815-845), as `openDevice`: `raise` keeps the exception. -/
def openDeviceT {σ} (say : σ → Exc → Text) (fuel : Nat) (dev : ScanDev σ) (types : Int → Py ModelType) (lib : FloatLib) (s : σ) :
    σ × Told (List MdlObj) :=
  match scanT say fuel dev types (fun _ _ => true) { st := s } with
  | (c, .error e) => (dev.disc c.st, .error e)
  | (c, .ok _) =>
    match wrapDevice lib c.list with
    | (_, .ok _) => (c.st, .ok c.list)
    | (d, .error e) => (if d.closed then dev.disc c.st else c.st, .error (e, say c.st e))

/-- What the command prints: a line `Error: ...` (`scripts/suns.py:81`) or the report. -/
inductive PrintedT where
  | nothing
  | error (line : Text)
  | report (lines : List Text)
  deriving DecidableEq, Repr

/-- The script from the creation of the device on (`scripts/suns.py:68-117`), as `sunsRun`. -/
def sunsRunT {σ} (say : σ → Exc → Text) (fuel : Nat) (dev : ScanDev σ) (types : Int → Py ModelType) (lib : FloatLib) (s : σ) :
    σ × PrintedT × CmdEnd :=
  match openDeviceT say fuel dev types lib s with
  | (s1, .error e) => if e.1 = .sunSpecClientError then (s1, .error (t!"Error: " ++ e.2), .exit1) else (s1, .nothing, .raised e.1)
  | (s1, .ok ms) =>
    match readModels dev.toMbDev ms s1 with
    | (s2, _, .error e) => (s2, .report [], .raised e)
    | (s2, ms', .ok _) =>
      (s2, .report (report lib ms').1, match (report lib ms').2 with | .ok _ => .done | .error e => .raised e)

end Verif
