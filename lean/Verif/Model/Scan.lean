import Verif.Model.Devices
import Verif.Py.Dict

/-!
# Scanning a device

Models `ClientDevice.scan` (client.py:229-307) and `Device.add_model` (device.py:97-111). Simplifications: the
definition of a model is given by a function `lib` of its id (`model_type_get`, device.py:890-933, reads it from files);
the progress callback is a function of the models found so far and the model id (any callback that returns is one, as its
answer can depend on all earlier calls); delays are left out, as is the text of error messages.
-/

namespace Verif

/-- A Modbus device object together with what `scan` does for TCP devices only: `connect` (client.py:237-240; none for
other devices) and `disconnect` (client.py:306-307). -/
structure ScanDev (σ : Type) extends MbDev σ where
  conn : Option (σ → σ × Py Unit)
  disc : σ → σ

/-- The parts of a `ClientDevice` that `scan` uses (client.py:146-149, device.py:91-96): the state of the Modbus device,
`base_addr`, `base_addr_list`, `models_list` and `models`. -/
structure CliDev (σ : Type) where
  st : σ
  base : Option Int := none
  bases : List Int := [40000, 0, 50000]
  list : List MdlObj := []
  dict : List (Int × List MdlObj) := []

/-- `Device.add_model` (device.py:97-111). -/
def addModel {σ} (c : CliDev σ) (m : MdlObj) : CliDev σ :=
  { c with list := c.list ++ [m], dict := dictSet c.dict m.id ((dictGet c.dict m.id).getD [] ++ [m]) }

/-- `b'SunS'` (client.py:251). -/
def sunS : Bytes := [0x53, 0x75, 0x6e, 0x53]

/-- The loop over `base_addr_list` (client.py:245-264): the base address and the data read there. `None[:4]` is a
`TypeError`. -/
def probe {σ} (dev : MbDev σ) : List Int → σ → σ × Py (Option (Int × Bytes))
  | [], s => (s, .ok none)
  | a :: rest, s =>
    match cdRead dev s a 3 with
    | (s', .error e) => if e = .sunSpecClientError then probe dev rest s' else (s', .error e)
    | (s', .ok none) => (s', .error .typeError)
    | (s', .ok (some d)) => if d.take 4 = sunS then (s', .ok (some (a, d))) else probe dev rest s'

/-- `if data and len(data) == 2` ... `util.data_to_u16(data)` (client.py:274-279, 293-294). -/
def wordOf : Option Bytes → Option Int
  | none => none
  | some d => if d.length = 2 then some (beDec d) else none

/-- `model.load()` with its `except` clause (client.py:284-288). Not an exception: divergence. -/
def scanLoad (mt : Py ModelType) (m : MdlObj) : Py MdlObj :=
  match mdlLoad mt m with
  | (m', .ok _) => .ok m'
  | (m', .error e) => if e = .diverge then .error .diverge else .ok { m' with loadError := true }

/-- The `while` loop (client.py:271-300) with fuel, at a model with id `id` and header at `addr`. -/
def scanLoop {σ} (dev : MbDev σ) (lib : Int → Py ModelType) (prog : List MdlObj → Int → Bool) :
    Nat → Int → Int → CliDev σ → CliDev σ × Py Unit
  | 0, _, _, c => (c, .error .diverge)
  | fuel + 1, id, addr, c =>
    if id = 65535 then (c, .ok ())
    else
      match cdRead dev c.st (addr + 1) 1 with
      | (s1, .error e) => ({ c with st := s1 }, .error e)
      | (s1, .ok d1) =>
        match wordOf d1 with
        | none => ({ c with st := s1 }, .ok ())
        | some len =>
          if prog c.list id = false then ({ c with st := s1 }, .error .sunSpecClientError)
          else
            match scanLoad (lib id) (mdlNew id (addr + 2) len) with
            | .error e => ({ c with st := s1 }, .error e)
            | .ok m =>
              match cdRead dev s1 (addr + (len + 2)) 1 with
              | (s2, .error e) => ({ addModel c m with st := s2 }, .error e)
              | (s2, .ok d2) =>
                match wordOf d2 with
                | none => ({ addModel c m with st := s2 }, .ok ())
                | some id2 => scanLoop dev lib prog fuel id2 (addr + (len + 2)) { addModel c m with st := s2 }

/-- `scan` from line 266 on, with base address `a` and data `d` (client.py:266-300); `unpack` of anything but two bytes
is a `struct.error`. -/
def scanFrom {σ} (fuel : Nat) (dev : MbDev σ) (lib : Int → Py ModelType) (prog : List MdlObj → Int → Bool) (c : CliDev σ)
    (a : Int) (d : Bytes) : CliDev σ × Py Unit :=
  match wordOf (some ((d.drop 4).take 2)) with
  | none => (c, .error .structError)
  | some id => scanLoop dev lib prog fuel id (a + 2) c

/-- `scan` without connecting and disconnecting (client.py:245-304). If `base_addr` is set, `data` is used without
having been assigned (client.py:268). -/
def scanBody {σ} (fuel : Nat) (dev : MbDev σ) (lib : Int → Py ModelType) (prog : List MdlObj → Int → Bool) (c : CliDev σ) :
    CliDev σ × Py Unit :=
  match c.base with
  | some _ => (c, .error .unboundLocal)
  | none =>
    match probe dev c.bases c.st with
    | (s, .error e) => ({ c with st := s }, .error e)
    | (s, .ok none) => ({ c with st := s }, .error .sunSpecClientError)
    | (s, .ok (some (a, d))) => scanFrom fuel dev lib prog { c with st := s, base := some a } a d

/-- `if connect: self.modbus_device.disconnect()` (client.py:306-307), not reached after an exception. -/
def scanEnd {σ} (disc : σ → σ) : CliDev σ × Py Unit → CliDev σ × Py Unit
  | (c, .ok _) => ({ c with st := disc c.st }, .ok ())
  | (c, .error e) => (c, .error e)

/-- `ClientDevice.scan` (client.py:229-307). An exception of `connect` is not caught. -/
def scan {σ} (fuel : Nat) (dev : ScanDev σ) (lib : Int → Py ModelType) (prog : List MdlObj → Int → Bool) (c : CliDev σ) :
    CliDev σ × Py Unit :=
  match dev.conn with
  | none => scanBody fuel dev.toMbDev lib prog c
  | some f =>
    match f c.st with
    | (s, .error e) => ({ c with st := s }, .error e)
    | (s, .ok _) => scanEnd dev.disc (scanBody fuel dev.toMbDev lib prog { c with st := s })

/-- RTU and mapped devices are not connected by `scan`. -/
def rtuScanDev {σ} (slave : Slave σ) (sid : Int) : ScanDev (Line σ) := { rtuDev slave sid with conn := none, disc := id }

def mapScanDev : ScanDev MbMap := { mapDev with conn := none, disc := id }

/-- TCP devices are (client.py:237-240, 306-307). -/
def tcpScanDev {σ} (srv : TcpServer σ) (sid : Int) : ScanDev (Tcp σ) :=
  { tcpDev srv sid with conn := some (tcpConnect srv), disc := tcpDisconnect }

/-- `ClientDevice.read_points` (client.py:221-227), and `SunSpecClientDevice.read` (client.py:854-859): read all models; an exception ends the loop. -/
def readModels {σ} (dev : MbDev σ) : List MdlObj → σ → σ × List MdlObj × Py Unit
  | [], s => (s, [], .ok ())
  | m :: ms, s =>
    match readPoints dev s m with
    | (s1, m1, .error e) => (s1, m1 :: ms, .error e)
    | (s1, m1, .ok _) =>
      let (s2, ms2, r) := readModels dev ms s1
      (s2, m1 :: ms2, r)

end Verif
