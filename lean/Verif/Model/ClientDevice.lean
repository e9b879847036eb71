import Verif.Model.Client
import Verif.Model.Registry
import Verif.Model.Tls

/-!
# Creating and closing client devices

Models `ClientDevice.__init__/close` (`sunspec/core/client.py:138-176`), the constructors of the Modbus devices
(`sunspec/core/modbus/client.py:495-517, 663-688, 698-700, 1000-1017`) and `SunSpecClientDevice.__init__/close`
(`sunspec/core/client.py:808-852`).
-/

namespace Verif

/-- The arguments of `ClientDevice` (client.py:138-139). `tls` has `ipaddr` and the TLS options. `pathlist` is part of
`loadMap` below, `trace` is C52. -/
structure DevArgs where
  type : String
  slave : Int := 1
  name : Option String := none
  baud : Option Int := none
  parity : Option String := none
  tls : TlsConf := { ipaddr := [] }
  ipport : Option Int := none
  timeout : Option Rat := none

/-- The `modbus_device` of a device: an RTU device (its index in `Ports.devs`), a TCP device (its attributes `slave_id`,
TLS options and `ipaddr`, `ipport`, `timeout`; not connected), or a mapped device. -/
inductive MbObj (Map : Type) where
  | rtu (d : Nat)
  | tcp (slave : Int) (conf : TlsConf) (port : Int) (timeout : Rat)
  | mapped (slave : Int) (map : Map)

/-- The serial ports (`Model/Registry.lean`), with the timeout of the serial port of each `ModbusClientRTU`. -/
structure Lines where
  ports : Ports
  timeouts : List (Nat × Rat)

/-- `ModbusClientDeviceRTU.__init__` (modbus/client.py:495-510): `rtuOpen`, and the timeout of the serial port, 0.5 s for a new
port (144, 164), then the one that is asked for. `portOk` says which ports can be opened. -/
def rtuDeviceNew (portOk : String → Bool) (s : Lines) (slave : Int) (name : String) (baud : Option Int) (parity : Option String)
    (timeout : Option Rat) : Lines × Py Nat :=
  match rtuOpen s.ports slave name baud parity (portOk name) with
  | (p, .error e) => ({ s with ports := p }, .error e)
  | (p, .ok d) =>
    match p.devs[d]? with
    | none => ({ s with ports := p }, .ok d)
    | some dv =>
      let t1 := if dv.client = s.ports.clients.length then dictSet s.timeouts dv.client (1 / 2) else s.timeouts
      let t2 := match timeout with
        | none => t1
        | some x => dictSet t1 dv.client x
      (⟨p, t2⟩, .ok d)

/-- The translation of exceptions in the constructor (client.py:168-171). -/
def devError {α} : Py α → Py α
  | .ok x => .ok x
  | .error e => .error (if e.isModbusClient then .sunSpecClientError else e)

/-- `ClientDevice.__init__` (client.py:138-171): the `modbus_device` (`None` for an unknown type).
`loadMap name` is `ModbusMap(slave_id).from_xml(name, pathlist)` (modbus/client.py:1008-1009). An RTU device without a name has the
unopened port of pyserial, represented by the empty name. -/
def clientDeviceNew {Map} (loadMap : String → Py Map) (portOk : String → Bool) (s : Lines) (a : DevArgs) : Lines × Py (Option (MbObj Map)) :=
  if a.type = "RTU" then
    match rtuDeviceNew portOk s a.slave (a.name.getD "") a.baud a.parity a.timeout with
    | (s', .ok d) => (s', .ok (some (.rtu d)))
    | (s', .error e) => (s', devError (.error e))
  else if a.type = "TCP" then
    (s, .ok (some (.tcp a.slave a.tls (a.ipport.getD 502) (a.timeout.getD 2))))
  else if a.type = "Mapped" then
    match a.name with
    | some n =>
      match loadMap n with
      | .ok m => (s, .ok (some (.mapped a.slave m)))
      | .error e => (s, devError (.error e))
    | none => (s, .error .sunSpecClientError)
  else (s, .ok none)

/-- `ClientDevice.close` (client.py:173-176), `ModbusClientDeviceRTU.close`, `ModbusClientDeviceMapped.close`: the effect on the serial ports. That of
`ModbusClientDeviceTCP.close` on its connection is `tcpDisconnect`. -/
def clientDeviceClose {Map} (s : Lines) : Option (MbObj Map) → Lines
  | some (.rtu d) => { s with ports := rtuClose s.ports d }
  | _ => s

/-- `SunSpecClientDevice.__init__` (client.py:808-845): create the device, scan and wrap it (`body`, C38 and C47), close it if that raises.
The first result of `body` says whether `self.device` still is the device (see `wrapDevice`); if not, `close` is not reached. -/
def sunspecDeviceNew {Map α} (loadMap : String → Py Map) (portOk : String → Bool) (s : Lines) (a : DevArgs)
    (body : Option (MbObj Map) → Bool × Py α) : Lines × Py (Option (MbObj Map) × α) :=
  match clientDeviceNew loadMap portOk s a with
  | (s1, .error e) => (s1, .error e)
  | (s1, .ok o) =>
    match body o with
    | (_, .ok x) => (s1, .ok (o, x))
    | (true, .error e) => (clientDeviceClose s1 o, .error e)
    | (false, .error _) => (s1, .error .attributeError)

/-- `ClientDevice.read` (client.py:178-199): without `modbus_device` it raises. `dev` is the interface of the Modbus device. -/
def clientDeviceRead {Map σ} (dev : MbObj Map → MbDev σ) (o : Option (MbObj Map)) (s : σ) (addr count : Int) : σ × Py (Option Bytes) :=
  match o with
  | none => (s, .error .sunSpecClientError)
  | some x => cdRead (dev x) s addr count

/-- `ClientDevice.write` (client.py:201-219): without `modbus_device` it raises. -/
def clientDeviceWrite {Map σ} (dev : MbObj Map → MbDev σ) (o : Option (MbObj Map)) (s : σ) (addr : Int) (data : Bytes) : σ × Py Unit :=
  match o with
  | none => (s, .error .sunSpecClientError)
  | some x => cdWrite (dev x) s addr data

end Verif
