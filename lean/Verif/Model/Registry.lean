import Verif.Py.Basic
import Verif.Py.Dict

/-!
# Sharing of serial ports between RTU devices

Models `modbus_rtu_client`, `modbus_rtu_client_remove`, `ModbusClientRTU.__init__/open/close/
add_device/remove_device` and `ModbusClientDeviceRTU.__init__/close`
(`sunspec/core/modbus/client.py:60-86, 139-222, 495-525`).

Objects are represented by their index in the lists `clients` and `devs`.
-/

namespace Verif

/-- A `ModbusClientRTU` object (modbus/client.py:139-148). `isOpen` says whether its serial port is
open. -/
structure RtuClient where
  name : String
  baud : Int
  parity : String
  isOpen : Bool
  devices : List (Int × Nat)
  deriving DecidableEq

/-- A `ModbusClientDeviceRTU` object (modbus/client.py:495-506). `live` is a ghost variable: the
device has not been closed. -/
structure RtuDev where
  slave : Int
  name : String
  client : Nat
  live : Bool
  deriving DecidableEq

/-- All objects and the global `modbus_rtu_clients`. -/
structure Ports where
  clients : List RtuClient
  registry : List (String × Nat)
  devs : List RtuDev

/-- The state after import of the module. -/
def Ports.init : Ports := ⟨[], [], []⟩

/-- `modbus_rtu_client` (modbus/client.py:60-80): look up or create the client of a port.
`portOk` says whether the serial port can be opened (`ModbusClientRTU.open`, 150-175). -/
def rtuClientFor (s : Ports) (name : String) (baud : Option Int) (parity : Option String)
    (portOk : Bool) : Ports × Py Nat :=
  match dictGet s.registry name with
  | some c =>
    match s.clients[c]? with
    | none => (s, .error .keyError)
    | some cl =>
      if baud ≠ none ∧ baud ≠ some cl.baud then (s, .error .modbusClientError)
      else if parity ≠ none ∧ parity ≠ some cl.parity then (s, .error .modbusClientError)
      else (s, .ok c)
  | none =>
    if portOk then
      ({ s with clients := s.clients ++ [⟨name, baud.getD 9600, parity.getD "N", true, []⟩],
                registry := dictSet s.registry name s.clients.length },
        .ok s.clients.length)
    else (s, .error .modbusClientError)

/-- `ModbusClientDeviceRTU(slave, name, baud, parity)` (modbus/client.py:495-510): the new device is
registered with its client under its slave id. The timeout is not modelled. -/
def rtuOpen (s : Ports) (slave : Int) (name : String) (baud : Option Int) (parity : Option String)
    (portOk : Bool) : Ports × Py Nat :=
  match rtuClientFor s name baud parity portOk with
  | (s, .error e) => (s, .error e)
  | (s, .ok c) =>
    ({ s with clients := s.clients.modify c fun cl => { cl with devices := dictSet cl.devices slave s.devs.length },
              devs := s.devs ++ [⟨slave, name, c, true⟩] },
      .ok s.devs.length)

/-- `ModbusClientRTU.remove_device` (modbus/client.py:207-222) of client `c` with
`modbus_rtu_client_remove` (82-86). Simplification: `serial.close()` does not raise. -/
def rtuRemoveDevice (s : Ports) (c : Nat) (slave : Int) : Ports :=
  match s.clients[c]? with
  | none => s
  | some cl =>
    if dictDel cl.devices slave = [] then
      { s with clients := s.clients.set c { cl with devices := dictDel cl.devices slave, isOpen := false },
               registry := dictDel s.registry cl.name }
    else
      { s with clients := s.clients.set c { cl with devices := dictDel cl.devices slave } }

/-- `ModbusClientDeviceRTU.close` (modbus/client.py:512-517) of device `d`. -/
def rtuClose (s : Ports) (d : Nat) : Ports :=
  match s.devs[d]? with
  | none => s
  | some dv =>
    let s' := rtuRemoveDevice s dv.client dv.slave
    { s' with devs := s'.devs.set d { dv with live := false } }

/-- A call: open a device, or close the device with the given index. -/
inductive PortOp where
  | opn (slave : Int) (name : String) (baud : Option Int) (parity : Option String) (portOk : Bool)
  | cls (d : Nat)

/-- The effect of a call. -/
def portStep (s : Ports) : PortOp → Ports
  | .opn slave name baud parity ok => (rtuOpen s slave name baud parity ok).1
  | .cls d => rtuClose s d

/-- A history of calls. -/
def portRun (s : Ports) (ops : List PortOp) : Ports := ops.foldl portStep s

end Verif
