import Verif.Model.Client
import Verif.Model.Rtu
import Verif.Model.Tcp

/-!
# The three kinds of Modbus devices as seen by `ClientDevice`

The default `max_count` (`REQ_COUNT_MAX`, modbus/client.py:41) of 125 registers is used: `ClientDevice.__init__`
(client.py:152-167) does not pass another one. A negative register count reads nothing, as 0 does (the loops are `while count > 0`,
modbus/client.py:316, 827).
-/

namespace Verif

/-- `ModbusClientDeviceRTU.read` and `write` (modbus/client.py:519-553) on an open port. -/
def rtuDev {σ} (slave : Slave σ) (sid : Int) : MbDev (Line σ) where
  read l addr count := rtuRead slave l sid 3 addr count.toNat 125
  write l addr data := rtuWrite slave l sid addr data 125

/-- `ModbusClientDeviceTCP.read` and `write` (modbus/client.py:799-945). -/
def tcpDev {σ} (srv : TcpServer σ) (sid : Int) : MbDev (Tcp σ) where
  read t addr count := ((tcpRead srv t sid 3 addr count.toNat 125).1, (tcpRead srv t sid 3 addr count.toNat 125).2.map some)
  write t addr data := tcpWrite srv t sid addr data 125

/-- `ModbusClientDeviceMapped.read` and `write` (modbus/client.py:1019-1062). -/
def mapDev : MbDev MbMap where
  read m addr count := (m, (mapRead m addr count none).map some)
  write m addr data := mapWrite m addr data

end Verif
