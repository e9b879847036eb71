import Verif.Model.Scan

/-!
# The Modbus clients call by call

`Model/Rtu.lean` and `Model/Tcp.lean` give the client everything a device will ever answer to a request as a finite list.
Here the same code (`ModbusClientRTU`, modbus/client.py:224-448, and `ModbusClientDeviceTCP`, modbus/client.py:702-953, with
`trace_func=None`) is modelled against a port or a network that decides at every single call of `serial.read` or
`socket.recv` what it returns, and that may go on sending for ever. `waits` counts these calls: each of them lasts at most as
long as the timeout of the port or the socket.
-/

namespace Verif

/-- A serial port with whatever is connected to it: `flushInput()`, `write(req)` (`false`: it raised) and `read(n)`
(modbus/client.py:239-244, 364-369). -/
structure Port (τ : Type) where
  flush : τ → τ
  write : τ → Bytes → τ × Bool
  read : τ → Nat → τ × Bytes

/-- A port and the number of `serial.read` calls so far (a ghost variable). -/
structure Waited (τ : Type) where
  st : τ
  waits : Nat
  deriving DecidableEq

/-- `self.serial.read(n)` (modbus/client.py:244, 369). -/
def portRead {τ} (p : Port τ) (w : Waited τ) (n : Nat) : Waited τ × Bytes :=
  (⟨(p.read w.st n).1, w.waits + 1⟩, (p.read w.st n).2)

/-- The receive loop of `_read` (modbus/client.py:243-264) and `_write` (368-388), see `recvLoopF`. The first argument bounds
the number of iterations. -/
def portRecvF {τ} (p : Port τ) (total : Bytes → Int) : Nat → Int → Bool → Bytes → Option Nat → Waited τ →
    Waited τ × Py (Bytes × Option Nat)
  | 0, _, _, _, _, w => (w, .error .diverge)
  | fuel + 1, remaining, found, resp, exc, w =>
    if remaining > 0 then
      let c := (portRead p w remaining.toNat).2
      let w' := (portRead p w remaining.toNat).1
      if 0 < c.length then
        let resp' := resp ++ c
        let remaining' := remaining - c.length
        if found = false ∧ resp'.length ≥ 5 then
          if (resp'.getD 1 0) &&& 0x80 = 0 then
            portRecvF p total fuel (total resp' - resp'.length) true resp' exc w'
          else
            portRecvF p total fuel remaining' found resp' (some (resp'.getD 2 0).toNat) w'
        else portRecvF p total fuel remaining' found resp' exc w'
      else (w', .error .modbusClientTimeout)
    else (w, .ok (resp, exc))

/-- Sending a request (modbus/client.py:239-243, 364-367) and receiving the answer. -/
def portExchange {τ} (p : Port τ) (N : Nat) (total : Bytes → Int) (w : Waited τ) (req : Bytes) :
    Waited τ × Py (Bytes × Option Nat) :=
  match p.write (p.flush w.st) req with
  | (s, true) => portRecvF p total N 5 false [] none ⟨s, w.waits⟩
  | (s, false) => (⟨s, w.waits⟩, .error .modbusClientError)

/-- `ModbusClientRTU._read` (modbus/client.py:224-279). -/
def portRead1 {τ} (p : Port τ) (N : Nat) (w : Waited τ) (sid op addr count : Int) : Waited τ × Py Bytes :=
  match packBBHH sid op addr count with
  | .error e => (w, .error e)
  | .ok body =>
    ((portExchange p N readTotal w (body ++ crcField body)).1,
      rtuReadReply (portExchange p N readTotal w (body ++ crcField body)).2)

/-- The loop of `ModbusClientRTU.read` (modbus/client.py:313-327), see `rtuReadF`. -/
def portReadF {τ} (p : Port τ) (N : Nat) (sid op : Int) (maxCount : Nat) :
    Nat → Int → Nat → Bytes → Waited τ → Waited τ × Py (Option Bytes)
  | 0, _, _, _, w => (w, .error .diverge)
  | fuel + 1, addr, count, resp, w =>
    if count > 0 then
      let readCount := if count > maxCount then maxCount else count
      match portRead1 p N w sid op addr readCount with
      | (w', .error e) => (w', .error e)
      | (w', .ok data) =>
        if data.length > 0 then
          portReadF p N sid op maxCount fuel (addr + readCount) (count - readCount) (resp ++ data) w'
        else (w', .ok none)
    else (w, .ok (some resp))

/-- `ModbusClientRTU._write` (modbus/client.py:335-408). -/
def portWrite1 {τ} (p : Port τ) (N : Nat) (w : Waited τ) (sid addr : Int) (data : Bytes) : Waited τ × Py Unit :=
  match packBBHHB sid 16 addr (data.length / 2 : Nat) data.length with
  | .error e => (w, .error e)
  | .ok hdr =>
    ((portExchange p N writeTotal w (hdr ++ data ++ crcField (hdr ++ data))).1,
      rtuWriteReply sid addr (data.length / 2 : Nat) (portExchange p N writeTotal w (hdr ++ data ++ crcField (hdr ++ data))).2)

/-- The loop of `ModbusClientRTU.write` (modbus/client.py:434-446), see `rtuWriteF`. -/
def portWriteF {τ} (p : Port τ) (N : Nat) (sid : Int) (maxCount : Nat) :
    Nat → Int → Bytes → Waited τ → Waited τ × Py Unit
  | 0, _, _, w => (w, .error .diverge)
  | fuel + 1, addr, data, w =>
    if data.length > 0 then
      let n := if data.length > 2 * maxCount then 2 * maxCount else data.length
      match portWrite1 p N w sid addr (data.take n) with
      | (w', .error e) => (w', .error e)
      | (w', .ok ()) => portWriteF p N sid maxCount fuel (addr + maxCount) (data.drop n) w'
    else (w, .ok ())

/-- `ModbusClientDeviceRTU.read` and `write` (modbus/client.py:519-553) on an open port, each receive loop being cut off after
`N` iterations. -/
def portDev {τ} (p : Port τ) (N : Nat) (sid : Int) : ScanDev (Waited τ) where
  read w addr count := portReadF p N sid 3 125 (count.toNat + 1) addr count.toNat [] w
  write w addr data := portWriteF p N sid 125 (data.length + 1) addr data w
  conn := none
  disc := id

/-- A network: `socket()` and `connect()` (`false`: it raised), `close()`, `sendall(req)` (`false`: it raised) and `recv(n)`
(`none`: `socket.timeout`) (modbus/client.py:702-741, 758-774). -/
structure Net (τ : Type) where
  connect : τ → τ × Bool
  close : τ → τ
  send : τ → Bytes → τ × Bool
  recv : τ → Nat → τ × Option Bytes

/-- `self.socket` as in `Sock`. -/
inductive NSock where
  | absent
  | unconnected
  | connected
  deriving DecidableEq

/-- A TCP client device: the network, `self.socket` and the number of `socket.recv` calls so far (a ghost variable). -/
structure NetWaited (τ : Type) where
  st : τ
  sock : NSock
  waits : Nat
  deriving DecidableEq

/-- `ModbusClientDeviceTCP.disconnect` (modbus/client.py:731-741). -/
def netDisconnect {τ} (net : Net τ) (w : NetWaited τ) : NetWaited τ :=
  if w.sock = .absent then w else { w with st := net.close w.st, sock := .absent }

/-- `ModbusClientDeviceTCP.connect` (modbus/client.py:702-729), without TLS. -/
def netConnect {τ} (net : Net τ) (w : NetWaited τ) : NetWaited τ × Py Unit :=
  let w := netDisconnect net w
  match net.connect w.st with
  | (s, true) => ({ w with st := s, sock := .connected }, .ok ())
  | (s, false) => ({ w with st := s, sock := .unconnected }, .error .modbusClientError)

/-- The receive loop of `_read` (modbus/client.py:763-774) and `_write` (878-901), see `tcpRecvF`. -/
def netRecvF {τ} (net : Net τ) (closedExc : Exc) : Nat → Int → Bytes → NetWaited τ → NetWaited τ × Py Bytes
  | 0, _, _, w => (w, .error .diverge)
  | fuel + 1, remaining, resp, w =>
    if remaining > 0 then
      match net.recv w.st remaining.toNat with
      | (s, none) => ({ w with st := s, waits := w.waits + 1 }, .error .socketTimeout)
      | (s, some got) =>
        if got.length = 0 then ({ w with st := s, waits := w.waits + 1 }, .error closedExc)
        else
          let resp' := resp ++ got
          if resp'.length ≥ 9 then
            netRecvF net closedExc fuel ((tcpDataLen resp' : Int) - ((resp'.length : Int) - 6)) resp'
              { w with st := s, waits := w.waits + 1 }
          else netRecvF net closedExc fuel (remaining - got.length) resp' { w with st := s, waits := w.waits + 1 }
    else (w, .ok resp)

/-- Sending a request and receiving the reply (modbus/client.py:758-774, 873-901). -/
def netExchange {τ} (net : Net τ) (N : Nat) (closedExc : Exc) (w : NetWaited τ) (req : Bytes) : NetWaited τ × Py Bytes :=
  if w.sock = .connected then
    match net.send w.st req with
    | (s, false) => ({ w with st := s }, .error .modbusClientError)
    | (s, true) => netRecvF net closedExc N 9 [] { w with st := s }
  else (w, .error .modbusClientError)

/-- `ModbusClientDeviceTCP._read` (modbus/client.py:743-797). -/
def netRead1 {τ} (net : Net τ) (N : Nat) (w : NetWaited τ) (sid op addr count : Int) : NetWaited τ × Py Bytes :=
  andThen (w, packTcpRead sid op addr count) fun w req =>
  andThen (netExchange net N .modbusClientError w req) fun w resp =>
  (w, tcpReply resp)

/-- The loop of `ModbusClientDeviceTCP.read` (modbus/client.py:827-840), see `tcpReadF`. -/
def netReadF {τ} (net : Net τ) (N : Nat) (sid op : Int) (maxCount : Nat) :
    Nat → Int → Nat → Bytes → NetWaited τ → NetWaited τ × Py Bytes
  | 0, _, _, _, w => (w, .error .diverge)
  | fuel + 1, addr, count, resp, w =>
    if count > 0 then
      let readCount := if count > maxCount then maxCount else count
      andThen (netRead1 net N w sid op addr readCount) fun w data =>
        if data.length > 0 then
          netReadF net N sid op maxCount fuel (addr + readCount) (count - readCount) (resp ++ data) w
        else (w, .ok resp)
    else (w, .ok resp)

/-- The connection handling common to `read` and `write` (modbus/client.py:822-824, 841-843), see `tcpWith`. -/
def netWith {τ α} (net : Net τ) (w : NetWaited τ) (body : NetWaited τ → NetWaited τ × Py α) : NetWaited τ × Py α :=
  if w.sock = .absent then
    andThen (netConnect net w) fun w1 _ => (netDisconnect net (body w1).1, (body w1).2)
  else body w

/-- `ModbusClientDeviceTCP._write` (modbus/client.py:851-916). -/
def netWrite1 {τ} (net : Net τ) (N : Nat) (w : NetWaited τ) (sid addr : Int) (data : Bytes) : NetWaited τ × Py Unit :=
  andThen (w, packTcpWrite sid addr (data.length / 2 : Nat) data.length) fun w hdr =>
  andThen (netExchange net N .modbusClientTimeout w (hdr ++ data)) fun w resp =>
  andThen (w, tcpReply resp) fun w _ => (w, .ok ())

/-- The loop of `ModbusClientDeviceTCP.write` (modbus/client.py:938-950), see `tcpWriteF`. -/
def netWriteF {τ} (net : Net τ) (N : Nat) (sid addr : Int) (maxCount : Nat) (data : Bytes) :
    Nat → Nat → Option (Nat × Nat) → NetWaited τ → NetWaited τ × Py Unit
  | 0, _, _, w => (w, .error .diverge)
  | fuel + 1, written, se, w =>
    if data.length - written > 0 then
      let n := if data.length - written > 2 * maxCount then 2 * maxCount else data.length - written
      let se := if data.length - written > 2 * maxCount then se else some (written, written + n)
      match se with
      | none => (w, .error .unboundLocal)
      | some (s, e) =>
        andThen (netWrite1 net N w sid (addr + (written / 2 : Nat)) ((data.drop s).take (e - s)))
          fun w _ => netWriteF net N sid addr maxCount data fuel (written + n) (some (s, e)) w
    else (w, .ok ())

/-- `ModbusClientDeviceTCP.read` and `write` (modbus/client.py:799-953), each receive loop being cut off after `N`
iterations; `connect` and `disconnect` as `scan` uses them (client.py:237-240, 306-307). -/
def netDev {τ} (net : Net τ) (N : Nat) (sid : Int) : ScanDev (NetWaited τ) where
  read w addr count :=
    ((netWith net w (netReadF net N sid 3 125 (count.toNat + 1) addr count.toNat [])).1,
      (netWith net w (netReadF net N sid 3 125 (count.toNat + 1) addr count.toNat [])).2.map some)
  write w addr data := netWith net w (netWriteF net N sid addr 125 data (data.length + 1) 0 none)
  conn := some (netConnect net)
  disc := netDisconnect net

end Verif
