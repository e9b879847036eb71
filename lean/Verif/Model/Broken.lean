import Verif.Model.Wire

/-!
# The Modbus clients on a line that may break

The code of `Model/Wire.lean` (`ModbusClientRTU`, modbus/client.py:224-448, and `ModbusClientDeviceTCP`, modbus/client.py:702-953)
against ports and networks every operation of which may raise any exception at any call: an adapter that is unplugged
(`serial.SerialException`, `OSError`, or whatever a driver raises), a connection that is reset, a socket that cannot be created or
closed. `Model/Wire.lean` is the special case in which only `write`, `connect` and `sendall` fail, and `recv` only by its timeout.
-/

namespace Verif

/-- A serial port: `flushInput()`, `write(req)` and `read(n)` (modbus/client.py:239-244, 364-369). -/
structure PortX (τ : Type) where
  flush : τ → τ × Py Unit
  write : τ → Bytes → τ × Py Unit
  read : τ → Nat → τ × Py Bytes

/-- The receive loop of `_read` (modbus/client.py:243-264) and `_write` (368-388): an exception of `serial.read` is not caught. -/
def portRecvX {τ} (p : PortX τ) (total : Bytes → Int) : Nat → Int → Bool → Bytes → Option Nat → Waited τ →
    Waited τ × Py (Bytes × Option Nat)
  | 0, _, _, _, _, w => (w, .error .diverge)
  | fuel + 1, remaining, found, resp, exc, w =>
    if remaining > 0 then
      match p.read w.st remaining.toNat with
      | (s, .error e) => (⟨s, w.waits + 1⟩, .error e)
      | (s, .ok c) =>
        if 0 < c.length then
          if found = false ∧ (resp ++ c).length ≥ 5 then
            if ((resp ++ c).getD 1 0) &&& 0x80 = 0 then
              portRecvX p total fuel (total (resp ++ c) - (resp ++ c).length) true (resp ++ c) exc ⟨s, w.waits + 1⟩
            else
              portRecvX p total fuel (remaining - c.length) found (resp ++ c) (some ((resp ++ c).getD 2 0).toNat) ⟨s, w.waits + 1⟩
          else portRecvX p total fuel (remaining - c.length) found (resp ++ c) exc ⟨s, w.waits + 1⟩
        else (⟨s, w.waits + 1⟩, .error .modbusClientTimeout)
    else (w, .ok (resp, exc))

/-- Sending a request and receiving the answer (modbus/client.py:239-264, 364-388): an exception of `flushInput` is not caught,
any exception of `write` becomes a `ModbusClientError`. -/
def portExchangeX {τ} (p : PortX τ) (N : Nat) (total : Bytes → Int) (w : Waited τ) (req : Bytes) :
    Waited τ × Py (Bytes × Option Nat) :=
  match p.flush w.st with
  | (s, .error e) => (⟨s, w.waits⟩, .error e)
  | (s, .ok _) =>
    match p.write s req with
    | (s, .ok _) => portRecvX p total N 5 false [] none ⟨s, w.waits⟩
    | (s, .error _) => (⟨s, w.waits⟩, .error .modbusClientError)

/-- `ModbusClientRTU._read` (modbus/client.py:224-279). -/
def portRead1X {τ} (p : PortX τ) (N : Nat) (w : Waited τ) (sid op addr count : Int) : Waited τ × Py Bytes :=
  match packBBHH sid op addr count with
  | .error e => (w, .error e)
  | .ok body =>
    ((portExchangeX p N readTotal w (body ++ crcField body)).1,
      rtuReadReply (portExchangeX p N readTotal w (body ++ crcField body)).2)

/-- The loop of `ModbusClientRTU.read` (modbus/client.py:313-327). -/
def portReadFX {τ} (p : PortX τ) (N : Nat) (sid op : Int) (maxCount : Nat) :
    Nat → Int → Nat → Bytes → Waited τ → Waited τ × Py (Option Bytes)
  | 0, _, _, _, w => (w, .error .diverge)
  | fuel + 1, addr, count, resp, w =>
    if count > 0 then
      let readCount := if count > maxCount then maxCount else count
      match portRead1X p N w sid op addr readCount with
      | (w', .error e) => (w', .error e)
      | (w', .ok data) =>
        if data.length > 0 then
          portReadFX p N sid op maxCount fuel (addr + readCount) (count - readCount) (resp ++ data) w'
        else (w', .ok none)
    else (w, .ok (some resp))

/-- `ModbusClientRTU._write` (modbus/client.py:335-408). -/
def portWrite1X {τ} (p : PortX τ) (N : Nat) (w : Waited τ) (sid addr : Int) (data : Bytes) : Waited τ × Py Unit :=
  match packBBHHB sid 16 addr (data.length / 2 : Nat) data.length with
  | .error e => (w, .error e)
  | .ok hdr =>
    ((portExchangeX p N writeTotal w (hdr ++ data ++ crcField (hdr ++ data))).1,
      rtuWriteReply sid addr (data.length / 2 : Nat) (portExchangeX p N writeTotal w (hdr ++ data ++ crcField (hdr ++ data))).2)

/-- The loop of `ModbusClientRTU.write` (modbus/client.py:434-446). -/
def portWriteFX {τ} (p : PortX τ) (N : Nat) (sid : Int) (maxCount : Nat) :
    Nat → Int → Bytes → Waited τ → Waited τ × Py Unit
  | 0, _, _, w => (w, .error .diverge)
  | fuel + 1, addr, data, w =>
    if data.length > 0 then
      let n := if data.length > 2 * maxCount then 2 * maxCount else data.length
      match portWrite1X p N w sid addr (data.take n) with
      | (w', .error e) => (w', .error e)
      | (w', .ok ()) => portWriteFX p N sid maxCount fuel (addr + maxCount) (data.drop n) w'
    else (w, .ok ())

/-- `ModbusClientDeviceRTU.read` and `write` (modbus/client.py:519-553) on an open port, each receive loop being cut off after
`N` iterations. -/
def portDevX {τ} (p : PortX τ) (N : Nat) (sid : Int) : ScanDev (Waited τ) where
  read w addr count := portReadFX p N sid 3 125 (count.toNat + 1) addr count.toNat [] w
  write w addr data := portWriteFX p N sid 125 (data.length + 1) addr data w
  conn := none
  disc := id

/-- A network: `socket()`, `connect()` (with the TLS handshake, if any), `close()`, `sendall(req)` and `recv(n)`
(modbus/client.py:702-741, 758-774). -/
structure NetX (τ : Type) where
  socket : τ → τ × Py Unit
  connect : τ → τ × Py Unit
  close : τ → τ × Py Unit
  send : τ → Bytes → τ × Py Unit
  recv : τ → Nat → τ × Py Bytes

/-- `ModbusClientDeviceTCP.disconnect` (modbus/client.py:731-741): an exception of `close` is ignored, and `self.socket` keeps the
socket then. -/
def netDisconnectX {τ} (net : NetX τ) (w : NetWaited τ) : NetWaited τ :=
  if w.sock = .absent then w
  else
    match net.close w.st with
    | (s, .ok _) => { w with st := s, sock := .absent }
    | (s, .error _) => { w with st := s }

/-- `ModbusClientDeviceTCP.connect` (modbus/client.py:702-729): any exception becomes a `ModbusClientError`; if it is raised by
`socket()`, `self.socket` has not been assigned. -/
def netConnectX {τ} (net : NetX τ) (w0 : NetWaited τ) : NetWaited τ × Py Unit :=
  let w := netDisconnectX net w0
  match net.socket w.st with
  | (s, .error _) => ({ w with st := s }, .error .modbusClientError)
  | (s, .ok _) =>
    match net.connect s with
    | (s, .ok _) => ({ w with st := s, sock := .connected }, .ok ())
    | (s, .error _) => ({ w with st := s, sock := .unconnected }, .error .modbusClientError)

/-- The receive loop of `_read` (modbus/client.py:763-774) and `_write` (878-901): an exception of `recv` is not caught. -/
def netRecvX {τ} (net : NetX τ) (closedExc : Exc) : Nat → Int → Bytes → NetWaited τ → NetWaited τ × Py Bytes
  | 0, _, _, w => (w, .error .diverge)
  | fuel + 1, remaining, resp, w =>
    if remaining > 0 then
      match net.recv w.st remaining.toNat with
      | (s, .error e) => ({ w with st := s, waits := w.waits + 1 }, .error e)
      | (s, .ok got) =>
        if got.length = 0 then ({ w with st := s, waits := w.waits + 1 }, .error closedExc)
        else if (resp ++ got).length ≥ 9 then
          netRecvX net closedExc fuel ((tcpDataLen (resp ++ got) : Int) - (((resp ++ got).length : Int) - 6)) (resp ++ got)
            { w with st := s, waits := w.waits + 1 }
        else netRecvX net closedExc fuel (remaining - got.length) (resp ++ got) { w with st := s, waits := w.waits + 1 }
    else (w, .ok resp)

/-- Sending a request and receiving the reply (modbus/client.py:758-774, 873-901): any exception of `sendall` becomes a
`ModbusClientError`. -/
def netExchangeX {τ} (net : NetX τ) (N : Nat) (closedExc : Exc) (w : NetWaited τ) (req : Bytes) : NetWaited τ × Py Bytes :=
  if w.sock = .connected then
    match net.send w.st req with
    | (s, .error _) => ({ w with st := s }, .error .modbusClientError)
    | (s, .ok _) => netRecvX net closedExc N 9 [] { w with st := s }
  else (w, .error .modbusClientError)

/-- `ModbusClientDeviceTCP._read` (modbus/client.py:743-797). -/
def netRead1X {τ} (net : NetX τ) (N : Nat) (w : NetWaited τ) (sid op addr count : Int) : NetWaited τ × Py Bytes :=
  andThen (w, packTcpRead sid op addr count) fun w req =>
  andThen (netExchangeX net N .modbusClientError w req) fun w resp =>
  (w, tcpReply resp)

/-- The loop of `ModbusClientDeviceTCP.read` (modbus/client.py:827-840). -/
def netReadFX {τ} (net : NetX τ) (N : Nat) (sid op : Int) (maxCount : Nat) :
    Nat → Int → Nat → Bytes → NetWaited τ → NetWaited τ × Py Bytes
  | 0, _, _, _, w => (w, .error .diverge)
  | fuel + 1, addr, count, resp, w =>
    if count > 0 then
      let readCount := if count > maxCount then maxCount else count
      andThen (netRead1X net N w sid op addr readCount) fun w data =>
        if data.length > 0 then
          netReadFX net N sid op maxCount fuel (addr + readCount) (count - readCount) (resp ++ data) w
        else (w, .ok resp)
    else (w, .ok resp)

/-- The connection handling common to `read` and `write` (modbus/client.py:822-824, 841-843; 932-934, 951-953). -/
def netWithX {τ α} (net : NetX τ) (w : NetWaited τ) (body : NetWaited τ → NetWaited τ × Py α) : NetWaited τ × Py α :=
  if w.sock = .absent then
    andThen (netConnectX net w) fun w1 _ => (netDisconnectX net (body w1).1, (body w1).2)
  else body w

/-- `ModbusClientDeviceTCP._write` (modbus/client.py:851-916). -/
def netWrite1X {τ} (net : NetX τ) (N : Nat) (w : NetWaited τ) (sid addr : Int) (data : Bytes) : NetWaited τ × Py Unit :=
  andThen (w, packTcpWrite sid addr (data.length / 2 : Nat) data.length) fun w hdr =>
  andThen (netExchangeX net N .modbusClientTimeout w (hdr ++ data)) fun w resp =>
  andThen (w, tcpReply resp) fun w _ => (w, .ok ())

/-- The loop of `ModbusClientDeviceTCP.write` (modbus/client.py:938-950). -/
def netWriteFX {τ} (net : NetX τ) (N : Nat) (sid addr : Int) (maxCount : Nat) (data : Bytes) :
    Nat → Nat → Option (Nat × Nat) → NetWaited τ → NetWaited τ × Py Unit
  | 0, _, _, w => (w, .error .diverge)
  | fuel + 1, written, se, w =>
    if data.length - written > 0 then
      let n := if data.length - written > 2 * maxCount then 2 * maxCount else data.length - written
      let se := if data.length - written > 2 * maxCount then se else some (written, written + n)
      match se with
      | none => (w, .error .unboundLocal)
      | some (s, e) =>
        andThen (netWrite1X net N w sid (addr + (written / 2 : Nat)) ((data.drop s).take (e - s)))
          fun w _ => netWriteFX net N sid addr maxCount data fuel (written + n) (some (s, e)) w
    else (w, .ok ())

/-- `ModbusClientDeviceTCP.read` and `write` (modbus/client.py:799-953), each receive loop being cut off after `N`
iterations; `connect` and `disconnect` as `scan` uses them (client.py:237-240, 306-307). -/
def netDevX {τ} (net : NetX τ) (N : Nat) (sid : Int) : ScanDev (NetWaited τ) where
  read w addr count :=
    ((netWithX net w (netReadFX net N sid 3 125 (count.toNat + 1) addr count.toNat [])).1,
      (netWithX net w (netReadFX net N sid 3 125 (count.toNat + 1) addr count.toNat [])).2.map some)
  write w addr data := netWithX net w (netWriteFX net N sid addr 125 data (data.length + 1) 0 none)
  conn := some (netConnectX net)
  disc := netDisconnectX net

end Verif
