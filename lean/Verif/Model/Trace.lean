import Verif.Model.Tcp
import Verif.Py.Text

/-!
# Modbus clients with a trace function

Models the clients of `sunspec/core/modbus/client.py` with `trace_func` (Python 3): `_read` and `_write` of
`ModbusClientRTU` (224-279, 335-408) and of `ModbusClientDeviceTCP` (743-797, 851-916), and the public methods that
call them. What the trace function is given is a ghost variable; a trace function returns (it does not raise).
-/

namespace Verif

/-- The value of `trace_func`: none, a function, or something true that cannot be called, like the `True` that
`ClientDevice(…, trace=True)` passes on (client.py:158-160). -/
inductive Tracer where
  | off
  | func
  | flag
  deriving DecidableEq

/-- A hexadecimal digit, upper case. -/
def hexUp (n : Nat) : Char := if n < 10 then Char.ofNat (48 + n) else Char.ofNat (55 + n)

/-- `'%02X' % ord(c)` for each character of a string (modbus/client.py:235-236). -/
def traceHex (b : Bytes) : Text := b.flatMap fun x => [hexUp (x.toNat / 16), hexUp (x.toNat % 16)]

/-- One line of a trace: a request (`->`) or a reply (`<--`) at an address (modbus/client.py:234-237). The name of the
port or host and the slave id, at the beginning of the line, are the same in all lines and are omitted. -/
structure TraceLine where
  reply : Bool
  addr : Int
  hex : Text
  deriving DecidableEq

/-- Tracing a Python string (modbus/client.py:266-270, 356-360, 390-394, 788-792, 909-913). Calling a value that is
not a function is a `TypeError`. -/
def traceStr (tr : Tracer) (log : List TraceLine) (reply : Bool) (addr : Int) (s : Bytes) : List TraceLine × Py Unit :=
  match tr with
  | .off => (log, .ok ())
  | .func => (log ++ [⟨reply, addr, traceHex s⟩], .ok ())
  | .flag => (log, .error .typeError)

/-- Tracing a request that is a Python `bytes` object (modbus/client.py:233-237, 752-756, 867-871): the characters are
ints, of which `ord` is a `TypeError`. -/
def traceRaw (tr : Tracer) (log : List TraceLine) (addr : Int) (s : Bytes) : List TraceLine × Py Unit :=
  match tr with
  | .off => (log, .ok ())
  | _ =>
    match s with
    | [] => traceStr tr log false addr []
    | _ :: _ => (log, .error .typeError)

/-- The state of an RTU client with its trace. -/
structure LineT (σ : Type) where
  line : Line σ
  log : List TraceLine

/-- `ModbusClientRTU._read` (modbus/client.py:224-279). -/
def rtuRead1T {σ} (tr : Tracer) (slave : Slave σ) (l : LineT σ) (sid op addr count : Int) : LineT σ × Py Bytes :=
  match packBBHH sid op addr count with
  | .error e => (l, .error e)
  | .ok body =>
    match traceRaw tr l.log addr (body ++ crcField body) with
    | (log, .error e) => ({ l with log := log }, .error e)
    | (log, .ok ()) =>
      match lineSend slave l.line (body ++ crcField body) with
      | (l', .error e) => (⟨l', log⟩, .error e)
      | (l', .ok chunks) =>
        match recvLoop readTotal chunks with
        | .error e => (⟨l', log⟩, .error e)
        | .ok r =>
          match traceStr tr log true addr r.1 with
          | (log', .error e) => (⟨l', log'⟩, .error e)
          | (log', .ok ()) => (⟨l', log'⟩, rtuReadReply (.ok r))

/-- The loop of `ModbusClientRTU.read` (modbus/client.py:313-327), like `rtuReadF`. -/
def rtuReadFT {σ} (tr : Tracer) (slave : Slave σ) (sid op : Int) (maxCount : Nat) :
    Nat → Int → Nat → Bytes → LineT σ → LineT σ × Py (Option Bytes)
  | 0, _, _, _, l => (l, .error .diverge)
  | fuel + 1, addr, count, resp, l =>
    if count > 0 then
      let readCount := if count > maxCount then maxCount else count
      match rtuRead1T tr slave l sid op addr readCount with
      | (l', .error e) => (l', .error e)
      | (l', .ok data) =>
        if data.length > 0 then
          rtuReadFT tr slave sid op maxCount fuel (addr + readCount) (count - readCount) (resp ++ data) l'
        else (l', .ok none)
    else (l, .ok (some resp))

/-- `ModbusClientRTU.read` (modbus/client.py:281-333) on an open port, like `rtuRead`. -/
def rtuReadT {σ} (tr : Tracer) (slave : Slave σ) (l : LineT σ) (sid op addr : Int) (count maxCount : Nat) :
    LineT σ × Py (Option Bytes) :=
  rtuReadFT tr slave sid op maxCount (count + 1) addr count [] l

/-- `ModbusClientRTU._write` (modbus/client.py:335-408): the request is made a string before it is traced (350-354). -/
def rtuWrite1T {σ} (tr : Tracer) (slave : Slave σ) (l : LineT σ) (sid addr : Int) (data : Bytes) : LineT σ × Py Unit :=
  let count : Int := (data.length / 2 : Nat)
  match packBBHHB sid 16 addr count data.length with
  | .error e => (l, .error e)
  | .ok hdr =>
    match traceStr tr l.log false addr (hdr ++ data ++ crcField (hdr ++ data)) with
    | (log, .error e) => ({ l with log := log }, .error e)
    | (log, .ok ()) =>
      match lineSend slave l.line (hdr ++ data ++ crcField (hdr ++ data)) with
      | (l', .error e) => (⟨l', log⟩, .error e)
      | (l', .ok chunks) =>
        match recvLoop writeTotal chunks with
        | .error e => (⟨l', log⟩, .error e)
        | .ok r =>
          match traceStr tr log true addr r.1 with
          | (log', .error e) => (⟨l', log'⟩, .error e)
          | (log', .ok ()) => (⟨l', log'⟩, rtuWriteReply sid addr count (.ok r))

/-- The loop of `ModbusClientRTU.write` (modbus/client.py:434-446), like `rtuWriteF`. -/
def rtuWriteFT {σ} (tr : Tracer) (slave : Slave σ) (sid : Int) (maxCount : Nat) :
    Nat → Int → Bytes → LineT σ → LineT σ × Py Unit
  | 0, _, _, l => (l, .error .diverge)
  | fuel + 1, addr, data, l =>
    if data.length > 0 then
      let n := if data.length > 2 * maxCount then 2 * maxCount else data.length
      match rtuWrite1T tr slave l sid addr (data.take n) with
      | (l', .error e) => (l', .error e)
      | (l', .ok ()) => rtuWriteFT tr slave sid maxCount fuel (addr + maxCount) (data.drop n) l'
    else (l, .ok ())

/-- `ModbusClientRTU.write` (modbus/client.py:410-448) on an open port, like `rtuWrite`. -/
def rtuWriteT {σ} (tr : Tracer) (slave : Slave σ) (l : LineT σ) (sid addr : Int) (data : Bytes) (maxCount : Nat) :
    LineT σ × Py Unit :=
  rtuWriteFT tr slave sid maxCount (data.length + 1) addr data l

/-- Tracing the reply of a TCP server, a string by then (modbus/client.py:776-792, 897-913), and the check of it. The
trace is not recorded here. -/
def tcpReplyT (tr : Tracer) (resp : Bytes) : Py Bytes :=
  match tr with
  | .flag => .error .typeError
  | _ => tcpReply resp

/-- `ModbusClientDeviceTCP._read` (modbus/client.py:743-797). -/
def tcpRead1T {σ} (tr : Tracer) (srv : TcpServer σ) (t : Tcp σ) (sid op addr count : Int) : Tcp σ × Py Bytes :=
  andThen (t, packTcpRead sid op addr count) fun t req =>
  andThen (t, (traceRaw tr [] addr req).2) fun t _ =>
  andThen (tcpExchange srv .modbusClientError t req) fun t resp =>
  (t, tcpReplyT tr resp)

/-- The loop of `ModbusClientDeviceTCP.read` (modbus/client.py:827-840), like `tcpReadF`. -/
def tcpReadFT {σ} (tr : Tracer) (srv : TcpServer σ) (sid op : Int) (maxCount : Nat) :
    Nat → Int → Nat → Bytes → Tcp σ → Tcp σ × Py Bytes
  | 0, _, _, _, t => (t, .error .diverge)
  | fuel + 1, addr, count, resp, t =>
    if count > 0 then
      let readCount := if count > maxCount then maxCount else count
      andThen (tcpRead1T tr srv t sid op addr readCount) fun t data =>
        if data.length > 0 then
          tcpReadFT tr srv sid op maxCount fuel (addr + readCount) (count - readCount) (resp ++ data) t
        else (t, .ok resp)
    else (t, .ok resp)

/-- `ModbusClientDeviceTCP.read` (modbus/client.py:799-849), like `tcpRead`. -/
def tcpReadT {σ} (tr : Tracer) (srv : TcpServer σ) (t : Tcp σ) (sid op addr : Int) (count maxCount : Nat) :
    Tcp σ × Py Bytes :=
  tcpWith srv t (tcpReadFT tr srv sid op maxCount (count + 1) addr count [])

/-- `ModbusClientDeviceTCP._write` (modbus/client.py:851-916). -/
def tcpWrite1T {σ} (tr : Tracer) (srv : TcpServer σ) (t : Tcp σ) (sid addr : Int) (data : Bytes) : Tcp σ × Py Unit :=
  andThen (t, packTcpWrite sid addr (data.length / 2 : Nat) data.length) fun t hdr =>
  andThen (t, (traceRaw tr [] addr (hdr ++ data)).2) fun t _ =>
  andThen (tcpExchange srv .modbusClientTimeout t (hdr ++ data)) fun t resp =>
  andThen (t, tcpReplyT tr resp) fun t _ => (t, .ok ())

/-- The loop of `ModbusClientDeviceTCP.write` (modbus/client.py:938-950), like `tcpWriteF`. -/
def tcpWriteFT {σ} (tr : Tracer) (srv : TcpServer σ) (sid addr : Int) (maxCount : Nat) (data : Bytes) :
    Nat → Nat → Option (Nat × Nat) → Tcp σ → Tcp σ × Py Unit
  | 0, _, _, t => (t, .error .diverge)
  | fuel + 1, written, se, t =>
    if data.length - written > 0 then
      let n := if data.length - written > 2 * maxCount then 2 * maxCount else data.length - written
      let se := if data.length - written > 2 * maxCount then se else some (written, written + n)
      match se with
      | none => (t, .error .unboundLocal)
      | some (s, e) =>
        andThen (tcpWrite1T tr srv t sid (addr + (written / 2 : Nat)) ((data.drop s).take (e - s)))
          fun t _ => tcpWriteFT tr srv sid addr maxCount data fuel (written + n) (some (s, e)) t
    else (t, .ok ())

/-- `ModbusClientDeviceTCP.write` (modbus/client.py:918-953), like `tcpWrite`. -/
def tcpWriteT {σ} (tr : Tracer) (srv : TcpServer σ) (t : Tcp σ) (sid addr : Int) (data : Bytes) (maxCount : Nat) :
    Tcp σ × Py Unit :=
  tcpWith srv t (tcpWriteFT tr srv sid addr maxCount data (data.length + 1) 0 none)

end Verif
