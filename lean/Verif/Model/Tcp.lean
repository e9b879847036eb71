import Verif.Model.Rtu

/-!
# Modbus TCP client

Models `ModbusClientDeviceTCP.connect/disconnect/_read/read/_write/write`
(`sunspec/core/modbus/client.py:702-953`) with `trace_func=None`.

The network is modelled by a server strategy: `accept` decides whether a connection attempt
succeeds, `react` receives the bytes of each request sent on a connection. `none` means that
`sendall` raised; `some chunks` is what becomes receivable on the connection before the next
request: `recv(n)` returns at most `n` bytes of the first chunk; an empty chunk means that the peer
has closed the connection (`recv` returns `b''` from then on); if nothing is left `recv` raises
`socket.timeout`. Bytes that were not received stay in the connection (nothing flushes it).
-/

namespace Verif

/-- Sequencing of computations with state `σ` and exceptions: the second part is not executed if the
first raised. -/
def andThen {σ α β} (r : σ × Py α) (f : σ → α → σ × Py β) : σ × Py β :=
  match r with
  | (s, .error e) => (s, .error e)
  | (s, .ok a) => f s a

/-- A Modbus TCP server and the network in between. -/
structure TcpServer (σ : Type) where
  accept : σ → σ × Bool
  react : σ → Bytes → σ × Option (List Bytes)

/-- `self.socket`: `None`, a socket that is not connected, or a connection with received but
unread data. -/
inductive Sock where
  | absent
  | unconnected
  | connected (pending : List Bytes)
  deriving DecidableEq

/-- State of a TCP client device: server state, `self.socket`, and as ghost variables the log of
requests sent, the number of sockets created and the number of sockets closed. -/
structure Tcp (σ : Type) where
  dev : σ
  sock : Sock
  sent : List Bytes
  opened : Nat
  closed : Nat

/-- `ModbusClientDeviceTCP.disconnect` (modbus/client.py:731-741). Simplification: `socket.close()`
does not raise. -/
def tcpDisconnect {σ} (t : Tcp σ) : Tcp σ :=
  match t.sock with
  | .absent => t
  | _ => { t with sock := .absent, closed := t.closed + 1 }

/-- `ModbusClientDeviceTCP.connect` (modbus/client.py:702-729). Every failure after the creation of
the socket (`connect`) leaves the unconnected socket in `self.socket`. Without TLS; `Model/Tls.lean` has the TLS options. -/
def tcpConnect {σ} (srv : TcpServer σ) (t : Tcp σ) : Tcp σ × Py Unit :=
  let t := tcpDisconnect t
  match srv.accept t.dev with
  | (d, true) => ({ t with dev := d, sock := .connected [], opened := t.opened + 1 }, .ok ())
  | (d, false) =>
    ({ t with dev := d, sock := .unconnected, opened := t.opened + 1 }, .error .modbusClientError)

/-- `data_len[0]` (modbus/client.py:771, 893): bytes 4 and 5 of the header. -/
def tcpDataLen (resp : Bytes) : Nat := beDec ((resp.drop 4).take 2)

/-- The receive loop of `_read` (modbus/client.py:763-774) and `_write` (878-901): the remaining
input and the reply. `closedExc` is raised when the peer has closed the connection
(`ModbusClientError` in `_read` (774), `ModbusClientTimeout` in `_write` (901)). The first argument
bounds the number of iterations as in `recvLoopF`. -/
def tcpRecvF (closedExc : Exc) : Nat → Int → Bytes → List Bytes → List Bytes × Py Bytes
  | 0, _, _, p => (p, .error .diverge)
  | fuel + 1, remaining, resp, p =>
    if remaining > 0 then
      match p with
      | [] => ([], .error .socketTimeout)
      | c :: rest =>
        if c.length = 0 then (c :: rest, .error closedExc)
        else
          let got := (serialRead remaining.toNat (c :: rest)).1
          let rest' := (serialRead remaining.toNat (c :: rest)).2
          let resp' := resp ++ got
          if resp'.length ≥ 9 then
            tcpRecvF closedExc fuel ((tcpDataLen resp' : Int) - ((resp'.length : Int) - 6)) resp' rest'
          else tcpRecvF closedExc fuel (remaining - got.length) resp' rest'
    else (p, .ok resp)

/-- Sending a request and receiving the reply (modbus/client.py:758-774, 873-901). -/
def tcpExchange {σ} (srv : TcpServer σ) (closedExc : Exc) (t : Tcp σ) (req : Bytes) : Tcp σ × Py Bytes :=
  match t.sock with
  | .connected p =>
    match srv.react t.dev req with
    | (d, none) => ({ t with dev := d, sent := t.sent ++ [req] }, .error .modbusClientError)
    | (d, some chunks) =>
      let r := tcpRecvF closedExc (bytesLeft (p ++ chunks) + 1) 9 [] (p ++ chunks)
      ({ t with dev := d, sent := t.sent ++ [req], sock := .connected r.1 }, r.2)
  | _ => (t, .error .modbusClientError)

/-- The check on a complete reply (modbus/client.py:782-795, 903-916): `except_code`, then the bytes
after the header. -/
def tcpReply (resp : Bytes) : Py Bytes :=
  if (resp.getD 7 0) &&& 0x80 = 0 then .ok (resp.drop 9)
  else if (resp.getD 8 0).toNat ≠ 0 then .error (.modbusClientException (resp.getD 8 0).toNat)
  else .ok (resp.drop 9)

/-- Concatenation of the fields of a `struct.pack` format; `struct.error` if one is out of range. -/
def packFields : List (Py Bytes) → Py Bytes
  | [] => .ok []
  | .ok a :: rest =>
    match packFields rest with
    | .ok b => .ok (a ++ b)
    | .error e => .error e
  | .error e :: _ => .error e

/-- `struct.pack('>HHHBBHH', 0, 0, 6, slave_id, op, addr, count)` (modbus/client.py:750). -/
def packTcpRead (sid op addr count : Int) : Py Bytes :=
  packFields [packU 2 0, packU 2 0, packU 2 6, packBBHH sid op addr count]

/-- `struct.pack('>HHHBBHHB', 0, 0, 7 + write_len, slave_id, 16, addr, write_count, write_len)`
(modbus/client.py:861). -/
def packTcpWrite (sid addr count len : Int) : Py Bytes :=
  packFields [packU 2 0, packU 2 0, packU 2 (7 + len), packBBHHB sid 16 addr count len]

/-- `ModbusClientDeviceTCP._read` (modbus/client.py:743-797). -/
def tcpRead1 {σ} (srv : TcpServer σ) (t : Tcp σ) (sid op addr count : Int) : Tcp σ × Py Bytes :=
  andThen (t, packTcpRead sid op addr count) fun t req =>
  andThen (tcpExchange srv .modbusClientError t req) fun t resp =>
  (t, tcpReply resp)

/-- The loop of `ModbusClientDeviceTCP.read` (modbus/client.py:827-840); fuel as in `rtuReadF`. -/
def tcpReadF {σ} (srv : TcpServer σ) (sid op : Int) (maxCount : Nat) :
    Nat → Int → Nat → Bytes → Tcp σ → Tcp σ × Py Bytes
  | 0, _, _, _, t => (t, .error .diverge)
  | fuel + 1, addr, count, resp, t =>
    if count > 0 then
      let readCount := if count > maxCount then maxCount else count
      andThen (tcpRead1 srv t sid op addr readCount) fun t data =>
        if data.length > 0 then
          tcpReadF srv sid op maxCount fuel (addr + readCount) (count - readCount) (resp ++ data) t
        else (t, .ok resp)
    else (t, .ok resp)

/-- The connection handling common to `read` and `write` (modbus/client.py:822-824, 841-843): connect
if there is no socket, and then disconnect in a `finally` clause. -/
def tcpWith {σ α} (srv : TcpServer σ) (t : Tcp σ) (body : Tcp σ → Tcp σ × Py α) : Tcp σ × Py α :=
  match t.sock with
  | .absent =>
    andThen (tcpConnect srv t) fun t1 _ => (tcpDisconnect (body t1).1, (body t1).2)
  | _ => body t

/-- `ModbusClientDeviceTCP.read` (modbus/client.py:799-849). `sid` and `maxCount` are the attributes
of the device. -/
def tcpRead {σ} (srv : TcpServer σ) (t : Tcp σ) (sid op addr : Int) (count maxCount : Nat) :
    Tcp σ × Py Bytes :=
  tcpWith srv t (tcpReadF srv sid op maxCount (count + 1) addr count [])

/-- `ModbusClientDeviceTCP._write` (modbus/client.py:851-916). -/
def tcpWrite1 {σ} (srv : TcpServer σ) (t : Tcp σ) (sid addr : Int) (data : Bytes) : Tcp σ × Py Unit :=
  andThen (t, packTcpWrite sid addr (data.length / 2 : Nat) data.length) fun t hdr =>
  andThen (tcpExchange srv .modbusClientTimeout t (hdr ++ data)) fun t resp =>
  andThen (t, tcpReply resp) fun t _ => (t, .ok ())

/-- The loop of `ModbusClientDeviceTCP.write` (modbus/client.py:938-950). `start` and `end` are
assigned only in the `else` branch (943-946), hence if the first chunk is a full one they are
unbound when `data[start:end]` is evaluated. `written` counts bytes already written, `se` are the
current values of `start` and `end`. Lengths are counted in bytes as in `rtuWriteF`. -/
def tcpWriteF {σ} (srv : TcpServer σ) (sid addr : Int) (maxCount : Nat) (data : Bytes) :
    Nat → Nat → Option (Nat × Nat) → Tcp σ → Tcp σ × Py Unit
  | 0, _, _, t => (t, .error .diverge)
  | fuel + 1, written, se, t =>
    if data.length - written > 0 then
      let n := if data.length - written > 2 * maxCount then 2 * maxCount else data.length - written
      let se := if data.length - written > 2 * maxCount then se else some (written, written + n)
      match se with
      | none => (t, .error .unboundLocal)
      | some (s, e) =>
        andThen (tcpWrite1 srv t sid (addr + (written / 2 : Nat)) ((data.drop s).take (e - s)))
          fun t _ => tcpWriteF srv sid addr maxCount data fuel (written + n) (some (s, e)) t
    else (t, .ok ())

/-- `ModbusClientDeviceTCP.write` (modbus/client.py:918-953). -/
def tcpWrite {σ} (srv : TcpServer σ) (t : Tcp σ) (sid addr : Int) (data : Bytes) (maxCount : Nat) :
    Tcp σ × Py Unit :=
  tcpWith srv t (tcpWriteF srv sid addr maxCount data (data.length + 1) 0 none)

/-- A call of the public interface of a TCP device (modbus/client.py:698-729, 799, 918). -/
inductive TcpOp where
  | connect
  | close
  | read (op addr : Int) (count : Nat)
  | write (addr : Int) (data : Bytes)

/-- The effect of a call on a device with slave id `sid` and `max_count` `maxCount`; calls without a
result return no bytes. -/
def tcpStep {σ} (srv : TcpServer σ) (sid : Int) (maxCount : Nat) (t : Tcp σ) : TcpOp → Tcp σ × Py Bytes
  | .connect => andThen (tcpConnect srv t) fun t _ => (t, .ok [])
  | .close => (tcpDisconnect t, .ok [])
  | .read op addr count => tcpRead srv t sid op addr count maxCount
  | .write addr data => andThen (tcpWrite srv t sid addr data maxCount) fun t _ => (t, .ok [])

/-- A history of calls and their results. -/
def tcpRun {σ} (srv : TcpServer σ) (sid : Int) (maxCount : Nat) : Tcp σ → List TcpOp → Tcp σ × List (Py Bytes)
  | t, [] => (t, [])
  | t, o :: os =>
    let r := tcpStep srv sid maxCount t o
    let rest := tcpRun srv sid maxCount r.1 os
    (rest.1, r.2 :: rest.2)

end Verif
