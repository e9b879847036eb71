import Verif.Model.Crc

/-!
# Modbus RTU client

Models `ModbusClientRTU._read/read/_write/write`
(`sunspec/core/modbus/client.py:224-448`) with `trace_func=None`.

The serial line is modelled as follows. A slave strategy `slave : σ → Bytes → σ × Option (List Bytes)`
receives the bytes of each request that is written to the line. `none` means that `serial.write`
raised; `some chunks` is everything that can be read until the next `flushInput`: every
`serial.read(n)` returns (at most `n` bytes of) the first chunk, an empty chunk or the end of the
list is a read timeout. Python's conversions of `bytes` to `str` and back with latin-1 are
identities and are omitted.
-/

namespace Verif

/-- A Modbus slave as seen from the client: a state, and a reaction to every request. -/
abbrev Slave (σ : Type) := σ → Bytes → σ × Option (List Bytes)

/-- State of the line: the slave's state and a log of all requests sent (a ghost variable). -/
structure Line (σ : Type) where
  dev : σ
  sent : List Bytes

/-- `self.serial.read(n)` for `n > 0`. -/
def serialRead (n : Nat) : List Bytes → Bytes × List Bytes
  | [] => ([], [])
  | c :: rest => if c.length ≤ n then (c, rest) else (c.take n, c.drop n :: rest)

/-- `struct.pack('>BBHH', slave_id, op, addr, count)` (modbus/client.py:230). -/
def packBBHH (a b c d : Int) : Py Bytes :=
  match packU 1 a, packU 1 b, packU 2 c, packU 2 d with
  | .ok a, .ok b, .ok c, .ok d => .ok (a ++ b ++ c ++ d)
  | _, _, _, _ => .error .structError

/-- `struct.pack('>BBHHB', slave_id, func, addr, count, len)` (modbus/client.py:344). -/
def packBBHHB (a b c d e : Int) : Py Bytes :=
  match packBBHH a b c d, packU 1 e with
  | .ok r, .ok e => .ok (r ++ e)
  | _, _ => .error .structError

/-- Total number of bytes still to be delivered: the measure of the receive loop. -/
def bytesLeft (chunks : List Bytes) : Nat := (chunks.map List.length).sum

/-- The receive loop of `_read` (modbus/client.py:243-264) and `_write` (368-388).
`total resp` is the frame length once the header of a normal reply is known: `resp[2] + 5` for
`_read` (256), `8` for `_write` (381). Returns the reply and `except_code`. `resp` always has at
least 5 bytes when it is indexed, so the default values of `getD` are never used. The first
argument bounds the number of iterations; every iteration that does not end the loop receives at
least one byte, so `recvLoop` below never exhausts it. -/
def recvLoopF (total : Bytes → Int) : Nat → Int → Bool → Bytes → Option Nat → List Bytes →
    Py (Bytes × Option Nat)
  | 0, _, _, _, _, _ => .error .diverge
  | fuel + 1, remaining, found, resp, exc, chunks =>
    if remaining > 0 then
      let c := (serialRead remaining.toNat chunks).1
      let rest := (serialRead remaining.toNat chunks).2
      if 0 < c.length then
        let resp' := resp ++ c
        let remaining' := remaining - c.length
        if found = false ∧ resp'.length ≥ 5 then
          if (resp'.getD 1 0) &&& 0x80 = 0 then
            recvLoopF total fuel (total resp' - resp'.length) true resp' exc rest
          else
            recvLoopF total fuel remaining' found resp' (some (resp'.getD 2 0).toNat) rest
        else recvLoopF total fuel remaining' found resp' exc rest
      else .error .modbusClientTimeout
    else .ok (resp, exc)

/-- The receive loop, with enough fuel for everything that can be received. -/
def recvLoop (total : Bytes → Int) (chunks : List Bytes) : Py (Bytes × Option Nat) :=
  recvLoopF total (bytesLeft chunks + 1) 5 false [] none chunks

/-- Frame length of a normal reply to a read (modbus/client.py:256). -/
def readTotal (resp : Bytes) : Int := (resp.getD 2 0).toNat + 5
/-- Frame length of a normal reply to a write (modbus/client.py:381). -/
def writeTotal (_ : Bytes) : Int := 8

/-- `except_code` is acted upon only if it is truthy (modbus/client.py:276, 401). -/
def truthy : Option Nat → Bool
  | some n => n != 0
  | none => false

/-- Sending a request: `flushInput`, `serial.write` (modbus/client.py:239-243); the result is the
input that can be received afterwards. -/
def lineSend {σ} (slave : Slave σ) (l : Line σ) (req : Bytes) : Line σ × Py (List Bytes) :=
  match slave l.dev req with
  | (d, some chunks) => (⟨d, l.sent ++ [req]⟩, .ok chunks)
  | (d, none) => (⟨d, l.sent ++ [req]⟩, .error .modbusClientError)

/-- The checks on a complete reply to a read (modbus/client.py:272-279): CRC, exception, payload
`resp[3:-2]`. -/
def rtuReadReply : Py (Bytes × Option Nat) → Py Bytes
  | .error e => .error e
  | .ok (resp, exc) =>
    if frameCrcOk resp = false then .error .modbusClientError
    else if truthy exc then .error (.modbusClientException (exc.getD 0))
    else .ok ((resp.drop 3).take (resp.length - 5))

/-- `ModbusClientRTU._read` (modbus/client.py:224-279). -/
def rtuRead1 {σ} (slave : Slave σ) (l : Line σ) (sid op addr count : Int) : Line σ × Py Bytes :=
  match packBBHH sid op addr count with
  | .error e => (l, .error e)
  | .ok body =>
    match lineSend slave l (body ++ crcField body) with
    | (l', .error e) => (l', .error e)
    | (l', .ok chunks) => (l', rtuReadReply (recvLoop readTotal chunks))

/-- The loop of `ModbusClientRTU.read` (modbus/client.py:313-327). `None` is returned if a reply has
no data. The first argument bounds the number of iterations. -/
def rtuReadF {σ} (slave : Slave σ) (sid op : Int) (maxCount : Nat) :
    Nat → Int → Nat → Bytes → Line σ → Line σ × Py (Option Bytes)
  | 0, _, _, _, l => (l, .error .diverge)
  | fuel + 1, addr, count, resp, l =>
    if count > 0 then
      let readCount := if count > maxCount then maxCount else count
      match rtuRead1 slave l sid op addr readCount with
      | (l', .error e) => (l', .error e)
      | (l', .ok data) =>
        if data.length > 0 then
          rtuReadF slave sid op maxCount fuel (addr + readCount) (count - readCount) (resp ++ data) l'
        else (l', .ok none)
    else (l, .ok (some resp))

/-- `ModbusClientRTU.read` (modbus/client.py:281-333) on an open port. Each iteration reads at least
one register if `max_count > 0`, so the fuel suffices; for `max_count = 0` the Python loop repeats
a request for 0 registers until it fails, for which `diverge` stands. A negative `count` reads nothing, like 0
(`while count > 0`), so it is not represented; a negative `max_count` is not modelled. -/
def rtuRead {σ} (slave : Slave σ) (l : Line σ) (sid op addr : Int) (count maxCount : Nat) :
    Line σ × Py (Option Bytes) :=
  rtuReadF slave sid op maxCount (count + 1) addr count [] l

/-- The checks on a complete reply to a write (modbus/client.py:397-408). An exception frame with
code 0 falls through to `struct.unpack('>BBHHH')` of 5 bytes, a `struct.error`. -/
def rtuWriteReply (sid addr count : Int) : Py (Bytes × Option Nat) → Py Unit
  | .error e => .error e
  | .ok (resp, exc) =>
    if frameCrcOk resp = false then .error .modbusClientError
    else if truthy exc then .error (.modbusClientException (exc.getD 0))
    else if resp.length ≠ 8 then .error .structError
    else if (beDec (resp.take 1) : Int) ≠ sid ∨ (beDec ((resp.drop 1).take 1) : Int) ≠ 16 ∨
        (beDec ((resp.drop 2).take 2) : Int) ≠ addr ∨ (beDec ((resp.drop 4).take 2) : Int) ≠ count then
      .error .modbusClientError
    else .ok ()

/-- `ModbusClientRTU._write` (modbus/client.py:335-408). -/
def rtuWrite1 {σ} (slave : Slave σ) (l : Line σ) (sid addr : Int) (data : Bytes) : Line σ × Py Unit :=
  let count : Int := (data.length / 2 : Nat)
  match packBBHHB sid 16 addr count data.length with
  | .error e => (l, .error e)
  | .ok hdr =>
    match lineSend slave l (hdr ++ data ++ crcField (hdr ++ data)) with
    | (l', .error e) => (l', .error e)
    | (l', .ok chunks) => (l', rtuWriteReply sid addr count (recvLoop writeTotal chunks))

/-- The loop of `ModbusClientRTU.write` (modbus/client.py:434-446); `data` is the part not yet
written. Python counts registers in floating point halves (`len(data)/2`), here everything is
counted in bytes, which is the same for all lengths below 2^52. The first argument bounds the
number of iterations. -/
def rtuWriteF {σ} (slave : Slave σ) (sid : Int) (maxCount : Nat) :
    Nat → Int → Bytes → Line σ → Line σ × Py Unit
  | 0, _, _, l => (l, .error .diverge)
  | fuel + 1, addr, data, l =>
    if data.length > 0 then
      let n := if data.length > 2 * maxCount then 2 * maxCount else data.length
      match rtuWrite1 slave l sid addr (data.take n) with
      | (l', .error e) => (l', .error e)
      | (l', .ok ()) => rtuWriteF slave sid maxCount fuel (addr + maxCount) (data.drop n) l'
    else (l, .ok ())

/-- `ModbusClientRTU.write` (modbus/client.py:410-448) on an open port; fuel as in `rtuRead`. -/
def rtuWrite {σ} (slave : Slave σ) (l : Line σ) (sid addr : Int) (data : Bytes) (maxCount : Nat) :
    Line σ × Py Unit :=
  rtuWriteF slave sid maxCount (data.length + 1) addr data l

end Verif
