import Verif.Model.Tcp
import Verif.Py.Text

/-!
# Modbus TCP with TLS

Models `ModbusClientDeviceTCP.connect` (`sunspec/core/modbus/client.py:702-729`) with all its TLS options, and
`read`/`write` on top of it. `Model/Tcp.lean` has the same without TLS.

Of Python's `ssl` module (3.11) this uses: `create_default_context(SERVER_AUTH, cafile=...)` demands a certificate
that verifies (`CERT_REQUIRED`) and is for the host (`check_hostname`), loading the file if it is given (and not empty), the
system's certificates otherwise; `load_cert_chain(certfile=None)` is a `TypeError`; `SSLSocket.connect` connects,
then does the handshake; if the handshake raises, the `SSLSocket` has no SSL object any more but is still connected, and then
`sendall` and `recv` of the `SSLSocket` are those of the plain socket (ssl.py: `_real_connect`, `sendall`, `recv`).
-/

namespace Verif

/-- The world of a TLS client: what happens on the network and which files and certificates are valid. -/
structure TlsWorld (σ Cert : Type) where
  /-- A TCP connection attempt. -/
  accept : σ → σ × Bool
  /-- A handshake: the certificate the server proves to have (none: the handshake fails for another reason), and the data
  that remains to be received if the handshake fails. -/
  hello : σ → σ × Option Cert × List Bytes
  /-- A request sent on a connection, as in `TcpServer.react`: in clear (`none`) or in a session with the holder of a
  certificate. -/
  react : σ → Option Cert → Bytes → σ × Option (List Bytes)
  /-- `load_verify_locations(cafile)`. -/
  loadCa : Text → Py Unit
  /-- `load_cert_chain(certfile, keyfile)`. -/
  loadCert : Text → Option Text → Py Unit
  /-- The certificate verifies with the certificates in the file (none: those of the system). -/
  trusted : Option Text → Cert → Bool
  /-- The certificate is for the host. -/
  forHost : Text → Cert → Bool

/-- The attributes of the device (modbus/client.py:663-676). -/
structure TlsConf where
  ipaddr : Text
  tls : Bool := false
  cafile : Option Text := none
  certfile : Option Text := none
  keyfile : Option Text := none
  skip : Bool := false

/-- The outside of the device: the state of the network, the channel of the current connection, and as a ghost variable the requests
sent so far with their channels (`none`: in clear). -/
structure TlsSt (σ Cert : Type) where
  dev : σ
  chan : Option Cert
  wire : List (Option Cert × Bytes)

/-- `cafile` as used by `create_default_context`: an empty name is ignored. -/
def TlsConf.ca (c : TlsConf) : Option Text := if c.cafile = some [] then none else c.cafile

/-- `create_default_context`, `load_cert_chain` (modbus/client.py:720-721). -/
def tlsContext {σ Cert} (W : TlsWorld σ Cert) (c : TlsConf) : Py Unit :=
  match (match c.ca with
    | none => .ok ()
    | some f => W.loadCa f : Py Unit) with
  | .error e => .error e
  | .ok _ =>
    match c.certfile with
    | none => .error .typeError
    | some f => W.loadCert f c.keyfile

/-- The verification in the handshake: `verify_mode` is `CERT_REQUIRED`, `check_hostname` is `tls_verify`, i.e.
`not insecure_skip_tls_verify` (modbus/client.py:675, 722). -/
def tlsAccepts {σ Cert} (W : TlsWorld σ Cert) (c : TlsConf) (cert : Cert) : Bool :=
  W.trusted c.ca cert && (c.skip || W.forHost c.ipaddr cert)

/-- The server as seen by `_read` and `_write`. `accept` is the one without TLS. -/
def tlsServer {σ Cert} (W : TlsWorld σ Cert) : TcpServer (TlsSt σ Cert) where
  accept s := ({ s with dev := (W.accept s.dev).1, chan := none }, (W.accept s.dev).2)
  react s req := ({ s with dev := (W.react s.dev s.chan req).1, wire := s.wire ++ [(s.chan, req)] }, (W.react s.dev s.chan req).2)

/-- `ModbusClientDeviceTCP.connect` (modbus/client.py:702-729). Simplification: `ipaddr` is not empty. -/
def tlsConnect {σ Cert} (W : TlsWorld σ Cert) (c : TlsConf) (t : Tcp (TlsSt σ Cert)) : Tcp (TlsSt σ Cert) × Py Unit :=
  let t := tcpDisconnect t
  let s := t.dev
  if c.tls then
    match tlsContext W c with
    | .error _ => ({ t with sock := .unconnected, opened := t.opened + 1 }, .error .modbusClientError)
    | .ok _ =>
      match W.accept s.dev with
      | (d, false) => ({ t with dev := { s with dev := d, chan := none }, sock := .unconnected, opened := t.opened + 1 }, .error .modbusClientError)
      | (d, true) =>
        match W.hello d with
        | (d', none, left) =>
          ({ t with dev := { s with dev := d', chan := none }, sock := .connected left, opened := t.opened + 1 }, .error .modbusClientError)
        | (d', some cert, left) =>
          if tlsAccepts W c cert then
            ({ t with dev := { s with dev := d', chan := some cert }, sock := .connected [], opened := t.opened + 1 }, .ok ())
          else
            ({ t with dev := { s with dev := d', chan := none }, sock := .connected left, opened := t.opened + 1 }, .error .modbusClientError)
  else tcpConnect (tlsServer W) t

/-- The connection handling of `read` and `write` (modbus/client.py:822-824, 841-843, 934-936, 951-953), as `tcpWith`. -/
def tlsWith {σ Cert α} (W : TlsWorld σ Cert) (c : TlsConf) (t : Tcp (TlsSt σ Cert)) (body : Tcp (TlsSt σ Cert) → Tcp (TlsSt σ Cert) × Py α) :
    Tcp (TlsSt σ Cert) × Py α :=
  match t.sock with
  | .absent => andThen (tlsConnect W c t) fun t1 _ => (tcpDisconnect (body t1).1, (body t1).2)
  | _ => body t

/-- A call of the public interface of the device, as `tcpStep` (modbus/client.py:698-741, 799-849, 918-953). -/
def tlsStep {σ Cert} (W : TlsWorld σ Cert) (c : TlsConf) (sid : Int) (maxCount : Nat) (t : Tcp (TlsSt σ Cert)) : TcpOp → Tcp (TlsSt σ Cert) × Py Bytes
  | .connect => andThen (tlsConnect W c t) fun t _ => (t, .ok [])
  | .close => (tcpDisconnect t, .ok [])
  | .read op addr count => tlsWith W c t (tcpReadF (tlsServer W) sid op maxCount (count + 1) addr count [])
  | .write addr data =>
    andThen (tlsWith W c t (tcpWriteF (tlsServer W) sid addr maxCount data (data.length + 1) 0 none)) fun t _ => (t, .ok [])

/-- A history of calls and their results. -/
def tlsRun {σ Cert} (W : TlsWorld σ Cert) (c : TlsConf) (sid : Int) (maxCount : Nat) :
    Tcp (TlsSt σ Cert) → List TcpOp → Tcp (TlsSt σ Cert) × List (Py Bytes)
  | t, [] => (t, [])
  | t, o :: os =>
    let r := tlsStep W c sid maxCount t o
    let rest := tlsRun W c sid maxCount r.1 os
    (rest.1, r.2 :: rest.2)

/-- A new device (modbus/client.py:663-688). -/
def newTls {σ} (Cert : Type) (d : σ) : Tcp (TlsSt σ Cert) := ⟨⟨d, none, []⟩, .absent, [], 0, 0⟩

end Verif
