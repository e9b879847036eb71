import Verif.Model.Tls

/-!
# Specification: TLS
-/

namespace Verif
namespace Spec

/-- The file with the trusted certificates that the options name: `cafile`, if it is given and not empty. -/
def trustFile (c : TlsConf) : Option Text :=
  match c.cafile with
  | some (x :: xs) => some (x :: xs)
  | _ => none

/-- The certificate is the one the options of the device demand: it verifies with `cafile` (or the certificates of the system),
and it is for the host unless `insecure_skip_tls_verify`. -/
def Authenticated {σ Cert} (W : TlsWorld σ Cert) (c : TlsConf) (cert : Cert) : Prop :=
  W.trusted (trustFile c) cert = true ∧ (c.skip = false → W.forHost c.ipaddr cert = true)

/-- A request was sent in a session with an authenticated server, not in clear. -/
def Protected {σ Cert} (W : TlsWorld σ Cert) (c : TlsConf) (e : Option Cert × Bytes) : Prop :=
  ∃ cert, e.1 = some cert ∧ Authenticated W c cert

/-- After a call that raised an exception the program closes the device or connects it again. -/
def Careful : List TcpOp → List (Py Bytes) → Prop
  | _ :: os, r :: rs => ((∃ e, r = .error e) → os = [] ∨ (∃ os', os = .close :: os') ∨ ∃ os', os = .connect :: os') ∧ Careful os rs
  | _, _ => True

/-- The client certificate and the CA file (if any) can be loaded. -/
def FilesOK {σ Cert} (W : TlsWorld σ Cert) (c : TlsConf) : Prop :=
  (∀ f, trustFile c = some f → W.loadCa f = .ok ()) ∧ ∃ f, c.certfile = some f ∧ W.loadCert f c.keyfile = .ok ()

/-- The world as a plain server whose connections are made with a handshake. -/
def secured {σ Cert} (W : TlsWorld σ Cert) : TcpServer (TlsSt σ Cert) where
  accept s :=
    match W.accept s.dev with
    | (d, false) => ({ s with dev := d, chan := none }, false)
    | (d, true) => ({ s with dev := (W.hello d).1, chan := (W.hello d).2.1 }, true)
  react := (tlsServer W).react

end Spec
end Verif
