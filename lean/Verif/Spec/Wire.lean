import Verif.Model.Wire

/-!
# Specification: ports and networks that behave like the slaves and servers of `Model/Rtu.lean` and `Model/Tcp.lean`
-/

namespace Verif.Spec
open Verif

/-- The port to which a slave is connected; what it has answered and has not been read yet is kept in the port. -/
def slavePort {σ} (slave : Slave σ) : Port (σ × List Bytes) where
  flush s := (s.1, [])
  write s req :=
    match slave s.1 req with
    | (d, some chunks) => ((d, chunks), true)
    | (d, none) => ((d, []), false)
  read s n := ((s.1, (serialRead n s.2).2), (serialRead n s.2).1)

/-- The network with a server; what has been received and not been read yet is kept in the connection. -/
def serverNet {σ} (srv : TcpServer σ) : Net (σ × List Bytes) where
  connect s := (((srv.accept s.1).1, []), (srv.accept s.1).2)
  close s := (s.1, [])
  send s req :=
    match srv.react s.1 req with
    | (d, some chunks) => ((d, s.2 ++ chunks), true)
    | (d, none) => ((d, s.2), false)
  recv s n :=
    match s.2 with
    | [] => (s, none)
    | c :: rest =>
      if c.length = 0 then (s, some []) else ((s.1, (serialRead n (c :: rest)).2), some (serialRead n (c :: rest)).1)

/-- The socket of a device at both levels. -/
def SameSocket {σ} (w : NetWaited (σ × List Bytes)) (t : Tcp σ) : Prop :=
  w.st.1 = t.dev ∧
  match t.sock with
  | .absent => w.sock = .absent
  | .unconnected => w.sock = .unconnected
  | .connected p => w.sock = .connected ∧ w.st.2 = p

end Verif.Spec
