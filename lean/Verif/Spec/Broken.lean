import Verif.Model.Broken
import Verif.Spec.Wire

/-!
# Specification: lines that break and work again
-/

namespace Verif.Spec
open Verif

/-- Every operation of the port returns or raises an exception. -/
structure ProperPort {τ} (p : PortX τ) : Prop where
  flush : ∀ t, (p.flush t).2 ≠ .error .diverge
  read : ∀ t n, (p.read t n).2 ≠ .error .diverge

/-- `e` is an exception that `flushInput` or `read` of the port may raise. -/
def PortRaises {τ} (p : PortX τ) (e : Exc) : Prop := ∃ t, (p.flush t).2 = .error e ∨ ∃ n, (p.read t n).2 = .error e

/-- `recv` of the network returns or raises an exception. -/
def ProperNet {τ} (net : NetX τ) : Prop := ∀ t n, (net.recv t n).2 ≠ .error .diverge

/-- `e` is an exception that `recv` of the network may raise. -/
def NetRaises {τ} (net : NetX τ) (e : Exc) : Prop := ∃ t n, (net.recv t n).2 = .error e

/-- The line works in the states `Good`: there the port behaves as the port of `slave`, and goes on doing so. `on` is what the slave,
and what it has sent, are in a state of the port. -/
structure Works {τ σ} (p : PortX τ) (Good : τ → Prop) (slave : Slave σ) (on : τ → σ × List Bytes) : Prop where
  flush : ∀ t, Good t → Good (p.flush t).1 ∧ (p.flush t).2 = .ok () ∧ on (p.flush t).1 = (slavePort slave).flush (on t)
  write : ∀ t req, Good t → Good (p.write t req).1 ∧ on (p.write t req).1 = ((slavePort slave).write (on t) req).1 ∧
    ((p.write t req).2 = .ok () ↔ ((slavePort slave).write (on t) req).2 = true)
  read : ∀ t n, Good t → Good (p.read t n).1 ∧ on (p.read t n).1 = ((slavePort slave).read (on t) n).1 ∧
    (p.read t n).2 = .ok ((slavePort slave).read (on t) n).2

/-- The network works in the states `Good`: there it behaves as the network of the server `srv`, and goes on doing so; sockets can be
created and closed. -/
structure NetWorks {τ σ} (net : NetX τ) (Good : τ → Prop) (srv : TcpServer σ) (on : τ → σ × List Bytes) : Prop where
  socket : ∀ t, Good t → Good (net.socket t).1 ∧ (net.socket t).2 = .ok () ∧ on (net.socket t).1 = on t
  connect : ∀ t, Good t → Good (net.connect t).1 ∧ on (net.connect t).1 = ((serverNet srv).connect (on t)).1 ∧
    ((net.connect t).2 = .ok () ↔ ((serverNet srv).connect (on t)).2 = true)
  close : ∀ t, Good t → Good (net.close t).1 ∧ (net.close t).2 = .ok () ∧ on (net.close t).1 = (serverNet srv).close (on t)
  send : ∀ t req, Good t → Good (net.send t req).1 ∧ on (net.send t req).1 = ((serverNet srv).send (on t) req).1 ∧
    ((net.send t req).2 = .ok () ↔ ((serverNet srv).send (on t) req).2 = true)
  recv : ∀ t n, Good t → Good (net.recv t n).1 ∧ on (net.recv t n).1 = ((serverNet srv).recv (on t) n).1 ∧
    (net.recv t n).2 = (match ((serverNet srv).recv (on t) n).2 with | none => .error .socketTimeout | some d => .ok d)

end Verif.Spec
