import Verif.Model.ClientDevice

/-!
# Specification: creating client devices
-/

namespace Verif
namespace Spec

/-- An RTU device on the port with that name, for that slave, with the line parameters asked for (if any). -/
def IsRtu (p : Ports) (d : Nat) (slave : Int) (name : String) (baud : Option Int) (parity : Option String) : Prop :=
  ∃ (dv : RtuDev) (cl : RtuClient), p.devs[d]? = some dv ∧ dv.slave = slave ∧ dv.name = name ∧ dv.live = true ∧
    p.clients[dv.client]? = some cl ∧ (∀ b, baud = some b → cl.baud = b) ∧ (∀ q, parity = some q → cl.parity = q)

/-- The device is the one the arguments ask for. -/
def Asked {Map} (loadMap : String → Py Map) (a : DevArgs) (p : Ports) : Option (MbObj Map) → Prop
  | some (.rtu d) => a.type = "RTU" ∧ IsRtu p d a.slave (a.name.getD "") a.baud a.parity
  | some (.tcp slave conf port timeout) => a.type = "TCP" ∧ slave = a.slave ∧ conf = a.tls ∧
      (∀ x, a.ipport = some x → port = x) ∧ (a.ipport = none → port = 502) ∧
      (∀ x, a.timeout = some x → timeout = x) ∧ (a.timeout = none → timeout = 2)
  | some (.mapped slave m) => a.type = "Mapped" ∧ slave = a.slave ∧ ∃ n, a.name = some n ∧ loadMap n = .ok m
  | none => False

/-- The timeout of the serial port of device `d`. -/
def timeoutOf (s : Lines) (d : Nat) : Option Rat :=
  match s.ports.devs[d]? with
  | some dv => dictGet s.timeouts dv.client
  | none => none

/-- The port is open. -/
def PortOpen (p : Ports) (name : String) : Prop :=
  ∃ (c : Nat) (cl : RtuClient), p.clients[c]? = some cl ∧ cl.name = name ∧ cl.isOpen = true

end Spec
end Verif
