import Verif.Model.ClientDevice
import Verif.Model.Script
import Verif.Model.Wrapper
import Verif.Model.Scan

/-!
# The command suns.py

Models `scripts/suns.py:39-117`: the options, the creation of the device (`SunSpecClientDevice.__init__`, client.py:808-845),
`read()` and the report (`report` in `Model/Script.lean`). Simplifications: the options have been parsed (`optparse`); the
baud rate is an int (given on the command line it is a text, which pyserial converts); the text of the error message and the
timestamp are not modelled.
-/

namespace Verif

/-- The options (suns.py:43-66). -/
structure Options where
  t : String := "tcp"
  a : Int := 1
  i : Text := t!"localhost"
  P : Int := 502
  p : String := "/dev/ttyUSB0"
  b : Int := 9600
  T : Rat := 2
  m : Option String := none

/-- How a command ends: at the end of the script, with `sys.exit(1)`, or with an exception (a traceback). -/
inductive CmdEnd where
  | done
  | exit1
  | raised (e : Exc)
  deriving DecidableEq, Repr

/-- What is printed: the text after `Error: ` (suns.py:81) is not modelled. -/
inductive Printed where
  | nothing
  | unknownOption (t : String)
  | error
  | report (lines : List Text)
  deriving DecidableEq, Repr

/-- The arguments of `SunSpecClientDevice` (suns.py:70-78); `none` for an unknown transport. -/
def sunsArgs (o : Options) : Option DevArgs :=
  if o.t = "tcp" then some { type := "TCP", slave := o.a, tls := { ipaddr := o.i }, ipport := some o.P, timeout := some o.T }
  else if o.t = "rtu" then some { type := "RTU", slave := o.a, name := some o.p, baud := some o.b, timeout := some o.T }
  else if o.t = "mapped" then some { type := "Mapped", slave := o.a, name := o.m }
  else none

/-- `SunSpecClientDevice.__init__` from the scan on (client.py:815-845), for a device in state `s`: the models. If it raises, the
device is closed (for TCP: disconnected), unless its attribute has been overwritten (see `wrapDevice`). -/
def openDevice {σ} (fuel : Nat) (dev : ScanDev σ) (types : Int → Py ModelType) (lib : FloatLib) (s : σ) : σ × Py (List MdlObj) :=
  match scan fuel dev types (fun _ _ => true) { st := s } with
  | (c, .error e) => (dev.disc c.st, .error e)
  | (c, .ok _) =>
    match wrapDevice lib c.list with
    | (_, .ok _) => (c.st, .ok c.list)
    | (d, .error e) => (if d.closed then dev.disc c.st else c.st, .error e)

/-- The script from the creation of the device on (suns.py:68-117), with the Modbus device object `dev` in state `s`: only a
`SunSpecClientError` of the constructor is caught (80-82). -/
def sunsRun {σ} (fuel : Nat) (dev : ScanDev σ) (types : Int → Py ModelType) (lib : FloatLib) (s : σ) : σ × Printed × CmdEnd :=
  match openDevice fuel dev types lib s with
  | (s1, .error e) => if e = .sunSpecClientError then (s1, .error, .exit1) else (s1, .nothing, .raised e)
  | (s1, .ok ms) =>
    match readModels dev.toMbDev ms s1 with
    | (s2, _, .error e) => (s2, .report [], .raised e)
    | (s2, ms', .ok _) =>
      (s2, .report (report lib ms').1, match (report lib ms').2 with | .ok _ => .done | .error e => .raised e)

/-- The script (suns.py:68-117); `run` is `sunsRun` for the Modbus device object that has been created. -/
def sunsMain {Map} (loadMap : String → Py Map) (portOk : String → Bool) (ports : Lines) (o : Options)
    (run : Option (MbObj Map) → Printed × CmdEnd) : Printed × CmdEnd :=
  match sunsArgs o with
  | none => (.unknownOption o.t, .exit1)
  | some a =>
    match (clientDeviceNew loadMap portOk ports a).2 with
    | .error e => if e = .sunSpecClientError then (.error, .exit1) else (.nothing, .raised e)
    | .ok d => run d

end Verif
