import Verif.Model.Command
import Verif.Model.ScriptFiles
import Verif.Model.MapFile

/-!
# The command suns.py, with its files

`Model/Command.lean` has the script for any library of definitions and any way to load a map. Here the definitions and the map come from
files: the definitions are loaded by `scan` and again by `model_class_get` through the dictionary of `model_type_get`, which is empty when
the command starts, and the map is the document with the name given by the option `-m`.
-/

namespace Verif

/-- `SunSpecClientDevice.__init__` from the scan on (client.py:812-845), see `openDevice`. -/
def openDeviceFiles {σ} (env : TypeEnv ModelType) (fuel : Nat) (dev : ScanDev σ) (lib : FloatLib) (s : σ) : σ × Py (List MdlObj) :=
  match scriptFiles env lib fuel dev (fun _ _ => true) {} { st := s } with
  | (_, c, d, .error e) => (if d.closed then dev.disc c.st else c.st, .error e)
  | (_, c, _, .ok _) => (c.st, .ok c.list)

/-- The script from the creation of the device on (suns.py:68-117), see `sunsRun`. -/
def sunsRunFiles {σ} (env : TypeEnv ModelType) (fuel : Nat) (dev : ScanDev σ) (lib : FloatLib) (s : σ) : σ × Printed × CmdEnd :=
  match openDeviceFiles env fuel dev lib s with
  | (s1, .error e) => if e = .sunSpecClientError then (s1, .error, .exit1) else (s1, .nothing, .raised e)
  | (s1, .ok ms) =>
    match readModels dev.toMbDev ms s1 with
    | (s2, _, .error e) => (s2, .report [], .raised e)
    | (s2, ms', .ok _) =>
      (s2, .report (report lib ms').1, match (report lib ms').2 with | .ok _ => .done | .error e => .raised e)

/-- The whole script (suns.py:39-117): `net` is what it does with a device on a serial line or a network; the map document is opened by its
name (suns.py:75, no path list is given). -/
def sunsFiles (F : FloatText) (env : TypeEnv ModelType) (xml : Bytes → Py Elem) (fuel : Nat) (lib : FloatLib) (portOk : String → Bool)
    (ports : Lines) (net : Option (MbObj MbMap) → Printed × CmdEnd) (o : Options) : Printed × CmdEnd :=
  sunsMain (mappedNew F env.fs xml none) portOk ports o fun d =>
    match d with
    | some (.mapped _ m) => (sunsRunFiles env fuel mapScanDev lib m).2
    | d => net d

end Verif
