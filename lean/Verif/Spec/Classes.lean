import Verif.Model.Classes
import Verif.Spec.Wrapper

/-!
# Specification: programs with several scripting devices
-/

namespace Verif
namespace Spec

/-- What a program does: create a scripting device with the models a scan has found, or do something with device number `j` (in
the order of their creation) through its objects and print a text. -/
inductive DeviceEvent where
  | create (models : List MdlObj)
  | use (j : Nat) (f : DWrap → DWrap × Text)

/-- Using objects neither exchanges their classes nor the models behind them. -/
def Uses (f : DWrap → DWrap × Text) : Prop :=
  ∀ d, (f d).1.wraps.map (fun w => (w.cls, w.mdl)) = d.wraps.map (fun w => (w.cls, w.mdl)) ∧
    (f d).1.models.map (·.id) = d.models.map (·.id)

/-- The program with the classes shared: the classes, the devices and what has been printed. -/
def shared (lib : FloatLib) : Classes × List DWrap × List Text → List DeviceEvent → Classes × List DWrap × List Text
  | s, [] => s
  | (cs, ds, out), .create models :: es =>
    match wrapDeviceIn lib cs models with
    | (cs', d, .ok _) => shared lib (cs', ds ++ [d], out) es
    | (cs', _, .error _) => shared lib (cs', ds, out) es
  | (cs, ds, out), .use j f :: es =>
    match ds[j]? with
    | some d => shared lib (cs, ds.set j (f (d.live cs)).1, out ++ [(f (d.live cs)).2]) es
    | none => shared lib (cs, ds, out) es

/-- The program as if each device were the only one. -/
def separate (lib : FloatLib) : List DWrap × List Text → List DeviceEvent → List DWrap × List Text
  | s, [] => s
  | (ds, out), .create models :: es =>
    match wrapDevice lib models with
    | (d, .ok _) => separate lib (ds ++ [d], out) es
    | (_, .error _) => separate lib (ds, out) es
  | (ds, out), .use j f :: es =>
    match ds[j]? with
    | some d => separate lib (ds.set j (f d).1, out ++ [(f d).2]) es
    | none => separate lib (ds, out) es

/-- The models created have the definitions `defs`, one for each id (none: no definition is found). -/
def OneDefinition (defs : Int → Option ModelType) (es : List DeviceEvent) : Prop :=
  ∀ models, DeviceEvent.create models ∈ es → ∀ m ∈ models, m.mtype = defs m.id

/-- The points of a block type have different ids, none of which is `points`. -/
def GoodIds (bt : BlockType) : Prop := ((dataPoints bt).map (·.id)).Nodup ∧ ∀ p ∈ dataPoints bt, p.id ≠ t!"points"

/-- A definition both of whose block types have good ids. -/
def GoodDef (mt : ModelType) : Prop := GoodIds mt.fixed ∧ ∀ rb, mt.rep = some rb → GoodIds rb

end Spec
end Verif
