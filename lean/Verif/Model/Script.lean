import Verif.Model.Wrapper
import Verif.Model.Scan

/-!
# The scripting interface: items, methods and texts

Models the methods of `SunSpecClientModelBase`, `SunSpecClientBlockBase` and `SunSpecClientDevice` of
`sunspec/core/client.py` that `Model/Wrapper.lean` leaves out (lines 575-604, 651-666, 847-873), and what the program
`scripts/suns.py` prints (lines 85-117).
-/

namespace Verif

/-- `w[name]` for a model object (client.py:575-577). -/
def MWrap.getItem (lib : FloatLib) (ms : List MdlObj) (w : MWrap) (name : Text) : Py UVal := w.getProp lib ms name

/-- `w[name] = v` for a model object (client.py:579-581). -/
def MWrap.setItem (lib : FloatLib) (ms : List MdlObj) (w : MWrap) (name : Text) (v : UVal) : List MdlObj × Py Unit := w.setProp lib ms name v

/-- `b[name]` for a block object of model `i` (client.py:651-653). -/
def BWrap.getItem (lib : FloatLib) (ms : List MdlObj) (i : Nat) (w : BWrap) (name : Text) : Py UVal :=
  if t!"block" ∈ w.props ∨ t!"_get_property" ∈ w.props then .error .recursionError
  else
    match blockPts ms i w.blk with
    | some pts => ptsGet lib pts name
    | none => .error .attributeError

/-- `b[name] = v` for a block object of model `i` (client.py:655-657). -/
def BWrap.setItem (lib : FloatLib) (ms : List MdlObj) (i : Nat) (w : BWrap) (name : Text) (v : UVal) : List MdlObj × Py Unit :=
  if t!"block" ∈ w.props ∨ t!"_set_property" ∈ w.props then (ms, .error (setterError (t!"block") w.props))
  else
    match ms[i]? with
    | none => (ms, .error .attributeError)
    | some m =>
      match m.blocks[w.blk]? with
      | none => (ms, .error .attributeError)
      | some b => setNth ms i (m.withPts w.blk (ptsSet lib b.pts name v).1, (ptsSet lib b.pts name v).2)

/-- `w.read()` (client.py:583-586), over the device and the models. If there is a point or an attribute called `read`, its value
is called. -/
def MWrap.read {σ} (dev : MbDev σ) (s : σ) (ms : List MdlObj) (w : MWrap) : σ × List MdlObj × Py Unit :=
  if t!"read" ∈ w.cls.props ∨ w.hides (t!"read") then (s, ms, .error .typeError)
  else
  match dictGet w.dict (t!"model"), ms[w.mdl]? with
  | some .mdl, some m => ((readPoints dev s m).1, ms.set w.mdl (readPoints dev s m).2.1, (readPoints dev s m).2.2)
  | _, _ => (s, ms, .error .attributeError)

/-- `w.write()` (client.py:588-592). -/
def MWrap.write {σ} (dev : MbDev σ) (s : σ) (ms : List MdlObj) (w : MWrap) : σ × List MdlObj × Py Unit :=
  if t!"write" ∈ w.cls.props ∨ w.hides (t!"write") then (s, ms, .error .typeError)
  else
  match dictGet w.dict (t!"model"), ms[w.mdl]? with
  | some .mdl, some m => ((writePoints dev s m).1, ms.set w.mdl (writePoints dev s m).2.1, (writePoints dev s m).2.2)
  | _, _ => (s, ms, .error .attributeError)

/-- `self[key] = item` of a `SunSpecClientDevice` (client.py:864-865): a `dict` has no method `set`. -/
def DWrap.setItem (d : DWrap) (_key : Text) (_item : WAttr) : DWrap × Py Unit := (d, .error .attributeError)

/-- The loop over the points in `__str__` (client.py:596-599, 661-664): a line for each value that is not None. -/
def strPoints (lib : FloatLib) (get : Text → Py UVal) : List Text → Text → Py Text
  | [], s => .ok s
  | n :: ns, s =>
    match get n with
    | .error e => .error e
    | .ok .none => strPoints lib get ns s
    | .ok v => strPoints lib get ns (s ++ (n ++ t!":  " ++ sunsToStr lib v ++ t!"\n"))

/-- `str(b)` for a block object of model `i` (client.py:659-666). -/
def BWrap.str (lib : FloatLib) (ms : List MdlObj) (i : Nat) (w : BWrap) : Py Text :=
  match (ms[i]?).bind fun m => m.blocks[w.blk]? with
  | none => .error .attributeError
  | some b => strPoints lib (w.getAttr lib ms i) w.props (t!"\n" ++ w.name ++ t!"[" ++ natDec b.index ++ t!"]:\n")

/-- The loop over the blocks (client.py:601-602). -/
def strBlocks (lib : FloatLib) (ms : List MdlObj) (i : Nat) : List BWrap → Text → Py Text
  | [], s => .ok s
  | b :: bs, s =>
    match b.str lib ms i with
    | .error e => .error e
    | .ok t => strBlocks lib ms i bs (s ++ t)

/-- A value of an attribute that is a point, as used by `__str__`. -/
def WRes.toVal : Py WRes → Py UVal
  | .ok (.val v) => .ok v
  | .ok _ => .error .typeError
  | .error e => .error e

/-- `str(w)` for a model object (client.py:594-604). Simplification: that attributes called `points`, `model` or `repeating` may have been
replaced is left out. -/
def MWrap.str (lib : FloatLib) (ms : List MdlObj) (w : MWrap) : Py Text :=
  match w.getAttr lib ms (t!"name"), ms[w.mdl]? with
  | .ok (.text n), some m =>
    match strPoints lib (fun x => WRes.toVal (w.getAttr lib ms x)) w.cls.points (t!"\n" ++ n ++ t!" (" ++ intDec m.id ++ t!"):\n") with
    | .error e => .error e
    | .ok s => strBlocks lib ms w.mdl w.reps s
  | .ok (.val v), some m =>
    match strPoints lib (fun x => WRes.toVal (w.getAttr lib ms x)) w.cls.points (t!"\n" ++ sunsToStr lib v ++ t!" (" ++ intDec m.id ++ t!"):\n") with
    | .error e => .error e
    | .ok s => strBlocks lib ms w.mdl w.reps s
  | .error e, _ => .error e
  | _, _ => .error .attributeError

/-- The loop of `SunSpecClientDevice.__str__` (client.py:869-871) over the names in `models`. `other` is the text of a list (or of another
object), which shows the identity of the objects in it but not their contents. -/
def strNames (lib : FloatLib) (other : WAttr → Text) (d : DWrap) : List WItem → Text → Py Text
  | [], s => .ok s
  | .name n :: ns, s =>
    match d.item n with
    | some (.one (.wrap i)) =>
      match d.wraps[i]? with
      | none => .error .indexError
      | some w =>
        match w.str lib d.models with
        | .error e => .error e
        | .ok t => strNames lib other d ns (s ++ t)
    | some a => strNames lib other d ns (s ++ other a)
    | none => strNames lib other d ns (s ++ t!"None")
  | _ :: ns, s => strNames lib other d ns s

/-- `str(d)` for a `SunSpecClientDevice` (client.py:867-873). -/
def DWrap.str (lib : FloatLib) (other : WAttr → Text) (d : DWrap) : Py Text :=
  match d.item (t!"models") with
  | some (.list l) => strNames lib other d l []
  | _ => .error .typeError

/-! ## scripts/suns.py -/

/-- `'%-ns' % s`. -/
def padRight (n : Nat) (s : Text) : Text := s ++ List.replicate (n - s.length) ' '

/-- `'%ns' % s`. -/
def padLeft (n : Nat) (s : Text) : Text := List.replicate (n - s.length) ' ' ++ s

/-- Hexadecimal digits of `n` (with fuel at least the number of digits). -/
def natHexF : Nat → Nat → Text
  | 0, _ => []
  | fuel + 1, n => if n < 16 then [hexDigitL n] else natHexF fuel (n / 16) ++ [hexDigitL (n % 16)]

/-- `'%0wx' % n`. -/
def hexW (w : Nat) (i : Int) : Text :=
  let s := natHexF (i.natAbs + 1) i.natAbs
  if i < 0 then '-' :: (List.replicate (w - 1 - s.length) '0' ++ s) else List.replicate (w - s.length) '0' ++ s

/-- `if x:` for a text that may be None. -/
def textTrue : Option Text → Option Text
  | some [] => none
  | x => x

/-- `value` (suns.py:111-116). `'%x'` of a float or text is a `TypeError`. -/
def reportValue (lib : FloatLib) (t : PT) (v : UVal) : Py Text :=
  if t = .bitfield16 then
    match v with
    | .int i => .ok (t!"0x" ++ hexW 4 i)
    | _ => .error .typeError
  else if t = .bitfield32 then
    match v with
    | .int i => .ok (t!"0x" ++ hexW 8 i)
    | _ => .error .typeError
  else .ok (rstripNul (sunsToStr lib v))

/-- `index` (suns.py:96-99). -/
def reportIndex (k : Nat) : Text := if 0 < k then (if k < 10 then '0' :: natDec k else natDec k) ++ t!":" else t!"   "

/-- `label` of a point (suns.py:102-105). -/
def reportLabel (k : Nat) (t : PointType) : Text :=
  match textTrue t.label with
  | some l => t!"   " ++ reportIndex k ++ l ++ t!" (" ++ t.id ++ t!"):"
  | none => t!"   " ++ reportIndex k ++ t!"(" ++ t.id ++ t!"):"

/-- The line for a point with a value (suns.py:102-117). -/
def reportLine (lib : FloatLib) (k : Nat) (t : PointType) (v : UVal) : Py Text :=
  match reportValue lib t.type v with
  | .error e => .error e
  | .ok s => .ok (padRight 40 (reportLabel k t) ++ t!" " ++ padLeft 20 s ++ t!" " ++ padRight 10 (t.units.getD []))

/-- The loop over the points (suns.py:100-117): the lines printed, and the exception that ended it, if any. -/
def reportPoints (lib : FloatLib) (k : Nat) : List PointObj → List Text × Py Unit
  | [] => ([], .ok ())
  | p :: ps =>
    match getValue lib p with
    | .error e => ([], .error e)
    | .ok .none => reportPoints lib k ps
    | .ok v =>
      match reportLine lib k p.pt v with
      | .error e => ([], .error e)
      | .ok l => (l :: (reportPoints lib k ps).1, (reportPoints lib k ps).2)

/-- The loop over the blocks (suns.py:95-117). -/
def reportBlocks (lib : FloatLib) : List BlockObj → List Text × Py Unit
  | [] => ([], .ok ())
  | b :: bs =>
    match (reportPoints lib b.index b.pts).2 with
    | .error e => ((reportPoints lib b.index b.pts).1, .error e)
    | .ok _ => ((reportPoints lib b.index b.pts).1 ++ (reportBlocks lib bs).1, (reportBlocks lib bs).2)

/-- The heading of a model (suns.py:90-94). -/
def reportHead (id : Int) (label : Option Text) : Text :=
  match textTrue label with
  | some l => t!"\nmodel: " ++ l ++ t!" (" ++ intDec id ++ t!")\n"
  | none => t!"\nmodel: (" ++ intDec id ++ t!")\n"

/-- The loop over the models (suns.py:89-117): `model.model_type.label` is an `AttributeError` for a model without definition. -/
def report (lib : FloatLib) : List MdlObj → List Text × Py Unit
  | [] => ([], .ok ())
  | m :: ms =>
    match m.mtype with
    | none => ([], .error .attributeError)
    | some mt =>
      match (reportBlocks lib m.blocks).2 with
      | .error e => (reportHead m.id mt.label :: (reportBlocks lib m.blocks).1, .error e)
      | .ok _ => (reportHead m.id mt.label :: (reportBlocks lib m.blocks).1 ++ (report lib ms).1, (report lib ms).2)

end Verif
