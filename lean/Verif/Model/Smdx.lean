import Verif.Model.Device

/-!
# Parsing model definitions (SMDX)

Models `ModelType.from_smdx` (device.py:991-1055), `BlockType.from_smdx` (device.py:1150-1183), `PointType.from_smdx`
(device.py:1335-1407) and `Symbol.from_smdx` (device.py:1456-1470) on element trees (`ET.fromstring` is not modelled).
Simplifications: the text of error messages and `ET.dump` are left out.
-/

namespace Verif

/-- The names of the point types (smdx.py:49-69). -/
def PT.name : PT → Text
  | .int16 => t!"int16" | .uint16 => t!"uint16" | .count => t!"count" | .acc16 => t!"acc16" | .enum16 => t!"enum16"
  | .bitfield16 => t!"bitfield16" | .pad => t!"pad" | .int32 => t!"int32" | .uint32 => t!"uint32" | .acc32 => t!"acc32"
  | .enum32 => t!"enum32" | .bitfield32 => t!"bitfield32" | .ipaddr => t!"ipaddr" | .int64 => t!"int64" | .uint64 => t!"uint64"
  | .acc64 => t!"acc64" | .ipv6addr => t!"ipv6addr" | .float32 => t!"float32" | .string => t!"string" | .sunssf => t!"sunssf"
  | .eui48 => t!"eui48"

/-- `smdx.smdx_point_types.get(ptype)` (smdx.py:93-116). -/
def typeNamed (s : Text) : Option PT := PT.all.find? fun t => decide (t.name = s)

/-- `int(a)` of an attribute: a `TypeError` for None. -/
def smdxInt : Option Text → Py Int
  | none => .error .typeError
  | some s =>
    match pyInt 10 s with
    | some i => .ok i
    | none => .error .valueError

/-- The text of the last child with a tag (device.py:1385-1391, 1037-1043, 1458-1464). -/
def lastText (tag : String) (e : Elem) (old : Option Text) : Option Text :=
  (e.children.filter fun c => c.tag == tag).foldl (fun _ c => c.text) old

/-- The symbols of a model, by symbol id and point id (`ModelType.symbols`, device.py:989, 1057-1061). A point holds references to
these objects; until the end of the parse a reference is represented by a symbol that has only its id. -/
abbrev SymTab := List ((Text × Text) × Symbol)

/-- `Symbol()` (device.py:1449-1454). -/
def emptySymbol : Symbol := ⟨none, none, none, none, none⟩

/-- The texts taken from an element (device.py:1458-1464). -/
def symbolTexts (s : Symbol) (e : Elem) : Symbol :=
  { s with label := lastText "label" e s.label, description := lastText "description" e s.description, notes := lastText "notes" e s.notes }

/-- `symbol.from_smdx(e)` (device.py:1456-1470) for an element with an id. -/
def symbolFill (s : Symbol) (e : Elem) : Symbol := { symbolTexts s e with id := e.get "id", value := e.text }

/-- The symbols of a point (device.py:1392-1412): the references of the point and the symbols of the model. -/
def symbolsLoop (pid : Text) : List Elem → List Text → SymTab → Py (List Text × SymTab)
  | [], sids, tab => .ok (sids, tab)
  | e :: es, sids, tab =>
    match e.get "id" with
    | none => .error .sunSpecError
    | some sid =>
      symbolsLoop pid es (if sid ∈ sids then sids else sids ++ [sid])
        (dictSet tab (sid, pid) (symbolFill ((dictGet tab (sid, pid)).getD emptySymbol) e))

/-- `smdx_mandatory_types.get(mandatory)` (smdx.py:82-85) with the default (device.py:1354). -/
def mandatoryOf : Option Text → Option Bool
  | none => some false
  | some s => if s = t!"false" then some false else if s = t!"true" then some true else none

/-- `smdx_access_types.get(access)` (smdx.py:77-80) with the default (device.py:1355): writable? -/
def accessOf : Option Text → Option Bool
  | none => some false
  | some s => if s = t!"r" then some false else if s = t!"rw" then some true else none

/-- The length of a point (device.py:1378-1383). `none` is Python's None (a string without length, which is refused before). -/
def pointLen (t : PT) (plen : Option Text) : Py (Option Int) :=
  match plen with
  | none => .ok (t.regs.map fun (n : Nat) => (n : Int))
  | some s =>
    match smdxInt (some s) with
    | .ok n => .ok (some n)
    | .error e => .error e

/-- The attributes of the point once the checks have passed (device.py:1349-1407). -/
def smdxPoint (e : Elem) (id : Text) (offset : Int) (t : PT) (len : Int) (mand rw : Bool) (sids : List Text) : PointType :=
  { id := id, offset := offset, type := t, len := len, mandatory := mand, rw := rw, units := e.get "units",
    sf := e.get "sf", label := lastText "label" e none, description := lastText "description" e none,
    notes := lastText "notes" e none, symbols := sids.map fun s => { emptySymbol with id := some s } }

/-- `PointType.from_smdx(element)` (device.py:1335-1407). -/
def pointFromSmdx (tab : SymTab) (e : Elem) : Py (PointType × SymTab) :=
  match smdxInt (e.get "offset") with
  | .error x => .error x
  | .ok offset =>
    match e.get "id", e.get "type" with
    | none, _ => .error .sunSpecError
    | _, none => .error .sunSpecError
    | some id, some ptype =>
      if ptype = t!"string" ∧ e.get "len" = none then .error .sunSpecError
      else
        match typeNamed ptype, mandatoryOf (e.get "mandatory"), accessOf (e.get "access") with
        | some t, some mand, some rw =>
          match pointLen t (e.get "len") with
          | .error x => .error x
          | .ok none => .error .typeError
          | .ok (some len) =>
            match symbolsLoop id (e.findall "symbol") [] tab with
            | .error x => .error x
            | .ok (sids, tab) =>
              .ok (smdxPoint e id offset t len mand rw sids, tab)
        | _, _, _ => .error .sunSpecError

/-- The loop over the points of a block (device.py:1174-1183). -/
def pointsLoop : List Elem → List PointType → SymTab → Py (List PointType × SymTab)
  | [], ps, tab => .ok (ps, tab)
  | e :: es, ps, tab =>
    match pointFromSmdx tab e with
    | .error x => .error x
    | .ok (p, tab) => if ps.any fun q => decide (q.id = p.id) then .error .sunSpecError else pointsLoop es (ps ++ [p]) tab

/-- `BlockType.from_smdx` (device.py:1150-1183). -/
def blockFromSmdx (tab : SymTab) (e : Elem) : Py (BlockType × SymTab) :=
  let btype := (e.get "type").getD (t!"fixed")
  if btype ≠ t!"fixed" ∧ btype ≠ t!"repeating" then .error .sunSpecError
  else
    match e.get "len" with
    | none => .error .sunSpecError
    | some len =>
      match pointsLoop (e.findall "point") [] tab with
      | .error x => .error x
      | .ok (ps, tab) => .ok (⟨decide (btype = t!"repeating"), .str len, (e.get "name").getD btype, ps⟩, tab)

/-- The loop over the blocks of a model (device.py:1015-1028). -/
def blocksLoop : List Elem → Option BlockType → Option BlockType → SymTab → Py (Option BlockType × Option BlockType × SymTab)
  | [], f, r, tab => .ok (f, r, tab)
  | e :: es, f, r, tab =>
    match blockFromSmdx tab e with
    | .error x => .error x
    | .ok (b, tab) =>
      if b.repeating then
        match r with
        | none => blocksLoop es f (some b) tab
        | some _ => .error .sunSpecError
      else
        match f with
        | none => blocksLoop es (some b) r tab
        | some _ => .error .sunSpecError

/-- A `ModelType` while it is being filled (device.py:979-989): without a `model` element, id, length and name stay None. -/
structure TypeDef where
  id : Option Int := none
  len : Option Int := none
  name : Option Text := none
  fixed : Option BlockType := none
  rep : Option BlockType := none
  label : Option Text := none
  description : Option Text := none
  notes : Option Text := none
  symbols : SymTab := []
  deriving DecidableEq

/-- The first `model` element (device.py:1003-1031); other ones are not looked at (`break`). -/
def modelElem (root : Elem) : Py TypeDef :=
  match root.findall "model" with
  | [] => .ok {}
  | m :: _ =>
    match smdxInt (m.get "id") with
    | .error x => .error x
    | .ok id =>
      match m.get "len" with
      | none => .error .sunSpecError
      | some s =>
        match smdxInt (some s) with
        | .error x => .error x
        | .ok len =>
          match blocksLoop (m.findall "block") none none [] with
          | .error x => .error x
          | .ok (f, r, tab) =>
            .ok { id := some id, len := some len, name := some ((m.get "name").getD (t!"model_" ++ intDec id)), fixed := f, rep := r,
                  symbols := tab }

/-- Change the last element with a property (device.py:1394-1407). -/
def updateLast {α} (P : α → Bool) (f : α → α) : List α → List α
  | [] => []
  | a :: l => if P a && !l.any P then f a :: l else a :: updateLast P f l

/-- A `symbol` element inside a `point` of the `strings` part (device.py:1392-1412): a symbol that the model has gets the texts, and
is added to the point if the point does not have it; for an unknown one a symbol without id is added to the point. An element without
id gives its texts to the last symbol without id of the point, which the model has with the key (None, id of the point), if there is
one. -/
def symbolString (pst : PointType × SymTab) (e : Elem) : PointType × SymTab :=
  let (p, tab) := pst
  match e.get "id" with
  | none =>
    ({ p with symbols := if p.symbols.any fun q => decide (q.id = none) then updateLast (fun q => decide (q.id = none)) (symbolTexts · e) p.symbols
                         else p.symbols ++ [symbolTexts emptySymbol e] }, tab)
  | some sid =>
    match dictGet tab (sid, p.id) with
    | none => ({ p with symbols := p.symbols ++ [symbolTexts emptySymbol e] }, tab)
    | some s =>
      (if p.symbols.any fun q => decide (q.id = some sid) then p
       else { p with symbols := p.symbols ++ [{ emptySymbol with id := some sid }] },
       dictSet tab (sid, p.id) (symbolTexts s e))

/-- `point_type.from_smdx(e, strings=True)` (device.py:1385-1407). -/
def pointStrings (tab : SymTab) (e : Elem) (p : PointType) : PointType × SymTab :=
  (e.findall "symbol").foldl symbolString
    ({ p with label := lastText "label" e p.label, description := lastText "description" e p.description,
              notes := lastText "notes" e p.notes }, tab)

/-- `block.points.get(pid)`, and the update of that point. -/
def pointsStrings (tab : SymTab) (e : Elem) : List PointType → Option (List PointType × SymTab)
  | [] => none
  | p :: ps =>
    if e.get "id" = some p.id then
      some ((pointStrings tab e p).1 :: ps, (pointStrings tab e p).2)
    else
      match pointsStrings tab e ps with
      | none => none
      | some (ps', tab') => some (p :: ps', tab')

/-- The same for a block that may be absent. -/
def blockStrings (tab : SymTab) (e : Elem) : Option BlockType → Option (BlockType × SymTab)
  | none => none
  | some b =>
    match pointsStrings tab e b.points with
    | none => none
    | some (ps, tab') => some ({ b with points := ps }, tab')

/-- One `point` element of the `strings` part (device.py:1044-1052): the fixed block has priority. -/
def stringsPoint (d : TypeDef) (e : Elem) : TypeDef :=
  match blockStrings d.symbols e d.fixed with
  | some (b, tab) => { d with fixed := some b, symbols := tab }
  | none =>
    match blockStrings d.symbols e d.rep with
    | some (b, tab) => { d with rep := some b, symbols := tab }
    | none => d

/-- The texts of the model in a `strings` element (device.py:1035-1043). -/
def modelStrings (d : TypeDef) : List Elem → TypeDef
  | [] => d
  | m :: _ =>
    { d with label := lastText "label" m d.label, description := lastText "description" m d.description,
             notes := lastText "notes" m d.notes }

/-- `str(self.id)`. -/
def TypeDef.idText (d : TypeDef) : Text :=
  match d.id with
  | some i => intDec i
  | none => t!"None"

/-- One `strings` element (device.py:1033-1052). -/
def stringsElem (d : TypeDef) (s : Elem) : TypeDef :=
  if s.get "id" = some d.idText then (s.findall "point").foldl stringsPoint (modelStrings d (s.findall "model")) else d

/-- Following the references of a point to the symbols of the model. -/
def resolvePoint (tab : SymTab) (p : PointType) : PointType :=
  { p with symbols := p.symbols.map fun s =>
      match s.id with
      | some sid => (dictGet tab (sid, p.id)).getD s
      | none => s }

/-- Following the references of the points of a block. -/
def resolveBlock (tab : SymTab) (b : BlockType) : BlockType := { b with points := b.points.map (resolvePoint tab) }

/-- `ModelType.from_smdx` (device.py:991-1055). The fixed block that is added if there is none has length 0 and no name (here:
"fixed"; the name is not used). -/
def smdxParse (root : Elem) : Py TypeDef :=
  match modelElem root with
  | .error x => .error x
  | .ok d =>
    let d := (root.findall "strings").foldl stringsElem d
    .ok { d with fixed := some (resolveBlock d.symbols (d.fixed.getD ⟨false, .int 0, t!"fixed", []⟩)),
                 rep := d.rep.map (resolveBlock d.symbols) }

/-- The definition as used by `Model.load`; none for documents without a `model` element. -/
def TypeDef.toModelType (d : TypeDef) : Option ModelType :=
  match d.id, d.len, d.name, d.fixed with
  | some id, some len, some name, some f =>
    some { id := id, len := len, name := name, fixed := f, rep := d.rep, label := d.label, description := d.description, notes := d.notes }
  | _, _, _, _ => none

end Verif
