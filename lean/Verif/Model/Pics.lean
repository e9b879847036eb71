import Verif.Model.Client
import Verif.Model.Value
import Verif.Py.Xml

/-!
# PICS documents

Models `to_pics` and `from_pics` of `Device`, `Model`, `Block` and `Point` (`sunspec/core/device.py:97-236, 330-381,
529-576, 790-851`) on element trees; the texts of XML files are not modelled. Definitions are given by a function from
model ids to the results of `model_type_get`. The dictionary `models` of a device (device.py:105-111) is a function of
the list of models and is left out.
-/

namespace Verif

/-- `str(self.value_base)` (device.py:576). -/
def valText (lib : FloatLib) : Val → Text
  | .int i => intDec i
  | .str s => s
  | .flt b => lib.repr (f32Val b)
  | .dbl f => lib.repr f

/-- `Point.to_pics` (device.py:556-576). -/
def pointToPics (lib : FloatLib) (p : PointObj) : Py Elem :=
  match getValue lib p with
  | .error e => .error e
  | .ok v =>
    .ok (.mk "point"
      (("id", p.pt.id) :: (if v = .none then [("impl", t!"false")] else if p.pt.rw then [("access", t!"rw")] else []))
      (p.base.map fun b => rstripNul (valText lib b)) [])

/-- `self.points.get(pid)`, else `self.points_sf.get(pid)` (device.py:344-346, 377-379). -/
def picsFind (b : BlockObj) (pid : Text) : Option PointObj :=
  match b.pts.find? fun p => decide (p.pt.id = pid) with
  | some p => some p
  | none => b.sfs.find? fun p => decide (p.pt.id = pid)

/-- The loop of `Block.to_pics` over the points of the block type (device.py:375-381). -/
def pointsToPics (lib : FloatLib) (b : BlockObj) : List PointType → Py (List Elem)
  | [] => .ok []
  | t :: ts =>
    match picsFind b t.id with
    | none => pointsToPics lib b ts
    | some p =>
      match pointToPics lib p with
      | .error e => .error e
      | .ok el =>
        match pointsToPics lib b ts with
        | .error e => .error e
        | .ok els => .ok (el :: els)

/-- `Block.to_pics` (device.py:355-381). -/
def blockToPics (lib : FloatLib) (b : BlockObj) : Py Elem :=
  match pointsToPics lib b b.bt.points with
  | .error e => .error e
  | .ok els =>
    .ok (.mk "block"
      ((if b.index > 1 then [("index", natDec b.index)] else []) ++ (if b.bt.repeating then [("type", t!"repeating")] else []))
      none els)

/-- The loop of `Model.to_pics` over the blocks (device.py:849-851). -/
def blocksToPics (lib : FloatLib) (single : Bool) : List BlockObj → Py (List Elem)
  | [] => .ok []
  | b :: bs =>
    if single = false ∨ b.index ≤ 1 then
      match blockToPics lib b with
      | .error e => .error e
      | .ok el =>
        match blocksToPics lib single bs with
        | .error e => .error e
        | .ok els => .ok (el :: els)
    else blocksToPics lib single bs

/-- `Model.to_pics` (device.py:827-851). -/
def modelToPics (lib : FloatLib) (single : Bool) (m : MdlObj) : Py Elem :=
  match blocksToPics lib single m.blocks with
  | .error e => .error e
  | .ok els =>
    .ok (.mk "model"
      ([("id", intDec m.id), ("len", intDec m.len)] ++ (if m.index = .int 1 then [] else [("index", m.index.text)]))
      none els)

/-- The loop of `Device.to_pics` over the models (device.py:235-236). -/
def modelsToPics (lib : FloatLib) (single : Bool) : List MdlObj → Py (List Elem)
  | [] => .ok []
  | m :: ms =>
    match modelToPics lib single m with
    | .error e => .error e
    | .ok el =>
      match modelsToPics lib single ms with
      | .error e => .error e
      | .ok els => .ok (el :: els)

/-- `Device.to_pics` (device.py:216-236): the element it adds to its parent. -/
def deviceToPics (lib : FloatLib) (single : Bool) (ms : List MdlObj) : Py Elem :=
  match modelsToPics lib single ms with
  | .error e => .error e
  | .ok els => .ok (.mk "device" [("v", t!"1")] none els)

/-- `Point.from_pics` (device.py:529-554). -/
def pointFromPics (lib : FloatLib) (p : PointObj) (e : Elem) : PointObj × Py Unit :=
  if e.get "impl" = some (t!"false") then ({ p with impl := false }, .ok ())
  else
    match e.text with
    | none | some [] => (p, .ok ())
    | some (c :: cs) =>
      match p.pt.type.toValue lib (.str (c :: cs)) with
      | .error x => (p, .error x)
      | .ok v =>
        if p.pt.type.isImpl v then
          match v with
          | some w => ({ p with impl := true, base := some w }, .ok ())
          | none => ({ p with impl := true }, .ok ())
        else ({ p with impl := false }, .ok ())

/-- The first point with id `pid` replaced by the result of `f`. -/
def updFirst (f : PointObj → PointObj × Py Unit) (pid : Text) : List PointObj → List PointObj × Py Unit
  | [] => ([], .ok ())
  | p :: ps =>
    if p.pt.id = pid then ((f p).1 :: ps, (f p).2)
    else (p :: (updFirst f pid ps).1, (updFirst f pid ps).2)

/-- One point element of a block (device.py:341-348). -/
def blockPointFromPics (lib : FloatLib) (b : BlockObj) (e : Elem) : BlockObj × Py Unit :=
  if e.tag ≠ "point" then (b, .error .sunSpecError)
  else
    match e.get "id" with
    | none => (b, .ok ())
    | some pid =>
      if b.pts.any fun p => decide (p.pt.id = pid) then
        ({ b with pts := (updFirst (pointFromPics lib · e) pid b.pts).1 }, (updFirst (pointFromPics lib · e) pid b.pts).2)
      else
        ({ b with sfs := (updFirst (pointFromPics lib · e) pid b.sfs).1 }, (updFirst (pointFromPics lib · e) pid b.sfs).2)

/-- The loop over the point elements of a block (device.py:340-348). -/
def blockPointsFromPics (lib : FloatLib) (b : BlockObj) : List Elem → BlockObj × Py Unit
  | [] => (b, .ok ())
  | e :: es =>
    match blockPointFromPics lib b e with
    | (b1, .error x) => (b1, .error x)
    | (b1, .ok ()) => blockPointsFromPics lib b1 es

/-- `point.value_sf = point.sf_point.value_base` for every point that has a scale factor (device.py:350-353); `bs` are
the blocks of the model. -/
def resolveValues (bs : List BlockObj) (pts : List PointObj) : List PointObj :=
  pts.map fun p => match p.sf with
    | some ref => { p with vsf := sfValue bs ref }
    | none => p

/-- `self.blocks[k].from_pics(element)` for an existing block (device.py:330-353). -/
def blockFromPics (lib : FloatLib) (bs : List BlockObj) (k : Nat) (e : Elem) :
    List BlockObj × Py Unit :=
  match bs[k]? with
  | none => (bs, .error .indexError)
  | some b =>
    match blockPointsFromPics lib b e.children with
    | (b1, .error x) => (bs.set k b1, .error x)
    | (b1, .ok ()) => (bs.set k { b1 with pts := resolveValues (bs.set k b1) b1.pts }, .ok ())

/-- A block element that applies to several blocks (device.py:814-818). -/
def blocksFromPics (lib : FloatLib) (e : Elem) : List Nat → List BlockObj → List BlockObj × Py Unit
  | [], bs => (bs, .ok ())
  | k :: ks, bs =>
    match blockFromPics lib bs k e with
    | (bs1, .error x) => (bs1, .error x)
    | (bs1, .ok ()) => blocksFromPics lib e ks bs1

/-- One block element of a model (device.py:803-825). `self.blocks[i]` counts from the end for a negative `i`. -/
def modelBlockFromPics (lib : FloatLib) (bs : List BlockObj) (e : Elem) :
    List BlockObj × Py Unit :=
  if e.tag ≠ "block" then (bs, .error .sunSpecError)
  else
    let ty := match e.get "type" with | some t => t | none => t!"fixed"
    if ty = t!"fixed" then
      if bs.length > 0 then blockFromPics lib bs 0 e else (bs, .ok ())
    else if ty = t!"repeating" then
      match e.get "index" with
      | none => blocksFromPics lib e (List.range' 1 (bs.length - 1)) bs
      | some s =>
        match pyInt 10 s with
        | none => (bs, .error .valueError)
        | some i =>
          if (bs.length : Int) < i then (bs, .error .sunSpecError)
          else if 0 ≤ i then blockFromPics lib bs i.toNat e
          else if -(bs.length : Int) ≤ i then blockFromPics lib bs ((bs.length : Int) + i).toNat e
          else (bs, .error .indexError)
    else (bs, .error .sunSpecError)

/-- The loop over the block elements of a model (device.py:803-825). -/
def modelBlocksFromPics (lib : FloatLib) : List BlockObj → List Elem → List BlockObj × Py Unit
  | bs, [] => (bs, .ok ())
  | bs, e :: es =>
    match modelBlockFromPics lib bs e with
    | (bs1, .error x) => (bs1, .error x)
    | (bs1, .ok ()) => modelBlocksFromPics lib bs1 es

/-- `Model.from_pics` (device.py:790-825). -/
def modelFromPics (lib : FloatLib) (m : MdlObj) (e : Elem) : MdlObj × Py Unit :=
  let m1 := match e.get "index" with | some s => { m with index := .str s } | none => m
  ({ m1 with blocks := (modelBlocksFromPics lib m1.blocks e.children).1 },
    (modelBlocksFromPics lib m1.blocks e.children).2)

/-- One model element (device.py:171-192) at address `addr`: the model and the address after it. Errors while loading
the model are remembered in the model. -/
def deviceModelFromPics (lib : FloatLib) (types : Int → Py ModelType) (addr : Int) (e : Elem) :
    Py MdlObj :=
  if e.tag ≠ "model" then .error .sunSpecError
  else
    match e.get "id", e.get "len" with
    | none, _ => .error .sunSpecError
    | some _, none => .error .typeError
    | some sid, some slen =>
      match pyInt 10 slen with
      | none => .error .valueError
      | some len =>
        match pyInt 10 sid with
        | none => .error .valueError
        | some id =>
          match mdlLoad (types id) (mdlNew id (addr + 2) len) with
          | (_, .error .diverge) => .error .diverge
          | (m, .error _) => (modelFromPics lib { m with loadError := true } e).2.map fun _ => (modelFromPics lib { m with loadError := true } e).1
          | (m, .ok _) => (modelFromPics lib m e).2.map fun _ => (modelFromPics lib m e).1

/-- The loop over the model elements (device.py:171-194): the models added. -/
def modelsFromPics (lib : FloatLib) (types : Int → Py ModelType) :
    Int → List Elem → List MdlObj × Py Unit
  | _, [] => ([], .ok ())
  | addr, e :: es =>
    match deviceModelFromPics lib types addr e with
    | .error x => ([], .error x)
    | .ok m =>
      (m :: (modelsFromPics lib types (addr + m.len + 2) es).1, (modelsFromPics lib types (addr + m.len + 2) es).2)

/-- `Device.from_pics` (device.py:113-197) with an element, on a new device: the models. Every exception becomes a
`SunSpecError` (`diverge` stands for an endless loop). The attribute `addr` is text, to which 2 cannot be added (168-169). -/
def deviceFromPics (lib : FloatLib) (types : Int → Py ModelType) (e : Elem) :
    List MdlObj × Py Unit :=
  if e.tag ≠ "device" then ([], .error .sunSpecError)
  else
    match e.get "addr" with
    | some _ => ([], .error .sunSpecError)
    | none =>
      match modelsFromPics lib types 40002 e.children with
      | (ms, .ok ()) => (ms, .ok ())
      | (ms, .error .diverge) => (ms, .error .diverge)
      | (ms, .error _) => (ms, .error .sunSpecError)

/-- The same with a file: the root must be `sunSpecPics`, its first `device` element is used (device.py:157-163). -/
def deviceFromPicsFile (lib : FloatLib) (types : Int → Py ModelType) (root : Elem) :
    List MdlObj × Py Unit :=
  if root.tag ≠ "sunSpecPics" then ([], .error .sunSpecError)
  else
    match root.findall "device" with
    | [] => ([], .error .sunSpecError)
    | d :: _ => deviceFromPics lib types d

end Verif
