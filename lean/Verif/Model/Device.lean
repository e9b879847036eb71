import Verif.Model.Points
import Verif.Model.Mbmap

/-!
# Model definitions, models, blocks and points

Models the classes `ModelType`, `BlockType`, `PointType`, `Model`, `Block`, `Point` of
`sunspec/core/device.py` and `Model.load`.

Simplifications: the address of a point, a decimal text in the code (device.py:739, `str(point_addr)`, always
used as `int(point.addr)`), is an integer here. The dictionaries `points` and `points_sf` of a block are
represented by the lists of their values in insertion order; that is the same because point ids are unique
within a block (device.py:1178-1180, see C46). `points` and `points_list` of a block hold the same objects.
-/

namespace Verif

/-- A `Symbol` (device.py:1447-1470). -/
structure Symbol where
  id : Option Text
  value : Option Text
  label : Option Text := none
  description : Option Text := none
  notes : Option Text := none
  deriving DecidableEq

/-- A `PointType` (device.py:1314-1333). `type`, `len` and the codec functions are those of the table in
suns.py, so the type determines the functions. -/
structure PointType where
  id : Text
  offset : Int
  type : PT
  len : Int
  mandatory : Bool := false
  rw : Bool := false
  units : Option Text := none
  sf : Option Text := none
  label : Option Text := none
  description : Option Text := none
  notes : Option Text := none
  symbols : List Symbol := []
  deriving DecidableEq

/-- An `int` or the text of an attribute. -/
abbrev NumText := BaseAddr

/-- A `BlockType` (device.py:1142-1148): `len` is the text of the attribute, or the int 0 for the empty fixed
block that is added if there is none (device.py:1054-1055). -/
structure BlockType where
  repeating : Bool
  len : NumText
  name : Text
  points : List PointType
  deriving DecidableEq

/-- A `ModelType` (device.py:979-989). -/
structure ModelType where
  id : Int
  len : Int
  name : Text
  fixed : BlockType
  rep : Option BlockType
  label : Option Text := none
  description : Option Text := none
  notes : Option Text := none
  deriving DecidableEq

/-- What `sf_point` of a point refers to: a `ScaleFactor` constant (device.py:609-613) or the scale factor point
`id` of block `blk`. -/
inductive SfRef where
  | const (v : Int)
  | point (blk : Nat) (id : Text)
  deriving DecidableEq

/-- A `Point` (device.py:468-477). -/
structure PointObj where
  pt : PointType
  addr : Int
  sf : Option SfRef := none
  impl : Bool := true
  base : Option Val := none
  vsf : Option Val := none
  dirty : Bool := false
  deriving DecidableEq

/-- A `Block` (device.py:318-328): `pts` are the points, `sfs` the scale factor points. -/
structure BlockObj where
  bt : BlockType
  addr : Int
  len : Int
  index : Nat
  pts : List PointObj
  sfs : List PointObj
  deriving DecidableEq

/-- A `Model` (device.py:677-690). `exposed` says that `points_list`, `points` and `points_sf` are those of the
first block (device.py:784-786). -/
structure MdlObj where
  id : Int
  addr : Int
  len : Int
  index : NumText := .int 1
  mtype : Option ModelType := none
  blocks : List BlockObj := []
  readBlocks : List Int := []
  loadError : Bool := false
  exposed : Bool := false
  deriving DecidableEq

/-- `MAX_READ_COUNT` (device.py:62). -/
def maxReadCount : Int := 125

/-- What the loop over the points of a block type produces (device.py:736-747): the points, the scale factor
points, the last read address and the new read addresses. -/
structure LoadedPoints where
  pts : List PointObj
  sfs : List PointObj
  lastRead : Int
  reads : List Int

/-- The loop over the points of a block type at address `baddr` (device.py:736-747). -/
def loadPoints (baddr : Int) : List PointType → Int → LoadedPoints
  | [], lastRead => ⟨[], [], lastRead, []⟩
  | pt :: rest, lastRead =>
    if pt.type = .pad then loadPoints baddr rest lastRead
    else
      let addr := baddr + pt.offset
      let split := decide (maxReadCount < addr + pt.len - lastRead)
      let r := loadPoints baddr rest (if split then addr else lastRead)
      let p : PointObj := { pt := pt, addr := addr }
      { pts := if pt.type = .sunssf then r.pts else p :: r.pts
        sfs := if pt.type = .sunssf then p :: r.sfs else r.sfs
        lastRead := r.lastRead
        reads := if split then addr :: r.reads else r.reads }

/-- `points_sf.get(id)`. -/
def hasSf (sfs : List PointObj) (id : Text) : Bool := sfs.any fun p => decide (p.pt.id = id)

/-- Scale factor resolution of one point (device.py:750-768) in block `index` with scale factor points `sfs`;
`sfs0` are those of the first block. The error message is formatted with a missing argument, which is a
`TypeError`. -/
def resolveSf (index : Nat) (sfs sfs0 : List PointObj) (p : PointObj) : Py PointObj :=
  match p.pt.sf, p.sf with
  | some s, none =>
    match pyInt 10 s with
    | some v => .ok { p with sf := some (.const v) }
    | none =>
      if hasSf sfs s then .ok { p with sf := some (.point index s) }
      else if 0 < index ∧ hasSf sfs0 s then .ok { p with sf := some (.point 0 s) }
      else .error .typeError
  | _, _ => .ok p

/-- The loop over the points (device.py:750-768): the points with the scale factors resolved so far. -/
def resolveSfs (index : Nat) (sfs sfs0 : List PointObj) : List PointObj → List PointObj × Py Unit
  | [] => ([], .ok ())
  | p :: ps =>
    match resolveSf index sfs sfs0 p with
    | .error e => (p :: ps, .error e)
    | .ok p' => let (ps', r) := resolveSfs index sfs sfs0 ps; (p' :: ps', r)

/-- `self.blocks[0].points_sf` (device.py:764) after a block with scale factor points `sfs` has been appended to
`blocks` (device.py:733-734). -/
def firstSfs (blocks : List BlockObj) (sfs : List PointObj) : List PointObj :=
  match blocks with
  | b :: _ => b.sfs
  | [] => sfs

/-- The `while True` loop of `Model.load` (device.py:724-778), with fuel: `diverge` if it is used up. -/
def loadLoop (rep : Option BlockType) (endAddr : Int) : Nat → Nat → BlockType → Int → Int → Int → MdlObj → MdlObj × Py Unit
  | 0, _, _, _, _, _, m => (m, .error .diverge)
  | fuel + 1, index, bt, baddr, blen, lastRead, m =>
    if endAddr < baddr + blen then (m, .error .sunSpecError)
    else
      let lp := loadPoints baddr bt.points lastRead
      let (pts, res) := resolveSfs index lp.sfs (firstSfs m.blocks lp.sfs) lp.pts
      let m1 : MdlObj := { m with blocks := m.blocks ++ [⟨bt, baddr, blen, index, pts, lp.sfs⟩], readBlocks := m.readBlocks ++ lp.reads }
      match res with
      | .error e => (m1, .error e)
      | .ok _ =>
        match rep with
        | none => (m1, .ok ())
        | some rb =>
          match rb.len.toInt with
          | .error e => (m1, .error e)
          | .ok rlen =>
            if endAddr = baddr + blen then (m1, .ok ())
            else loadLoop rep endAddr fuel (index + 1) rb (baddr + blen) rlen lp.lastRead m1

/-- `Model.load` (device.py:692-788) with the result of `model_type_get` given and with fuel for its loop. -/
def loadWith (fuel : Nat) (mt : Py ModelType) (m : MdlObj) : MdlObj × Py Unit :=
  let m0 : MdlObj := { m with readBlocks := m.readBlocks ++ [m.addr] }
  match mt with
  | .error e => (m0, .error e)
  | .ok mt =>
    let len := if m.len = 0 then mt.len else m.len
    let m1 : MdlObj := { m0 with mtype := some mt, len := len }
    match mt.fixed.len.toInt with
    | .error e => (m1, .error e)
    | .ok flen =>
      match loadLoop mt.rep (m.addr + len) fuel 0 mt.fixed m.addr (if m.id = 1 ∧ len = 65 then len else flen) m.addr m1 with
      | (m2, .error e) => (m2, .error e)
      | (m2, .ok _) => ({ m2 with exposed := true }, .ok ())

/-- Fuel for the loop of `Model.load`: enough whenever it terminates (see C29). -/
def loadFuel (mt : Py ModelType) (m : MdlObj) : Nat :=
  match mt with
  | .error _ => 0
  | .ok mt => ((if m.len = 0 then mt.len else m.len) - (match mt.fixed.len.toInt with | .ok f => f | .error _ => 0)).toNat + 2

/-- `Model.load` (device.py:692-788); `ClientModel.load` (client.py:339-344) is the same with the classes `ClientBlock` and
`ClientPoint`, whose constructors (client.py:466-468, 496-498), like that of `ClientModel` (client.py:335-337), are those of
their base classes. -/
def mdlLoad (mt : Py ModelType) (m : MdlObj) : MdlObj × Py Unit := loadWith (loadFuel mt m) mt m

/-- `Model(device, mid, addr, mlen)` (device.py:677-690). -/
def mdlNew (id addr len : Int) : MdlObj := { id := id, addr := addr, len := len }

end Verif
