import Verif.Model.Smdx
import Verif.Spec.Value
import Mathlib.Data.List.Forall2

/-!
# Specification: which documents are definitions, and what they define

Written on the element tree of the document, without the functions of the parser (only the names of
the point types and their register counts are used).
-/

namespace Verif

/-- An attribute that is the text of an integer. -/
def IntAttr (e : Elem) (k : String) (n : Int) : Prop := ∃ s, e.get k = some s ∧ Spec.DecText s n

/-- A `point` element that a definition may contain. -/
structure PointDoc (e : Elem) : Prop where
  id : ∃ s, e.get "id" = some s
  offset : ∃ n, IntAttr e "offset" n
  type : ∃ t : PT, e.get "type" = some t.name
  string_len : e.get "type" = some (t!"string") → e.get "len" ≠ none
  len : e.get "len" = none ∨ ∃ n, IntAttr e "len" n
  mandatory : e.get "mandatory" = none ∨ e.get "mandatory" = some (t!"false") ∨ e.get "mandatory" = some (t!"true")
  access : e.get "access" = none ∨ e.get "access" = some (t!"r") ∨ e.get "access" = some (t!"rw")
  symbols : ∀ s ∈ e.findall "symbol", ∃ i, s.get "id" = some i

/-- A `block` element of the repeating type. -/
def isRepeating (e : Elem) : Bool := decide (e.get "type" = some (t!"repeating"))

/-- A `block` element that a definition may contain. -/
structure BlockDoc (e : Elem) : Prop where
  type : e.get "type" = none ∨ e.get "type" = some (t!"fixed") ∨ e.get "type" = some (t!"repeating")
  len : ∃ s, e.get "len" = some s
  points : ∀ p ∈ e.findall "point", PointDoc p
  unique : ((e.findall "point").map fun p => p.get "id").Nodup

/-- The fixed blocks of a `model` element. -/
def fixedBlocks (m : Elem) : List Elem := (m.findall "block").filter fun b => !isRepeating b

/-- The repeating blocks of a `model` element. -/
def repeatingBlocks (m : Elem) : List Elem := (m.findall "block").filter isRepeating

/-- A `model` element that a definition may contain. -/
structure ModelDoc (m : Elem) : Prop where
  id : ∃ n, IntAttr m "id" n
  len : ∃ n, IntAttr m "len" n
  blocks : ∀ b ∈ m.findall "block", BlockDoc b
  oneFixed : (fixedBlocks m).length ≤ 1
  oneRep : (repeatingBlocks m).length ≤ 1

/-- The document is a definition. Only the first `model` element counts. -/
def ValidDoc (root : Elem) : Prop := ∀ m, (root.findall "model").head? = some m → ModelDoc m

/-- The point is the one that the element defines (texts and symbols apart). -/
structure PointOf (e : Elem) (p : PointType) : Prop where
  id : e.get "id" = some p.id
  offset : IntAttr e "offset" p.offset
  type : e.get "type" = some p.type.name
  len : IntAttr e "len" p.len ∨ (e.get "len" = none ∧ p.type ≠ .string ∧ p.type.regs = some p.len.toNat ∧ 0 ≤ p.len)
  mandatory : p.mandatory = decide (e.get "mandatory" = some (t!"true"))
  rw : p.rw = decide (e.get "access" = some (t!"rw"))
  units : p.units = e.get "units"
  sf : p.sf = e.get "sf"

/-- The block is the one that the element defines. -/
structure BlockOf (e : Elem) (b : BlockType) : Prop where
  repeating : b.repeating = isRepeating e
  len : ∃ s, e.get "len" = some s ∧ b.len = .str s
  name : e.get "name" = some b.name ∨ (e.get "name" = none ∧ b.name = if b.repeating then t!"repeating" else t!"fixed")
  points : List.Forall₂ PointOf (e.findall "point") b.points

/-- The definition is the one that the `model` element describes (texts and symbols apart). -/
structure DefOf (m : Elem) (d : TypeDef) : Prop where
  id : ∃ n, d.id = some n ∧ IntAttr m "id" n
  len : ∃ n, d.len = some n ∧ IntAttr m "len" n
  name : ∃ s, d.name = some s ∧ (m.get "name" = some s ∨ (m.get "name" = none ∧ ∃ n, d.id = some n ∧ s = t!"model_" ++ intDec n))
  fixed : ∃ b, d.fixed = some b ∧
    ((∃ e, fixedBlocks m = [e] ∧ BlockOf e b) ∨ (fixedBlocks m = [] ∧ b.repeating = false ∧ b.points = [] ∧ b.len = .int 0))
  rep : (∃ b e, d.rep = some b ∧ repeatingBlocks m = [e] ∧ BlockOf e b) ∨ (d.rep = none ∧ repeatingBlocks m = [])

/-- The text of the last child with a tag among the children of some elements. -/
def lastOf (tag : String) (es : List Elem) : Option Text :=
  (((es.flatMap Elem.children).filter fun c => c.tag == tag).getLast?).bind Elem.text

/-- The texts for a point: its element, then the elements with its id in the `strings` elements with the id of the model. -/
def stringsFor (root : Elem) (modelId pointId : Text) : List Elem :=
  (((root.findall "strings").filter fun s => decide (s.get "id" = some modelId)).flatMap fun s => s.findall "point").filter
    fun e => decide (e.get "id" = some pointId)

/-- The texts for a model: the first `model` element of each `strings` element with the id of the model. -/
def modelStringsFor (root : Elem) (modelId : Text) : List Elem :=
  ((root.findall "strings").filter fun s => decide (s.get "id" = some modelId)).filterMap fun s => (s.findall "model").head?

/-- The texts of a point come from the elements `es`. -/
structure TextsOf (es : List Elem) (p : PointType) : Prop where
  label : p.label = lastOf "label" es
  description : p.description = lastOf "description" es
  notes : p.notes = lastOf "notes" es

/-- The `symbol` elements with the id of the element `s` in the `strings` parts for the point. -/
def symbolStringsFor (root : Elem) (modelId pointId : Text) (s : Elem) : List Elem :=
  ((stringsFor root modelId pointId).flatMap fun e => e.findall "symbol").filter fun t => decide (t.get "id" = s.get "id")

/-- The symbol that an element defines, with the texts that it and the elements `es` give it. -/
def symbolOf (s : Elem) (es : List Elem) : Symbol :=
  ⟨s.get "id", s.text, lastOf "label" (s :: es), lastOf "description" (s :: es), lastOf "notes" (s :: es)⟩

/-- The symbols of a point are those of its element (if these have different ids), with the texts of the `strings` parts. -/
def SymbolsOf (root : Elem) (modelId : Text) (e : Elem) (p : PointType) : Prop :=
  ((e.findall "symbol").map fun s => s.get "id").Nodup →
    p.symbols = (e.findall "symbol").map fun s => symbolOf s (symbolStringsFor root modelId p.id s)

/-- The `strings` parts of the model have texts only for symbols that the point has in the definition. -/
def KnownStringSymbols (root m : Elem) (modelId : Text) : Prop :=
  ∀ b ∈ m.findall "block", ∀ pe ∈ b.findall "point", ∀ id, pe.get "id" = some id → ∀ e ∈ stringsFor root modelId id,
    ∀ s ∈ e.findall "symbol", ∃ s0 ∈ pe.findall "symbol", s0.get "id" = s.get "id"

end Verif
