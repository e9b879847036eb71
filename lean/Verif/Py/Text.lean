import Verif.Py.Basic

/-!
# Python text: integer literals and decimal formatting

`int(s, base)` follows CPython's `PyLong_FromString`. Simplifications: non-ASCII digits and spaces are
rejected, and the limit of 4300 digits of newer Python versions is not modelled.
-/

namespace Verif

/-- A Python `str`. -/
abbrev Text := List Char

/-- Text literals as lists of characters. -/
syntax "t!" str : term
macro_rules
  | `(t! $s:str) => do
    let cs := s.getString.toList.toArray.map fun c => Lean.Syntax.mkCharLit c
    `(([$[$cs],*] : List Char))

/-- ASCII white space (`Py_ISSPACE`). -/
def isPySpace (c : Char) : Bool := c == ' ' || (9 ≤ c.toNat && c.toNat ≤ 13)

/-- `s.strip()` for ASCII white space. -/
def pyStrip (s : Text) : Text := ((s.dropWhile isPySpace).reverse.dropWhile isPySpace).reverse

/-- Value of a digit or letter (`_PyLong_DigitValue`). -/
def digitVal (c : Char) : Option Nat :=
  if 48 ≤ c.toNat ∧ c.toNat ≤ 57 then some (c.toNat - 48)
  else if 97 ≤ c.toNat ∧ c.toNat ≤ 122 then some (c.toNat - 87)
  else if 65 ≤ c.toNat ∧ c.toNat ≤ 90 then some (c.toNat - 55)
  else none

/-- A digit of a base. -/
def digitOf (base : Nat) (c : Char) : Option Nat :=
  match digitVal c with
  | some d => if d < base then some d else none
  | none => none

/-- Digits after the first one; single underscores may separate digits. -/
def digitsAux (base acc : Nat) : Text → Option Nat
  | [] => some acc
  | c :: rest =>
    if c = '_' then
      match rest with
      | c' :: rest' =>
        match digitOf base c' with
        | some d => digitsAux base (acc * base + d) rest'
        | none => none
      | [] => none
    else
      match digitOf base c with
      | some d => digitsAux base (acc * base + d) rest
      | none => none

/-- A non-empty digit string. -/
def digitsVal (base : Nat) : Text → Option Nat
  | [] => none
  | c :: rest =>
    match digitOf base c with
    | some d => digitsAux base d rest
    | none => none

/-- One underscore is allowed after a base prefix. -/
def skipUnderscore : Text → Text
  | '_' :: r => r
  | s => s

/-- The unsigned part of an integer literal in base 0 (prefix decides), 10 or 16. -/
def intBody (base : Nat) (s : Text) : Option Nat :=
  match s with
  | '0' :: x :: r =>
    if (base = 0 ∨ base = 16) ∧ (x = 'x' ∨ x = 'X') then digitsVal 16 (skipUnderscore r)
    else if base = 0 ∧ (x = 'o' ∨ x = 'O') then digitsVal 8 (skipUnderscore r)
    else if base = 0 ∧ (x = 'b' ∨ x = 'B') then digitsVal 2 (skipUnderscore r)
    else if base = 0 then
      match digitsVal 10 s with
      | some 0 => some 0
      | _ => none
    else digitsVal base s
  | _ => digitsVal (if base = 0 then 10 else base) s

/-- `int(s, base)`; `none` is a `ValueError`. -/
def pyInt (base : Nat) (s : Text) : Option Int :=
  match pyStrip s with
  | '-' :: r => (intBody base r).map fun (n : Nat) => -(n : Int)
  | '+' :: r => (intBody base r).map fun (n : Nat) => (n : Int)
  | s => (intBody base s).map fun (n : Nat) => (n : Int)

/-- Decimal digits of `n` (with fuel at least the number of digits). -/
def natDecF : Nat → Nat → Text
  | 0, _ => []
  | fuel + 1, n => if n < 10 then [Char.ofNat (48 + n)] else natDecF fuel (n / 10) ++ [Char.ofNat (48 + n % 10)]

/-- `str(n)` for a natural number. -/
def natDec (n : Nat) : Text := natDecF (n + 1) n

/-- `str(i)` for an `int`. -/
def intDec (i : Int) : Text := if i < 0 then '-' :: natDec i.natAbs else natDec i.natAbs

/-- One lower-case hexadecimal digit. -/
def hexDigitL (n : Nat) : Char := if n < 10 then Char.ofNat (48 + n) else Char.ofNat (87 + n)

/-- `'%02x' % b`. -/
def hex2L (b : Byte) : Text := [hexDigitL (b.toNat / 16), hexDigitL (b.toNat % 16)]

end Verif
