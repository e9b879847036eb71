/-!
# Python primitives used by the model

Bytes, exceptions-as-values and the big-endian integer formats of Python's `struct` module.
-/

namespace Verif

/-- A byte of a Python `bytes` object. -/
abbrev Byte := BitVec 8

/-- A Python 3 `bytes` object. -/
abbrev Bytes := List Byte

/-- The exception classes that occur in the modelled code.  Messages are not modelled.
`diverge` is not an exception: it marks a Python loop that does not terminate. -/
inductive Exc where
  | structError | typeError | valueError | attributeError | indexError | keyError | nameError
  | unboundLocal | overflowError | zeroDivision | unicodeError | binasciiError
  | socketError | socketTimeout | serialError | osError | badZipFile | parseError
  /-- `ModbusClientError` proper (modbus/client.py:47-48) -/
  | modbusClientError
  /-- `ModbusClientTimeout` (modbus/client.py:50-51), a subclass of `ModbusClientError` -/
  | modbusClientTimeout
  /-- `ModbusClientException` (modbus/client.py:53-54) with the exception code of the reply -/
  | modbusClientException (code : Nat)
  | modbusMapError | sunSpecError | sunSpecClientError | sunSpecDataError | recursionError
  | diverge
  deriving DecidableEq, Repr

/-- Outcome of a Python computation. -/
abbrev Py (α : Type) := Except Exc α

instance {ε α} [DecidableEq ε] [DecidableEq α] : DecidableEq (Except ε α) := fun a b =>
  match a, b with
  | .ok x, .ok y => if h : x = y then isTrue (by rw [h]) else isFalse (by simp [h])
  | .error x, .error y => if h : x = y then isTrue (by rw [h]) else isFalse (by simp [h])
  | .ok _, .error _ => isFalse (by simp)
  | .error _, .ok _ => isFalse (by simp)

/-- The `k` byte big-endian representation of `n` modulo `256 ^ k`. -/
def beEnc : Nat → Nat → Bytes
  | 0, _ => []
  | k + 1, n => BitVec.ofNat 8 (n / 256 ^ k) :: beEnc k n

/-- The number a big-endian byte string denotes. -/
def beDec : Bytes → Nat
  | [] => 0
  | b :: bs => b.toNat * 256 ^ bs.length + beDec bs

/-- `struct.pack` with an unsigned big-endian format of `k` bytes (`'>B'`, `'>H'`, `'>L'`, `'>Q'`):
`struct.error` outside the range. -/
def packU (k : Nat) (v : Int) : Py Bytes :=
  if 0 ≤ v ∧ v < 256 ^ k then .ok (beEnc k v.toNat) else .error .structError

/-- `struct.pack` with a signed big-endian format of `k` bytes (`'>h'`, `'>l'`, `'>q'`). -/
def packS (k : Nat) (v : Int) : Py Bytes :=
  if -(256 ^ k) ≤ 2 * v ∧ 2 * v < 256 ^ k then .ok (beEnc k (v % 256 ^ k).toNat)
  else .error .structError

/-- `struct.unpack` with an unsigned big-endian format of `k` bytes: `struct.error` if the buffer
does not have exactly `k` bytes. -/
def unpackU (k : Nat) (d : Bytes) : Py Int :=
  if d.length = k then .ok (beDec d) else .error .structError

/-- `struct.unpack` with a signed big-endian format of `k` bytes. -/
def unpackS (k : Nat) (d : Bytes) : Py Int :=
  if d.length = k then
    .ok (if 2 * beDec d < 256 ^ k then (beDec d : Int) else (beDec d : Int) - 256 ^ k)
  else .error .structError

/-- `struct.pack(str(n) + 's', s)`: exactly `n` bytes, truncated or padded with NUL. -/
def packStr (n : Nat) (s : Bytes) : Bytes :=
  s.take n ++ List.replicate (n - s.length) 0#8

end Verif
