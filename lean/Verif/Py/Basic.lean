/-
Python primitives used by u9n/elgas (trusted reading of the Python language reference).
Nothing in this file models code of the repository itself.
-/
namespace Elgas

/-- `bytes` / `bytearray`. -/
abbrev Bytes := List UInt8

/-- `str` as its list of code points (lone surrogates are not representable). -/
abbrev PyStr := List Char

/-- Exceptions declared in /repo/elgas/exceptions.py:1-50. -/
inductive ElgasErr
  | localProtocol        -- LocalElgasProtocolError   exceptions.py:5
  | communication        -- CommunicationError        exceptions.py:9
  | wrongPassword        -- bit 0                      exceptions.py:13
  | settingArchiveFull   -- bit 1                      exceptions.py:18
  | switchOff            -- bit 2                      exceptions.py:23
  | blockedBuffer        -- bit 3                      exceptions.py:28
  | dataError            -- bit 4                      exceptions.py:33
  | cipherKey            -- bit 5                      exceptions.py:38
  | wrongEncryptionKeys  -- bit 6                      exceptions.py:43
  | write                -- bit 7                      exceptions.py:48
  deriving DecidableEq, Repr

/-- The exception classes that can leave a modelled function.  Their texts are in
`Model/Texts`. -/
inductive PyErr
  | value | unicodeEncode | index | key | overflow | assertion | attribute | type | runtime | os
  | name          -- NameError / UnboundLocalError
  | validation    -- marshmallow.ValidationError (not a ValueError)
  | elgas (e : ElgasErr)
  deriving DecidableEq, Repr

/-- Is the exception caught by `except ValueError`?  (`UnicodeEncodeError` is a subclass of
`ValueError`; `OverflowError`, `IndexError`, `KeyError`, `AssertionError` ... are not.) -/
def PyErr.isValueError : PyErr → Bool
  | .value => true
  | .unicodeEncode => true
  | _ => false

/-- Result of a Python call: a value or a raised exception. -/
abbrev Res := Except PyErr

deriving instance DecidableEq for Except

/-- `raise` -/
def raise {α : Type _} (e : PyErr) : Res α := .error e

/-! ### Slices and indexing (Python data model, sequence slicing) -/

/-- Clamp a slice index: negative indices count from the end, everything is clamped to `0..n`. -/
def clampIdx (n : Nat) (i : Int) : Nat :=
  if i < 0 then ((n : Int) + i).toNat else min i.toNat n

/-- `l[a:b]` -/
def slice {α} (l : List α) (a b : Int) : List α :=
  (l.take (clampIdx l.length b)).drop (clampIdx l.length a)

/-- `l[a:]` -/
def sliceFrom {α} (l : List α) (a : Int) : List α := l.drop (clampIdx l.length a)

/-- `l[:b]` -/
def sliceTo {α} (l : List α) (b : Int) : List α := l.take (clampIdx l.length b)

/-- `l[i]` with a possibly negative index; `IndexError` when out of range. -/
def pyGet {α} (l : List α) (i : Int) : Res α :=
  let j : Int := if i < 0 then (l.length : Int) + i else i
  if j < 0 then raise .index
  else match l[j.toNat]? with
    | some x => .ok x
    | none => raise .index

/-! ### Integers and bytes -/

/-- `w` low-order base-256 digits of `n`, least significant first. -/
def leBytes : Nat → Nat → Bytes
  | 0, _ => []
  | w + 1, n => UInt8.ofNat (n % 256) :: leBytes w (n / 256)

/-- `x.to_bytes(w, "little")`: `OverflowError` unless `0 ≤ x < 256^w`. -/
def toBytesLE (w : Nat) (x : Int) : Res Bytes :=
  if 0 ≤ x ∧ x < 256 ^ w then .ok (leBytes w x.toNat) else raise .overflow

/-- `x.to_bytes(w, "big")`. -/
def toBytesBE (w : Nat) (x : Int) : Res Bytes :=
  if 0 ≤ x ∧ x < 256 ^ w then .ok (leBytes w x.toNat).reverse else raise .overflow

/-- `int.from_bytes(b, "little")` -/
def fromLE : Bytes → Nat
  | [] => 0
  | b :: bs => b.toNat + 256 * fromLE bs

/-- `bytearray.append(x)` for an `int`: `ValueError` unless `0 ≤ x < 256`. -/
def toByte (x : Int) : Res UInt8 :=
  if 0 ≤ x ∧ x < 256 then .ok (UInt8.ofNat x.toNat) else raise .value

/-- `d.startswith(p)` -/
def startsWith (d p : Bytes) : Bool := p.isPrefixOf d

/-- `d.endswith(s)` -/
def endsWith (d s : Bytes) : Bool := s.isSuffixOf d

/-- `d.replace(b, new)` for a one-byte pattern `b`: every occurrence is replaced in one
left-to-right pass. -/
def replaceByte (d : Bytes) (b : UInt8) (new : Bytes) : Bytes :=
  d.flatMap fun x => if x = b then new else [x]

/-- `s.encode("latin-1")`: code points above 255 raise `UnicodeEncodeError`. -/
def encodeLatin1 : PyStr → Res Bytes
  | [] => .ok []
  | c :: cs =>
    if c.toNat < 256 then do
      let r ← encodeLatin1 cs
      return UInt8.ofNat c.toNat :: r
    else raise .unicodeEncode

/-- `b.decode("latin-1")` (total). -/
def decodeLatin1 (b : Bytes) : PyStr := b.map fun x => Char.ofNat x.toNat

/-- `str(n)` for an `int`. (CPython's 4300-digit limit of int/str conversion is not modelled.) -/
def pyStrInt (n : Int) : PyStr :=
  if n < 0 then '-' :: Nat.toDigits 10 n.natAbs else Nat.toDigits 10 n.natAbs

/-- Value of a hexadecimal digit. -/
def hexVal (c : Char) : Option Nat :=
  if '0'.toNat ≤ c.toNat ∧ c.toNat ≤ '9'.toNat then some (c.toNat - '0'.toNat)
  else if 'a'.toNat ≤ c.toNat ∧ c.toNat ≤ 'f'.toNat then some (c.toNat - 'a'.toNat + 10)
  else if 'A'.toNat ≤ c.toNat ∧ c.toNat ≤ 'F'.toNat then some (c.toNat - 'A'.toNat + 10)
  else none

/-- `bytes.fromhex(s)` for strings without white space (the only ones passed by the code). -/
def fromHex : PyStr → Res Bytes
  | [] => .ok []
  | [_] => raise .value
  | a :: b :: rest =>
    match hexVal a, hexVal b with
    | some x, some y => do
      let r ← fromHex rest
      return UInt8.ofNat (16 * x + y) :: r
    | _, _ => raise .value

/-- `b.hex()` : two lower-case hex digits per byte. -/
def toHex (b : Bytes) : PyStr :=
  b.flatMap fun x => [Nat.digitChar (x.toNat / 16), Nat.digitChar (x.toNat % 16)]

/-- `int(s)` for a string of `[0-9a-f]*` (the only ones passed by the code: results of `hex()`):
`ValueError` for the empty string and for any non-decimal character. -/
def pyInt (s : PyStr) : Res Nat :=
  if s = [] then raise .value
  else if s.all Char.isDigit then .ok (Nat.ofDigitChars 10 s 0)
  else raise .value

/-! ### `bytearray.pop(0)` as a parser monad

`data = bytearray(in_data)` followed by `data.pop(0)` / `pop_many(data, n)` is modelled by a state
monad over the remaining bytes. -/

/-- A computation that consumes a local `bytearray` from the front. -/
abbrev P (α : Type) := StateT Bytes Res α

/-- `data.pop(0)`: `IndexError` on an empty bytearray. -/
def pop0 : P UInt8 := fun s =>
  match s with
  | [] => raise .index
  | b :: rest => .ok (b, rest)

/-- `if data:` — are there bytes left? -/
def more : P Bool := fun s => .ok (!s.isEmpty, s)

/-- `assert not data` -/
def assertEmpty : P Unit := fun s => if s.isEmpty then .ok ((), s) else raise .assertion

/-- Run on a fresh copy of the input and drop the remaining bytes. -/
def P.run {α} (p : P α) (d : Bytes) : Res α := (·.1) <$> p d

end Elgas
