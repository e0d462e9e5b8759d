import Verif.Spec.Body
import Verif.Model.Parser
/-!
How a field of a parameter object is written in the body of its record, independently of the order in
which the code reads it: every location is given by its offset from the start of the body.
Only the value types (`Val`, `PyFloat`), the names and, for lists of records, the decoder of one record
(`ParameterFactory.from_bytes`) are taken from the model.
-/
namespace Spec
open Elgas

/-! ### Text -/

/-- NUL and ASCII white space. -/
def blank (b : UInt8) : Bool := b = 0 || b = 0x20 || (0x09 ≤ b && b ≤ 0x0D)

/-- The part of a text field in front of its last NUL (all of it when there is none). -/
def untilLastNul (d : List UInt8) : List UInt8 :=
  if 0 ∈ d then ((d.reverse.dropWhile (· ≠ 0)).drop 1).reverse else d

/-- Blanks removed at both ends. -/
def trim (d : List UInt8) : List UInt8 := ((d.dropWhile blank).reverse.dropWhile blank).reverse

/-- The text in a text field: cut at the last NUL, trimmed, inner NULs shown as spaces, latin-1. -/
def fieldText (d : List UInt8) : List Char :=
  (trim (untilLastNul d)).map fun b => if b = 0 then ' ' else Char.ofNat b.toNat

/-- Two lower-case hexadecimal digits per byte. -/
def hexText (d : List UInt8) : List Char :=
  d.flatMap fun b => ["0123456789abcdef".toList.getD (b.toNat / 16) '?',
    "0123456789abcdef".toList.getD (b.toNat % 16) '?']

/-- Dotted decimal. -/
def dotted (d : List UInt8) : List Char :=
  ((d.map fun b => (toString b.toNat).toList).intersperse ['.']).flatten

/-! ### Locations -/

/-- Where a field is found and how it is encoded. -/
inductive Loc
  | uint (off width : Nat)             -- unsigned little endian integer
  | flag (off bit : Nat)               -- one bit of a byte
  | bits (off low count : Nat)         -- `count` bits of a byte from bit `low` on
  | text (off width : Nat)
  | hex (off width : Nat)
  | ip (off : Nat)
  | float32 (off : Nat)                -- IEEE 754 single, little endian
  | float64 (off : Nat)                -- IEEE 754 double, little endian
  | float32Rounded (off digits : Nat)  -- single rounded to `digits` decimal places
  | gas (off : Nat)                    -- the 23 singles of a gas composition
  | hexRows (off count width : Nat)    -- `count` consecutive hexadecimal fields
  | optional (l : Loc)                 -- in the optional tail; `None` when there is no tail
  deriving DecidableEq, Repr

/-- The components of a gas composition in the order they are transmitted. -/
def gasComponents : List GasAttr :=
  [.co2, .n2, .combustion_heat, .relative_density, .h2, .h2s, .he, .h2o, .o2, .ar, .co, .c1h4, .c2h6,
   .c3h8, .ic4h10, .nc4h10, .ic5h12, .nc5h12, .c6h14, .c7h16, .c8h18, .c9h20, .c10h22]

/-- The value found at a location of the body; `size` is the size of the fixed part. -/
def Loc.read (size : Nat) (d : List UInt8) : Loc → Val
  | .uint off w => .int (leAt d off w)
  | .flag off k => .bool ((d.getD off 0).toNat / 2 ^ k % 2 = 1)
  | .bits off low n => .int ((d.getD off 0).toNat / 2 ^ low % 2 ^ n)
  | .text off w => .str (fieldText (bytesAt d off w))
  | .hex off w => .str (hexText (bytesAt d off w))
  | .ip off => .str (dotted (bytesAt d off 4))
  | .float32 off => .float (.single (leAt d off 4))
  | .float64 off => .float (.double (leAt d off 8))
  | .float32Rounded off n => .float (.rounded (leAt d off 4) n)
  | .gas off => .gas (gasComponents.zipIdx.map fun p => (p.1, .single (leAt d (off + 4 * p.2) 4)))
  | .hexRows off n w => .strs ((List.range n).map fun i => hexText (bytesAt d (off + w * i) w))
  | .optional l => if d.length = size then .none else l.read size d

/-- The layout of one parameter class. -/
structure Layout where
  /-- bytes of the fixed part -/
  size : Nat
  /-- bytes of the optional tail, 0 when there is none -/
  tail : Nat
  /-- are surplus bytes rejected? -/
  strict : Bool
  fields : List (Attr × Loc)
  deriving DecidableEq, Repr

/-- The body ends inside the fixed part or inside the optional tail. -/
def Layout.TooShort (L : Layout) (d : List UInt8) : Prop :=
  d.length < L.size ∨ (L.size < d.length ∧ d.length < L.size + L.tail)

/-- The body has bytes left over and the class minds. -/
def Layout.TooLong (L : Layout) (d : List UInt8) : Prop :=
  L.strict = true ∧ L.size + L.tail < d.length

instance (L : Layout) (d : List UInt8) : Decidable (L.TooShort d) := by
  unfold Layout.TooShort; infer_instance
instance (L : Layout) (d : List UInt8) : Decidable (L.TooLong d) := by
  unfold Layout.TooLong; infer_instance

/-- The attributes of the object written in a body of acceptable length. -/
def Layout.values (L : Layout) (d : List UInt8) : List (Attr × Val) :=
  L.fields.map fun p => (p.1, p.2.read L.size d)

/-- The object types that have a working decoder (see C58 for the other four). -/
def Parsable (t : ObjType) : Prop :=
  t ≠ .CORRECTION_COUNTER ∧ t ≠ .DIFFERENCE_BASE_COUNTER ∧ t ≠ .DEVICE_ERROR ∧ t ≠ .SUM_OF_ALARMS

instance (t : ObjType) : Decidable (Parsable t) := by unfold Parsable; infer_instance

/-- A record of a parameter list: total length (two bytes), type byte, body. -/
def record (r : UInt8 × List UInt8) : List UInt8 := leOf (r.2.length + 3) 2 ++ r.1 :: r.2

/-- What stands at the front of a parameter list: two bytes of length, the type byte `ty`, the body, and `rest` after
it.  The length counts itself and the type byte.  Python's slices decide what a length that does not fit means: a body
longer than the data is cut off, and a length below 3 leaves that many bytes less than 3 out at the end. -/
def Head (w : List UInt8) (ty : UInt8) (body rest : List UInt8) : Prop :=
  ∃ lo hi after, w = lo :: hi :: ty :: after ∧
    ∃ n, n = (if 3 ≤ lo.toNat + 256 * hi.toNat then lo.toNat + 256 * hi.toNat - 3
        else after.length - (3 - (lo.toNat + 256 * hi.toNat))) ∧
      body = after.take n ∧ rest = after.drop n

/-- What comes out of a parameter list: the objects of its records in order, or the first exception. -/
inductive Listed : List UInt8 → Except PyErr (List PObj) → Prop
  /-- Nothing is left. -/
  | done : Listed [] (.ok [])
  /-- Not even a header is left. -/
  | cutOff (w : List UInt8) : w ≠ [] → w.length < 3 → Listed w (.error .index)
  /-- The type byte is not that of any object type. -/
  | unknown (w ty body rest) : Head w ty body rest → (∀ t : ObjType, t.value ≠ ty.toNat) → Listed w (.error .value)
  /-- The record cannot be read. -/
  | unreadable (w ty body rest) (t : ObjType) (e : PyErr) : Head w ty body rest → t.value = ty.toNat →
      parameterFromBytes t body = .error e → Listed w (.error e)
  /-- The record is read, but something behind it cannot. -/
  | later (w ty body rest) (t : ObjType) (o : PObj) (e : PyErr) : Head w ty body rest → t.value = ty.toNat →
      parameterFromBytes t body = .ok o → Listed rest (.error e) → Listed w (.error e)
  /-- The record is read, and so are those behind it. -/
  | object (w ty body rest) (t : ObjType) (o : PObj) (os : List PObj) : Head w ty body rest → t.value = ty.toNat →
      parameterFromBytes t body = .ok o → Listed rest (.ok os) → Listed w (.ok (o :: os))

end Spec
