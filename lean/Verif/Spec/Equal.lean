import Verif.Spec.Layouts
import Verif.Spec.Schemas
import Verif.Spec.Float
/-!
When two bodies of a parameter record say the same, in terms of their bytes.
-/
namespace Spec
open Elgas

/-- The two bit patterns (of `sign + 1` bits, `inf` being the pattern of infinity) are the same number: neither is a
NaN, and they are identical or both a zero. -/
def SameNumber (sign inf b b' : Nat) : Prop :=
  b % 2 ^ sign ≤ inf ∧ b' % 2 ^ sign ≤ inf ∧ (b = b' ∨ (b % 2 ^ sign = 0 ∧ b' % 2 ^ sign = 0))

/-- The same single. -/
def Same32 (b b' : Nat) : Prop := SameNumber 31 0x7F800000 b b'

/-- The same double. -/
def Same64 (b b' : Nat) : Prop := SameNumber 63 0x7FF0000000000000 b b'

/-- Two singles that are the same to `n` decimal places: the same infinity, or finite with the same nearest integer
after multiplication by `10 ^ n`. -/
def SameRounded (n b b' : Nat) : Prop :=
  (b % 2 ^ 31 = 0x7F800000 ∧ b = b') ∨
  (b % 2 ^ 31 < 0x7F800000 ∧ b' % 2 ^ 31 < 0x7F800000 ∧
    ∃ k : Int, NearestInt (value32 b * 10 ^ n) k ∧ NearestInt (value32 b' * 10 ^ n) k)

/-- The two bodies agree at a location; `size` is the size of the fixed part. -/
def Agree (size : Nat) (d d' : List UInt8) : Loc → Prop
  | .uint off w | .hex off w => bytesAt d off w = bytesAt d' off w
  | .ip off => bytesAt d off 4 = bytesAt d' off 4
  | .flag off k => (d.getD off 0).toNat.testBit k = (d'.getD off 0).toNat.testBit k
  | .bits off low n => ∀ i, i < n → (d.getD off 0).toNat.testBit (low + i) = (d'.getD off 0).toNat.testBit (low + i)
  | .text off w => fieldText (bytesAt d off w) = fieldText (bytesAt d' off w)
  | .float32 off => Same32 (leAt d off 4) (leAt d' off 4)
  | .float64 off => Same64 (leAt d off 8) (leAt d' off 8)
  | .float32Rounded off n => SameRounded n (leAt d off 4) (leAt d' off 4)
  | .gas off => ∀ i, i < 23 → Same32 (leAt d (off + 4 * i) 4) (leAt d' (off + 4 * i) 4)
  | .hexRows off n w => ∀ i, i < n → bytesAt d (off + w * i) w = bytesAt d' (off + w * i) w
  | .optional l => (d.length = size ↔ d'.length = size) ∧ (d.length ≠ size → Agree size d d' l)

/-- Two bodies of records of type `t` say the same: they are laid out alike (only the layout of a time window depends on
the body) and agree at every attribute. -/
def SaysSame (t : ObjType) (d d' : List UInt8) : Prop :=
  ∃ L, layout (classFor t) d = some L ∧ layout (classFor t) d' = some L ∧ ∀ p ∈ L.fields, Agree L.size d d' p.2

/-- A number that is a NaN: above the bit pattern of infinity, the sign left out. -/
def IsNaN : PyFloat → Prop
  | .single b | .rounded b _ => 0x7F800000 < b % 2 ^ 31
  | .double b => 0x7FF0000000000000 < b % 2 ^ 63

/-- Some number in the object is a NaN. -/
def HasNaN (o : PObj) : Prop := ∃ p ∈ o.attrs, ∃ x ∈ floatsOf p.2, IsNaN x

end Spec
