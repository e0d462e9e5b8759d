/-!
Specification of packed binary coded decimals, independent of the model.
-/
namespace Spec

/-- Both nibbles of the byte are decimal digits. -/
def IsBcd (b : UInt8) : Prop := b.toNat / 16 ≤ 9 ∧ b.toNat % 16 ≤ 9

instance (b : UInt8) : Decidable (IsBcd b) := by unfold IsBcd; infer_instance

/-- The two-digit number written in the nibbles of a byte. -/
def bcdByte (b : UInt8) : Nat := 10 * (b.toNat / 16) + b.toNat % 16

/-- The number whose base-100 digits, most significant first, are the bytes. -/
def bcdValue (d : List UInt8) : Nat := d.foldl (fun acc b => 100 * acc + bcdByte b) 0

end Spec
