import Verif.Spec.Parameters
/-!
When a parameter object can be restored from its dump, and what "equal" means.
-/
namespace Spec
open Elgas

/-- Python's `==` on attribute values: `True == 1` and `False == 0`; otherwise same type and value. -/
def pyEq : Val → Val → Bool
  | .int n, .bool b => n = b.toNat
  | .bool b, .int n => n = b.toNat
  | v, w => v = w

/-- `o == o'` for attrs objects: same class, same attributes, equal values. -/
def SameObject (o o' : PObj) : Prop :=
  o.cls = o'.cls ∧ o.attrs.map (·.1) = o'.attrs.map (·.1) ∧
  ∀ a v v', o.attrs.lookup a = some v → o'.attrs.lookup a = some v' → pyEq v v' = true

/-- The floats inside a value. -/
def floatsOf : Val → List PyFloat
  | .float x => [x]
  | .gas l => l.map (·.2)
  | _ => []

/-- The attributes whose schema field does not reject infinities and NaN. -/
def unchecked (t : ObjType) : List Attr :=
  if t = .ANALOG_MEASURAND then
    [.digit, .offset, .lower_limit_measuring_range, .upper_limit_measuring_range]
  else []

/-- Neither an infinity nor NaN.  IEEE 754: apart from the sign, an infinity has the bit pattern 0x7F800000 (single
precision) or 0x7FF0000000000000 (double precision), the finite numbers lower ones and NaN higher ones.  Rounding does
not change which of the three a number is. -/
def Finite : PyFloat → Prop
  | .single b | .rounded b _ => b % 2 ^ 31 < 0x7F800000
  | .double b => b % 2 ^ 63 < 0x7FF0000000000000

instance (x : PyFloat) : Decidable (Finite x) := by cases x <;> (unfold Finite; infer_instance)

/-- Every (checked) float is finite, and a flow rate has its optional `decimals`. -/
def Restorable (t : ObjType) (o : PObj) : Prop :=
  (∀ p ∈ o.attrs, p.1 ∉ unchecked t → ∀ x ∈ floatsOf p.2, Finite x) ∧
  (t = .FLOW_RATE → o.attrs.lookup .decimals ≠ some .none)

/-- The types whose schema has no `post_load` hook. -/
def Unhooked (t : ObjType) : Prop := t = .MODEM ∨ t = .SET_POINT ∨ t = .ERROR_STANDARD_COUNTER

instance (t : ObjType) : Decidable (Unhooked t) := by unfold Unhooked; infer_instance

end Spec
