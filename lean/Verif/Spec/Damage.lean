import Verif.Spec.Device
/-!
Specification for C80 and C81: damage to one byte of a line on the wire.
-/
namespace Spec
open Elgas

/-- `Damaged sent arrived`: what arrived is what was sent with one byte changed, lost or added. -/
inductive Damaged : List UInt8 → List UInt8 → Prop
  | changed (before : List UInt8) (b v : UInt8) (after : List UInt8) : v ≠ b →
      Damaged (before ++ b :: after) (before ++ v :: after)
  | lost (before : List UInt8) (b : UInt8) (after : List UInt8) :
      Damaged (before ++ b :: after) (before ++ after)
  | added (before : List UInt8) (v : UInt8) (after : List UInt8) :
      Damaged (before ++ after) (before ++ v :: after)

/-- The device finds this question in the line, also if the line is not escaped as it should be: it is enough that
the line stands for the same bytes as one that is. -/
def Understands (C : BlockCipher) (D : Device) (line : List UInt8) (a : Asked) : Prop :=
  ∃ line' bytes, Units line bytes ∧ Units line' bytes ∧ Finds C D line' a

end Spec
