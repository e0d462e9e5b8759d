import Verif.Py.Float
/-!
Rounding, independent of how it is computed.
-/
namespace Spec
open Elgas

/-- The number is that of a finite double. -/
def IsDouble (r : Rat) : Prop := ∃ b, b < 2 ^ 64 ∧ finite64 b ∧ value64 b = r

/-- `k` is the nearest integer to `x`, the even one of two. -/
def NearestInt (x : Rat) (k : Int) : Prop := (x - k).abs ≤ 1 / 2 ∧ ((x - k).abs = 1 / 2 → k % 2 = 0)

/-- `b` are the bits of the double next to `x`: none is nearer, and of two that are equally near it is the even one. -/
def NearestDouble (x : Rat) (b : Nat) : Prop :=
  b < 2 ^ 64 ∧ finite64 b ∧ ∀ b', b' < 2 ^ 64 → finite64 b' →
    (x - value64 b).abs ≤ (x - value64 b').abs ∧
    ((x - value64 b).abs = (x - value64 b').abs → value64 b' ≠ value64 b → b % 2 = 0)

end Spec
