import Verif.Spec.Crash
import Verif.Spec.ProgramLog
import Verif.Spec.Cut
/-!
Specification vocabulary for what arrives at the other side of a handle when writes may fail partway.
-/
namespace Spec
open Elgas

/-- The bytes that arrive through a handle.  `writes` are the writes made, in order, `results` their outcomes (a write
without outcome has not come back).  A write that succeeded has got through; of any other write, the `i`-th one made,
the first `part i` bytes have. -/
def arrived (h : Handle) : (part : Nat → Nat) → (results : List (Res Unit)) → (writes : List (Handle × Bytes)) → Bytes
  | _, _, [] => []
  | part, results, (g, d) :: writes =>
    (if g = h then (if results[0]? = some (.ok ()) then d else d.take (part 0)) else []) ++
      arrived h (fun i => part (i + 1)) (results.drop 1) writes

/-- The calls of a program. -/
def callsOf (program : List Action) : List Call :=
  program.filterMap fun | .call k => some k | _ => none

end Spec
