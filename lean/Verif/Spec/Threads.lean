import Verif.Model.Threads
import Verif.Spec.Tasks
/-!
Specification vocabulary for threads that share a client.
-/
namespace Spec
open Elgas

/-- A thread is between looking the state of the connection up and changing it (in `send`), or between declaring the
connection free and emptying its buffer (in `next_event`). -/
def Point.critical : Point → Prop
  | .setting _ => True
  | .clearing _ => True
  | _ => False

/-- In this schedule no other thread runs while a thread is at one of the two critical points. -/
def Undisturbed (C : BlockCipher) (plan : Nat → List (Nat × Event × Outcome3 Event) → Option Event) :
    Threads → List Nat → Prop
  | _, [] => True
  | m, tid :: schedule =>
    (∀ j e p, m.flights j = some (e, p) → Point.critical p → j = tid) ∧
    Undisturbed C plan (m.step C plan tid) schedule

end Spec
