import Verif.Model.Tasks
import Verif.Spec.Client
/-!
Specification vocabulary for several tasks that share a client.
-/
namespace Spec
open Elgas

/-- Calls that were made on the shared client, in the order in which they ended: from the state `w` to the state `w'`,
each was either refused with `LocalElgasProtocolError` and then had no effect, or had the effect and the outcome it
has when nobody else uses the client. -/
inductive OneByOne (C : BlockCipher) : World → List (Nat × Event × Outcome3 Event) → World → Prop
  | nil (w) : OneByOne C w [] w
  | refused (w w' tid e rest) : OneByOne C w rest w' →
      OneByOne C w ((tid, e, .raised (.elgas .localProtocol)) :: rest) w'
  | took (w w' tid e rest) : OneByOne C (w.exchange C e).2 rest w' →
      OneByOne C w ((tid, e, (w.exchange C e).1) :: rest) w'

end Spec
