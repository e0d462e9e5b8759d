import Verif.Model.Lock
import Verif.Spec.Client
import Verif.Spec.Program
/-!
Specification vocabulary for threads that share a client and a lock.
-/
namespace Spec
open Elgas

/-- Calls made one after the other by one program, from the state `w` to the state `w'`: each has the outcome and the
effect of a call made when the one before it has ended.  When the connection still waits for the answer to a request whose
call failed, that is `LocalElgasProtocolError` and nothing else. -/
inductive Serial (C : BlockCipher) : World → List (Nat × Event × Outcome3 Event) → World → Prop
  | nil (w) : Serial C w [] w
  | took (w w' tid e rest) (idle : w.conn.state = .idle) : Serial C (w.exchange C e).2 rest w' →
      Serial C w ((tid, e, (w.exchange C e).1) :: rest) w'
  | busy (w w' tid e rest) (waiting : w.conn.state ≠ .idle) : Serial C w rest w' →
      Serial C w ((tid, e, .raised (.elgas .localProtocol)) :: rest) w'

/-- Methods called one after the other by one program, from the state `w` to the state `w'`, as in `Serial`. -/
inductive SerialCalls (C : BlockCipher) : World → List (Nat × Call × Outcome3 Value) → World → Prop
  | nil (w) : SerialCalls C w [] w
  | made (w w' tid k rest) (idle : w.conn.state = .idle) : SerialCalls C (wcall C w k).2 rest w' →
      SerialCalls C w ((tid, k, (wcall C w k).1) :: rest) w'
  | busy (w w' tid k rest) (waiting : w.conn.state ≠ .idle) : SerialCalls C w rest w' →
      SerialCalls C w ((tid, k, .raised (.elgas .localProtocol)) :: rest) w'

end Spec
