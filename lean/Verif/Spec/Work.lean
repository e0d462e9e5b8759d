import Verif.Model.Work
import Verif.Spec.Program
import Verif.Props.Requests
/-!
Specification vocabulary for tasks that make calls on a client they share, with a device at the other end.
-/
namespace Spec
open Elgas

/-- Calls of several tasks, in the order in which they ended: each either was refused with `LocalElgasProtocolError`, and
the device is as before, or gave back what the device held at that moment, and left the device as it should. -/
inductive SharedIdeal : Device → List (Nat × Call × Outcome3 Value) → Device → Prop
  | nil (D) : SharedIdeal D [] D
  | refused (D D' tid k rest) : SharedIdeal D rest D' →
      SharedIdeal D ((tid, k, .raised (.elgas .localProtocol)) :: rest) D'
  | took (D D1 D' tid k r rest) : Ideal D k r D1 → SharedIdeal D1 rest D' → SharedIdeal D ((tid, k, r) :: rest) D'

/-- A state of tasks that make these calls on one client: a new client that knows the secrets of the device, connected
over handle `h`, with any timeout and clock; the operating system takes what is written, and what there is to read is what
the device answers to that, in any segments and with any empty reads; the tasks have run in any order. -/
structure Sharing (C : BlockCipher) (a : ClientArgs) (calls : Nat → List Call) (D D' : Device) (m : Machine) : Prop where
  ok : D.Ok
  key : SharesKey a D
  password : KnowsPassword a D
  range : ∀ tid, ∀ k ∈ calls tid, k.InRange
  run : ∃ (kind : Kind) (timeout : Option Int) (env : OsEnv) (w : World) (h : Handle) (n : Nat) (out : Bytes)
      (schedule : List Nat),
    mkWorld kind timeout a env = .ok w ∧ (∀ i, PadOk (env.rands i).pw) ∧ (∃ l, env.opens = .ok h :: l) ∧
    env.writes = List.replicate n (.ok ()) ∧
    m = Machine.run C (planOf a.password calls) { world := (act C w .connect).2 } schedule ∧
    (written m.world.os).length ≤ n ∧ Serves C D (written m.world.os) out D' ∧
    content (env.inbox h) = bytesOnly out

end Spec
