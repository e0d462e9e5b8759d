import Verif.Spec.Crash
/-!
Specification vocabulary for programs that try again: with a new client each time, from the first call on that has not
returned yet.
-/
namespace Spec
open Elgas

/-- The values of the calls up to the first one that does not return. -/
def returnedFirst : List (Outcome3 Value) → List Value
  | .returned v :: rest => v :: returnedFirst rest
  | _ => []

/-- One attempt at calls. A new client is made with the arguments `a`; it connects, makes the calls and disconnects any
number of times. The operating system opens a handle or raises, or does not come back; it takes the writes, or does not,
and any first part of the bytes written reaches the device `D`, which answers the complete lines among them; of its
answers any first part arrives. The device is then `D'`, and `outcomes` are those of the calls. -/
def Attempt (C : BlockCipher) (a : ClientArgs) (D : Device) (ks : List Call) (outcomes : List (Outcome3 Value))
    (D' : Device) : Prop :=
  ∃ (kind : Kind) (timeout : Option Int) (env : OsEnv) (w : World) (m : Nat) (program : List Action) (got out : Bytes),
    mkWorld kind timeout a env = .ok w ∧ (∀ i, (env.rands i).pw.1 ∈ possibleChars ∧ (env.rands i).pw.2 ∈ possibleChars) ∧
    program = .connect :: ks.map .call ++ List.replicate m .disconnect ∧
    outcomes = ((acts C w program).1.drop 1).take ks.length ∧
    got <+: (written (acts C w program).2.os).flatten ∧ Serves C D (completeLines got) out D' ∧
    ∀ h l, env.opens = .ok h :: l → Arrives (env.inbox h) out

/-- A program makes the calls `ks` in as many attempts as it likes, each with a new client, at any number of the calls,
and from the first one on that has not returned yet. It has the values `values` then, in all, and the calls `rest` are
left. -/
inductive Retried (C : BlockCipher) (a : ClientArgs) : Device → List Call → List Value → List Call → Device → Prop
  | stop (D ks) : Retried C a D ks [] ks D
  | attempt (D D1 D' ks n outcomes values rest) : Attempt C a D (ks.take n) outcomes D1 →
      Retried C a D1 (ks.drop (returnedFirst outcomes).length) values rest D' →
      Retried C a D ks (returnedFirst outcomes ++ values) rest D'

/-- The device can be where it should be before the calls that are left, or the first of them has been carried out. -/
inductive Left : Device → List Call → Device → Prop
  | clean (D ks) : Left D ks D
  | ahead (D D' k ks r) : Ideal D k r D' → Left D (k :: ks) D'

end Spec
