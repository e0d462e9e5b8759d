import Verif.Model.Tasks
import Verif.Spec.Device
/-!
Tasks that share one client and make whole calls on it: the read and write methods of client.py, cut at the exchanges they
are made of, so that the exchanges of several tasks can be interleaved (`Model/Tasks`).  `Spec.Call` and `Spec.Value` only
name the methods with their arguments and what they return.
-/
namespace Elgas
open Spec

/-- The request that a call sends next; `pages`: `object_count` and `total_parameter_data` of a `read_parameters` that
has read pages already. client.py:61-133 (`read_parameters`: client.py:86-97). -/
def requestOf (password : PyStr) : Call → Option (Int × Bytes) → Event
  | .readInstantaneousValues, _ => .readInstantaneousValuesRequest { password }
  | .readTime, _ => .readTimeRequest {}
  | .writeTime t cryout, _ => .writeTimeRequest { password, deviceTime := t, cryout }
  | .readParameters readFrom, pages =>
    .readDeviceParametersRequest { password, objectCount := (pages.getD (readFrom, [])).1, bufferLength := 1024 }
  | .readArchive archive amount oldestRecordId, _ =>
    .readArchiveRequest { password, archive, amount, oldestRecordId }
  | .readArchiveByTime archive amount oldestTimestamp, _ =>
    .readArchiveByTimeRequest { password, archive, amount, oldestTimestamp }

/-- What a call does with the outcome of its `send(request)` and `next_event()`: it returns or raises (`inl`), or it is
`read_parameters` and goes on to the next page (`inr`). client.py:61-133 (`read_parameters`: client.py:98-107; as in
`Model/Client` the parser runs on a new parser object). -/
def goesOn : Call → Option (Int × Bytes) → Outcome3 Event → Outcome3 Value ⊕ (Int × Bytes)
  | .readInstantaneousValues, _, o => .inl (o.andThen (.returned ∘ .event))
  | .readTime, _, o => .inl ((o.andThen timeOf).andThen (.returned ∘ .time))
  | .writeTime _ _, _, o => .inl (o.andThen fun _ => .returned .nothing)
  | .readArchive _ _ _, _, o => .inl (o.andThen (.returned ∘ .event))
  | .readArchiveByTime _ _ _, _, o => .inl (o.andThen (.returned ∘ .event))
  | .readParameters readFrom, pages, .returned (.readDeviceParametersResponse p) =>
    let (objectCount, total) := pages.getD (readFrom, [])
    if p.isEnd then
      .inl ((Outcome3.ofRes (parseParameters none (some (total ++ p.data)))).andThen (.returned ∘ .objects))
    else .inr (objectCount + p.objectAmount, total ++ p.data)
  | .readParameters _, _, .returned _ => .inl (.raised .attribute)
  | .readParameters _, _, .raised e => .inl (.raised e)
  | .readParameters _, _, .pending => .inl .pending

/-- What a task has to do: the calls that it has not finished, and how far the first of them has got. The code of the
tasks is the program's, not the library's: each makes its calls one after the other and goes on after an exception. -/
structure Work where
  todo : List Call
  pages : Option (Int × Bytes) := none

/-- The request that a task sends next. client.py:61-133. -/
def Work.request (password : PyStr) (k : Work) : Option Event :=
  match k.todo with
  | [] => none
  | c :: _ => some (requestOf password c k.pages)

/-- An exchange of the task has ended: the call that ended with it, if one did, and what is left to do.
client.py:61-133. -/
def Work.answered (k : Work) (o : Outcome3 Event) : List (Call × Outcome3 Value) × Work :=
  match k.todo with
  | [] => ([], k)
  | c :: cs =>
    match goesOn c k.pages o with
    | .inl v => ([(c, v)], { todo := cs })
    | .inr pages => ([], { k with pages := some pages })

/-- What the tasks have to do after a history of exchanges, and the calls that have ended, in the order in which they
ended. client.py:61-133. -/
def works (work : Nat → Work) : List (Nat × Event × Outcome3 Event) → (Nat → Work) × List (Nat × Call × Outcome3 Value)
  | [] => (work, [])
  | (tid, _, o) :: rest =>
    let (ended, k) := (work tid).answered o
    let (work, more) := works (fun j => if j = tid then k else work j) rest
    (work, ended.map (fun x => (tid, x)) ++ more)

/-- Which request a task sends next, if the tasks make these calls on a client with this password. client.py:61-133. -/
def planOf (password : PyStr) (calls : Nat → List Call) (tid : Nat) (hist : List (Nat × Event × Outcome3 Event)) :
    Option Event :=
  ((works (fun j => { todo := calls j }) hist).1 tid).request password

/-- The calls that have ended, with what they returned or raised, in the order in which they ended.
client.py:61-133. -/
def endedCalls (calls : Nat → List Call) (hist : List (Nat × Event × Outcome3 Event)) :
    List (Nat × Call × Outcome3 Value) :=
  (works (fun j => { todo := calls j }) hist).2

end Elgas
