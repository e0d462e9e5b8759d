import Verif.Model.Threads
import Verif.Spec.Threads
import Verif.Spec.Program
/-!
Specification vocabulary for calls that are stopped from outside.
-/
namespace Spec
open Elgas

/-- A program sends one request after the other over the client `w` and takes the answer to each (`next`: which request it
sends next, given everything that has ended so far; `none`: it is done), and is stopped after `n` steps: an exception
that does not come from the library (`KeyboardInterrupt`, the handler of an alarm) is raised wherever the program happens
to be.  What is left of the client is `(stopped C next w n).world`. -/
def stopped (C : BlockCipher) (next : List (Event × Outcome3 Event) → Option Event) (w : World) (n : Nat) : Threads :=
  Threads.run C (fun _ past => next (past.map Prod.snd)) { world := w } (List.replicate n 0)

/-- The request `read_parameters` sends after the answers `past`, when it began with object `count`. -/
def wantsPage (password : PyStr) : Int → List (Event × Outcome3 Event) → Option Event
  | count, [] => some (pageRequest password count)
  | count, (_, .returned (.readDeviceParametersResponse p)) :: past =>
    if p.isEnd then none else wantsPage password (count + p.objectAmount) past
  | _, _ => none

/-- The request a call of the client sends next, given the answers it has had. -/
def wants (password : PyStr) : Call → List (Event × Outcome3 Event) → Option Event
  | .readParameters n, past => wantsPage password n past
  | .readInstantaneousValues, [] => some (.readInstantaneousValuesRequest { password })
  | .readTime, [] => some (.readTimeRequest {})
  | .writeTime t cryout, [] => some (.writeTimeRequest { password, deviceTime := t, cryout })
  | .readArchive archive amount oldestRecordId, [] =>
    some (.readArchiveRequest { password, archive, amount, oldestRecordId })
  | .readArchiveByTime archive amount oldestTimestamp, [] =>
    some (.readArchiveByTimeRequest { password, archive, amount, oldestTimestamp })
  | _, _ :: _ => none

/-- The call of `e` has been stopped after it claimed the connection: the request has been written at most once, and the
connection waits for the answer. -/
structure Claimed (C : BlockCipher) (w1 : World) (e : Event) (w2 : World) : Prop where
  waits : awaits w2.conn.state = responseOf e.type
  busy : w2.conn.state ≠ .idle
  transport : w2.transport = w1.transport
  once : w2.os = w1.os ∨
    ∃ h line, w1.transport.socket = some h ∧ (w1.conn.send C e (w1.rands w1.draws)).2 = .ok line ∧
      w2.os = w1.os ++ [.write h line]

/-- The call of `e` has been stopped just before it returned `pdu`: the request has been written, the connection is free
again, but the answer is still in its buffer. -/
structure Leftover (C : BlockCipher) (w1 : World) (e : Event) (pdu : Event) (w2 : World) : Prop where
  free : w2.conn.state = .idle
  answered : w1.exchange C e = (.returned pdu, { w2 with conn := { w2.conn with buffer := [] } })
  kind : responseOf e.type = some pdu.type
  transport : w2.transport = w1.transport
  once : ∃ h line, w1.transport.socket = some h ∧ (w1.conn.send C e (w1.rands w1.draws)).2 = .ok line ∧
    w2.os = w1.os ++ [.write h line]
  buffer : ∃ line rest, w2.conn.buffer = line ++ rest ∧ Response C w2.conn.cipherContext line pdu

/-- The client `w` after its call `k` has been stopped after `n` steps. -/
def cutCall (C : BlockCipher) (w : World) (k : Call) (n : Nat) : World :=
  (stopped C (wants w.password k) w n).world

end Spec
