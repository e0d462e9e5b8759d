import Verif.Model.Chain
import Verif.Spec.Transport
/-!
Vocabulary for the exceptions of a transport: calls with the exception objects the operating system raises in them.
-/
namespace Spec
open Elgas

/-- One call on a transport together with what the operating system does in it. -/
inductive XOp
  | connect (os : OsRes Handle)
  | disconnect (osShutdown osClose : OsRes Unit)
  | send (d : Bytes) (os : OsRes Unit)
  | recv (s : List Arriving) (c : Clock)

/-- What a call did: its outcome (`none` = still running) and the calls of the operating system it made (reads are not
listed). -/
structure XStep where
  result : Option (Except Thrown Bytes)
  calls : List OsCall

/-- Perform one call; calls without a result return the empty byte string. -/
def xstep (t : Transport) : XOp → Transport × XStep
  | .connect os => ((t.connectX os).1, ⟨some ((t.connectX os).2.2.map fun _ => []), (t.connectX os).2.1⟩)
  | .disconnect a b =>
    ((t.disconnectX a b).1, ⟨some ((t.disconnectX a b).2.2.map fun _ => []), (t.disconnectX a b).2.1⟩)
  | .send d os => (t, ⟨some ((t.sendX d os).2.map fun _ => []), (t.sendX d os).1⟩)
  | .recv s c =>
    (t, ⟨match (t.recvX s c).1 with
      | .returned d => some (.ok d)
      | .raised e => some (.error e)
      | .pending => none, []⟩)

/-- Perform a sequence of calls. -/
def xrun (t : Transport) : List XOp → Transport × List XStep
  | [] => (t, [])
  | op :: ops => ((xrun (xstep t op).1 ops).1, (xstep t op).2 :: (xrun (xstep t op).1 ops).2)

/-- What arrives, without the identity of exceptions. -/
def Arriving.plain : Arriving → Delivery
  | .seg d => .seg d
  | .fail e => .fail e.cls

/-- The call without the identity of exceptions. -/
def XOp.plain : XOp → TOp
  | .connect os => .connect (os.mapError OsExc.cls)
  | .disconnect a b => .disconnect (a.mapError OsExc.cls) (b.mapError OsExc.cls)
  | .send d os => .send d (os.mapError OsExc.cls)
  | .recv s c => .recv (s.map Arriving.plain) c

/-- What a call did, without the identity of exceptions. -/
def XStep.plain (s : XStep) : TStep := ⟨s.result.map fun r => r.mapError Thrown.cls, s.calls⟩

/-- `e` is the first exception the operating system raises if a transport that holds a handle (or, for `connect`, none)
performs the call. -/
def XOp.Meets (k : Kind) (e : OsExc) : XOp → Prop
  | .connect os => os = .error e
  | .disconnect a b =>
    match k with
    | .tcp => a = .error e ∨ (a = .ok () ∧ b = .error e)
    | .serial => b = .error e
  | .send _ os => os = .error e
  | .recv s _ => ∃ before rest, s = before ++ .fail e :: rest ∧ ∀ x ∈ before, ∃ d, x = .seg d ∧ 0x0D ∉ d

/-- The transport is such that the call asks the operating system. -/
def XOp.Asks (t : Transport) : XOp → Prop
  | .connect _ => t.socket = none
  | _ => t.socket ≠ none

end Spec
