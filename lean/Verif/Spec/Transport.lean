import Verif.Model.Transport
/-!
Specification vocabulary for the transport: what a script of deliveries contains, histories of
calls on a transport.
-/
namespace Spec
open Elgas

/-- One thing that reaches the receiver: a byte or an OS exception. -/
inductive Item
  | byte (b : UInt8)
  | fail (e : PyErr)
  deriving DecidableEq

/-- The content of a script: its bytes and exceptions in order, without the segmentation and without
empty reads. -/
def content : List Delivery → List Item
  | [] => []
  | .seg d :: rest => d.map .byte ++ content rest
  | .fail e :: rest => .fail e :: content rest

/-- The script has no OS exceptions in it. -/
def bytesOnly (d : Bytes) : List Item := d.map .byte

/-- The clock does not run backwards behind `start` and stays before `start + duration` for the next
`n` readings after the first one. -/
def InTime (timeout : Option Int) (c : Clock) (n : Nat) : Prop :=
  ∀ d, timeout = some d → 0 < d ∧ ∀ j, 1 ≤ j → j ≤ n →
    c.readings c.next ≤ c.readings (c.next + j) ∧
    c.readings (c.next + j) < c.readings c.next + d

/-- One call on a transport together with the outcomes of the OS calls it may make. -/
inductive TOp
  | connect (os : Res Handle)
  | disconnect (osShutdown osClose : Res Unit)
  | send (d : Bytes) (os : Res Unit)
  | recv (s : List Delivery) (c : Clock)

/-- What a call did: its outcome (`none` = still running) and the OS calls it made (reads are not
listed). -/
structure TStep where
  result : Option (Res Bytes)
  calls : List OsCall

/-- Perform one call; calls without a result return the empty byte string. -/
def tstep (t : Transport) : TOp → Transport × TStep
  | .connect os =>
    let r := t.connect os
    (r.1, ⟨some (r.2.2.map fun _ => []), r.2.1⟩)
  | .disconnect a b =>
    let r := t.disconnect a b
    (r.1, ⟨some (r.2.2.map fun _ => []), r.2.1⟩)
  | .send d os =>
    let r := t.send d os
    (t, ⟨some (r.2.map fun _ => []), r.1⟩)
  | .recv s c =>
    (t, ⟨match (t.recv s c).1 with
      | .returned d => some (.ok d)
      | .raised e => some (.error e)
      | .pending => none, []⟩)

/-- Perform a sequence of calls. -/
def trun (t : Transport) : List TOp → Transport × List TStep
  | [] => (t, [])
  | op :: ops => ((trun (tstep t op).1 ops).1, (tstep t op).2 :: (trun (tstep t op).1 ops).2)

/-- All OS calls of a history in order. -/
def osLog (steps : List TStep) : List OsCall := (steps.map TStep.calls).flatten

/-- OS calls fail with `OSError` only. -/
def OsErr {α : Type} (r : Res α) : Prop := ∀ e, r = .error e → e = .os

/-- All OS calls of the operation fail with `OSError` only. -/
def TOp.onlyOsErrors : TOp → Prop
  | .connect os => OsErr os
  | .disconnect a b => OsErr a ∧ OsErr b
  | .send _ os => OsErr os
  | .recv s _ => ∀ e, .fail e ∈ s → e = .os

/-- The handle an OS call is made on (for `create`: the handle it yields). -/
def callHandle : OsCall → Option Handle
  | .create h => h
  | .shutdown h => some h
  | .close h => some h
  | .write h _ => some h

/-- A trace of OS calls that uses one handle at a time: a handle is opened only while none is held,
only the held handle is written to, and it is given up with shutdown and close (TCP; close missing
if shutdown failed) or close (serial). -/
inductive OneAtATime (k : Kind) : Option Handle → List OsCall → Prop
  | done (held) : OneAtATime k held []
  | failed (rest) : OneAtATime k none rest → OneAtATime k none (.create none :: rest)
  | opened (h rest) : OneAtATime k (some h) rest → OneAtATime k none (.create (some h) :: rest)
  | written (h d rest) : OneAtATime k (some h) rest → OneAtATime k (some h) (.write h d :: rest)
  | tcpClosed (h rest) : k = .tcp → OneAtATime k none rest →
      OneAtATime k (some h) (.shutdown h :: .close h :: rest)
  | tcpDropped (h rest) : k = .tcp → OneAtATime k none rest →
      OneAtATime k (some h) (.shutdown h :: rest)
  | serialClosed (h rest) : k = .serial → OneAtATime k none rest →
      OneAtATime k (some h) (.close h :: rest)

/-- The results of (up to) `n` successive `recv()` calls on one transport, each continuing where the one
before stopped reading; the list ends early with a call that does not come back. -/
def recvs (t : Transport) : Nat → List Delivery → Clock → List (Res Bytes)
  | 0, _, _ => []
  | n + 1, s, c =>
    match t.recv s c with
    | (.returned d, s, c) => .ok d :: recvs t n s c
    | (.raised e, s, c) => .error e :: recvs t n s c
    | (.pending, _, _) => []

/-- What `recv_until(expected, size)` waits for: the bytes read so far end with `expected`, or there are
`size` of them. -/
def Stops (expected : Bytes) (size : Option Nat) (line : Bytes) : Prop :=
  (expected ≠ [] ∧ expected <:+ line) ∨ ∃ n, size = some n ∧ n ≤ line.length

end Spec
