import Verif.Model.Cut
import Verif.Spec.Interrupt
/-!
Specification vocabulary for programs that are stopped from outside wherever they happen to be, also inside `connect` and
`disconnect`, and go on using the client.
-/
namespace Spec
open Elgas

/-- The client `w` after `connect()` has been stopped after `n` steps. -/
def cutConnect (w : World) (n : Nat) : World := (w.laps .connecting n).1

/-- The client `w` after `disconnect()` has been stopped after `n` steps. -/
def cutDisconnect (w : World) (n : Nat) : World := (w.laps .disconnecting n).1

/-- What a program does with a client: an action that ends by itself; a `connect()`, a `disconnect()`, or a series of
requests and answers (see `stopped`) that is stopped after `n` steps; or the repair: it sets the state of the connection
to IDLE and empties its buffer. -/
inductive Deed
  | act (a : Action)
  | connect (n : Nat)
  | disconnect (n : Nat)
  | requests (next : List (Event × Outcome3 Event) → Option Event) (n : Nat)
  | repair

/-- The client with the state of its connection set to IDLE and its buffer emptied. -/
def repaired (w : World) : World := { w with conn := { w.conn with state := .idle, buffer := [] } }

/-- What a deed leaves of the client. -/
def deed (C : BlockCipher) (w : World) : Deed → World
  | .act a => (act C w a).2
  | .connect n => cutConnect w n
  | .disconnect n => cutDisconnect w n
  | .requests next n => (stopped C next w n).world
  | .repair => repaired w

/-- What a program leaves of the client. -/
def deeds (C : BlockCipher) (w : World) : List Deed → World
  | [] => w
  | d :: ds => deeds C (deed C w d) ds

/-- A `connect()` has been stopped when the operating system had opened the handle `h` and the transport did not have it
yet: nobody has it. -/
structure Lost (w : World) (h : Handle) (w' : World) : Prop where
  nobody : w.transport.socket = none ∧ w'.transport.socket = none
  opened : w'.os = w.os ++ [.create (some h)]
  taken : w.opens = .ok h :: w'.opens

/-- A `disconnect()` has been stopped when the operating system had begun or ended giving up the handle `h`, and the
transport still has it. -/
structure StillHeld (w : World) (h : Handle) (w' : World) : Prop where
  held : w.transport.socket = some h ∧ w'.transport = w.transport
  asked : ∃ part, part ≠ [] ∧ part <+: closing w.transport.kind h ∧ w'.os = w.os ++ part
  conn : w'.conn = w.conn

/-- Nobody has the handle `h` and the operating system will not give it out any more. -/
def Gone (w : World) (h : Handle) : Prop := w.transport.socket ≠ some h ∧ .ok h ∉ w.opens

/-- The operating system fails with `OSError` only when it opens or gives up handles. -/
structure OnlyOs (w : World) : Prop where
  opens : ∀ r ∈ w.opens, OsErr r
  shutdowns : ∀ r ∈ w.shutdowns, OsErr r
  closes : ∀ r ∈ w.closes, OsErr r

/-- What is in store for a new client that finds the operating system as the client `w` leaves it: the coming random
numbers are the ones `w` has not drawn. -/
def envOf (w : World) : OsEnv :=
  { opens := w.opens, shutdowns := w.shutdowns, closes := w.closes, writes := w.writes, inbox := w.inbox,
    clock := w.clock, rands := fun i => w.rands (w.draws + i) }

end Spec
