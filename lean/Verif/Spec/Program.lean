import Verif.Model.Program
import Verif.Spec.Device
import Verif.Spec.Transport
/-!
Specification vocabulary for programs that use a client: what a program does with the client object, and what of it
can be seen from outside.
-/
namespace Spec
open Elgas

/-- What a program can do with a client object. -/
inductive Action
  | connect
  | disconnect
  | call (k : Call)
  | send (events : List Event)
  | nextEvent

/-- Perform a read or write call, with its value. -/
def wcall (C : BlockCipher) (w : World) : Call → Outcome3 Value × World
  | .readInstantaneousValues =>
    ((w.readInstantaneousValues C).1.andThen (.returned ∘ .event), (w.readInstantaneousValues C).2)
  | .readTime => ((w.readTime C).1.andThen (.returned ∘ .time), (w.readTime C).2)
  | .writeTime t b => ((w.writeTime C t b).1.andThen fun _ => .returned .nothing, (w.writeTime C t b).2)
  | .readParameters n => ((w.readParameters C n).1.andThen (.returned ∘ .objects), (w.readParameters C n).2)
  | .readArchive a n i => ((w.readArchive C a n i).1.andThen (.returned ∘ .event), (w.readArchive C a n i).2)
  | .readArchiveByTime a n t =>
    ((w.readArchiveByTime C a n t).1.andThen (.returned ∘ .event), (w.readArchiveByTime C a n t).2)

/-- Perform an action. -/
def act (C : BlockCipher) (w : World) : Action → Outcome3 Value × World
  | .connect => (w.connect.1.andThen fun _ => .returned .nothing, w.connect.2)
  | .disconnect => (w.disconnect.1.andThen fun _ => .returned .nothing, w.disconnect.2)
  | .call k => wcall C w k
  | .send es => ((w.sendAll C es).1.andThen fun _ => .returned .nothing, (w.sendAll C es).2)
  | .nextEvent => ((w.nextEvent C).1.andThen (.returned ∘ .event), (w.nextEvent C).2)

/-- Perform actions one after the other.  An action that does not come back (`pending`) has been interrupted. -/
def acts (C : BlockCipher) (w : World) : List Action → List (Outcome3 Value) × World
  | [] => ([], w)
  | a :: as => ((act C w a).1 :: (acts C (act C w a).2 as).1, (acts C (act C w a).2 as).2)

/-- The data written, in order, to any handle. -/
def written (os : List OsCall) : List Bytes :=
  os.filterMap fun | .write _ d => some d | _ => none

/-- The OS calls with which a transport of each kind gives up its handle (a socket is shut down first). -/
def closing : Kind → Handle → List OsCall
  | .tcp, h => [.shutdown h, .close h]
  | .serial, h => [.close h]

/-- The data written, in order, to one handle. -/
def writtenTo (h : Handle) (os : List OsCall) : List Bytes :=
  os.filterMap fun | .write g d => if g = h then some d else none | _ => none

/-- A part of a program: connect, which gives it a handle, make calls, disconnect; `out` is what there is to read
from the handle. -/
structure Session where
  handle : Handle
  calls : List Call
  out : Bytes

/-- What the program does in a session. -/
def Session.program (s : Session) : List Action := .connect :: s.calls.map .call ++ [.disconnect]

/-- The OS calls of a session in which `lines` are written. -/
def Session.trace (kind : Kind) (s : Session) (lines : List Bytes) : List OsCall :=
  .create (some s.handle) :: lines.map (.write s.handle) ++ closing kind s.handle

/-- In each session, what there is to read is what the device answers to what is written to the handle. -/
inductive ServedIn (C : BlockCipher) (os : List OsCall) : Device → List Session → Device → Prop
  | nil (D) : ServedIn C os D [] D
  | session (D D1 D' s ss) : Serves C D (writtenTo s.handle os) s.out D1 → ServedIn C os D1 ss D' →
      ServedIn C os D (s :: ss) D'

/-- What the actions of the sessions should give back, and how they should leave the device. -/
inductive SessionsIdeal : Device → List Session → List (Outcome3 Value) → Device → Prop
  | nil (D) : SessionsIdeal D [] [] D
  | session (D D1 D' s ss values rs) : Ideals D s.calls values D1 → SessionsIdeal D1 ss rs D' →
      SessionsIdeal D (s :: ss) (.returned .nothing :: values ++ .returned .nothing :: rs) D'

/-- The program uses the object only through `connect`, `disconnect` and the read and write calls. -/
def Action.Plain : Action → Prop
  | .connect | .disconnect | .call _ => True
  | .send _ | .nextEvent => False

/-- The operating system fails with `OSError` only when it opens or gives up handles. -/
structure OnlyOsErrors (env : OsEnv) : Prop where
  opens : ∀ r ∈ env.opens, OsErr r
  shutdowns : ∀ r ∈ env.shutdowns, OsErr r
  closes : ∀ r ∈ env.closes, OsErr r

/-- Whether a program that has done these actions, with these results, is connected: its last `connect` that returned
came after its last `disconnect` that returned or raised. -/
def connected (steps : List (Action × Outcome3 Value)) : Bool :=
  steps.foldl (fun now step =>
    match step with
    | (.connect, .returned _) => true
    | (.disconnect, .returned _) => false
    | (.disconnect, .raised _) => false
    | _ => now) false

end Spec
