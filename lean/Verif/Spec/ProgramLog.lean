import Verif.Model.ProgramLog
import Verif.Spec.Log
import Verif.Spec.Program
/-!
Specification vocabulary for the log of a program that uses a client.
-/
namespace Spec
open Elgas

/-- Perform a read or write call, with its log. -/
def wcallL (p : Printing) (look : Look) (C : BlockCipher) (w : World) : Call → List Record × Outcome3 Value × World
  | .readInstantaneousValues =>
    let x := w.readInstantaneousValuesL p look C
    (x.1, x.2.1.andThen (.returned ∘ .event), x.2.2)
  | .readTime =>
    let x := w.readTimeL p look C
    (x.1, x.2.1.andThen (.returned ∘ .time), x.2.2)
  | .writeTime t b =>
    let x := w.writeTimeL p look C t b
    (x.1, x.2.1.andThen fun _ => .returned .nothing, x.2.2)
  | .readParameters n =>
    let x := w.readParametersL p look C n
    (x.1, x.2.1.andThen (.returned ∘ .objects), x.2.2)
  | .readArchive a n i =>
    let x := w.readArchiveL p look C a n i
    (x.1, x.2.1.andThen (.returned ∘ .event), x.2.2)
  | .readArchiveByTime a n t =>
    let x := w.readArchiveByTimeL p look C a n t
    (x.1, x.2.1.andThen (.returned ∘ .event), x.2.2)

/-- Perform an action, with its log.  A password in an event that the program sends itself is a plain `str`. -/
def actL (p : Printing) (look : Look) (C : BlockCipher) (w : World) : Action → List Record × Outcome3 Value × World
  | .connect =>
    let x := w.connectL p look
    (x.1, x.2.1.andThen fun _ => .returned .nothing, x.2.2)
  | .disconnect =>
    let x := w.disconnectL p look
    (x.1, x.2.1.andThen fun _ => .returned .nothing, x.2.2)
  | .call k => wcallL p look C w k
  | .send es =>
    let x := w.sendAllL p look false C es
    (x.1, x.2.1.andThen fun _ => .returned .nothing, x.2.2)
  | .nextEvent =>
    let x := w.nextEventL p look C
    (x.1, x.2.1.andThen (.returned ∘ .event), x.2.2)

/-- The log of a program. -/
def logOf (p : Printing) (look : Look) (C : BlockCipher) (w : World) : List Action → List Record
  | [] => []
  | a :: as => (actL p look C w a).1 ++ logOf p look C (act C w a).2 as

/-- The data written, in order, with the handle it was written to. -/
def writesOf (os : List OsCall) : List (Handle × Bytes) :=
  os.filterMap fun | .write h d => some (h, d) | _ => none

/-- The writes that succeeded; `results` are the outcomes of the writes. -/
def sentTo (os : List OsCall) (results : List (Res Unit)) : List (Handle × Bytes) :=
  ((writesOf os).zip results).filterMap fun x => match x.2 with | .ok () => some x.1 | .error _ => none

/-- The pieces of data of one handle. -/
def onHandle (h : Handle) (pieces : List (Handle × Bytes)) : List Bytes :=
  (pieces.filter fun x => x.1 = h).map (·.2)

/-- From what a handle had to read, `pieces` were read in order and `left` has not been read; what else was read are
bytes before an exception of the operating system, and bytes of a line that does not end. -/
inductive Took : List Item → List Bytes → List Item → Prop
  | nothing (left) : Took left [] left
  | piece (start pieces d left) : Took start pieces (bytesOnly d ++ left) → d ≠ [] → Took start (pieces ++ [d]) left
  | failed (start pieces bs e left) : Took start pieces (bytesOnly bs ++ .fail e :: left) → 0x0D ∉ bs →
      Took start pieces left
  | unended (start pieces bs) : Took start pieces (bytesOnly bs) → 0x0D ∉ bs → Took start pieces []

/-- The records of a log with a given text. -/
def recordsOf (event : String) (log : List Record) : List Record := log.filter fun r => r.event = event

/-- The text of the record of a successful `connect`. -/
def connectedText (p : Printing) (look : Look) : String := "Connected to " ++ look.address p

/-- The text of the record of a successful `disconnect`. -/
def closedText (p : Printing) (look : Look) : String := "Connection to " ++ look.address p ++ " is closed"

/-- The records of connections made and closed that a program should have logged, given its actions and their
results; `now`: the program is connected. -/
def lifecycle (p : Printing) (look : Look) : Bool → List (Action × Outcome3 Value) → List Record
  | _, [] => []
  | _, (.connect, .returned _) :: steps => info (connectedText p look) :: lifecycle p look true steps
  | true, (.disconnect, .returned _) :: steps => info (closedText p look) :: lifecycle p look false steps
  | _, (.disconnect, .returned _) :: steps => lifecycle p look false steps
  | _, (.disconnect, .raised _) :: steps => lifecycle p look false steps
  | now, _ :: steps => lifecycle p look now steps

/-- The program sends no password itself. -/
def Action.NoPassword : Action → Prop
  | .send es => ∀ e ∈ es, passwordOf e = none
  | _ => True

end Spec
