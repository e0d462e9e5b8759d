import Verif.Spec.Protocol
import Verif.Model.Compare
import Verif.Spec.Body
import Verif.Spec.Parameters
/-!
When two answers of a device are the same, and which comes first, in terms of the bytes of their bodies.
-/
namespace Spec
open Elgas

/-- The parts of the body of an answer that a program gets to see: all of an answer to "read values"; all of an answer to
"read time" but its last two bytes (never less than the first seven); nothing of an answer to "write time"; the two numbers,
whether the end mark is zero, and the data of a page of parameters; the archive, three of the four bytes of the record id
(missing ones being zero) and the data of an answer with archive records. -/
def SameBody : ServiceNumber → Bytes → Bytes → Prop
  | .readValues, b, b' => b = b'
  | .readDeviceTime, b, b' => b.take 7 = b'.take 7 ∧ bytesAt b 7 (b.length - 9) = bytesAt b' 7 (b'.length - 9)
  | .writeDeviceTime, _, _ => True
  | .readScadaParameters, b, b' =>
    b.take 4 = b'.take 4 ∧ (leAt b 4 1 = 0 ↔ leAt b' 4 1 = 0) ∧ b.drop 5 = b'.drop 5
  | .readArchives, b, b' | .readArchivesByDate, b, b' =>
    leAt b 0 1 = leAt b' 0 1 ∧ leAt b 1 3 = leAt b' 1 3 ∧ b.drop 5 = b'.drop 5
  | _, _, _ => False

/-- The parts of a call message that a program gets to see: everything between the length and the 141st byte, the station
and the firmware version as texts. -/
def SameMessage (b b' : Bytes) : Prop :=
  bytesAt b 2 17 = bytesAt b' 2 17 ∧ fieldText (bytesAt b 19 17) = fieldText (bytesAt b' 19 17) ∧
  bytesAt b 36 72 = bytesAt b' 36 72 ∧ fieldText (bytesAt b 108 33) = fieldText (bytesAt b' 108 33)

/-- Seconds since the year 2000. -/
def clock (t : DateTime) : Nat := secondsSince2000 t.year t.month t.day t.hour t.minute t.second

/-- One list of numbers comes before another: it is a proper beginning of it, or smaller at the first difference. -/
inductive Precedes : List Nat → List Nat → Prop
  | shorter (y : Nat) (ys : List Nat) : Precedes [] (y :: ys)
  | smaller (x y : Nat) (xs ys : List Nat) (h : x < y) : Precedes (x :: xs) (y :: ys)
  | later (x : Nat) (xs ys : List Nat) (h : Precedes xs ys) : Precedes (x :: xs) (x :: ys)

/-- No element of the list compares less than one before it. -/
def InOrder (l : List Event) : Prop := l.Pairwise fun a b => b.compare .lt a = .ok false

end Spec
