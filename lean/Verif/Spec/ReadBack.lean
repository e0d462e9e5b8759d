import Verif.Spec.ProgramLog
/-!
How to read what the log prints: numbers, string and bytes literals, times, and the lines of connections made and
closed.  Nothing here uses the functions that print.
-/
namespace Spec
open Elgas

/-- The rest of a text after a given beginning. -/
def afterText (start : String) (text : PyStr) : Option PyStr :=
  if text.take start.length = start.toList then some (text.drop start.length) else none

/-- The number at the beginning of a text, and what follows. -/
def readNat (text : PyStr) : Nat × PyStr :=
  ((text.takeWhile Char.isDigit).foldl (fun n c => 10 * n + (c.toNat - '0'.toNat)) 0, text.dropWhile Char.isDigit)

/-- What follows (a number) does not begin with a digit. -/
def NoDigit (r : PyStr) : Prop := ∀ c ∈ r.head?, c.isDigit = false

/-- The number, with a sign, at the beginning of a text, and what follows. -/
def readInt : PyStr → Int × PyStr
  | '-' :: text => (-(readNat text).1, (readNat text).2)
  | text => ((readNat text).1, (readNat text).2)

/-- The number that `w` hexadecimal digits stand for, and what follows. -/
def readHex : Nat → PyStr → Option (Nat × PyStr)
  | 0, text => some (0, text)
  | w + 1, text =>
    match readHex w text with
    | some (n, d :: text) => (hexVal d).map fun x => (16 * n + x, text)
    | _ => none

/-- The character that a literal begins with, and what follows: an escape sequence of Python, or the character
itself. -/
def readChar : PyStr → Option (Char × PyStr)
  | [] => none
  | c :: text =>
    if c ≠ '\\' then some (c, text) else
    match text with
    | [] => none
    | k :: text =>
      if k = 't' then some ('\t', text)
      else if k = 'n' then some ('\n', text)
      else if k = 'r' then some ('\r', text)
      else if k = 'x' then (readHex 2 text).map fun x => (Char.ofNat x.1, x.2)
      else if k = 'u' then (readHex 4 text).map fun x => (Char.ofNat x.1, x.2)
      else if k = 'U' then (readHex 8 text).map fun x => (Char.ofNat x.1, x.2)
      else some (k, text)

/-- The characters up to the closing quote (at most `n`), and what follows the quote. -/
def readUntil (quote : Char) : Nat → PyStr → Option (PyStr × PyStr)
  | _, [] => none
  | 0, c :: text => if c = quote then some ([], text) else none
  | n + 1, c :: text =>
    if c = quote then some ([], text) else
    match readChar (c :: text) with
    | none => none
    | some (x, text) => (readUntil quote n text).map fun y => (x :: y.1, y.2)

/-- The string literal at the beginning of a text, and what follows. -/
def readStr : PyStr → Option (PyStr × PyStr)
  | [] => none
  | quote :: text => readUntil quote text.length text

/-- The bytes literal `b'...'` at the beginning of a text, and what follows. -/
def readBytes : PyStr → Option (Bytes × PyStr)
  | 'b' :: text => (readStr text).map fun x => (x.1.map fun c => UInt8.ofNat c.toNat, x.2)
  | _ => none

/-- The bytes of `bytearray(b'...')` at the beginning of a text, and what follows. -/
def readBytearray (text : PyStr) : Option (Bytes × PyStr) :=
  match (afterText "bytearray(" text).bind readBytes with
  | some (b, ')' :: text) => some (b, text)
  | _ => none

/-- The time written as `2020-02-29T23:59:59`, with or without a fraction of six digits. -/
def readIso (text : PyStr) : DateTime where
  year := (readNat text).1
  month := (readNat (text.drop 5)).1
  day := (readNat (text.drop 8)).1
  hour := (readNat (text.drop 11)).1
  minute := (readNat (text.drop 14)).1
  second := (readNat (text.drop 17)).1
  microsecond := (readNat (text.drop 20)).1

/-- The data in the printed records with a given event text; each record is its event text followed by its
arguments, the data being the first. -/
def dataIn (event : String) (lines : List (List PyStr)) : List (Option Bytes) :=
  lines.filterMap fun line =>
    if line.head? = some event.toList then
      some (((line[1]?).bind (afterText "data=")).bind readBytes |>.map (·.1))
    else none

/-- What the text of a printed record says of a connection: made (`true`) or closed, and with which address. -/
def lifeIn (text : PyStr) : Option (Bool × PyStr) :=
  match afterText "Connected to " text with
  | some address => some (true, address)
  | none =>
    match afterText "Connection to " text with
    | some rest =>
      if rest.drop (rest.length - 10) = " is closed".toList then some (false, rest.take (rest.length - 10)) else none
    | none => none

/-- The connections made and closed according to a printed log. -/
def livesIn (lines : List (List PyStr)) : List (Bool × PyStr) :=
  lines.filterMap fun line => line.head?.bind lifeIn

/-- Host and port of an address `('host', port)`. -/
def readAddress (text : PyStr) : Option (PyStr × Int) :=
  match (afterText "(" text).bind readStr with
  | some (host, ',' :: ' ' :: text) => if (readInt text).2 = [')'] then some (host, (readInt text).1) else none
  | _ => none

/-- Connections made (`true`) and closed by a program, given its actions and their results; `now`: it is
connected. -/
def lives : Bool → List (Action × Outcome3 Value) → List Bool
  | _, [] => []
  | _, (.connect, .returned _) :: steps => true :: lives true steps
  | true, (.disconnect, .returned _) :: steps => false :: lives false steps
  | _, (.disconnect, .returned _) :: steps => lives false steps
  | _, (.disconnect, .raised _) :: steps => lives false steps
  | now, _ :: steps => lives now steps

end Spec
