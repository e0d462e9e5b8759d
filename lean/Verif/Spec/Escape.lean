/-!
Specification of the ELGAS escape encoding, independent of the model.
-/
namespace Spec

/-- The wire form of one byte of a frame body: 0x0D, 0x1B and 0x8D are sent as pairs. -/
def escByte (b : UInt8) : List UInt8 :=
  if b = 0x0D then [0x1B, 0x0E]
  else if b = 0x1B then [0x1B, 0x1B]
  else if b = 0x8D then [0x1B, 0x0F]
  else [b]

/-- Wire form of a byte string without its end character. -/
def escBytes (d : List UInt8) : List UInt8 := d.flatMap escByte

/-- Reading from the left in units (an escape byte takes the byte after it with it), does the data
end with an escape byte that has no partner? -/
def dangling : List UInt8 → Bool
  | [] => false
  | [b] => b == 0x1B
  | b :: c :: rest => if b == 0x1B then dangling rest else dangling (c :: rest)

/-- Meaning of the unit `0x1B n`. -/
def unescPair (n : UInt8) : List UInt8 :=
  if n = 0x0E then [0x0D]
  else if n = 0x1B then [0x1B]
  else if n = 0x0F then [0x8D]
  else [0x1B, n]

/-- The units of a byte string, as a relation: `Units d out` says that `d` splits into plain bytes
and escape pairs whose meanings concatenate to `out`. -/
inductive Units : List UInt8 → List UInt8 → Prop
  | nil : Units [] []
  | plain (b : UInt8) (d out : List UInt8) : b ≠ 0x1B → Units d out → Units (b :: d) (b :: out)
  | pair (n : UInt8) (d out : List UInt8) : Units d out → Units (0x1B :: n :: d) (unescPair n ++ out)

/-- Cut a stream after every 0x0D; the bytes after the last 0x0D are dropped. -/
def cutLines : List UInt8 → List UInt8 → List (List UInt8)
  | _, [] => []
  | acc, b :: rest => if b = 0x0D then (acc ++ [b]) :: cutLines [] rest else cutLines (acc ++ [b]) rest

end Spec
