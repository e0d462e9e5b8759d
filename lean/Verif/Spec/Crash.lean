import Verif.Spec.Program
/-!
Specification vocabulary for sessions that break off: which lines a device has when the bytes written reach it only up
to some point, and what a client can still read of its answers.
-/
namespace Spec
open Elgas

/-- The lines that begin with `line` and go on with the bytes. -/
def linesFrom (line : Bytes) : Bytes → List Bytes
  | [] => []
  | b :: rest => if b = 0x0D then (line ++ [b]) :: linesFrom [] rest else linesFrom (line ++ [b]) rest

/-- The complete lines of a stream of bytes, each with its end character; a rest without end character is no line. -/
def completeLines (stream : Bytes) : List Bytes := linesFrom [] stream

/-- Of `out`, the first bytes can be read, up to any point, and then nothing more or, first of all, an exception. -/
def Arrives (inbox : List Delivery) (out : Bytes) : Prop :=
  ∃ n more, content inbox = bytesOnly (out.take n) ++ more ∧ (more = [] ∨ ∃ e rest, more = .fail e :: rest)

end Spec
