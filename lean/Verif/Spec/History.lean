import Verif.Spec.Client
/-!
Specification vocabulary for whole histories of calls on a connection: what has been received since the
last delivered PDU, and which request is pending.  Everything here is read off the calls and their
results; the connection object is not looked at.
-/
namespace Spec
open Elgas

/-- The calls `ops`, each with its result. -/
def history (C : BlockCipher) (c : Conn) (ops : List Op) : List (Op × Outcome) :=
  ops.zip (run C c ops).2

/-- The chunks handed to `receive_data` after the last call of `next_event` that returned a PDU
(`acc`: the chunks so far). -/
def chunksSince (acc : List Bytes) : List (Op × Outcome) → List Bytes
  | [] => acc
  | (.receive d, _) :: h => chunksSince (acc ++ [d]) h
  | (.poll, .polled (.ok (some _))) :: h => chunksSince [] h
  | _ :: h => chunksSince acc h

/-- The response type that is awaited after the observations: that of the last accepted request, unless
something has been returned since. -/
def pending (os : List Obs) : Option EventType :=
  match os.getLast? with
  | some (.accepted t) => responseOf t
  | _ => none

/-- The exceptions that `next_event` raises besides the device errors. -/
def pollErrors : List PyErr :=
  [.attribute, .index, .assertion, .value, .key, .elgas .localProtocol]

/-- The exceptions that `send` raises for a request. -/
def sendErrors : List PyErr := [.elgas .localProtocol, .unicodeEncode, .value, .overflow]

/-- The exceptions that the parser of parameter lists raises. -/
def parseErrors : List PyErr := [.value, .index, .key, .attribute, .type, .assertion]

/-- The exceptions of the eight device errors. -/
def IsDeviceError (x : PyErr) : Prop := ∃ k e, errorOfBit k = some e ∧ x = .elgas e

/-- The exceptions to be expected from sending a request and waiting for its response: those of `send`
and `next_event`, the device errors, and whatever the transport raises. -/
def Expected (s : Sys) (x : PyErr) : Prop :=
  x ∈ sendErrors ∨ x ∈ pollErrors ∨ IsDeviceError x ∨ .error x ∈ s.sends ∨ .error x ∈ s.recvs

end Spec
