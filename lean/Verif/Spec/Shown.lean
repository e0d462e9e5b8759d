import Verif.Model.Log
/-!
What is printed of an object, but for its secrets: vocabulary.
-/
namespace Spec
open Elgas

/-- The archive argument of a request prints as numbers and enumeration members do: without `,` and `)`, and different
archives differently. -/
structure ArchivesPrint (p : Printing) : Prop where
  inside : ∀ n, ∀ c ∈ p.archive n, c ≠ ',' ∧ c ≠ ')'
  distinct : ∀ n n', p.archive n = p.archive n' → n = n'

/-- How an archive prints that is given as a member of `Archive` where there is one. -/
def archiveText (n : Int) : PyStr :=
  match Archive.all.find? fun a => (a.value : Int) == n with
  | some a => "<Archive.".toList ++ a.name.toList ++ ": ".toList ++ pyStrInt n ++ ['>']
  | none => pyStrInt n

/-- The classes of frames.py. -/
inductive FrameClass
  | request | encryptedRequest | response | encryptedResponse

/-- A frame object, as the log prints it. -/
def printedFrame : FrameClass → Frame → PyVal
  | .request, f => frameVal "Request" f .bytes
  | .encryptedRequest, f => frameVal "EncryptedRequest" f .bytearray
  | .response, f => frameVal "Response" f .bytes
  | .encryptedResponse, f => frameVal "EncryptedResponse" f .bytes

/-- A connection without its secrets: password and keys are blotted out. -/
def blotted (c : Conn) : Conn :=
  { c with args := { c.args with password := [], encryptionKey := c.args.encryptionKey.map fun _ => [] },
           cipherContext := c.cipherContext.map fun x => { x with key := [] } }

end Spec
