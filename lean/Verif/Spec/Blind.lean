import Verif.Spec.Texts
/-!
Clients that differ in their password only.
-/
namespace Spec
open Elgas

/-- Perform actions one after the other; exceptions come with their texts. -/
def actsT (p : Printing) (look : Look) (C : BlockCipher) (w : World) : List Action → List (OutcomeT Value) × World
  | [] => ([], w)
  | a :: as => ((actT p look C w a).1 :: (actsT p look C (actT p look C w a).2 as).1,
      (actsT p look C (actT p look C w a).2 as).2)

/-- The dates among the arguments of the action are dates of Python. -/
def Action.Dated : Action → Prop
  | .call (.writeTime t _) => t.Valid
  | .call (.readArchiveByTime _ _ t) => t.Valid
  | _ => True

/-- `line` is a request with this service number and body as a client made with `a` puts it on the wire. -/
def LineOf (C : BlockCipher) (a : ClientArgs) (code : UInt8) (body line : Bytes) : Prop :=
  (¬ Encrypting a → returnCharacters line = .ok (frame 0x84 code [0, 0, 0, 0, 0, 0] body)) ∧
  (∀ key keyId, a.encryptionKey = some key → key ≠ [] → a.encryptionKeyId = some keyId →
    ∃ ct, returnCharacters line = .ok (frame 0x85 code [0, 0, 0, 0, 0, 0] ct) ∧
      (⟨keyId, key⟩ : CipherContext).decrypt C ct = .ok body)

/-- Two calls of the operating system that are the same, except that the one writes a request with one password where
the other writes the same request with another. -/
inductive SameCall (C : BlockCipher) (a : ClientArgs) (pw pw' : PyStr) : OsCall → OsCall → Prop
  | same (c : OsCall) : SameCall C a pw pw' c c
  | request (h : Handle) (code : UInt8) (tail line line' : Bytes) :
      LineOf C a code (latin1 pw ++ tail) line → LineOf C a code (latin1 pw' ++ tail) line' →
      SameCall C a pw pw' (.write h line) (.write h line')

/-- The same calls in the same order. -/
def SameCalls (C : BlockCipher) (a : ClientArgs) (pw pw' : PyStr) (l l' : List OsCall) : Prop :=
  l.length = l'.length ∧ ∀ (i : Nat) (c c' : OsCall), l[i]? = some c → l'[i]? = some c' → SameCall C a pw pw' c c'

end Spec
