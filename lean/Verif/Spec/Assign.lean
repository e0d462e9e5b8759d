import Verif.Model.Assign
import Verif.Spec.Program
/-!
Programs that also assign to attributes of the client, of its connection and of its transport.
-/
namespace Spec
open Elgas

/-- One step of such a program: an action (connect, disconnect, a call, ...), an assignment, or replacing the client
by a new one on the same transport. -/
inductive Step
  | act (a : Action)
  | set (x : Setting)
  | renew (a : ClientArgs)

/-- What an assignment or a constructor leads to. A failed one changes nothing. -/
def settled (o : ClientObject) : Res ClientObject → Outcome3 Value × ClientObject
  | .ok o' => (.returned .nothing, o')
  | .error e => (.raised e, o)

/-- Perform a step. -/
def perform (C : BlockCipher) (o : ClientObject) : Step → Outcome3 Value × ClientObject
  | .act a => ((act C o.world a).1, { o with world := (act C o.world a).2 })
  | .set x => settled o (o.set x)
  | .renew a => settled o (o.renew a)

/-- Perform steps one after the other. -/
def performs (C : BlockCipher) (o : ClientObject) : List Step → List (Outcome3 Value) × ClientObject
  | [] => ([], o)
  | s :: ss => ((perform C o s).1 :: (performs C (perform C o s).2 ss).1, (performs C (perform C o s).2 ss).2)

/-- The steps with their results. -/
def trace (C : BlockCipher) (o : ClientObject) (ss : List Step) : List (Step × Outcome3 Value) :=
  ss.zip (performs C o ss).1

/-- Assignments that look as if they would change the key or the password used: the key, key id and password id of
the client, and the password, password id, key and key id of the connection. -/
def cosmetic : Setting → Bool
  | .passwordId _ | .encryptionKey _ | .encryptionKeyId _
  | .connPassword _ | .connPasswordId _ | .connEncryptionKey _ | .connEncryptionKeyId _ => true
  | _ => false

/-- The step is such an assignment. -/
def Step.cosmetic : Step → Bool
  | .set x => Spec.cosmetic x
  | _ => false

/-- The step does not give the client a cipher context: it assigns neither a cipher context nor a connection, and
makes no new client. -/
def Step.NoContext : Step → Prop
  | .act _ => True
  | .set (.cipherContext _) | .set (.connection _) => False
  | .set _ => True
  | .renew _ => False

/-- Two ways to use a client have the same results and do the same to the operating system, whatever follows. -/
def SameFromHere (C : BlockCipher) (o o' : ClientObject) : Prop :=
  ∀ rest : List Step, (performs C o rest).1 = (performs C o' rest).1 ∧
    (performs C o rest).2.world.os = (performs C o' rest).2.world.os

/-- A request in the clear (type 0x84) on the wire. -/
def InTheClear (line : Bytes) : Prop := line.take 3 = [0x02, 0xFE, 0x84]

/-- The step does not replace the buffer of the connection: it assigns neither a buffer nor a connection, and makes no
new client. -/
def Step.KeepsBuffer : Step → Prop
  | .act _ => True
  | .set (.buffer _) | .set (.connection _) => False
  | .set _ => True
  | .renew _ => False

/-- The arguments of a connection with these addresses and the password and key of the client. -/
def addressed (a : ClientArgs) (sa1 sa2 da1 da2 : Int) : ConnArgs :=
  { sourceAddress1 := sa1, sourceAddress2 := sa2, destinationAddress1 := da1, destinationAddress2 := da2,
    password := a.password, passwordId := a.passwordId,
    encryptionKey := toSecretByte a.encryptionKey, encryptionKeyId := a.encryptionKeyId }

end Spec
