import Verif.Model.Own
import Verif.Spec.Device
/-!
What matters about a connection, and what its requests look like on the wire.
-/
namespace Spec
open Elgas

/-- The connections agree in their addresses, in what they have received, in what they wait for and in the cipher
context they use.  They may differ in password, password id, key and key id. -/
def Alike (c c' : Conn) : Prop :=
  c.args.sourceAddress1 = c'.args.sourceAddress1 ∧ c.args.sourceAddress2 = c'.args.sourceAddress2 ∧
  c.args.destinationAddress1 = c'.args.destinationAddress1 ∧ c.args.destinationAddress2 = c'.args.destinationAddress2 ∧
  c.buffer = c'.buffer ∧ c.state = c'.state ∧ c.cipherContext = c'.cipherContext

/-- `w` is the request `e` on the wire: escaped, with the addresses `a` (destination before source), under the cipher
context if there is one (type 0x85), in the clear otherwise (type 0x84). -/
def OnLine (C : BlockCipher) (a : ConnArgs) (context : Option CipherContext) (e : Event) (w : Bytes) : Prop :=
  ∃ r code body, requestCode e.type = some code ∧ e.toBytes r = .ok body ∧
    match context with
    | none => returnCharacters w = .ok (frame 0x84 code
        (be2 a.destinationAddress1.toNat ++ [UInt8.ofNat a.destinationAddress2.toNat] ++
          be2 a.sourceAddress1.toNat ++ [UInt8.ofNat a.sourceAddress2.toNat]) body)
    | some x => ∃ ct, x.decrypt C ct = .ok body ∧ returnCharacters w = .ok (frame 0x85 code
        (be2 a.destinationAddress1.toNat ++ [UInt8.ofNat a.destinationAddress2.toNat] ++
          be2 a.sourceAddress1.toNat ++ [UInt8.ofNat a.sourceAddress2.toNat]) ct)

/-- The cipher context is that of the device: none if the device talks in the clear. -/
def Matches (context : Option CipherContext) (D : Device) : Prop :=
  match D.key with
  | none => context = none
  | some (keyId, key) => context = some ⟨keyId.toNat, key⟩

end Spec
