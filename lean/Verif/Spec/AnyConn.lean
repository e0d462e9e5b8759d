import Verif.Model.AnyConn
import Verif.Spec.Args
import Verif.Spec.Protocol
/-!
Vocabulary for connections whose attributes are of any type.
-/
namespace Spec
open Elgas

/-- The argument is a number in the range, a float included (but no NaN and no infinity). -/
inductive Between (lo hi : Int) : Arg → Prop
  | number (x n) : Number x n → lo ≤ n → n ≤ hi → Between lo hi x
  | float (b : Nat) : finite64 b → (lo : Rat) ≤ value64 b → value64 b ≤ (hi : Rat) → Between lo hi (.float b)

/-- The argument has a length, and it is at most this. -/
inductive Short (n : Nat) : Arg → Prop
  | str (s : PyStr) : s.length ≤ n → Short n (.str s)
  | bytes (b : Bytes) : b.length ≤ n → Short n (.bytes b)
  | ints (l : List Int) : l.length ≤ n → Short n (.ints l)

/-- What a connection can be created with. -/
structure Creates (a : AnyArgs) : Prop where
  sourceAddress1 : Between 0 65535 a.sourceAddress1
  sourceAddress2 : Between 0 255 a.sourceAddress2
  destinationAddress1 : Between 0 65535 a.destinationAddress1
  destinationAddress2 : Between 0 255 a.destinationAddress2
  password : Short 6 a.password
  passwordId : Between 801 849 a.passwordId

/-- A key id and a key of the declared types. -/
inductive TypedContext : Option (Arg × Arg) → Option CipherContext → Prop
  | none : TypedContext none none
  | some (x n key) : Number x n → TypedContext (some (x, .bytes key)) (some { keyId := n, key })

/-- A connection whose addresses, key id and key are those of one with the declared types.  Passwords, the password id
and the key and key id a connection was created with may be anything. -/
structure TypedAs (c : AnyConn) (t : Conn) : Prop where
  sourceAddress1 : Number c.args.sourceAddress1 t.args.sourceAddress1
  sourceAddress2 : Number c.args.sourceAddress2 t.args.sourceAddress2
  destinationAddress1 : Number c.args.destinationAddress1 t.args.destinationAddress1
  destinationAddress2 : Number c.args.destinationAddress2 t.args.destinationAddress2
  context : TypedContext c.context t.cipherContext
  buffer : c.buffer = t.buffer
  state : c.state = t.state

/-- One step of a program that uses a connection. -/
inductive AnyOp
  | send (e : Event) (r : Rand)
  | receive (data : Arg)
  | poll
  | set (x : AnySetting)

/-- What a step led to. -/
inductive AnyOutcome
  | sent (e : Event) (x : Res Bytes)
  | received (x : Res Unit)
  | polled (x : Res (Option Event))
  | assigned

/-- Perform a step. -/
def anyStep (C : BlockCipher) (c : AnyConn) : AnyOp → AnyConn × AnyOutcome
  | .send e r => ((c.send C e r).1, .sent e (c.send C e r).2)
  | .receive d => ((c.receiveData d).1, .received (c.receiveData d).2)
  | .poll => ((c.nextEvent C).1, .polled (c.nextEvent C).2)
  | .set x => (c.set x, .assigned)

/-- Perform steps one after the other. -/
def anyRun (C : BlockCipher) (c : AnyConn) : List AnyOp → AnyConn × List AnyOutcome
  | [] => (c, [])
  | op :: ops => ((anyRun C (anyStep C c op).1 ops).1, (anyStep C c op).2 :: (anyRun C (anyStep C c op).1 ops).2)

/-- The step says the same as a call with the declared types: assignments do not count, nor does data that counts as
false or that is no bytes. -/
inductive SaysOp : AnyOp → Option Op → Prop
  | send (e r) : SaysOp (.send e r) (some (.send e r))
  | receive (b) : SaysOp (.receive (.bytes b)) (some (.receive b))
  | noData (x) : (∀ b, x ≠ .bytes b) → SaysOp (.receive x) none
  | poll : SaysOp .poll (some .poll)
  | password (x) : SaysOp (.set (.password x)) none
  | passwordId (x) : SaysOp (.set (.passwordId x)) none
  | encryptionKey (x) : SaysOp (.set (.encryptionKey x)) none
  | encryptionKeyId (x) : SaysOp (.set (.encryptionKeyId x)) none

/-- A result says the same as that of the call with the declared types. -/
inductive SaysOutcome : AnyOutcome → Option Outcome → Prop
  | sent (e x) : SaysOutcome (.sent e x) (some (.sent e x))
  | received : SaysOutcome (.received (.ok ())) (some .received)
  | nothing (x) : SaysOutcome (.received x) none
  | polled (x) : SaysOutcome (.polled x) (some (.polled x))
  | assigned : SaysOutcome .assigned none

/-- An attribute as it goes into a request: as one byte or as a number of some bytes, or as a key. -/
inductive Slot
  | field (f : Field)
  | key (x : Arg)

/-- What a connection puts into a request besides the body, in this order: first, if it has a cipher context, its key id
and its key, then the addresses. -/
def slots (c : AnyConn) : List Slot :=
  (match c.context with | none => [] | some (keyId, key) => [.field (.byte keyId), .key key]) ++
    [.field (.number 2 c.args.destinationAddress1), .field (.byte c.args.destinationAddress2),
     .field (.number 2 c.args.sourceAddress1), .field (.byte c.args.sourceAddress2)]

/-- An attribute that cannot go into a request, and the exception. -/
inductive Unfit : Slot → PyErr → Prop
  | field (f e) : Unwritable f e → Unfit (.field f) e
  | noKey (x) : (∀ b, x ≠ .bytes b) → Unfit (.key x) .type
  | key (b) : b.length ≠ 16 → Unfit (.key (.bytes b)) .value

/-- The first attribute that cannot go into a request raises this exception. -/
def FirstUnfit (c : AnyConn) (e : PyErr) : Prop :=
  ∃ before s after, slots c = before ++ s :: after ∧ (∀ g ∈ before, ∀ x, ¬ Unfit g x) ∧ Unfit s e

/-- The attribute equals a number, a float included. -/
inductive EqualTo : Arg → Int → Prop
  | number (x : Arg) (n : Int) : Number x n → EqualTo x n
  | float (b : Nat) (n : Int) : finite64 b → value64 b = (n : Rat) → EqualTo (.float b) n

/-- A key id and a key that open the same answers as those of the declared types: the key id equals the other one, and
the key is bytes. -/
inductive ReadsAs : Option (Arg × Arg) → Option CipherContext → Prop
  | none : ReadsAs none none
  | some (x : Arg) (n : Int) (key : Bytes) : EqualTo x n → ReadsAs (some (x, .bytes key)) (some { keyId := n, key })

/-- A key id and a key that can open an answer at all: the key id equals a byte, and the key is bytes. -/
inductive Opens : Option (Arg × Arg) → Prop
  | some (x : Arg) (n : Int) (key : Bytes) : EqualTo x n → 0 ≤ n → n < 256 → Opens (some (x, .bytes key))

/-- The next complete line that a connection has received is an encrypted response. -/
def EncryptedNext (c : AnyConn) : Prop :=
  ∃ line rest raw, 0x0D ∉ line ∧ c.buffer = line ++ 0x0D :: rest ∧ returnCharacters (line ++ [0x0D]) = .ok raw ∧
    raw.take 3 = [0x02, 0xFE, 0x87]

end Spec
