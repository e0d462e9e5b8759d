import Verif.Model.Args
import Verif.Model.Connection
/-!
Connections whose arguments and attributes are values of any type.  Unlike the client, an `ElgasConnection` converts
nothing: the arguments become its attributes as they are, and its validators only compare them.

Not modelled: other types than those of `Arg`, and what the log shows of such attributes.
-/
namespace Elgas

/-- The arguments of `ElgasConnection(...)` connection.py:80-99. -/
structure AnyArgs where
  sourceAddress1 : Arg
  sourceAddress2 : Arg
  destinationAddress1 : Arg
  destinationAddress2 : Arg
  password : Arg
  passwordId : Arg
  encryptionKey : Arg := .none
  encryptionKeyId : Arg := .none
  deriving DecidableEq, Repr

/-- An `ElgasConnection` object connection.py:80-106; `context` has the `key_id` and the `key` of its cipher context
(security.py:42-45). -/
structure AnyConn where
  args : AnyArgs
  buffer : Bytes
  state : PState
  context : Option (Arg × Arg)
  deriving DecidableEq, Repr

/-- `len(x)`. connection.py:93 (`validators.max_len`). -/
def Arg.len : Arg → Res Nat
  | .str s => .ok s.length
  | .bytes b => .ok b.length
  | .ints l => .ok l.length
  | _ => raise .type

/-- `create_cipher_context` connection.py:34-45: only `None` is no key (not what counts as false). -/
def createAnyContext (a : AnyArgs) : Option (Arg × Arg) :=
  match a.encryptionKey, a.encryptionKeyId with
  | .none, _ => Option.none
  | _, .none => Option.none
  | key, keyId => some (keyId, key)

/-- The validators `[ge(lo), le(hi)]` of an attribute. connection.py:80-91, 94-96. -/
def Arg.validate (lo hi : Int) (x : Arg) : Res Unit := do
  if ¬ (← x.ge lo) then raise .value
  if ¬ (← x.le hi) then raise .value

/-- The validator `max_len(n)` of an attribute. connection.py:93. -/
def Arg.validateLen (n : Nat) (x : Arg) : Res Unit := do
  if ¬ ((← x.len) ≤ n) then raise .value

/-- `ElgasConnection(...)` connection.py:68-106: the validators run in the order of the attributes. -/
def mkAnyConn (a : AnyArgs) : Res AnyConn := do
  a.sourceAddress1.validate 0 65535
  a.sourceAddress2.validate 0 255
  a.destinationAddress1.validate 0 65535
  a.destinationAddress2.validate 0 255
  a.password.validateLen 6
  a.passwordId.validate 801 849
  return { args := a, buffer := [], state := .idle, context := createAnyContext a }

/-- `x.to_bytes(w, "big")`: only `int` and `bool` have it. frames.py:36, 38. -/
def Arg.toBytesBig (w : Nat) (x : Arg) : Res Bytes :=
  match x.index with
  | some n => toBytesBE w n
  | Option.none => raise .attribute

/-- `Request.to_bytes` frames.py:29-47 with the addresses of the connection. -/
def anyRequestToBytes (ty : UInt8) (service : ServiceNumber) (a : AnyArgs) (data : Bytes) : Res Bytes := do
  let svc ← toByte service.value
  let len ← toBytesLE 2 (data.length + 15 : Nat)
  let d1 ← a.destinationAddress1.toBytesBig 2
  let d2 ← a.destinationAddress2.append
  let s1 ← a.sourceAddress1.toBytesBig 2
  let s2 ← a.sourceAddress2.append
  return appendRedundancy ([0x02, 0xFE, ty, svc] ++ len ++ d1 ++ [d2] ++ s1 ++ [s2] ++ data)

/-- `CipherContext.encrypt` security.py:55-69: `bytearray.append(key_id)`, then `algorithms.AES(key)` (`TypeError` unless
the key is bytes; security.py:93-96). -/
def anyEncrypt (C : BlockCipher) (keyId key : Arg) (data : Bytes) (r : PadRand) : Res Bytes := do
  let _ ← toBytesLE 2 data.length
  match keyId.index, key with
  | Option.none, _ => raise .type
  | some n, .bytes b => ({ keyId := n, key := b } : CipherContext).encrypt C data r
  | some n, _ => do
    let _ ← toByte n
    raise .type

/-- `key_id == x` where `key_id` is a byte. security.py:76. -/
def Arg.equalsByte (x : Arg) (n : UInt8) : Bool :=
  match x with
  | .bool b => decide ((n.toNat : Int) = if b then 1 else 0)
  | .int i => decide ((n.toNat : Int) = i)
  | .float b => finite64 b && decide (((n.toNat : Int) : Rat) = value64 b)
  | _ => false

/-- `CipherContext.decrypt` security.py:71-90: the assertion comes before the key is looked at (`TypeError` unless it is
bytes, security.py:101-104). -/
def anyDecrypt (C : BlockCipher) (keyId key : Arg) (inData : Bytes) : Res Bytes := do
  let header := sliceTo inData 3
  let n ← pyGet header 2
  if ¬ keyId.equalsByte n then raise .assertion
  match key with
  | .bytes b => ({ keyId := n.toNat, key := b } : CipherContext).decrypt C inData
  | _ => raise .type

/-- `send` after the state change: connection.py:112-139. -/
def AnyConn.serialise (C : BlockCipher) (c : AnyConn) (e : Event) (r : Rand) : Res Bytes := do
  let applicationData ← e.toBytes r
  match c.context with
  | some (keyId, key) => do
    let service ← e.service
    let data ← anyEncrypt C keyId key applicationData r.pad
    let frameData ← anyRequestToBytes encryptedRequestType service c.args data
    escapeCharacters frameData
  | Option.none => do
    let service ← e.service
    let frameData ← anyRequestToBytes requestType service c.args applicationData
    escapeCharacters frameData

/-- `ElgasConnection.send` connection.py:108-139. -/
def AnyConn.send (C : BlockCipher) (c : AnyConn) (e : Event) (r : Rand) : AnyConn × Res Bytes :=
  match processEvent c.state e with
  | .error x => (c, .error x)
  | .ok s' =>
    let c' := { c with state := s' }
    (c', c'.serialise C e r)

/-- `ElgasConnection.receive_data` connection.py:141-158: what counts as false is ignored; `bytearray += x` raises
`TypeError` unless `x` is bytes, a list of ints included. -/
def AnyConn.receiveData (c : AnyConn) (data : Arg) : AnyConn × Res Unit :=
  if ¬ data.truth then (c, .ok ())
  else
    match data with
    | .bytes b =>
      if b = [0x0D] ∧ c.buffer.length = 0 then (c, .ok ())
      else ({ c with buffer := c.buffer ++ b }, .ok ())
    | _ => (c, raise .type)

/-- The `try` block connection.py:175-185. -/
def AnyConn.interpret (C : BlockCipher) (c : AnyConn) (data : Bytes) : Res Frame := do
  let raw ← returnCharacters data
  let (encrypted, response) ← responseFactory raw
  let response ←
    if encrypted then
      match c.context with
      | Option.none => raise .attribute   -- None.decrypt
      | some (keyId, key) => do
        let d ← anyDecrypt C keyId key response.data
        pure { response with data := d }
    else pure response
  if response.data.length = 1 then raiseError response.data
  return response

/-- `next_event` connection.py:160-197; `none` is `NEED_DATA`. -/
def AnyConn.nextEvent (C : BlockCipher) (c : AnyConn) : AnyConn × Res (Option Event) :=
  if c.buffer.isEmpty then (c, .ok Option.none)
  else
    match indexEnd c.buffer with
    | Option.none => (c, .ok Option.none)
    | some i =>
      let data := sliceTo c.buffer ((i : Int) + 1)
      match c.interpret C data with
      | .error e => if e.isValueError then (c, .ok Option.none) else (c, .error e)
      | .ok response =>
        match pduFromResponse response with
        | .error e => (c, .error e)
        | .ok pdu =>
          match processEvent c.state pdu with
          | .error e => (c, .error e)
          | .ok s' => ({ c with state := s', buffer := [] }, .ok (some pdu))

/-- An assignment to an attribute of a connection, or of its cipher context (`TypeError`-free: attrs does not validate
assignments of `attr.s` classes). connection.py:80-106, security.py:42-45. -/
inductive AnySetting
  | sourceAddress1 (x : Arg)
  | sourceAddress2 (x : Arg)
  | destinationAddress1 (x : Arg)
  | destinationAddress2 (x : Arg)
  | password (x : Arg)
  | passwordId (x : Arg)
  | encryptionKey (x : Arg)
  | encryptionKeyId (x : Arg)
  | cipherContext (x : Option (Arg × Arg))   -- connection.cipher_context = None, or CipherContext(key_id, key)
  deriving DecidableEq, Repr

/-- Perform an assignment. connection.py:80-106. -/
def AnyConn.set (c : AnyConn) : AnySetting → AnyConn
  | .sourceAddress1 x => { c with args := { c.args with sourceAddress1 := x } }
  | .sourceAddress2 x => { c with args := { c.args with sourceAddress2 := x } }
  | .destinationAddress1 x => { c with args := { c.args with destinationAddress1 := x } }
  | .destinationAddress2 x => { c with args := { c.args with destinationAddress2 := x } }
  | .password x => { c with args := { c.args with password := x } }
  | .passwordId x => { c with args := { c.args with passwordId := x } }
  | .encryptionKey x => { c with args := { c.args with encryptionKey := x } }
  | .encryptionKeyId x => { c with args := { c.args with encryptionKeyId := x } }
  | .cipherContext x => { c with context := x }

end Elgas
