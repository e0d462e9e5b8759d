import Verif.Model.Application
import Verif.Model.Security
/-!
Model of /repo/elgas/state.py and /repo/elgas/connection.py.
-/
namespace Elgas

/-- Any object of application.py that can be handed to `send` / `process_event`. -/
inductive Event
  | readInstantaneousValuesRequest (q : ReadInstantaneousValuesRequest)
  | readTimeRequest (q : ReadTimeRequest)
  | writeTimeRequest (q : WriteTimeRequest)
  | readDeviceParametersRequest (q : ReadDeviceParametersRequest)
  | readArchiveByTimeRequest (q : ReadArchiveByTimeRequest)
  | readArchiveRequest (q : ReadArchiveRequest)
  | readInstantaneousValuesResponse (p : ReadInstantaneousValuesResponse)
  | readTimeResponse (p : ReadTimeResponse)
  | writeTimeResponse (p : WriteTimeResponse)
  | readDeviceParametersResponse (p : ReadDeviceParametersResponse)
  | readArchiveByTimeResponse (p : ReadArchiveByTimeResponse)
  | readArchiveResponse (p : ReadArchiveResponse)
  | callRequest (p : CallRequest)
  | callResponse (p : CallResponse)
  deriving DecidableEq, Repr

/-- `type(event)` state.py:84. -/
inductive EventType
  | readInstantaneousValuesRequest | readTimeRequest | writeTimeRequest
  | readDeviceParametersRequest | readArchiveByTimeRequest | readArchiveRequest
  | readInstantaneousValuesResponse | readTimeResponse | writeTimeResponse
  | readDeviceParametersResponse | readArchiveByTimeResponse | readArchiveResponse
  | callRequest | callResponse
  deriving DecidableEq, Repr

/-- `type(event)` state.py:84. -/
def Event.type : Event → EventType
  | .readInstantaneousValuesRequest _ => .readInstantaneousValuesRequest
  | .readTimeRequest _ => .readTimeRequest
  | .writeTimeRequest _ => .writeTimeRequest
  | .readDeviceParametersRequest _ => .readDeviceParametersRequest
  | .readArchiveByTimeRequest _ => .readArchiveByTimeRequest
  | .readArchiveRequest _ => .readArchiveRequest
  | .readInstantaneousValuesResponse _ => .readInstantaneousValuesResponse
  | .readTimeResponse _ => .readTimeResponse
  | .writeTimeResponse _ => .writeTimeResponse
  | .readDeviceParametersResponse _ => .readDeviceParametersResponse
  | .readArchiveByTimeResponse _ => .readArchiveByTimeResponse
  | .readArchiveResponse _ => .readArchiveResponse
  | .callRequest _ => .callRequest
  | .callResponse _ => .callResponse

/-- Protocol states state.py:33-46. -/
inductive PState
  | idle
  | awaitingReadActualValuesResponse
  | awaitingReadDeviceParametersResponse
  | awaitingReadTimeResponse
  | awaitingReadArchiveByTimeResponse
  | awaitingReadArchiveResponse
  | awaitingWriteTimeResponse
  deriving DecidableEq, Repr

/-- `ELGAS_STATE_TRANSITIONS[state][event_type]` state.py:50-71, `none` for the `KeyError`. -/
def transitions : PState → EventType → Option PState
  | .idle, .readInstantaneousValuesRequest => some .awaitingReadActualValuesResponse
  | .idle, .readDeviceParametersRequest => some .awaitingReadDeviceParametersResponse
  | .idle, .readTimeRequest => some .awaitingReadTimeResponse
  | .idle, .readArchiveByTimeRequest => some .awaitingReadArchiveByTimeResponse
  | .idle, .readArchiveRequest => some .awaitingReadArchiveResponse
  | .idle, .writeTimeRequest => some .awaitingWriteTimeResponse
  | .awaitingReadActualValuesResponse, .readInstantaneousValuesResponse => some .idle
  | .awaitingReadDeviceParametersResponse, .readDeviceParametersResponse => some .idle
  | .awaitingReadTimeResponse, .readTimeResponse => some .idle
  | .awaitingReadArchiveByTimeResponse, .readArchiveByTimeResponse => some .idle
  | .awaitingReadArchiveResponse, .readArchiveResponse => some .idle
  | .awaitingWriteTimeResponse, .writeTimeResponse => some .idle
  | _, _ => none

/-- `ElgasState.process_event` state.py:82-94: the new state, or `LocalElgasProtocolError` (state
unchanged). -/
def processEvent (s : PState) (e : Event) : Res PState :=
  match transitions s e.type with
  | some s' => .ok s'
  | none => raise (.elgas .localProtocol)

/-- The random draws of one `send`: `random.choices` of `pad_password` and `random.randint` of
`data_padding`. utils.py:177, security.py:37. -/
structure Rand where
  pw : PwRand
  pad : PadRand

/-- `event.to_bytes()` connection.py:112: response classes have no `to_bytes`
(`AttributeError`). -/
def Event.toBytes : Event → Rand → Res Bytes
  | .readInstantaneousValuesRequest q, r => q.toBytes r.pw
  | .readTimeRequest q, _ => q.toBytes
  | .writeTimeRequest q, r => q.toBytes r.pw
  | .readDeviceParametersRequest q, r => q.toBytes r.pw
  | .readArchiveByTimeRequest q, r => q.toBytes r.pw
  | .readArchiveRequest q, r => q.toBytes r.pw
  | .callResponse q, _ => q.toBytes
  | _, _ => raise .attribute

/-- `event.service` connection.py:118, 128 (class attributes of application.py; `CallResponse` has
none). -/
def Event.service : Event → Res ServiceNumber
  | .readInstantaneousValuesRequest _ => .ok .readValues            -- application.py:30
  | .readTimeRequest _ => .ok .readDeviceTime                       -- application.py:86-88
  | .writeTimeRequest _ => .ok .writeDeviceTime                     -- application.py:134-136
  | .readDeviceParametersRequest _ => .ok .readScadaParameters      -- application.py:174-176
  | .readArchiveByTimeRequest _ => .ok .readArchivesByDate          -- application.py:222-224
  | .readArchiveRequest _ => .ok .readArchives                      -- application.py:269
  | .readInstantaneousValuesResponse _ => .ok .readValues           -- application.py:45
  | .readTimeResponse _ => .ok .readDeviceTime                      -- application.py:101-103
  | .writeTimeResponse _ => .ok .readDeviceTime                     -- application.py:161-163
  | .readDeviceParametersResponse _ => .ok .readScadaParameters     -- application.py:195-197
  | .readArchiveByTimeResponse _ => .ok .readArchivesByDate         -- application.py:245-247
  | .readArchiveResponse _ => .ok .readArchives                     -- application.py:290
  | .callRequest _ => .ok .call                                     -- application.py:315
  | .callResponse _ => raise .attribute

/-- The arguments of `ElgasConnection(...)` connection.py:80-99. -/
structure ConnArgs where
  sourceAddress1 : Int
  sourceAddress2 : Int
  destinationAddress1 : Int
  destinationAddress2 : Int
  password : PyStr
  passwordId : Int
  encryptionKey : Option Bytes := none
  encryptionKeyId : Option Int := none
  deriving DecidableEq, Repr

/-- An `ElgasConnection` object connection.py:80-106. -/
structure Conn where
  args : ConnArgs
  buffer : Bytes
  state : PState
  cipherContext : Option CipherContext
  deriving DecidableEq, Repr

/-- `create_cipher_context` connection.py:34-45. -/
def createCipherContext (a : ConnArgs) : Option CipherContext :=
  match a.encryptionKey, a.encryptionKeyId with
  | some key, some keyId => some { keyId, key }
  | _, _ => none

/-- `ElgasConnection(...)`: attrs runs the validators (connection.py:80-96) after assigning the
attributes; each failing `ge`/`le`/`max_len` raises `ValueError`.  `elgas_state` and
`cipher_context` keep their defaults (connection.py:103-106). -/
def mkConn (a : ConnArgs) : Res Conn := do
  if ¬ (0 ≤ a.sourceAddress1) then raise .value
  if ¬ (a.sourceAddress1 ≤ 65535) then raise .value
  if ¬ (0 ≤ a.sourceAddress2) then raise .value
  if ¬ (a.sourceAddress2 ≤ 255) then raise .value
  if ¬ (0 ≤ a.destinationAddress1) then raise .value
  if ¬ (a.destinationAddress1 ≤ 65535) then raise .value
  if ¬ (0 ≤ a.destinationAddress2) then raise .value
  if ¬ (a.destinationAddress2 ≤ 255) then raise .value
  if ¬ (a.password.length ≤ 6) then raise .value
  if ¬ (801 ≤ a.passwordId) then raise .value
  if ¬ (a.passwordId ≤ 849) then raise .value
  return { args := a, buffer := [], state := .idle, cipherContext := createCipherContext a }

/-- `send` after the state change: connection.py:112-139. -/
def Conn.serialise (C : BlockCipher) (c : Conn) (e : Event) (r : Rand) : Res Bytes := do
  let applicationData ← e.toBytes r
  match c.cipherContext with
  | some ctx => do
    let service ← e.service
    let data ← ctx.encrypt C applicationData r.pad
    let frameData ← requestToBytes encryptedRequestType
      { service, da1 := c.args.destinationAddress1, da2 := c.args.destinationAddress2,
        sa1 := c.args.sourceAddress1, sa2 := c.args.sourceAddress2, data }
    escapeCharacters frameData
  | none => do
    let service ← e.service
    let frameData ← requestToBytes requestType
      { service, da1 := c.args.destinationAddress1, da2 := c.args.destinationAddress2,
        sa1 := c.args.sourceAddress1, sa2 := c.args.sourceAddress2, data := applicationData }
    escapeCharacters frameData

/-- `ElgasConnection.send` connection.py:108-139: the new connection and the result. -/
def Conn.send (C : BlockCipher) (c : Conn) (e : Event) (r : Rand) : Conn × Res Bytes :=
  match processEvent c.state e with
  | .error x => (c, .error x)
  | .ok s' =>
    let c' := { c with state := s' }
    (c', c'.serialise C e r)

/-- `ElgasConnection.receive_data` connection.py:141-158. -/
def Conn.receiveData (c : Conn) (data : Bytes) : Conn :=
  if data.isEmpty then c
  else if data = [0x0D] ∧ c.buffer.length = 0 then c
  else { c with buffer := c.buffer ++ data }

/-- `self.buffer.index(b"\x0d")` connection.py:168, `none` for the `ValueError`. -/
def indexEnd : Bytes → Option Nat
  | [] => none
  | b :: rest => if b = 0x0D then some 0 else (indexEnd rest).map (· + 1)

/-- `raise_error` connection.py:48-65. -/
def raiseError (data : Bytes) : Res Unit := do
  let error ← pyGet data 0
  let error := error.toNat
  if error = 0b00000001 then raise (.elgas .wrongPassword)
  else if error = 0b00000010 then raise (.elgas .settingArchiveFull)
  else if error = 0b00000100 then raise (.elgas .switchOff)
  else if error = 0b00001000 then raise (.elgas .blockedBuffer)
  else if error = 0b00010000 then raise (.elgas .dataError)
  else if error = 0b00100000 then raise (.elgas .cipherKey)
  else if error = 0b01000000 then raise (.elgas .wrongEncryptionKeys)
  else if error = 0b10000000 then raise (.elgas .write)
  else return ()

/-- The `try` block connection.py:175-185: unescape, decode the frame, decrypt, error byte. -/
def Conn.interpret (C : BlockCipher) (c : Conn) (data : Bytes) : Res Frame := do
  let raw ← returnCharacters data
  let (encrypted, response) ← responseFactory raw
  let response ←
    if encrypted then
      match c.cipherContext with
      | none => raise .attribute   -- None.decrypt
      | some ctx => do
        let d ← ctx.decrypt C response.data
        pure { response with data := d }
    else pure response
  if response.data.length = 1 then raiseError response.data
  return response

/-- `ResponsePduFactory.from_response` connection.py:13-31 (`KeyError` for other services). -/
def pduFromResponse (f : Frame) : Res Event :=
  match f.service with
  | .readValues => .readInstantaneousValuesResponse <$> ReadInstantaneousValuesResponse.fromBytes f.data
  | .readDeviceTime => .readTimeResponse <$> ReadTimeResponse.fromBytes f.data
  | .readScadaParameters =>
    .readDeviceParametersResponse <$> ReadDeviceParametersResponse.fromBytes f.data
  | .readArchivesByDate =>
    .readArchiveByTimeResponse <$> ReadArchiveByTimeResponse.fromBytes f.data
  | .readArchives => .readArchiveResponse <$> ReadArchiveResponse.fromBytes f.data
  | .writeDeviceTime => .writeTimeResponse <$> WriteTimeResponse.fromBytes f.data
  | _ => raise .key

/-- `next_event` connection.py:160-197; `none` is `NEED_DATA`. -/
def Conn.nextEvent (C : BlockCipher) (c : Conn) : Conn × Res (Option Event) :=
  if c.buffer.isEmpty then (c, .ok none)
  else
    match indexEnd c.buffer with
    | none => (c, .ok none)
    | some i =>
      let data := sliceTo c.buffer ((i : Int) + 1)
      match c.interpret C data with
      | .error e => if e.isValueError then (c, .ok none) else (c, .error e)
      | .ok response =>
        match pduFromResponse response with
        | .error e => (c, .error e)
        | .ok pdu =>
          match processEvent c.state pdu with
          | .error e => (c, .error e)
          | .ok s' => ({ c with state := s', buffer := [] }, .ok (some pdu))

end Elgas
