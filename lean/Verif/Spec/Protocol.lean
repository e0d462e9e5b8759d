import Verif.Model.Connection
/-!
Specification vocabulary for the connection: histories of calls, request/response pairing, what a
received line says.  Only public functions of the library are referred to.
-/
namespace Spec
open Elgas

/-- Which response answers which request (the pairs of the protocol). -/
def responseOf : EventType → Option EventType
  | .readInstantaneousValuesRequest => some .readInstantaneousValuesResponse
  | .readTimeRequest => some .readTimeResponse
  | .writeTimeRequest => some .writeTimeResponse
  | .readDeviceParametersRequest => some .readDeviceParametersResponse
  | .readArchiveByTimeRequest => some .readArchiveByTimeResponse
  | .readArchiveRequest => some .readArchiveResponse
  | _ => none

/-- The event is one of the six requests. -/
def IsRequest (e : Event) : Prop := (responseOf e.type).isSome

/-- The response a protocol state waits for. -/
def awaits : PState → Option EventType
  | .idle => none
  | .awaitingReadActualValuesResponse => some .readInstantaneousValuesResponse
  | .awaitingReadDeviceParametersResponse => some .readDeviceParametersResponse
  | .awaitingReadTimeResponse => some .readTimeResponse
  | .awaitingReadArchiveByTimeResponse => some .readArchiveByTimeResponse
  | .awaitingReadArchiveResponse => some .readArchiveResponse
  | .awaitingWriteTimeResponse => some .writeTimeResponse

/-- The service number a response type is sent under. -/
def serviceOf : EventType → Option ServiceNumber
  | .readInstantaneousValuesResponse => some .readValues
  | .readTimeResponse => some .readDeviceTime
  | .writeTimeResponse => some .writeDeviceTime
  | .readDeviceParametersResponse => some .readScadaParameters
  | .readArchiveByTimeResponse => some .readArchivesByDate
  | .readArchiveResponse => some .readArchives
  | _ => none

/-- The service number on the wire of each kind of request. -/
def requestCode : EventType → Option UInt8
  | .readInstantaneousValuesRequest => some 0x64
  | .readTimeRequest => some 0x6C
  | .writeTimeRequest => some 0x71
  | .readDeviceParametersRequest => some 0x70
  | .readArchiveByTimeRequest => some 0x7D
  | .readArchiveRequest => some 0x7C
  | _ => none

/-- One call on a connection. -/
inductive Op
  | send (e : Event) (r : Rand)
  | receive (data : Bytes)
  | poll

/-- What a call returned. -/
inductive Outcome
  | sent (e : Event) (x : Res Bytes)
  | received
  | polled (x : Res (Option Event))

/-- Perform one call. -/
def step (C : BlockCipher) (c : Conn) : Op → Conn × Outcome
  | .send e r => ((c.send C e r).1, .sent e (c.send C e r).2)
  | .receive d => (c.receiveData d, .received)
  | .poll => ((c.nextEvent C).1, .polled (c.nextEvent C).2)

/-- Perform a sequence of calls. -/
def run (C : BlockCipher) (c : Conn) : List Op → Conn × List Outcome
  | [] => (c, [])
  | op :: ops => ((run C (step C c op).1 ops).1, (step C c op).2 :: (run C (step C c op).1 ops).2)

/-- What a history looks like from outside. -/
inductive Obs
  | accepted (t : EventType)
  | returned (t : EventType)
  deriving DecidableEq

/-- A `send` counts as accepted unless it raised `LocalElgasProtocolError`. -/
def Outcome.obs : Outcome → Option Obs
  | .sent e x => if x = .error (.elgas .localProtocol) then none else some (.accepted e.type)
  | .polled (.ok (some e)) => some (.returned e.type)
  | _ => none

/-- The observations of a sequence of outcomes. -/
def observe (os : List Outcome) : List Obs := os.filterMap Outcome.obs

/-- Requests and their responses in turns, starting with a request. -/
inductive Alternating : List Obs → Prop
  | nil : Alternating []
  | open_ (t u) : responseOf t = some u → Alternating [.accepted t]
  | pair (t u rest) : responseOf t = some u → Alternating rest →
      Alternating (.accepted t :: .returned u :: rest)

/-- All sends of the history send request objects. -/
def OnlyRequests (ops : List Op) : Prop := ∀ op ∈ ops, ∀ e r, op = .send e r → IsRequest e

/-- `line` is the wire form of a response frame of service `svc` that carries `data` (after
decryption under the configured key if it is an encrypted response). -/
def Delivers (C : BlockCipher) (cc : Option CipherContext) (line : Bytes) (svc : ServiceNumber)
    (data : Bytes) : Prop :=
  ∃ raw enc f, returnCharacters line = .ok raw ∧ responseFactory raw = .ok (enc, f) ∧
    f.service = svc ∧
    if enc then ∃ ctx, cc = some ctx ∧ ctx.decrypt C f.data = .ok data else f.data = data

/-- The response class of the service accepts the data as `e`. -/
inductive Decodes : ServiceNumber → Bytes → Event → Prop
  | values (d p) : ReadInstantaneousValuesResponse.fromBytes d = .ok p →
      Decodes .readValues d (.readInstantaneousValuesResponse p)
  | time (d p) : ReadTimeResponse.fromBytes d = .ok p →
      Decodes .readDeviceTime d (.readTimeResponse p)
  | parameters (d p) : ReadDeviceParametersResponse.fromBytes d = .ok p →
      Decodes .readScadaParameters d (.readDeviceParametersResponse p)
  | archiveByTime (d p) : ReadArchiveByTimeResponse.fromBytes d = .ok p →
      Decodes .readArchivesByDate d (.readArchiveByTimeResponse p)
  | archive (d p) : ReadArchiveResponse.fromBytes d = .ok p →
      Decodes .readArchives d (.readArchiveResponse p)
  | writeTime (d p) : WriteTimeResponse.fromBytes d = .ok p →
      Decodes .writeDeviceTime d (.writeTimeResponse p)

/-- The exception announced by bit `k` of the error byte. -/
def errorOfBit (k : Nat) : Option ElgasErr :=
  [.wrongPassword, .settingArchiveFull, .switchOff, .blockedBuffer, .dataError, .cipherKey,
    .wrongEncryptionKeys, .write][k]?

/-- Exactly one bit of the byte is set. -/
def OneBit (b : UInt8) : Prop := ∃ k, k < 8 ∧ b.toNat = 2 ^ k

/-- The response class of the service refuses the data with exception `x`; services without a
response class are refused with `KeyError`. -/
inductive Refuses : ServiceNumber → Bytes → PyErr → Prop
  | values (d x) : ReadInstantaneousValuesResponse.fromBytes d = .error x → Refuses .readValues d x
  | time (d x) : ReadTimeResponse.fromBytes d = .error x → Refuses .readDeviceTime d x
  | parameters (d x) : ReadDeviceParametersResponse.fromBytes d = .error x →
      Refuses .readScadaParameters d x
  | archiveByTime (d x) : ReadArchiveByTimeResponse.fromBytes d = .error x →
      Refuses .readArchivesByDate d x
  | archive (d x) : ReadArchiveResponse.fromBytes d = .error x → Refuses .readArchives d x
  | unknown (svc d) : (∀ t, serviceOf t ≠ some svc) → Refuses svc d .key

/-- What `next_event` answers, for cipher context `cc`, protocol state `s` and a receive buffer. -/
inductive Answers (C : BlockCipher) (cc : Option CipherContext) (s : PState) :
    Bytes → Res (Option Event) → Prop
  /-- no complete line yet: NEED_DATA -/
  | incomplete (b) : 0x0D ∉ b → Answers C cc s b (.ok none)
  /-- the first line is not a response frame: NEED_DATA -/
  | unreadable (w rest) : 0x0D ∉ w →
      (∀ raw x, returnCharacters (w ++ [0x0D]) = .ok raw → responseFactory raw ≠ .ok x) →
      Answers C cc s (w ++ 0x0D :: rest) (.ok none)
  /-- an encrypted response without a configured key -/
  | noKey (w rest raw f) : 0x0D ∉ w → returnCharacters (w ++ [0x0D]) = .ok raw →
      responseFactory raw = .ok (true, f) → cc = none →
      Answers C cc s (w ++ 0x0D :: rest) (.error .attribute)
  /-- an encrypted response that fails the CRC, or is no whole number of blocks: NEED_DATA -/
  | corrupt (w rest raw f ctx) : 0x0D ∉ w → returnCharacters (w ++ [0x0D]) = .ok raw →
      responseFactory raw = .ok (true, f) → cc = some ctx → ctx.decrypt C f.data = .error .value →
      Answers C cc s (w ++ 0x0D :: rest) (.ok none)
  /-- an encrypted response that is too short -/
  | truncated (w rest raw f ctx) : 0x0D ∉ w → returnCharacters (w ++ [0x0D]) = .ok raw →
      responseFactory raw = .ok (true, f) → cc = some ctx → f.data.length < 3 →
      Answers C cc s (w ++ 0x0D :: rest) (.error .index)
  /-- an encrypted response under another key id -/
  | otherKey (w rest raw f ctx k) : 0x0D ∉ w → returnCharacters (w ++ [0x0D]) = .ok raw →
      responseFactory raw = .ok (true, f) → cc = some ctx → f.data[2]? = some k →
      (k.toNat : Int) ≠ ctx.keyId → Answers C cc s (w ++ 0x0D :: rest) (.error .assertion)
  /-- a device error -/
  | deviceError (w rest svc b k e) : 0x0D ∉ w → Delivers C cc (w ++ [0x0D]) svc [b] → k < 8 →
      b.toNat = 2 ^ k → errorOfBit k = some e → Answers C cc s (w ++ 0x0D :: rest) (.error (.elgas e))
  /-- data that the response class refuses -/
  | refused (w rest svc data x) : 0x0D ∉ w → Delivers C cc (w ++ [0x0D]) svc data →
      (∀ b, data = [b] → ¬ OneBit b) → Refuses svc data x →
      Answers C cc s (w ++ 0x0D :: rest) (.error x)
  /-- a well-formed response that is not the awaited one -/
  | unexpected (w rest svc data e) : 0x0D ∉ w → Delivers C cc (w ++ [0x0D]) svc data →
      (∀ b, data = [b] → ¬ OneBit b) → Decodes svc data e → awaits s ≠ some e.type →
      Answers C cc s (w ++ 0x0D :: rest) (.error (.elgas .localProtocol))
  /-- the awaited response -/
  | response (w rest svc data e) : 0x0D ∉ w → Delivers C cc (w ++ [0x0D]) svc data →
      (∀ b, data = [b] → ¬ OneBit b) → Decodes svc data e → awaits s = some e.type →
      Answers C cc s (w ++ 0x0D :: rest) (.ok (some e))

end Spec
