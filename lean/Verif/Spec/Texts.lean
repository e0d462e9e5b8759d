import Verif.Model.Texts
import Verif.Spec.ProgramLog
import Verif.Spec.History
import Verif.Spec.ReadBack
/-!
Specification vocabulary for the texts of exceptions.
-/
namespace Spec
open Elgas

/-- Perform a read or write call; an exception comes with its text. -/
def wcallT (C : BlockCipher) (w : World) : Call → OutcomeT Value × World
  | .readInstantaneousValues =>
    let x := w.exchangeT C (.readInstantaneousValuesRequest { password := w.password })
    (x.1.andThen (.returned ∘ .event), x.2)
  | .readTime =>
    let x := w.exchangeT C (.readTimeRequest {})
    ((x.1.andThen fun e => (timeOf e).foreign).andThen (.returned ∘ .time), x.2)
  | .writeTime t b =>
    let x := w.exchangeT C (.writeTimeRequest { password := w.password, deviceTime := t, cryout := b })
    (x.1.andThen fun _ => .returned .nothing, x.2)
  | .readParameters n =>
    let x := w.readPagesT C n []
    ((x.1.andThen fun d => .ofRes (parseParametersT d)).andThen (.returned ∘ .objects), x.2)
  | .readArchive a n i =>
    let x := w.exchangeT C (.readArchiveRequest { password := w.password, archive := a, amount := n, oldestRecordId := i })
    (x.1.andThen (.returned ∘ .event), x.2)
  | .readArchiveByTime a n t =>
    let x := w.exchangeT C (.readArchiveByTimeRequest
      { password := w.password, archive := a, amount := n, oldestTimestamp := t })
    (x.1.andThen (.returned ∘ .event), x.2)

/-- Perform an action; an exception comes with its text. -/
def actT (p : Printing) (look : Look) (C : BlockCipher) (w : World) : Action → OutcomeT Value × World
  | .connect =>
    let x := w.connectT p look
    (x.1.andThen fun _ => .returned .nothing, x.2)
  | .disconnect =>
    let x := w.disconnectT
    (x.1.andThen fun _ => .returned .nothing, x.2)
  | .call k => wcallT C w k
  | .send es =>
    let x := w.sendAllT C es
    (x.1.andThen fun _ => .returned .nothing, x.2)
  | .nextEvent =>
    let x := w.nextEventT C
    (x.1.andThen (.returned ∘ .event), x.2)

/-- The name of the class of an event. -/
def eventClass : EventType → String
  | .readInstantaneousValuesRequest => "ReadInstantaneousValuesRequest"
  | .readTimeRequest => "ReadTimeRequest"
  | .writeTimeRequest => "WriteTimeRequest"
  | .readDeviceParametersRequest => "ReadDeviceParametersRequest"
  | .readArchiveByTimeRequest => "ReadArchiveByTimeRequest"
  | .readArchiveRequest => "ReadArchiveRequest"
  | .readInstantaneousValuesResponse => "ReadInstantaneousValuesResponse"
  | .readTimeResponse => "ReadTimeResponse"
  | .writeTimeResponse => "WriteTimeResponse"
  | .readDeviceParametersResponse => "ReadDeviceParametersResponse"
  | .readArchiveByTimeResponse => "ReadArchiveByTimeResponse"
  | .readArchiveResponse => "ReadArchiveResponse"
  | .callRequest => "CallRequest"
  | .callResponse => "CallResponse"

/-- What is to come in a protocol state: any request when idle, otherwise the one response. -/
def Awaited (s : PState) (x : EventType) : Prop :=
  (s = .idle ∧ (responseOf x).isSome) ∨ awaits s = some x

/-- The event is one of the six responses. -/
def IsResponseType (x : EventType) : Prop := ∃ q, responseOf q = some x

/-- The action sends this event, with the client's password in the requests that the client makes. -/
def SendsEvent (password : PyStr) : Action → Event → Prop
  | .call k, e => RequestOf password k e
  | .send es, e => e ∈ es
  | _, _ => False

/-- The action waits for a response. -/
def WaitsFor : Action → Prop
  | .call _ => True
  | .nextEvent => True
  | _ => False

/-- The action writes. -/
def Writes : Action → Prop
  | .call _ => True
  | .send _ => True
  | _ => False

/-- How an error text shows a character: by its number, as `\u` and four or `\U` and eight hexadecimal digits. -/
def ShownAs (c : Char) (s : PyStr) : Prop :=
  (c.toNat < 0x10000 ∧ ∃ h, s = '\\' :: 'u' :: h ∧ readHex 4 h = some (c.toNat, [])) ∨
  (0x10000 ≤ c.toNat ∧ ∃ h, s = '\\' :: 'U' :: h ∧ readHex 8 h = some (c.toNat, []))

/-- The text about a password that Latin-1 cannot encode: it shows the character at fault (by number), or the places
of the first run of such characters. -/
inductive Unencodable : PyStr → PyStr → Prop
  | one (before after : PyStr) (c : Char) (s : PyStr) : IsLatin1 before → 256 ≤ c.toNat →
      (∀ d, after.head? = some d → d.toNat < 256) → ShownAs c s →
      Unencodable (before ++ c :: after) ("'latin-1' codec can't encode character '".toList ++ s ++
        "' in position ".toList ++ pyStrInt before.length ++ ": ordinal not in range(256)".toList)
  | many (before bad after : PyStr) : IsLatin1 before → 2 ≤ bad.length → (∀ c ∈ bad, 256 ≤ c.toNat) →
      (∀ d, after.head? = some d → d.toNat < 256) →
      Unencodable (before ++ bad ++ after) ("'latin-1' codec can't encode characters in position ".toList ++
        pyStrInt before.length ++ ['-'] ++ pyStrInt ((before.length : Int) + bad.length - 1) ++
        ": ordinal not in range(256)".toList)

/-- The protocol state in which an action finds the connection when it sends event `e`: the one in which the action
began, or, for a later event of `send`, the one that waits for the response to an earlier event. -/
def StateAtSend (w : World) (a : Action) (s : PState) : Prop :=
  s = w.conn.state ∨ ∃ es q, a = .send es ∧ q ∈ es ∧ IsRequest q ∧ awaits s = responseOf q.type

/-- The protocol state in which an action takes a response: the one in which the action began, if it only waits, and
the one that waits for the response to the request of the call. -/
def StateAtResponse (w : World) (a : Action) (s : PState) : Prop :=
  (a = .nextEvent ∧ s = w.conn.state) ∨
    ∃ k q, a = .call k ∧ RequestOf w.password k q ∧ awaits s = responseOf q.type

/-- All that the exceptions of a client say, and why: `Says w address a e s` when `s` is a text of an exception of
class `e` that action `a` can raise from `w`.  `address` is how the address of a TCP transport prints. -/
inductive Says (w : World) (address : String) : Action → PyErr → PyStr → Prop
  | connectedTcp : w.transport.kind = .tcp → w.transport.socket ≠ none → Says w address .connect .runtime
      ("There is already an active socket to " ++ address).toList
  | connectedSerial : w.transport.kind = .serial → w.transport.socket ≠ none → Says w address .connect .runtime
      "There is already an active serial port".toList
  | unable : w.transport.socket = none → w.opens.head? = some (.error .os) →
      Says w address .connect (.elgas .communication) "Unable to connect socket".toList
  | closing : w.transport.socket ≠ none → .error .os ∈ w.shutdowns ∨ .error .os ∈ w.closes →
      Says w address .disconnect (.elgas .communication) []
  | closedTcp (a) : Writes a → w.transport.kind = .tcp → w.transport.socket = none →
      Says w address a .runtime "TCP transport not connected.".toList
  | closedSerial (a) : Writes a → w.transport.kind = .serial → w.transport.socket = none →
      Says w address a .runtime "Serial transport not connected.".toList
  | closedRead : w.transport.socket = none → Says w address .nextEvent .runtime "TCP transport not connected.".toList
  | notSent (a) : Writes a → w.transport.socket ≠ none → .error .os ∈ w.writes →
      Says w address a (.elgas .communication) "Could no send data".toList
  | notReceived (a) (h : Handle) : Writes a ∨ a = .nextEvent → w.transport.socket = some h → .fail .os ∈ w.inbox h →
      Says w address a (.elgas .communication) "Could not receive data".toList
  | refused (a) (e : Event) (s : PState) : SendsEvent w.password a e → StateAtSend w a s → ¬ Awaited s e.type →
      Says w address a (.elgas .localProtocol)
        ("Can't handle <class 'elgas.application." ++ eventClass e.type ++ "'> when state=" ++ s.name).toList
  | unexpected (a) (x : EventType) (s : PState) : IsResponseType x → StateAtResponse w a s → ¬ Awaited s x →
      Says w address a (.elgas .localProtocol)
        ("Can't handle <class 'elgas.application." ++ eventClass x ++ "'> when state=" ++ s.name).toList
  | device (a x) : WaitsFor a → IsDeviceError x → Says w address a x []
  | keyId (a) (ctx : CipherContext) : WaitsFor a → w.conn.cipherContext = some ctx → Says w address a .assertion []
  | parameter (n) : Says w address (.call (.readParameters n)) .assertion []
  | time (a) (d : Bytes) : WaitsFor a → d.length < 6 →
      Says w address a .value (bytesRepr d ++ " is not a BCD encoded datetime".toList)
  | noData (n) : Says w address (.call (.readParameters n)) .value "No data to parse".toList
  | password (a) (e : Event) (pw s : PyStr) : SendsEvent w.password a e → passwordOf e = some pw → Unencodable pw s →
      Says w address a .unicodeEncode s

/-- The exceptions of the library: those of exceptions.py, and the `RuntimeError`s of transport.py. -/
def OfLibrary (e : PyErr) : Prop := e = .runtime ∨ ∃ x, e = .elgas x

/-- The operating system is about to raise this exception. -/
def RaisedByOs (w : World) (e : PyErr) : Prop :=
  .error e ∈ w.opens ∨ .error e ∈ w.shutdowns ∨ .error e ∈ w.closes ∨ .error e ∈ w.writes ∨
    ∃ h, Delivery.fail e ∈ w.inbox h

/-- The length that bytes 4 and 5 announce. -/
def announced (d : Bytes) : Nat := (d.getD 4 0).toNat + 256 * (d.getD 5 0).toNat

/-- `d` passes the checks of the start, the end and the service number. -/
def Outlined (ty : UInt8) (d : Bytes) : Prop :=
  [0x02, 0xFE, ty] <+: d ∧ [0x0D] <:+ d ∧ (d.getD 3 0).toNat ∈ services

/-- What the `ValueError` of reading a frame says: the first check that fails, with the two numbers that differ. -/
inductive FrameSays (name : String) (ty : UInt8) (d : Bytes) : PyStr → Prop
  | start : ¬ [0x02, 0xFE, ty] <+: d → FrameSays name ty d ("Not a " ++ name ++ " frame").toList
  | ending : [0x02, 0xFE, ty] <+: d → ¬ [0x0D] <:+ d → FrameSays name ty d "Data does not end with end char".toList
  | length : Outlined ty d → announced d ≠ d.length - 1 →
      FrameSays name ty d ("Length field does not correspond to length of data. Got ".toList ++
        pyStrInt ((d.length - 1 : Nat) : Int) ++ ", should be ".toList ++ pyStrInt (announced d) ++ [' '])
  | lrc (body : Bytes) (l c r : UInt8) : Outlined ty d → announced d = d.length - 1 →
      d = 0x02 :: body ++ [l, c, r, 0x0D] → l ≠ xorAll body →
      FrameSays name ty d ("Incorrect LRC. Got ".toList ++ pyStrInt l.toNat ++ ", should be ".toList ++
        pyStrInt (xorAll body).toNat)
  | checksum (body : Bytes) (l c r : UInt8) : Outlined ty d → announced d = d.length - 1 →
      d = 0x02 :: body ++ [l, c, r, 0x0D] → l = xorAll body → c.toNat ≠ sumMod body →
      FrameSays name ty d ("Incorrect CHECKSUM. Got ".toList ++ pyStrInt c.toNat ++ ", should be ".toList ++
        pyStrInt (sumMod body))
  /-- The text shows the same number twice. -/
  | drc (body : Bytes) (l c r : UInt8) : Outlined ty d → announced d = d.length - 1 →
      d = 0x02 :: body ++ [l, c, r, 0x0D] → l = xorAll body → c.toNat = sumMod body → r ≠ rotXor body →
      FrameSays name ty d ("Incorrect DRC. Got ".toList ++ pyStrInt r.toNat ++ ", should be ".toList ++
        pyStrInt r.toNat)

/-- An attribute of a connection with its least and greatest value, and the value that it is given. -/
structure Bound where
  name : String
  least : Int
  greatest : Int
  value : Int

/-- The text about a value that is too small or too great. -/
def Bound.text (b : Bound) : PyStr :=
  if b.value < b.least then
    ['\''] ++ b.name.toList ++ "' must be >= ".toList ++ pyStrInt b.least ++ ": ".toList ++ pyStrInt b.value
  else if b.name = "password" then
    "Length of '".toList ++ b.name.toList ++ "' must be <= ".toList ++ pyStrInt b.greatest ++ ": ".toList ++ pyStrInt b.value
  else
    ['\''] ++ b.name.toList ++ "' must be <= ".toList ++ pyStrInt b.greatest ++ ": ".toList ++ pyStrInt b.value

/-- The value is within the bounds. -/
def Bound.Ok (b : Bound) : Prop := b.least ≤ b.value ∧ b.value ≤ b.greatest

/-- The bounds of the arguments of a connection, in the order of its attributes; of the password it is the length. -/
def bounds (a : ConnArgs) : List Bound := [
  ⟨"source_address_1", 0, 65535, a.sourceAddress1⟩, ⟨"source_address_2", 0, 255, a.sourceAddress2⟩,
  ⟨"destination_address_1", 0, 65535, a.destinationAddress1⟩, ⟨"destination_address_2", 0, 255, a.destinationAddress2⟩,
  ⟨"password", 0, 6, a.password.length⟩, ⟨"password_id", 801, 849, a.passwordId⟩]

end Spec
