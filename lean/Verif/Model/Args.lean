import Verif.Model.Program
import Verif.Model.Repr
import Verif.Model.Log
import Verif.Model.JsonText
/-!
Arguments of any type.  Python does not check the types in the signatures of client.py: here a client is made with, and
its calls are given, any of the values below, and what happens to them is what the operations applied to them do.

Not modelled: other types than these (subclasses with their own methods among them), and what the log shows of such
arguments.
-/
namespace Elgas

/-- A Python value used as an argument. client.py:17-23, 77, 86, 109-111, 122-124. -/
inductive Arg
  | none
  | bool (b : Bool)
  | int (n : Int)                              -- also members of an `IntEnum`, as for `archive`
  | float (bits : Nat)
  | str (s : PyStr)
  | bytes (b : Bytes)
  | ints (l : List Int)                        -- a list of ints
  | date (year month day : Nat)                -- `datetime.date`
  | time (hour minute second microsecond : Nat)  -- `datetime.time`, naive
  | datetime (t : DateTime) (offset : Option Int)  -- `datetime.datetime`, with the offset from UTC in seconds if aware
  | object (text : PyStr)                      -- an object with none of the methods below; `text` is its `str`
  deriving DecidableEq, Repr

/-! ### The operations -/

/-- `datetime.date.isoformat()`. Part of `str(x)`, utils.py:57. -/
def dateText (year month day : Nat) : PyStr :=
  decDigits 4 year ++ ['-'] ++ decDigits 2 month ++ ['-'] ++ decDigits 2 day

/-- `datetime.time.isoformat()`. Part of `str(x)`, utils.py:57. -/
def timeText (hour minute second microsecond : Nat) : PyStr :=
  decDigits 2 hour ++ [':'] ++ decDigits 2 minute ++ [':'] ++ decDigits 2 second ++
    (if microsecond ≠ 0 then ['.'] ++ decDigits 6 microsecond else [])

/-- The offset of an aware `datetime`, in its `str`. Part of `str(x)`, utils.py:57. -/
def offsetText (o : Int) : PyStr :=
  let n := o.natAbs
  [if o < 0 then '-' else '+'] ++ decDigits 2 (n / 3600) ++ [':'] ++ decDigits 2 (n / 60 % 60) ++
    (if n % 60 ≠ 0 then [':'] ++ decDigits 2 (n % 60) else [])

/-- `str(x)`. utils.py:57 (`SecretStr(data)`). -/
def Arg.str' (F : FloatText) : Arg → PyStr
  | .none => "None".toList
  | .bool b => if b then "True".toList else "False".toList
  | .int n => pyStrInt n
  | .float b => F.str b
  | .str s => s
  | .bytes b => bytesRepr b
  | .ints l => ['['] ++ (", ".toList).intercalate (l.map pyStrInt) ++ [']']
  | .date y m d => dateText y m d
  | .time h m s us => timeText h m s us
  | .datetime t o => dateText t.year t.month t.day ++ [' '] ++ timeText t.hour t.minute t.second t.microsecond ++
      (match o with | Option.none => [] | Option.some o => offsetText o)
  | .object text => text

/-- Whether `x` counts as true. utils.py:52 (`if data`). -/
def Arg.truth : Arg → Bool
  | .none => false
  | .bool b => b
  | .int n => n ≠ 0
  | .float b => b % 2 ^ 63 ≠ 0
  | .str s => !s.isEmpty
  | .bytes b => !b.isEmpty
  | .ints l => !l.isEmpty
  | _ => true

/-- `x.__index__()`, where there is one (`bool` is a subclass of `int`).
application.py:234, 279, security.py:50, 58; `to_bytes` of application.py:185, 235, 280-281. -/
def Arg.index : Arg → Option Int
  | .bool b => some (if b then 1 else 0)
  | .int n => some n
  | _ => Option.none

/-- `x.to_bytes(w, "little")`: only `int` and `bool` have it. application.py:185, 235, 280-281. -/
def Arg.toBytes (w : Nat) (x : Arg) : Res Bytes :=
  match x.index with
  | some n => toBytesLE w n
  | Option.none => raise .attribute

/-- `out.append(x)` of a `bytearray`. application.py:234, 279, security.py:50, 58. -/
def Arg.append (x : Arg) : Res UInt8 :=
  match x.index with
  | some n => toByte n
  | Option.none => raise .type

/-- `bytes(x)`: of an `int` that many zero bytes. utils.py:53 (`SecretByte(data)`). -/
def Arg.asBytes : Arg → Res Bytes
  | .bool b => .ok (List.replicate (if b then 1 else 0) 0)
  | .int n => if n < 0 then raise .value else if 2 ^ 63 ≤ n then raise .overflow else .ok (List.replicate n.toNat 0)
  | .bytes b => .ok b
  | .ints l => l.mapM toByte
  | _ => raise .type

/-- `to_secret_byte(x)` utils.py:51-53. -/
def Arg.toSecretByte (x : Arg) : Res (Option Bytes) :=
  if x.truth then do
    let b ← x.asBytes
    return some b
  else return Option.none

/-- `x >= n`: `TypeError` unless `x` is a number; false for a NaN. connection.py:95 (`validators.ge`). -/
def Arg.ge (x : Arg) (n : Int) : Res Bool :=
  match x with
  | .bool b => .ok (decide (n ≤ if b then 1 else 0))
  | .int i => .ok (decide (n ≤ i))
  | .float b =>
    if finite64 b then .ok (decide ((n : Rat) ≤ value64 b)) else .ok (!nan64 b && !neg64 b)
  | _ => raise .type

/-- `x <= n`: `TypeError` unless `x` is a number; false for a NaN. connection.py:95 (`validators.le`). -/
def Arg.le (x : Arg) (n : Int) : Res Bool :=
  match x with
  | .bool b => .ok (decide ((if b then 1 else 0) ≤ n))
  | .int i => .ok (decide (i ≤ n))
  | .float b =>
    if finite64 b then .ok (decide (value64 b ≤ (n : Rat))) else .ok (!nan64 b && neg64 b)
  | _ => raise .type

/-- Whether `x.isoformat()` returns; other types do not have it. client.py:78. -/
def Arg.isoformat : Arg → Res Unit
  | .date _ _ _ => .ok ()
  | .time _ _ _ _ => .ok ()
  | .datetime _ _ => .ok ()
  | _ => raise .attribute

/-- `datetime_to_bytes(x)` utils.py:211-223: a `date` has no `second`, a `time` no `day`, other types have neither.  The
offset of an aware `datetime` is not looked at. -/
def Arg.datetimeToBytes : Arg → Res Bytes
  | .datetime t _ => Elgas.datetimeToBytes t
  | .time h mi s _ => do
    let _ ← toBdc s
    let _ ← toBdc mi
    let _ ← toBdc h
    raise .attribute
  | _ => raise .attribute

/-- `x + n` for the types that can be in `object_count` when it is added to. client.py:101 (after `to_bytes` has
succeeded, so only `int` and `bool` get there). -/
def Arg.plus (x : Arg) (n : Int) : Res Int :=
  match x.index with
  | some i => .ok (i + n)
  | Option.none => raise .type

/-! ### Requests with such arguments -/

/-- A request of the client with its arguments; the password is a `str` (client.py:18).
client.py:63, 71, 79-81, 93-95, 112-117, 125-130. -/
inductive ArgRequest
  | readInstantaneousValues
  | readTime
  | writeTime (deviceTime cryout : Arg)
  | readDeviceParameters (objectCount : Arg)
  | readArchive (archive amount oldestRecordId : Arg)
  | readArchiveByTime (archive amount oldestTimestamp : Arg)
  deriving DecidableEq, Repr

/-- `type(event)` state.py:87. -/
def ArgRequest.type : ArgRequest → EventType
  | .readInstantaneousValues => .readInstantaneousValuesRequest
  | .readTime => .readTimeRequest
  | .writeTime _ _ => .writeTimeRequest
  | .readDeviceParameters _ => .readDeviceParametersRequest
  | .readArchive _ _ _ => .readArchiveRequest
  | .readArchiveByTime _ _ _ => .readArchiveByTimeRequest

/-- `event.service` application.py:30, 86-88, 134-136, 174-176, 222-224, 269. -/
def ArgRequest.service : ArgRequest → ServiceNumber
  | .readInstantaneousValues => .readValues
  | .readTime => .readDeviceTime
  | .writeTime _ _ => .writeDeviceTime
  | .readDeviceParameters _ => .readScadaParameters
  | .readArchive _ _ _ => .readArchives
  | .readArchiveByTime _ _ _ => .readArchivesByDate

/-- `event.to_bytes()` application.py:33-34, 90-91, 142-151, 182-188, 231-238, 276-283 (`buffer_length` is 1024,
client.py:94). -/
def ArgRequest.toBytes (password : PyStr) : ArgRequest → Rand → Res Bytes
  | .readInstantaneousValues, r => passwordBlock password r.pw
  | .readTime, _ => .ok []
  | .writeTime t _, r => do
    let pw ← passwordBlock password r.pw
    let t ← t.datetimeToBytes
    let flags : Nat := 0b00000100
    let fl ← toByte (flags &&& 0xff : Nat)
    return pw ++ t ++ [fl]
  | .readDeviceParameters n, r => do
    let pw ← passwordBlock password r.pw
    let oc ← n.toBytes 2
    let bl ← toBytesLE 2 1024
    return pw ++ oc ++ bl
  | .readArchive archive amount oldestRecordId, r => do
    let pw ← passwordBlock password r.pw
    let a ← archive.append
    let i ← oldestRecordId.toBytes 4
    let n ← amount.toBytes 2
    return pw ++ [a] ++ i ++ n
  | .readArchiveByTime archive amount oldestTimestamp, r => do
    let pw ← passwordBlock password r.pw
    let a ← archive.append
    let n ← amount.toBytes 2
    let t ← oldestTimestamp.datetimeToBytes
    return pw ++ [a] ++ n ++ t

/-! ### The client -/

/-- The arguments of `ElgasClient(transport, ...)` client.py:17-23. -/
structure ArgArgs where
  password : Arg
  passwordId : Arg
  encryptionKey : Arg := .none
  encryptionKeyId : Arg := .none
  deriving DecidableEq, Repr

/-- A client made with such arguments.  `oddKey` is the cipher context if its key id is no `int`; then the connection in
`world` has none.  client.py:16-38. -/
structure ArgClient where
  world : World
  oddKey : Option (Arg × Bytes) := Option.none

/-- `ElgasClient(transport, ...)` client.py:13-38 with a new transport: the converters (client.py:18-22), the default
connection (client.py:25-38) with its cipher context (connection.py:34-45), its validators (connection.py:93-96, run in
the order of the attributes; those of the addresses, which are 0, pass).  The password id is read by nothing; where it is
not an `int` the `Int` of the model's connection is 801. -/
def mkArgClient (F : FloatText) (kind : Kind) (timeout : Option Int) (a : ArgArgs) (env : OsEnv) : Res ArgClient := do
  let password := a.password.str' F
  let key ← a.encryptionKey.toSecretByte
  if ¬ (password.length ≤ 6) then raise .value
  if ¬ (← a.passwordId.ge 801) then raise .value
  if ¬ (← a.passwordId.le 849) then raise .value
  let args : ConnArgs :=
    { sourceAddress1 := 0, sourceAddress2 := 0, destinationAddress1 := 0, destinationAddress2 := 0, password,
      passwordId := a.passwordId.index.getD 801, encryptionKey := key, encryptionKeyId := a.encryptionKeyId.index }
  let world : World :=
    { password, conn := { args, buffer := [], state := .idle, cipherContext := createCipherContext args },
      transport := mkTransport kind timeout, opens := env.opens, shutdowns := env.shutdowns, closes := env.closes,
      writes := env.writes, inbox := env.inbox, clock := env.clock, rands := env.rands }
  return { world,
           oddKey :=
             match key, a.encryptionKeyId, a.encryptionKeyId.index with
             | some _, .none, _ => Option.none
             | some k, i, Option.none => some (i, k)
             | _, _, _ => Option.none }

/-- `self.cipher_context.encrypt(data)` security.py:55-69 with any key id. -/
def encryptUnder (C : BlockCipher) (keyId : Arg) (key data : Bytes) (r : PadRand) : Res Bytes := do
  let _ ← toBytesLE 2 data.length
  match keyId.index with
  | Option.none => raise .type
  | some i => ({ keyId := i, key } : CipherContext).encrypt C data r

/-- `ElgasConnection.send` after the state change, connection.py:112-139. -/
def ArgClient.serialise (C : BlockCipher) (d : ArgClient) (q : ArgRequest) (r : Rand) : Res Bytes := do
  let c := d.world.conn
  let applicationData ← q.toBytes d.world.password r
  match d.oddKey, c.cipherContext with
  | some (i, k), _ => do
    let data ← encryptUnder C i k applicationData r.pad
    let frameData ← requestToBytes encryptedRequestType
      { service := q.service, da1 := c.args.destinationAddress1, da2 := c.args.destinationAddress2,
        sa1 := c.args.sourceAddress1, sa2 := c.args.sourceAddress2, data }
    escapeCharacters frameData
  | Option.none, some ctx => do
    let data ← ctx.encrypt C applicationData r.pad
    let frameData ← requestToBytes encryptedRequestType
      { service := q.service, da1 := c.args.destinationAddress1, da2 := c.args.destinationAddress2,
        sa1 := c.args.sourceAddress1, sa2 := c.args.sourceAddress2, data }
    escapeCharacters frameData
  | Option.none, Option.none => do
    let frameData ← requestToBytes requestType
      { service := q.service, da1 := c.args.destinationAddress1, da2 := c.args.destinationAddress2,
        sa1 := c.args.sourceAddress1, sa2 := c.args.sourceAddress2, data := applicationData }
    escapeCharacters frameData

/-- `self.send(request)` client.py:46-51, connection.py:108-139. -/
def ArgClient.send (C : BlockCipher) (d : ArgClient) (q : ArgRequest) : Outcome3 Unit × ArgClient :=
  match transitions d.world.conn.state q.type with
  | Option.none =>
    (.raised (.elgas .localProtocol), { d with world := { d.world with draws := d.world.draws + 1 } })
  | some s =>
    let w : World := { d.world with conn := { d.world.conn with state := s }, draws := d.world.draws + 1 }
    match d.serialise C q (d.world.rands d.world.draws) with
    | .error x => (.raised x, { d with world := w })
    | .ok data =>
      match w.write data with
      | (.returned (), w) => (w.receive.1, { d with world := w.receive.2 })
      | (o, w) => (o, { d with world := w })

/-- `self.send(request); response = self.next_event()`: the common part of all calls.
client.py:63-65, 71-73, 79-83, 93-97, 112-120, 125-133. -/
def ArgClient.exchange (C : BlockCipher) (d : ArgClient) (q : ArgRequest) : Outcome3 Event × ArgClient :=
  match d.send C q with
  | (.returned (), d) => ((d.world.nextEvent C).1, { d with world := (d.world.nextEvent C).2 })
  | (.raised x, d) => (.raised x, d)
  | (.pending, d) => (.pending, d)

/-- `write_time` client.py:77-84. -/
def ArgClient.writeTime (C : BlockCipher) (d : ArgClient) (t cryout : Arg) : Outcome3 Unit × ArgClient :=
  match t.isoformat with
  | .error x => (.raised x, d)
  | .ok () =>
    let (o, d) := d.exchange C (.writeTime t cryout)
    (o.andThen fun _ => .returned (), d)

/-- `read_time` client.py:69-75. -/
def ArgClient.readTime (C : BlockCipher) (d : ArgClient) : Outcome3 DateTime × ArgClient :=
  let (o, d) := d.exchange C .readTime
  (o.andThen timeOf, d)

/-- The loop of `read_parameters` client.py:87-103: the first request has the argument, the following ones an `int`.
(With `oddKey` the first request is not sent.) -/
def ArgClient.readPages (C : BlockCipher) (d : ArgClient) (readFrom : Arg) : Outcome3 Bytes × ArgClient :=
  match d.exchange C (.readDeviceParameters readFrom) with
  | (.raised e, d) => (.raised e, d)
  | (.pending, d) => (.pending, d)
  | (.returned (.readDeviceParametersResponse p), d) =>
    if p.isEnd then (.returned p.data, d)
    else
      match readFrom.plus p.objectAmount with
      | .error x => (.raised x, d)
      | .ok n => ((d.world.readPages C n p.data).1, { d with world := (d.world.readPages C n p.data).2 })
  | (.returned _, d) => (.raised .attribute, d)

/-- `read_parameters` client.py:86-107. -/
def ArgClient.readParameters (C : BlockCipher) (d : ArgClient) (readFrom : Arg) : Outcome3 (List PObj) × ArgClient :=
  let (o, d) := d.readPages C readFrom
  (o.andThen fun b => .ofRes (parseParameters Option.none (some b)), d)

end Elgas
