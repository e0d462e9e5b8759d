import Verif.Model.Client
/-!
`repr` of the objects of the library, as the log calls and interactive users see it.

Trusted reading of Python and of `attrs`: `repr` of `str`, `bytes`, `bytearray`, `int`, `bool`, `datetime` and
`IntEnum` members, and the `__repr__` that `attr.s` generates: `Class(name=repr(value), ...)` over the attributes in
the order of the class body, computed in a Python frame named `__repr__`.
-/
namespace Elgas

mutual
/-- A Python value, as far as `repr` looks at it.  `secretStr` and `secretBytes` are the classes `SecretStr` and
`SecretByte` of utils.py:7-48; `foreign` is an object of another library, given by its `repr`. -/
inductive PyVal
  | none
  | bool (b : Bool)
  | int (n : Int)
  | str (s : PyStr)
  | bytes (b : Bytes)
  | bytearray (b : Bytes)
  | datetime (t : DateTime)
  | member (cls name : String) (value : Nat)
  | sentinel (name : String)
  | foreign (text : PyStr)
  | secretStr (s : PyStr)
  | secretBytes (b : Bytes)
  | obj (cls : String) (attrs : Attrs)
/-- The attributes of an `attr.s` object. `@attr.s(auto_attribs=True)`, e.g. frames.py:13. -/
inductive Attrs
  | nil
  | cons (name : String) (v : PyVal) (rest : Attrs)
end

/-- Attributes from a list. `@attr.s(auto_attribs=True)`, e.g. frames.py:13. -/
def Attrs.of : List (String × PyVal) → Attrs
  | [] => .nil
  | (n, v) :: rest => .cons n v (.of rest)

/-- What `repr` depends on besides the value: which non-ASCII characters `str.isprintable` accepts, and how the
`archive` argument of a request prints (a number or an enumeration member).
Used wherever LOG calls (e.g. connection.py:110) print. -/
structure Printing where
  printable : Char → Bool
  archive : Int → PyStr

/-- `w` lower-case hexadecimal digits. Part of `repr`, as printed by e.g. connection.py:110. -/
def hexDigits : Nat → Nat → PyStr
  | 0, _ => []
  | w + 1, n => hexDigits w (n / 16) ++ [Nat.digitChar (n % 16)]

/-- The quote character `repr` uses: `'`, unless there is a `'` and no `"` inside.
Part of `repr`, as printed by e.g. connection.py:110. -/
def quoteOf (s : PyStr) : Char := if '\'' ∈ s ∧ '"' ∉ s then '"' else '\''

/-- One character inside `repr(str)`. Part of `repr`, as printed by e.g. connection.py:110. -/
def strChar (p : Printing) (quote c : Char) : PyStr :=
  if c = quote ∨ c = '\\' then ['\\', c]
  else if c = '\t' then ['\\', 't']
  else if c = '\n' then ['\\', 'n']
  else if c = '\r' then ['\\', 'r']
  else if c.toNat < 0x20 ∨ c.toNat = 0x7F then ['\\', 'x'] ++ hexDigits 2 c.toNat
  else if c.toNat < 0x7F then [c]
  else if p.printable c then [c]
  else if c.toNat < 0x100 then ['\\', 'x'] ++ hexDigits 2 c.toNat
  else if c.toNat < 0x10000 then ['\\', 'u'] ++ hexDigits 4 c.toNat
  else ['\\', 'U'] ++ hexDigits 8 c.toNat

/-- `repr` of a `str`. utils.py:26 (`super().__repr__()`). -/
def strRepr (p : Printing) (s : PyStr) : PyStr :=
  [quoteOf s] ++ s.flatMap (strChar p (quoteOf s)) ++ [quoteOf s]

/-- One byte inside `repr(bytes)`; `esc` is the quote character that is escaped.
Part of `repr`, as printed by e.g. connection.py:110. -/
def byteChar (esc : Char) (b : UInt8) : PyStr :=
  let c := Char.ofNat b.toNat
  if c = esc ∨ c = '\\' then ['\\', c]
  else if c = '\t' then ['\\', 't']
  else if c = '\n' then ['\\', 'n']
  else if c = '\r' then ['\\', 'r']
  else if b.toNat < 0x20 ∨ 0x7F ≤ b.toNat then ['\\', 'x'] ++ hexDigits 2 b.toNat
  else [c]

/-- `repr` of `bytes`: `b'...'`. utils.py:48 (`super().__repr__()`). -/
def bytesRepr (b : Bytes) : PyStr :=
  let quote := quoteOf (decodeLatin1 b)
  ['b', quote] ++ b.flatMap (byteChar quote) ++ [quote]

/-- `repr` of a `bytearray`: `bytearray(b'...')`, where `'` is escaped also between double quotes (CPython).
E.g. `total_buffer`, connection.py:156-158. -/
def bytearrayRepr (b : Bytes) : PyStr :=
  let quote := quoteOf (decodeLatin1 b)
  "bytearray(b".toList ++ [quote] ++ b.flatMap (byteChar '\'') ++ [quote] ++ [')']

/-- `repr` of a naive `datetime`: zero seconds and microseconds at the end are left out. E.g. application.py:49. -/
def datetimeRepr (t : DateTime) : PyStr :=
  let fields := [t.year, t.month, t.day, t.hour, t.minute] ++
    (if t.microsecond ≠ 0 then [t.second, t.microsecond] else if t.second ≠ 0 then [t.second] else [])
  "datetime.datetime(".toList ++ (", ".toList).intercalate (fields.map fun (n : Nat) => pyStrInt n) ++ [')']

mutual
/-- `repr(v)`, called from the frames `stack` (innermost first).
Secrets: utils.py:12-26, 34-48; others as printed by e.g. connection.py:110. -/
def PyVal.repr (p : Printing) (stack : List String) : PyVal → PyStr
  | .none => "None".toList
  | .bool b => if b then "True".toList else "False".toList
  | .int n => pyStrInt n
  | .str s => strRepr p s
  | .bytes b => bytesRepr b
  | .bytearray b => bytearrayRepr b
  | .datetime t => datetimeRepr t
  | .member cls name value => ['<'] ++ cls.toList ++ ['.'] ++ name.toList ++ [':', ' '] ++ pyStrInt value ++ ['>']
  | .sentinel name => name.toList        -- `_SentinelBase.__repr__` state.py:23-24
  | .foreign text => text
  | .secretStr s => (secretRepr stack (String.ofList (strRepr p s))).toList
  | .secretBytes b => (secretRepr stack (String.ofList (bytesRepr b))).toList
  | .obj cls attrs => cls.toList ++ ['('] ++ attrs.repr p ("__repr__" :: stack) ++ [')']
/-- The part of a generated `__repr__` between the parentheses. `@attr.s(auto_attribs=True)`, e.g. frames.py:13. -/
def Attrs.repr (p : Printing) (stack : List String) : Attrs → PyStr
  | .nil => []
  | .cons name v .nil => name.toList ++ ['='] ++ v.repr p stack
  | .cons name v (.cons name' v' rest) =>
    name.toList ++ ['='] ++ v.repr p stack ++ [',', ' '] ++ (Attrs.cons name' v' rest).repr p stack
end

/-! ### The objects -/

/-- Names of the members of `ServiceNumber` constants.py:5-18. -/
def ServiceNumber.name : ServiceNumber → String
  | .readValues => "READ_VALUES"
  | .writeValues => "WRITE_VALUES"
  | .searchArchivePointersOld => "SEARCH_ARCHIVE_POINTERS_OLD"
  | .searchArchivePointers => "SEARCH_ARCHIVE_POINTERS"
  | .readArchivesOld => "READ_ARCHIVES_OLD"
  | .readArchives => "READ_ARCHIVES"
  | .readDeviceTime => "READ_DEVICE_TIME"
  | .readScadaParameters => "READ_SCADA_PARAMETERS"
  | .writeDeviceTime => "WRITE_DEVICE_TIME"
  | .groupWriteValues => "GROUP_WRITE_VALUES"
  | .groupReadValues => "GROUP_READ_VALUES"
  | .call => "CALL"
  | .readArchivesByDateOld => "READ_ARCHIVES_BY_DATE_OLD"
  | .readArchivesByDate => "READ_ARCHIVES_BY_DATE"

/-- Names of the members of `Archive` constants.py:22-32. -/
def Archive.name : Archive → String
  | .extreme => "EXTREME" | .data => "DATA" | .binary => "BINARY" | .daily => "DAILY" | .monthly => "MONTHLY"
  | .setting => "SETTING" | .fast1 => "FAST_1" | .fast2 => "FAST_2" | .status => "STATUS" | .billing => "BILLING"
  | .gasComposition => "GAS_COMPOSITION"

/-- Names of the members of `Protocol` constants.py:36-39. -/
def Protocol.name : Protocol → String
  | .elgas2 => "ELGAS2" | .qmd => "QMD" | .rds => "RDS" | .modbus => "MODBUS"

/-- Names of the states state.py:33-46. -/
def PState.name : PState → String
  | .idle => "IDLE"
  | .awaitingReadActualValuesResponse => "AWAITING_READ_ACTUAL_VALUES_RESPONSE"
  | .awaitingReadDeviceParametersResponse => "AWAITING_READ_DEVICE_PARAMETERS_RESPONSE"
  | .awaitingReadTimeResponse => "AWAITING_READ_TIME_RESPONSE"
  | .awaitingReadArchiveByTimeResponse => "AWAITING_READ_ARCHIVE_BY_TIME_RESPONSE"
  | .awaitingReadArchiveResponse => "AWAITING_READ_ARCHIVE_RESPONSE"
  | .awaitingWriteTimeResponse => "AWAITING_WRITE_TIME_RESPONSE"

/-- A `ServiceNumber`. constants.py:4-18. -/
def serviceVal (s : ServiceNumber) : PyVal := .member "ServiceNumber" s.name s.value

/-- An `Archive`. constants.py:21-32. -/
def archiveVal (a : Archive) : PyVal := .member "Archive" a.name a.value

/-- A password object: a `SecretStr` (as `ElgasClient` makes it, client.py:17) or a plain `str`. -/
def passwordVal (secret : Bool) (s : PyStr) : PyVal := if secret then .secretStr s else .str s

/-- A key object: a `SecretByte` (as `ElgasClient` makes it, client.py:19-21) or plain `bytes`. -/
def keyVal (secret : Bool) (k : Bytes) : PyVal := if secret then .secretBytes k else .bytes k

/-- An optional value. E.g. connection.py:98-99. -/
def optVal {α : Type} (f : α → PyVal) : Option α → PyVal
  | none => .none
  | some a => f a

/-- The requests and responses of application.py with their attributes in class order: 31, 80-91, 138-140, 178-180,
226-229, 271-274 (requests), 46-53, 105-109, 161-163, 199-202, 249-251, 292-294 (responses), 317-341 (`CallRequest`),
412-416 (`CallResponse`).  `secret`: the password object in the request is a `SecretStr`. -/
def eventVal (p : Printing) (secret : Bool) : Event → PyVal
  | .readInstantaneousValuesRequest q =>
    .obj "ReadInstantaneousValuesRequest" (.of [("password", passwordVal secret q.password)])
  | .readTimeRequest _ => .obj "ReadTimeRequest" .nil
  | .writeTimeRequest q =>
    .obj "WriteTimeRequest" (.of [("password", passwordVal secret q.password),
      ("device_time", .datetime q.deviceTime), ("cryout", .bool q.cryout)])
  | .readDeviceParametersRequest q =>
    .obj "ReadDeviceParametersRequest" (.of [("password", passwordVal secret q.password),
      ("object_count", .int q.objectCount), ("buffer_length", .int q.bufferLength)])
  | .readArchiveByTimeRequest q =>
    .obj "ReadArchiveByTimeRequest" (.of [("password", passwordVal secret q.password),
      ("archive", .foreign (p.archive q.archive)), ("amount", .int q.amount),
      ("oldest_timestamp", .datetime q.oldestTimestamp)])
  | .readArchiveRequest q =>
    .obj "ReadArchiveRequest" (.of [("password", passwordVal secret q.password),
      ("archive", .foreign (p.archive q.archive)), ("amount", .int q.amount),
      ("oldest_record_id", .int q.oldestRecordId)])
  | .readInstantaneousValuesResponse r =>
    .obj "ReadInstantaneousValuesResponse" (.of [("current_time", .datetime r.currentTime), ("is_dst", .bool r.isDst),
      ("supports_dst", .bool r.supportsDst), ("data", .bytes r.data), ("data_access", .int r.dataAccess.toNat),
      ("status", .bytes r.status), ("summary_status", .bytes r.summaryStatus),
      ("parameter_crc", .bytes r.parameterCrc)])
  | .readTimeResponse r =>
    .obj "ReadTimeResponse" (.of [("time", .datetime r.time), ("data_access_result", .bytes r.dataAccessResult),
      ("is_dst", .bool r.isDst), ("device_supports_dst", .bool r.deviceSupportsDst), ("extra_data", .bytes r.extraData)])
  | .writeTimeResponse _ => .obj "WriteTimeResponse" .nil
  | .readDeviceParametersResponse r =>
    .obj "ReadDeviceParametersResponse" (.of [("data", .bytes r.data), ("object_number", .int r.objectNumber),
      ("object_amount", .int r.objectAmount), ("is_end", .bool r.isEnd)])
  | .readArchiveByTimeResponse r =>
    .obj "ReadArchiveByTimeResponse" (.of [("archive", archiveVal r.archive),
      ("oldest_record_id", .int r.oldestRecordId), ("data", .bytes r.data)])
  | .readArchiveResponse r =>
    .obj "ReadArchiveResponse" (.of [("archive", archiveVal r.archive), ("oldest_record_id", .int r.oldestRecordId),
      ("data", .bytes r.data)])
  | .callRequest r =>
    .obj "CallRequest" (.of [("guid", .bytes r.guid), ("station_id", .str r.stationId),
      ("sim_card_id", .str r.simCardId), ("modem_id", .str r.modemId), ("address_1", .int r.address1),
      ("address_2", .int r.address2), ("signal_strength", .int r.signalStrength), ("connections", .int r.connections),
      ("last_connection_time", .datetime r.lastConnectionTime), ("connection_errors", .int r.connectionErrors),
      ("last_connection_error_time", .datetime r.lastConnectionErrorTime), ("resets", .int r.resets),
      ("last_reset_time", .datetime r.lastResetTime), ("tcp_data", .int r.tcpData), ("all_data", .int r.allData),
      ("serial_number", .str r.serialNumber), ("ip_address", .str r.ipAddress),
      ("last_modem_error", .int r.lastModemError), ("last_modem_error_time", .datetime r.lastModemErrorTime),
      ("modem_battery_capacity", .int r.modemBatteryCapacity), ("modem_battery_voltage", .int r.modemBatteryVoltage),
      ("firmware_version", .str r.firmwareVersion), ("version", .int r.version),
      ("protocol", .member "Protocol" r.protocol.name r.protocol.value)])
  | .callResponse _ => .obj "CallResponse" .nil

/-- A frame object frames.py:13-18, 97-102; `data` is `bytes`, or the `bytearray` that `CipherContext.encrypt`
returns (security.py:69: `bytearray + bytes`). -/
def frameVal (cls : String) (f : Frame) (data : Bytes → PyVal) : PyVal :=
  .obj cls (.of [("service", serviceVal f.service), ("destination_address_1", .int f.da1),
    ("destination_address_2", .int f.da2), ("source_address_1", .int f.sa1), ("source_address_2", .int f.sa2),
    ("data", data f.data)])

/-- A `CipherContext` security.py:42-45. -/
def contextVal (secret : Bool) (x : CipherContext) : PyVal :=
  .obj "CipherContext" (.of [("key_id", .int x.keyId), ("key", keyVal secret x.key)])

/-- An `ElgasConnection` connection.py:80-106.  (`encryption_key_id` may also be an `EncryptionKeyId` member, which
prints with its name; here it prints as a number.)  `secret`: the password and key objects were made by a client. -/
def connVal (secret : Bool) (c : Conn) : PyVal :=
  .obj "ElgasConnection" (.of [
    ("source_address_1", .int c.args.sourceAddress1), ("source_address_2", .int c.args.sourceAddress2),
    ("destination_address_1", .int c.args.destinationAddress1),
    ("destination_address_2", .int c.args.destinationAddress2),
    ("password", passwordVal secret c.args.password), ("password_id", .int c.args.passwordId),
    ("encryption_key", optVal (keyVal secret) c.args.encryptionKey),
    ("encryption_key_id", optVal .int c.args.encryptionKeyId),
    ("buffer", .bytearray c.buffer),
    ("elgas_state", .obj "ElgasState" (.of [("current_state", .sentinel c.state.name)])),
    ("cipher_context", optVal (contextVal secret) c.cipherContext)])

/-- An `ElgasClient` client.py:16-38 with its transport object and its connection; the converters of client.py:17
and 20 have made the password and the key secret. -/
def clientVal (a : ClientArgs) (transport : PyVal) (c : Conn) : PyVal :=
  .obj "ElgasClient" (.of [("transport", transport), ("password", passwordVal true (toSecretStr a.password)),
    ("password_id", .int a.passwordId), ("encryption_key", optVal (keyVal true) (toSecretByte a.encryptionKey)),
    ("encryption_key_id", optVal .int a.encryptionKeyId), ("elgas_connection", connVal true c)])

end Elgas
