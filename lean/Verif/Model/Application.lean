import Verif.Model.Frames
/-!
Model of /repo/elgas/application.py.
-/
namespace Elgas

/-- The successive draws of `random.choices` in `pad_password`, used through
`utils.pad_password(self.password).encode("latin-1")` in every request with a password
(application.py:34, 144, 184, 233, 278). -/
def passwordBlock (password : PyStr) (r : PwRand) : Res Bytes :=
  encodeLatin1 (padPassword password r)

/-! ### Requests -/

/-- `ReadInstantaneousValuesRequest` application.py:24-31. -/
structure ReadInstantaneousValuesRequest where
  password : PyStr
  deriving DecidableEq, Repr

/-- `to_bytes` application.py:33-34. -/
def ReadInstantaneousValuesRequest.toBytes (q : ReadInstantaneousValuesRequest) (r : PwRand) :
    Res Bytes := passwordBlock q.password r

/-- `ReadTimeRequest` application.py:80-88 (no attributes). -/
structure ReadTimeRequest where
  deriving DecidableEq, Repr

/-- `to_bytes` application.py:90-91. -/
def ReadTimeRequest.toBytes (_ : ReadTimeRequest) : Res Bytes := .ok []

/-- `WriteTimeRequest` application.py:128-140. -/
structure WriteTimeRequest where
  password : PyStr
  deviceTime : DateTime
  cryout : Bool := false
  deriving DecidableEq, Repr

/-- `to_bytes` application.py:142-151 (the cryout branch is commented out in the source). -/
def WriteTimeRequest.toBytes (q : WriteTimeRequest) (r : PwRand) : Res Bytes := do
  let pw ← passwordBlock q.password r
  let t ← datetimeToBytes q.deviceTime
  let flags : Nat := 0b00000100
  let fl ← toByte (flags &&& 0xff : Nat)
  return pw ++ t ++ [fl]

/-- `ReadDeviceParametersRequest` application.py:170-180. -/
structure ReadDeviceParametersRequest where
  password : PyStr
  objectCount : Int
  bufferLength : Int
  deriving DecidableEq, Repr

/-- `to_bytes` application.py:182-188. -/
def ReadDeviceParametersRequest.toBytes (q : ReadDeviceParametersRequest) (r : PwRand) :
    Res Bytes := do
  let pw ← passwordBlock q.password r
  let oc ← toBytesLE 2 q.objectCount
  let bl ← toBytesLE 2 q.bufferLength
  return pw ++ oc ++ bl

/-- `ReadArchiveByTimeRequest` application.py:218-229; `archive` may be any Python int. -/
structure ReadArchiveByTimeRequest where
  password : PyStr
  archive : Int
  amount : Int
  oldestTimestamp : DateTime
  deriving DecidableEq, Repr

/-- `to_bytes` application.py:231-238. -/
def ReadArchiveByTimeRequest.toBytes (q : ReadArchiveByTimeRequest) (r : PwRand) : Res Bytes := do
  let pw ← passwordBlock q.password r
  let a ← toByte q.archive
  let n ← toBytesLE 2 q.amount
  let t ← datetimeToBytes q.oldestTimestamp
  return pw ++ [a] ++ n ++ t

/-- `ReadArchiveRequest` application.py:265-274. -/
structure ReadArchiveRequest where
  password : PyStr
  archive : Int
  amount : Int
  oldestRecordId : Int
  deriving DecidableEq, Repr

/-- `to_bytes` application.py:276-283. -/
def ReadArchiveRequest.toBytes (q : ReadArchiveRequest) (r : PwRand) : Res Bytes := do
  let pw ← passwordBlock q.password r
  let a ← toByte q.archive
  let i ← toBytesLE 4 q.oldestRecordId
  let n ← toBytesLE 2 q.amount
  return pw ++ [a] ++ i ++ n

/-! ### Responses -/

/-- `ReadInstantaneousValuesResponse` application.py:37-53 (`status`, `summary_status` are bytes). -/
structure ReadInstantaneousValuesResponse where
  currentTime : DateTime
  isDst : Bool
  supportsDst : Bool
  data : Bytes
  dataAccess : UInt8
  status : Bytes
  summaryStatus : Bytes
  parameterCrc : Bytes
  deriving DecidableEq, Repr

/-- `from_bytes` application.py:55-77. -/
def ReadInstantaneousValuesResponse.fromBytes (inBytes : Bytes) :
    Res ReadInstantaneousValuesResponse := do
  let data := inBytes
  let (currentTime, isDst, supportsDst) ← bytesToDatetime (sliceTo data 6)
  let data := sliceFrom data 6
  let parameterCrc := sliceFrom data (-2)
  let data := sliceTo data (-2)
  let summaryStatus := sliceFrom data (-8)
  let data := sliceTo data (-8)
  let status := sliceFrom data (-8)
  let data := sliceTo data (-8)
  let dataAccess ← pyGet data (-1)
  let data := sliceTo data (-1)
  return { currentTime, isDst, supportsDst, data, dataAccess, status, summaryStatus, parameterCrc }

/-- `ReadTimeResponse` application.py:94-109. -/
structure ReadTimeResponse where
  time : DateTime
  dataAccessResult : Bytes
  isDst : Bool
  deviceSupportsDst : Bool
  extraData : Bytes
  deriving DecidableEq, Repr

/-- `from_bytes` application.py:111-125. -/
def ReadTimeResponse.fromBytes (inBytes : Bytes) : Res ReadTimeResponse := do
  let timeData := sliceTo inBytes 6
  let dataAccessResult := slice inBytes 6 7
  let extraData := slice inBytes 7 (-2)
  let (time, isDst, deviceSupportsDst) ← bytesToDatetime timeData
  return { time, dataAccessResult, isDst, deviceSupportsDst, extraData }

/-- `WriteTimeResponse` application.py:154-163 (no attributes). -/
structure WriteTimeResponse where
  deriving DecidableEq, Repr

/-- `from_bytes` application.py:165-167 (ignores its argument). -/
def WriteTimeResponse.fromBytes (_ : Bytes) : Res WriteTimeResponse := .ok {}

/-- `ReadDeviceParametersResponse` application.py:191-202. -/
structure ReadDeviceParametersResponse where
  data : Bytes
  objectNumber : Nat
  objectAmount : Nat
  isEnd : Bool
  deriving DecidableEq, Repr

/-- `from_bytes` application.py:204-215. -/
def ReadDeviceParametersResponse.fromBytes (inBytes : Bytes) :
    Res ReadDeviceParametersResponse := do
  let objectNumber := fromLE (sliceTo inBytes 2)
  let objectAmount := fromLE (slice inBytes 2 4)
  let e ← pyGet inBytes 4
  let isEnd : Bool := e.toNat ≠ 0
  let data := sliceFrom inBytes 5
  return { objectNumber, objectAmount, isEnd, data }

/-- `ReadArchiveByTimeResponse` application.py:241-251. -/
structure ReadArchiveByTimeResponse where
  archive : Archive
  oldestRecordId : Nat
  data : Bytes
  deriving DecidableEq, Repr

/-- `from_bytes` application.py:253-262. -/
def ReadArchiveByTimeResponse.fromBytes (inBytes : Bytes) : Res ReadArchiveByTimeResponse := do
  let a ← pyGet inBytes 0
  let archive ← Archive.ofValue a.toNat
  let oldestRecordId := fromLE (slice inBytes 1 4)
  let data := sliceFrom inBytes 5
  return { archive, oldestRecordId, data }

/-- `ReadArchiveResponse` application.py:286-294. -/
structure ReadArchiveResponse where
  archive : Archive
  oldestRecordId : Nat
  data : Bytes
  deriving DecidableEq, Repr

/-- `from_bytes` application.py:296-305. -/
def ReadArchiveResponse.fromBytes (inBytes : Bytes) : Res ReadArchiveResponse := do
  let a ← pyGet inBytes 0
  let archive ← Archive.ofValue a.toNat
  let oldestRecordId := fromLE (slice inBytes 1 4)
  let data := sliceFrom inBytes 5
  return { archive, oldestRecordId, data }

/-! ### Call messages -/

/-- Years elapsed: given a day count from 1 January of year `y`, the year and the day of the year
(0-based).  Part of the reading of `datetime + timedelta`; structural on `fuel` years.
Used for `base_date + timedelta(...)`, application.py:361-378. -/
def yearOfDays : Nat → Nat → Nat → Nat × Nat
  | 0, y, d => (y, d)
  | fuel + 1, y, d =>
    let len := if isLeap y then 366 else 365
    if d < len then (y, d) else yearOfDays fuel (y + 1) (d - len)

/-- Month and day of month from a 0-based day of the year.
Used for `base_date + timedelta(...)`, application.py:361-378. -/
def monthOfDays (y : Nat) : Nat → Nat → Nat → Nat × Nat
  | 0, m, d => (m, d + 1)
  | fuel + 1, m, d =>
    if d < daysInMonth y m then (m, d + 1) else monthOfDays y fuel (m + 1) (d - daysInMonth y m)

/-- `datetime.fromisoformat("2000-01-01T00:00:00") + timedelta(seconds=s)`
(application.py:348, 361-363, 365-367, 369-371, 376-378), for the non-negative `s` below 2^32 used
there.  Semantics of `datetime` arithmetic in the proleptic Gregorian calendar. -/
def base2000PlusSeconds (s : Nat) : DateTime :=
  let days := s / 86400
  let rest := s % 86400
  let (y, yd) := yearOfDays days 2000 days
  let (m, d) := monthOfDays y 11 1 yd
  { year := y, month := m, day := d, hour := rest / 3600, minute := rest % 3600 / 60,
    second := rest % 60 }

/-- `CallRequest` application.py:308-341. -/
structure CallRequest where
  guid : Bytes
  stationId : PyStr
  simCardId : PyStr
  modemId : PyStr
  address1 : Nat
  address2 : Nat
  signalStrength : Nat
  connections : Nat
  lastConnectionTime : DateTime
  connectionErrors : Nat
  lastConnectionErrorTime : DateTime
  resets : Nat
  lastResetTime : DateTime
  tcpData : Nat
  allData : Nat
  serialNumber : PyStr
  ipAddress : PyStr
  lastModemError : Nat
  lastModemErrorTime : DateTime
  modemBatteryCapacity : Nat
  modemBatteryVoltage : Nat
  firmwareVersion : PyStr
  version : Nat
  protocol : Protocol
  deriving DecidableEq, Repr

/-- Body of `from_bytes` application.py:349-409 on the local `bytearray`. -/
def CallRequest.parser : P CallRequest := do
  let _length := fromLE (← popMany 2)
  let version := (← pop0).toNat
  let guid ← popMany 16
  let stationId := prettyText (← popMany 17)
  let simId := pyStrInt (← fromBcd (← popMany 10))
  let modemId := pyStrInt (← fromBcd (← popMany 8))
  let protocol ← Protocol.ofValue (← pop0).toNat
  let address1 := fromLE (← popMany 2)
  let address2 := (← pop0).toNat
  let signalStrength := (← pop0).toNat
  let connections := fromLE (← popMany 4)
  let lastConnection := base2000PlusSeconds (fromLE (← popMany 4))
  let connectionErrors := fromLE (← popMany 4)
  let lastConnectionErrorTime := base2000PlusSeconds (fromLE (← popMany 4))
  let resets := fromLE (← popMany 4)
  let lastResetTime := base2000PlusSeconds (fromLE (← popMany 4))
  let tcpData := fromLE (← popMany 4)
  let allData := fromLE (← popMany 4)
  let serialNumber := pyStrInt (fromLE (← popMany 4))
  let ipAddress ← parseIpAddress (← popMany 4)
  let lastModemErrorTime := base2000PlusSeconds (fromLE (← popMany 4))
  let lastModemError := (← pop0).toNat
  let modemBatteryCapacity := fromLE (← popMany 2)
  let modemBatteryVoltage := fromLE (← popMany 2)
  let firmwareVersion := prettyText (← popMany 33)
  return {
    guid, stationId, simCardId := simId, modemId, address1, address2, signalStrength, connections,
    lastConnectionTime := lastConnection, connectionErrors, lastConnectionErrorTime, resets,
    lastResetTime, tcpData, allData, serialNumber, ipAddress, lastModemError, lastModemErrorTime,
    modemBatteryCapacity, modemBatteryVoltage, firmwareVersion, version, protocol }

/-- `CallRequest.from_bytes` application.py:343-409. -/
def CallRequest.fromBytes (inBytes : Bytes) : Res CallRequest := P.run CallRequest.parser inBytes

/-- `CallResponse` application.py:412-419. -/
structure CallResponse where
  deriving DecidableEq, Repr

/-- `CallResponse.to_bytes` application.py:418-419. -/
def CallResponse.toBytes (_ : CallResponse) : Res Bytes := .ok []

end Elgas
