import Verif.Model.Connection
/-!
Comparing requests and answers: the methods that `attr.s(auto_attribs=True)` adds to the classes of
/repo/elgas/application.py (`__eq__`, `__lt__`, `__le__`, `__gt__`, `__ge__`): two objects of the same class are compared
like the tuples of their attributes in the order of declaration; objects of different classes are unequal, and have no
order.  (Simplification: the attributes have the types they have in requests that can be sent and in decoded answers.)
-/
namespace Elgas

/-- The value of an attribute (booleans and members of an `IntEnum` compare like their numbers), application.py:37-341. -/
inductive Atom
  | int (n : Int)
  | bytes (b : Bytes)
  | text (s : PyStr)
  | time (t : DateTime)
  deriving DecidableEq

/-- The four comparisons `<`, `<=`, `>`, `>=` (methods added by `@attr.s` at application.py:37, 94, 191, 241, 286, 308). -/
inductive Cmp
  | lt | le | gt | ge
  deriving DecidableEq

/-- Comparison of integers, application.py:49, 200-202, 250. -/
def Cmp.nat (o : Cmp) (m n : Int) : Bool :=
  match o with
  | .lt => m < n
  | .le => m ≤ n
  | .gt => n < m
  | .ge => n ≤ m

/-- Comparison of sequences of integers (bytes, strings, tuples): at the first difference, else by length.
Used for `bytes` and `str` attributes, application.py:46-53, 105-109. -/
def Cmp.seq (o : Cmp) : List Nat → List Nat → Bool
  | x :: xs, y :: ys => if x = y then o.seq xs ys else o.nat x y
  | xs, ys => o.nat xs.length ys.length

/-- The numbers by which `datetime` objects are compared, application.py:46, 105, 321-331. -/
def DateTime.parts (t : DateTime) : List Nat :=
  [t.year, t.month, t.day, t.hour, t.minute, t.second, t.microsecond]

/-- Comparison of two attributes of the same name, application.py:37-341. Values of different types are never compared here
(simplification: rendered as no order). -/
def Cmp.atom (o : Cmp) : Atom → Atom → Bool
  | .int m, .int n => o.nat m n
  | .bytes a, .bytes b => o.seq (a.map UInt8.toNat) (b.map UInt8.toNat)
  | .text a, .text b => o.seq (a.map Char.toNat) (b.map Char.toNat)
  | .time t, .time u => o.seq t.parts u.parts
  | _, _ => false

/-- Comparison of the tuples of attributes (methods added by `@attr.s`, application.py:24-308). -/
def Cmp.tuple (o : Cmp) : List Atom → List Atom → Bool
  | x :: xs, y :: ys => if x = y then o.tuple xs ys else o.atom x y
  | xs, ys => o.nat xs.length ys.length

/-- A boolean attribute, application.py:47-48, 107-108, 140, 202. -/
def Atom.bool (b : Bool) : Atom := .int (if b then 1 else 0)

/-- The attributes in the order of declaration (class variables are none): application.py:31, 88, 138-140, 178-180,
226-229, 271-274, 46-53, 105-109, 163, 199-202, 249-251, 292-294, 316-341, 412-416. -/
def Event.atoms : Event → List Atom
  | .readInstantaneousValuesRequest q => [.text q.password]
  | .readTimeRequest _ => []
  | .writeTimeRequest q => [.text q.password, .time q.deviceTime, .bool q.cryout]
  | .readDeviceParametersRequest q => [.text q.password, .int q.objectCount, .int q.bufferLength]
  | .readArchiveByTimeRequest q => [.text q.password, .int q.archive, .int q.amount, .time q.oldestTimestamp]
  | .readArchiveRequest q => [.text q.password, .int q.archive, .int q.amount, .int q.oldestRecordId]
  | .readInstantaneousValuesResponse p =>
    [.time p.currentTime, .bool p.isDst, .bool p.supportsDst, .bytes p.data, .int p.dataAccess.toNat, .bytes p.status,
     .bytes p.summaryStatus, .bytes p.parameterCrc]
  | .readTimeResponse p =>
    [.time p.time, .bytes p.dataAccessResult, .bool p.isDst, .bool p.deviceSupportsDst, .bytes p.extraData]
  | .writeTimeResponse _ => []
  | .readDeviceParametersResponse p => [.bytes p.data, .int p.objectNumber, .int p.objectAmount, .bool p.isEnd]
  | .readArchiveByTimeResponse p => [.int p.archive.value, .int p.oldestRecordId, .bytes p.data]
  | .readArchiveResponse p => [.int p.archive.value, .int p.oldestRecordId, .bytes p.data]
  | .callRequest p =>
    [.bytes p.guid, .text p.stationId, .text p.simCardId, .text p.modemId, .int p.address1, .int p.address2,
     .int p.signalStrength, .int p.connections, .time p.lastConnectionTime, .int p.connectionErrors,
     .time p.lastConnectionErrorTime, .int p.resets, .time p.lastResetTime, .int p.tcpData, .int p.allData,
     .text p.serialNumber, .text p.ipAddress, .int p.lastModemError, .time p.lastModemErrorTime,
     .int p.modemBatteryCapacity, .int p.modemBatteryVoltage, .text p.firmwareVersion, .int p.version,
     .int p.protocol.value]
  | .callResponse _ => []

/-- `a == b` (`__eq__` added by `@attr.s`, application.py:24-412). -/
def Event.equals (a b : Event) : Bool := a.type = b.type && a.atoms = b.atoms

/-- `a < b`, `a <= b`, `a > b`, `a >= b`: for different classes both sides return `NotImplemented`, hence `TypeError`
(methods added by `@attr.s`, application.py:24-412). -/
def Event.compare (o : Cmp) (a b : Event) : Res Bool :=
  if a.type = b.type then .ok (o.tuple a.atoms b.atoms) else .error .type

end Elgas
