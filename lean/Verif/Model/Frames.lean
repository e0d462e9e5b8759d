import Verif.Model.Utils
/-!
Model of /repo/elgas/constants.py and /repo/elgas/frames.py.
-/
namespace Elgas

/-! ### Enumerations (constants.py) -/

/-- `ServiceNumber` constants.py:4-18. -/
inductive ServiceNumber
  | readValues | writeValues | searchArchivePointersOld | searchArchivePointers
  | readArchivesOld | readArchives | readDeviceTime | readScadaParameters | writeDeviceTime
  | groupWriteValues | groupReadValues | call | readArchivesByDateOld | readArchivesByDate
  deriving DecidableEq, Repr

/-- The integer value of a service number, constants.py:5-18. -/
def ServiceNumber.value : ServiceNumber → Nat
  | .readValues => 0x64
  | .writeValues => 0x65
  | .searchArchivePointersOld => 0x67
  | .searchArchivePointers => 0x7B
  | .readArchivesOld => 0x68
  | .readArchives => 0x7C
  | .readDeviceTime => 0x6C
  | .readScadaParameters => 0x70
  | .writeDeviceTime => 0x71
  | .groupWriteValues => 0x77
  | .groupReadValues => 0x79
  | .call => 0x87
  | .readArchivesByDateOld => 0x91
  | .readArchivesByDate => 0x7D

/-- All members, in the order of constants.py:5-18. -/
def ServiceNumber.all : List ServiceNumber :=
  [.readValues, .writeValues, .searchArchivePointersOld, .searchArchivePointers,
   .readArchivesOld, .readArchives, .readDeviceTime, .readScadaParameters, .writeDeviceTime,
   .groupWriteValues, .groupReadValues, .call, .readArchivesByDateOld, .readArchivesByDate]

/-- `ServiceNumber(n)`: lookup by value, `ValueError` when there is no such member
(semantics of `enum.IntEnum`). Used in frames.py:55, 137. -/
def ServiceNumber.ofValue (n : Nat) : Res ServiceNumber :=
  match ServiceNumber.all.find? (fun s => s.value == n) with
  | some s => .ok s
  | none => raise .value

/-- `Archive` constants.py:21-32 (application.py:10-21 is an identical copy). -/
inductive Archive
  | extreme | data | binary | daily | monthly | setting | fast1 | fast2 | status | billing
  | gasComposition
  deriving DecidableEq, Repr

/-- Values of `Archive` constants.py:22-32. -/
def Archive.value : Archive → Nat
  | .extreme => 0 | .data => 1 | .binary => 2 | .daily => 3 | .monthly => 4 | .setting => 5
  | .fast1 => 6 | .fast2 => 7 | .status => 8 | .billing => 9 | .gasComposition => 10

/-- Members of `Archive` in order, constants.py:22-32. -/
def Archive.all : List Archive :=
  [.extreme, .data, .binary, .daily, .monthly, .setting, .fast1, .fast2, .status, .billing,
   .gasComposition]

/-- `Archive(n)`. Used in application.py:255, 298. -/
def Archive.ofValue (n : Nat) : Res Archive :=
  match Archive.all.find? (fun s => s.value == n) with
  | some s => .ok s
  | none => raise .value

/-- `Protocol` constants.py:35-39. -/
inductive Protocol
  | elgas2 | qmd | rds | modbus
  deriving DecidableEq, Repr

/-- Values of `Protocol` constants.py:36-39. -/
def Protocol.value : Protocol → Nat
  | .elgas2 => 0 | .qmd => 1 | .rds => 2 | .modbus => 3

/-- Members of `Protocol`, constants.py:36-39. -/
def Protocol.all : List Protocol := [.elgas2, .qmd, .rds, .modbus]

/-- `Protocol(n)`. Used in application.py:356. -/
def Protocol.ofValue (n : Nat) : Res Protocol :=
  match Protocol.all.find? (fun s => s.value == n) with
  | some s => .ok s
  | none => raise .value

/-! ### Frames (frames.py) -/

/-- The attributes shared by `Request` frames.py:13-18 and `Response` frames.py:97-102 (and their
encrypted subclasses frames.py:176-183).  Addresses are Python ints, hence `Int`. -/
structure Frame where
  service : ServiceNumber
  da1 : Int   -- destination_address_1
  da2 : Int   -- destination_address_2
  sa1 : Int   -- source_address_1
  sa2 : Int   -- source_address_2
  data : Bytes
  deriving DecidableEq, Repr

/-- `Request.TYPE` frames.py:12 -/
def requestType : UInt8 := 0x84
/-- `EncryptedRequest.TYPE` frames.py:178 -/
def encryptedRequestType : UInt8 := 0x85
/-- `Response.TYPE` frames.py:96 -/
def responseType : UInt8 := 0x86
/-- `EncryptedResponse.TYPE` frames.py:183 -/
def encryptedResponseType : UInt8 := 0x87

/-- `length` frames.py:22-27 and 104-109. -/
def Frame.length (f : Frame) : Nat := f.data.length + 15

/-- The redundancy bytes and end character appended by frames.py:41-45 and 123-127 (`out[1:]` is
the redundancy source; the codes are below 256 so `append` cannot fail). -/
def appendRedundancy (out : Bytes) : Bytes :=
  let src := sliceFrom out 1
  out ++ [UInt8.ofNat (calculateLrc src), UInt8.ofNat (calculateChecksum src),
    UInt8.ofNat (calculateDrc src), 0x0D]

/-- `Request.to_bytes` frames.py:29-47 (addresses big endian). -/
def requestToBytes (ty : UInt8) (f : Frame) : Res Bytes := do
  let out : Bytes := [0x02, 0xFE, ty]
  let svc ← toByte f.service.value
  let out := out ++ [svc]
  let len ← toBytesLE 2 f.length
  let out := out ++ len
  let d1 ← toBytesBE 2 f.da1
  let out := out ++ d1
  let d2 ← toByte f.da2
  let out := out ++ [d2]
  let s1 ← toBytesBE 2 f.sa1
  let out := out ++ s1
  let s2 ← toByte f.sa2
  let out := out ++ [s2]
  let out := out ++ f.data
  return appendRedundancy out

/-- `Response.to_bytes` frames.py:111-129 (addresses little endian). -/
def responseToBytes (ty : UInt8) (f : Frame) : Res Bytes := do
  let out : Bytes := [0x02, 0xFE, ty]
  let svc ← toByte f.service.value
  let out := out ++ [svc]
  let len ← toBytesLE 2 f.length
  let out := out ++ len
  let d1 ← toBytesLE 2 f.da1
  let out := out ++ d1
  let d2 ← toByte f.da2
  let out := out ++ [d2]
  let s1 ← toBytesLE 2 f.sa1
  let out := out ++ s1
  let s2 ← toByte f.sa2
  let out := out ++ [s2]
  let out := out ++ f.data
  return appendRedundancy out

/-- `Request.from_bytes` frames.py:49-91 and `Response.from_bytes` frames.py:131-173: the two
bodies are the same text; `ty` is `cls.TYPE`. -/
def frameFromBytes (ty : UInt8) (inBytes : Bytes) : Res Frame := do
  if !startsWith inBytes [0x02, 0xFE, ty] then raise .value
  if !endsWith inBytes [0x0D] then raise .value
  let service ← ServiceNumber.ofValue (fromLE (slice inBytes 3 4))
  let length := fromLE (slice inBytes 4 6)
  if (length : Int) ≠ (inBytes.length : Int) - 1 then raise .value
  let da1 := fromLE (slice inBytes 6 8)
  let da2 := fromLE (slice inBytes 8 9)
  let sa1 := fromLE (slice inBytes 9 11)
  let sa2 := fromLE (slice inBytes 11 12)
  let data := slice inBytes 12 (-4)
  let redundancySource := slice inBytes 1 (-4)
  let lrc ← pyGet inBytes (-4)
  if lrc.toNat ≠ calculateLrc redundancySource then raise .value
  let checksum ← pyGet inBytes (-3)
  if checksum.toNat ≠ calculateChecksum redundancySource then raise .value
  let drc ← pyGet inBytes (-2)
  if drc.toNat ≠ calculateDrc redundancySource then raise .value
  return { service, da1 := da1, da2 := da2, sa1 := sa1, sa2 := sa2, data }

/-- `ResponseFactory.from_bytes` frames.py:186-195; the Boolean says whether the object is an
`EncryptedResponse`. -/
def responseFactory (inData : Bytes) : Res (Bool × Frame) :=
  if startsWith inData [0x02, 0xFE, 0x86] then do
    let f ← frameFromBytes responseType inData
    return (false, f)
  else if startsWith inData [0x02, 0xFE, 0x87] then do
    let f ← frameFromBytes encryptedResponseType inData
    return (true, f)
  else raise .value

end Elgas
