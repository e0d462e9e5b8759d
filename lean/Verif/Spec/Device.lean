import Verif.Spec.Client
import Verif.Spec.Escape
import Verif.Spec.Cbc
import Verif.Spec.Body
import Verif.Spec.Time
/-!
A reference device, written down from the protocol and independently of the library: what it keeps, how it
reads a request line, what it does, and which response lines it may answer with.
-/
namespace Spec
open Elgas

/-- What a device keeps. -/
structure Device where
  /-- key id and key, if it talks encrypted -/
  key : Option (UInt8 × Bytes)
  password : Bytes
  clock : DateTime
  isDst : Bool
  supportsDst : Bool
  access : UInt8
  values : Bytes
  status : Bytes
  summary : Bytes
  crc : Bytes
  /-- the parameter objects in their serialised form -/
  objects : List Bytes
  /-- archive, number of records, id of the oldest record asked for: id of the oldest one found, and the records -/
  records : Nat → Nat → Nat → Nat × Bytes
  /-- archive, number of records, oldest time asked for: id of the oldest one found, and the records -/
  recordsSince : Nat → Nat → DateTime → Nat × Bytes

/-- What a device can be asked for. -/
inductive Asked
  | values (password : Bytes)
  | time
  | setTime (password : Bytes) (t : DateTime)
  | parameters (password : Bytes) (first room : Nat)
  | archive (password : Bytes) (archive amount first : Nat)
  | archiveSince (password : Bytes) (archive amount : Nat) (t : DateTime)

/-- The password that comes with the question. -/
def Asked.password : Asked → Option Bytes
  | .values p | .setTime p _ | .parameters p _ _ | .archive p _ _ _ | .archiveSince p _ _ _ => some p
  | .time => none

/-- The meaning of a request body under a service number.  All but the time request start with six password
bytes and four insignificant ones. -/
inductive Reads : UInt8 → Bytes → Asked → Prop
  | values (b) : b.length = 10 → Reads 0x64 b (.values (bytesAt b 0 6))
  | time : Reads 0x6C [] .time
  | setTime (b t x y) : b.length = 17 → Denotes (bytesAt b 10 6) t x y → leAt b 16 1 = 4 →
      Reads 0x71 b (.setTime (bytesAt b 0 6) t)
  | parameters (b) : b.length = 14 → Reads 0x70 b (.parameters (bytesAt b 0 6) (leAt b 10 2) (leAt b 12 2))
  | archive (b) : b.length = 17 →
      Reads 0x7C b (.archive (bytesAt b 0 6) (leAt b 10 1) (leAt b 15 2) (leAt b 11 4))
  | archiveSince (b t x y) : b.length = 19 → Denotes (bytesAt b 13 6) t x y →
      Reads 0x7D b (.archiveSince (bytesAt b 0 6) (leAt b 10 1) (leAt b 11 2) t)

/-- What the device does: how it goes on and the body of its response.  Where something is not fixed by the
protocol (padding, trailing bytes, how many objects go into a page) any choice will do. -/
inductive Does (D : Device) : Asked → Device → Bytes → Prop
  /-- a wrong password: error bit 0, and nothing happens -/
  | denied (a p) : a.password = some p → p ≠ D.password → Does D a D [0x01]
  | values (tb) : Denotes tb D.clock D.isDst D.supportsDst →
      Does D (.values D.password) D (tb ++ D.values ++ [D.access] ++ D.status ++ D.summary ++ D.crc)
  | time (tb extra) : Denotes tb D.clock D.isDst D.supportsDst → Does D .time D (tb ++ [D.access] ++ extra ++ D.crc)
  | setTime (t reply) : (∀ b, reply = [b] → ¬ OneBit b) →
      Does D (.setTime D.password t) { D with clock := t } reply
  | parameters (first room k : Nat) (flag : UInt8) : k ≤ D.objects.length - first →
      ((D.objects.drop first).take k).flatten.length ≤ room →
      (flag ≠ 0 ↔ D.objects.length ≤ first + k) →
      Does D (.parameters D.password first room) D
        (le2 first ++ le2 k ++ [flag] ++ ((D.objects.drop first).take k).flatten)
  | archive (x n i) :
      Does D (.archive D.password x n i) D ([UInt8.ofNat x] ++ leOf (D.records x n i).1 4 ++ (D.records x n i).2)
  | archiveSince (x n t) :
      Does D (.archiveSince D.password x n t) D
        ([UInt8.ofNat x] ++ leOf (D.recordsSince x n t).1 4 ++ (D.recordsSince x n t).2)

/-- `data` is `body` under the key: the length, the key id, and, in cipher block chaining mode with the key as
initialisation vector, the body, padding, and the CRC of all of that. -/
def Sealed (C : BlockCipher) (keyId : UInt8) (key body data : Bytes) : Prop :=
  data.take 3 = le2 body.length ++ [keyId] ∧ key.length = 16 ∧
  ∃ pad, CbcOf (C.enc key) key (body ++ pad ++ le2 (crc16Modbus (data.take 3 ++ body ++ pad))) (data.drop 3)

/-- `line` is, on the wire, a frame of the given type and service with `body` in it, in the clear or (then the
type is one higher) under the key. -/
def Carries (C : BlockCipher) (key : Option (UInt8 × Bytes)) (type service : UInt8) (body line : Bytes) : Prop :=
  ∃ address data : Bytes, address.length = 6 ∧ data.length ≤ 65520 ∧
    (match key with
      | none => data = body ∧ line = escBytes (frame type service address data).dropLast ++ [0x0D]
      | some (keyId, k) => Sealed C keyId k body data ∧
          line = escBytes (frame (type + 1) service address data).dropLast ++ [0x0D])

/-- The device finds this question in the line. -/
def Finds (C : BlockCipher) (D : Device) (line : Bytes) (a : Asked) : Prop :=
  ∃ service body, Carries C D.key 0x84 service body line ∧ Reads service body a

/-- The device, on a request line, goes on as `D'` and answers with `line'`. -/
def Replies (C : BlockCipher) (D : Device) (line : Bytes) (D' : Device) (line' : Bytes) : Prop :=
  ∃ service body a reply, Carries C D.key 0x84 service body line ∧ Reads service body a ∧
    Does D a D' reply ∧ Carries C D.key 0x86 service reply line'

/-- The device is given request lines, one after the other, and its answers are cut into pieces, the last piece
of each answer not empty. -/
inductive Feeds (C : BlockCipher) : Device → List Bytes → List Bytes → Device → Prop
  | nil (D) : Feeds C D [] [] D
  | request (D D1 D' w ws pieces last rs) : Replies C D w D1 (pieces.flatten ++ last) → last ≠ [] →
      Feeds C D1 ws rs D' → Feeds C D (w :: ws) (pieces ++ last :: rs) D'

/-- The device is given request lines, one after the other, and these are the bytes it puts on the wire. -/
inductive Serves (C : BlockCipher) : Device → List Bytes → Bytes → Device → Prop
  | nil (D) : Serves C D [] [] D
  | request (D D1 D' w ws line out) : Replies C D w D1 line → Serves C D1 ws out D' →
      Serves C D (w :: ws) (line ++ out) D'

/-- A time the protocol can express. -/
def Expressible (t : DateTime) : Prop := t.Valid ∧ 2000 ≤ t.year ∧ t.year ≤ 2099

/-- A device as it should be: six password bytes, a time the protocol can express, fields of fixed size, a number
of objects that can be counted in two bytes. -/
structure Device.Ok (D : Device) : Prop where
  password : D.password.length = 6
  clock : Expressible D.clock ∧ D.clock.microsecond = 0
  key : ∀ keyId key, D.key = some (keyId, key) → key.length = 16
  status : D.status.length = 8
  summary : D.summary.length = 8
  crc : D.crc.length = 2
  objects : D.objects.length ≤ 65535
  records : ∀ x n i, (D.records x n i).1 < 2 ^ 32
  recordsSince : ∀ x n t, (D.recordsSince x n t).1 < 2 ^ 32

/-- Nothing the device keeps is too large for a frame. -/
structure Device.Sizes (D : Device) : Prop where
  values : D.values.length ≤ 65000
  objects : ∀ o ∈ D.objects, o.length ≤ 1024
  records : ∀ x n i, (D.records x n i).2.length ≤ 65000
  recordsSince : ∀ x n t, (D.recordsSince x n t).2.length ≤ 65000

/-- Client and device agree on encryption: neither has a key, or both have the same key and key id. -/
def SharesKey (a : ClientArgs) (D : Device) : Prop :=
  match D.key with
  | none => ¬ Encrypting a
  | some (keyId, key) => a.encryptionKey = some key ∧ a.encryptionKeyId = some (keyId.toNat : Int)

/-- The client knows the password of the device. -/
def KnowsPassword (a : ClientArgs) (D : Device) : Prop := IsLatin1 a.password ∧ latin1 a.password = D.password

/-- What a call gives back. -/
inductive Value
  | event (e : Event)
  | time (t : DateTime)
  | nothing
  | objects (os : List PObj)

/-- Perform a call, with its value. -/
def callV (C : BlockCipher) (s : Sys) : Call → Outcome3 Value × Sys
  | .readInstantaneousValues =>
    ((s.readInstantaneousValues C).1.andThen (.returned ∘ .event), (s.readInstantaneousValues C).2)
  | .readTime => ((s.readTime C).1.andThen (.returned ∘ .time), (s.readTime C).2)
  | .writeTime t b => ((s.writeTime C t b).1.andThen fun _ => .returned .nothing, (s.writeTime C t b).2)
  | .readParameters n => ((s.readParameters C n).1.andThen (.returned ∘ .objects), (s.readParameters C n).2)
  | .readArchive a n i => ((s.readArchive C a n i).1.andThen (.returned ∘ .event), (s.readArchive C a n i).2)
  | .readArchiveByTime a n t =>
    ((s.readArchiveByTime C a n t).1.andThen (.returned ∘ .event), (s.readArchiveByTime C a n t).2)

/-- Perform calls one after the other, with their values. -/
def callsV (C : BlockCipher) (s : Sys) : List Call → List (Outcome3 Value) × Sys
  | [] => ([], s)
  | k :: ks => ((callV C s k).1 :: (callsV C (callV C s k).2 ks).1, (callsV C (callV C s k).2 ks).2)

/-- The arguments of the call are such as the protocol can express. -/
def Call.InRange : Call → Prop
  | .readInstantaneousValues | .readTime => True
  | .writeTime t _ => Expressible t
  | .readParameters n => 0 ≤ n ∧ n ≤ 65535
  | .readArchive x n i => (0 ≤ x ∧ x ≤ 10) ∧ (0 ≤ n ∧ n ≤ 65535) ∧ (0 ≤ i ∧ i < 2 ^ 32)
  | .readArchiveByTime x n t => (0 ≤ x ∧ x ≤ 10) ∧ (0 ≤ n ∧ n ≤ 65535) ∧ Expressible t

/-- What a call of a client that knows the secrets should give back, and how it should leave the device. -/
inductive Ideal (D : Device) : Call → Outcome3 Value → Device → Prop
  | values : Ideal D .readInstantaneousValues
      (.returned (.event (.readInstantaneousValuesResponse
        { currentTime := D.clock, isDst := D.isDst, supportsDst := D.supportsDst, data := D.values,
          dataAccess := D.access, status := D.status, summaryStatus := D.summary, parameterCrc := D.crc }))) D
  | time : Ideal D .readTime (.returned (.time D.clock)) D
  | writeTime (t b) : Ideal D (.writeTime t b) (.returned .nothing) { D with clock := { t with microsecond := 0 } }
  /-- the objects from the given one on, as far as the parser can make sense of them -/
  | parameters (n os) : parseParameters none (some (D.objects.drop n.toNat).flatten) = .ok os →
      Ideal D (.readParameters n) (.returned (.objects os)) D
  | unparsable (n x) : parseParameters none (some (D.objects.drop n.toNat).flatten) = .error x →
      Ideal D (.readParameters n) (.raised x) D
  /-- the records, but only the lower three bytes of the id -/
  | archive (x n i p) : (p.archive.value : Int) = x → p.data = (D.records x.toNat n.toNat i.toNat).2 →
      p.oldestRecordId = (D.records x.toNat n.toNat i.toNat).1 % 2 ^ 24 →
      Ideal D (.readArchive x n i) (.returned (.event (.readArchiveResponse p))) D
  | archiveSince (x n t p) : (p.archive.value : Int) = x →
      p.data = (D.recordsSince x.toNat n.toNat { t with microsecond := 0 }).2 →
      p.oldestRecordId = (D.recordsSince x.toNat n.toNat { t with microsecond := 0 }).1 % 2 ^ 24 →
      Ideal D (.readArchiveByTime x n t) (.returned (.event (.readArchiveByTimeResponse p))) D

/-- The same for calls one after the other. -/
inductive Ideals : Device → List Call → List (Outcome3 Value) → Device → Prop
  | nil (D) : Ideals D [] [] D
  | call (D D1 D' k ks r rs) : Ideal D k r D1 → Ideals D1 ks rs D' → Ideals D (k :: ks) (r :: rs) D'

/-- What a call means to a device. -/
def Means (password : PyStr) : Call → Asked → Prop
  | .readInstantaneousValues, a => a = .values (latin1 password)
  | .readTime, a => a = .time
  | .writeTime t _, a => a = .setTime (latin1 password) { t with microsecond := 0 }
  | .readParameters _, a => ∃ first : Nat, a = .parameters (latin1 password) first 1024
  | .readArchive x n i, a => a = .archive (latin1 password) x.toNat n.toNat i.toNat
  | .readArchiveByTime x n t, a => a = .archiveSince (latin1 password) x.toNat n.toNat { t with microsecond := 0 }

end Spec
