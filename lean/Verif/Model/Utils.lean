import Verif.Py.Basic
/-!
Model of /repo/elgas/utils.py.
-/
namespace Elgas

/-! ### Secrets (utils.py:7-57) -/

/-- The `while True: f = sys._getframe(depth)` loop of utils.py:16-25 and 38-47: walks the calling
frames outwards; a frame whose code is named `__repr__` censors; running out of frames
(`ValueError`) leaves the loop.  `stack` lists the names of the calling frames, innermost first
(depth 1, 2, ...). -/
def secretWalk : List String → Option String
  | [] => none
  | f :: rest => if f = "__repr__" then some "<SECRET>" else secretWalk rest

/-- `SecretStr.__repr__` utils.py:12-26 and `SecretByte.__repr__` utils.py:34-48;
`plain` is what `super().__repr__()` returns. -/
def secretRepr (stack : List String) (plain : String) : String :=
  match secretWalk stack with
  | some s => s
  | none => plain

/-- `to_secret_byte` utils.py:51-53: returns `None` for falsy data (`None` or empty bytes).
The `SecretByte` wrapper only changes `__repr__`, so the value is kept as bytes. -/
def toSecretByte (data : Option Bytes) : Option Bytes :=
  match data with
  | none => none
  | some d => if d.isEmpty then none else some d

/-- `to_secret_str` utils.py:56-57. -/
def toSecretStr (data : PyStr) : PyStr := data

/-! ### Redundancy codes (utils.py:60-111) -/

/-- `calculate_lrc` utils.py:60-65. -/
def calculateLrc (data : Bytes) : Nat :=
  (data.foldl (fun lrc b =>
    let temp := lrc ^^^ b.toNat
    temp &&& 0xFF) 0) &&& 0xFF

/-- `calculate_checksum` utils.py:68-73. -/
def calculateChecksum (data : Bytes) : Nat :=
  (data.foldl (fun checksum b =>
    let temp := checksum + b.toNat
    temp &&& 0xFF) 0) &&& 0xFF

/-- Body of the loop of `calculate_drc` utils.py:79-84. -/
def drcStep (drc : Nat) (b : UInt8) : Nat :=
  let temp := drc <<< 1
  let temp := if temp &&& 0x100 ≠ 0 then temp + 1 else temp
  let temp := temp &&& 0xFF
  let temp := temp ^^^ b.toNat
  temp &&& 0xFF

/-- `calculate_drc` utils.py:76-85. -/
def calculateDrc (data : Bytes) : Nat := (data.foldl drcStep 0) &&& 0xFF

/-- Inner loop of `generate_crc16_table` utils.py:92-97; state is `(crc, byte)`. -/
def crcTableLoop : Nat → Nat × Nat → Nat × Nat
  | 0, s => s
  | k + 1, (crc, byte) =>
    let crc := if (byte ^^^ crc) &&& 0x0001 ≠ 0 then (crc >>> 1) ^^^ 0xA001 else crc >>> 1
    crcTableLoop k (crc, byte >>> 1)

/-- One table entry, utils.py:90-98. -/
def crcTableEntry (byte : Nat) : Nat := (crcTableLoop 8 (0x0000, byte)).1

/-- `generate_crc16_table` utils.py:88-99. -/
def crc16Table : List Nat := (List.range 256).map crcTableEntry

theorem crc16Table_length : crc16Table.length = 256 := by simp [crc16Table]

theorem crcIndex_lt (crc a : Nat) : (crc ^^^ a) &&& 0xFF < crc16Table.length := by
  rw [crc16Table_length]
  exact Nat.and_lt_two_pow _ (by decide : 0xFF < 2 ^ 8)

/-- Body of the loop of `calculate_crc` utils.py:108-109. -/
def crcStep (crc : Nat) (a : UInt8) : Nat :=
  let idx := crc16Table[(crc ^^^ a.toNat) &&& 0xFF]'(crcIndex_lt _ _)
  ((crc >>> 8) &&& 0xFF) ^^^ idx

/-- `calculate_crc` utils.py:105-111. -/
def calculateCrc (data : Bytes) : Nat :=
  let crc := data.foldl crcStep 0xFFFF
  ((crc <<< 8) &&& 0xFF00) ||| ((crc >>> 8) &&& 0x00FF)

/-! ### Escaping (utils.py:114-168) -/

/-- `escape_characters` utils.py:114-132: three sequential `replace` calls on everything but the
last byte. -/
def escapeCharacters (data : Bytes) : Res Bytes :=
  if !endsWith data [0x0D] then raise .value
  else
    let workable := sliceTo data (-1)
    let escaped := replaceByte (replaceByte (replaceByte workable 0x1B [0x1B, 0x1B])
      0x0D [0x1B, 0x0E]) 0x8D [0x1B, 0x0F]
    .ok (escaped ++ [0x0D])

/-- `return_characters` utils.py:135-168.  The loop pops from the front of `in_data`; the second
`pop(0)` after an escape byte raises `IndexError` on an empty bytearray. -/
def returnCharacters : Bytes → Res Bytes
  | [] => .ok []
  | b :: rest =>
    if b = 0x1B then
      match rest with
      | [] => raise .index
      | n :: rest' => do
        let out ← returnCharacters rest'
        if n = 0x0E then return 0x0D :: out
        else if n = 0x1B then return 0x1B :: out
        else if n = 0x0F then return 0x8D :: out
        else return b :: n :: out
    else do
      let out ← returnCharacters rest
      return b :: out

/-! ### Passwords (utils.py:171-179) -/

/-- The two characters drawn by `random.choices(possible_chars, k=2)` utils.py:177. -/
abbrev PwRand := Char × Char

/-- `possible_chars` utils.py:176 (no `w`, no `W`). -/
def possibleChars : PyStr :=
  "abcdefghijklmnopqrstuvxyzABCDEFGHIJKLMNOPQRSTUVXYZ0123456789".toList

/-- `pad_password` utils.py:171-179; the random draws are an argument. -/
def padPassword (password : PyStr) (r : PwRand) : PyStr :=
  password ++ ['!', '\x03'] ++ [r.1, r.2]

/-! ### BCD and datetimes (utils.py:182-245) -/

/-- `to_bdc` utils.py:226-236. -/
def toBdc (number : Int) : Res Bytes :=
  let chars := pyStrInt number
  let chars := if chars.length % 2 ≠ 0 then '0' :: chars else chars
  fromHex chars

/-- `from_bcd` utils.py:239-245. -/
def fromBcd (data : Bytes) : Res Nat := pyInt (toHex data)

/-- A naive `datetime.datetime` (no tzinfo). utils.py:203-205. -/
structure DateTime where
  year : Nat
  month : Nat
  day : Nat
  hour : Nat
  minute : Nat
  second : Nat
  microsecond : Nat := 0
  deriving DecidableEq, Repr

/-- Leap years of the proleptic Gregorian calendar used by `datetime`. Used by `datetime(...)`, utils.py:203-205. -/
def isLeap (y : Nat) : Bool := y % 4 = 0 && (y % 100 ≠ 0 || y % 400 = 0)

/-- Days in a month (`calendar` rules used by `datetime`). Used by `datetime(...)`, utils.py:203-205. -/
def daysInMonth (y m : Nat) : Nat :=
  if m = 2 then (if isLeap y then 29 else 28)
  else if m = 4 ∨ m = 6 ∨ m = 9 ∨ m = 11 then 30 else 31

/-- The constructor checks of `datetime(...)`. utils.py:203-205. -/
def DateTime.Valid (t : DateTime) : Prop :=
  1 ≤ t.year ∧ t.year ≤ 9999 ∧ 1 ≤ t.month ∧ t.month ≤ 12 ∧
  1 ≤ t.day ∧ t.day ≤ daysInMonth t.year t.month ∧
  t.hour ≤ 23 ∧ t.minute ≤ 59 ∧ t.second ≤ 59 ∧ t.microsecond ≤ 999999

instance (t : DateTime) : Decidable t.Valid := by unfold DateTime.Valid; infer_instance

/-- `datetime(year=..., month=..., ...)`: `ValueError` for an invalid date or time. utils.py:203-205. -/
def mkDateTime (year month day hour minute second : Nat) : Res DateTime :=
  let t : DateTime := { year, month, day, hour, minute, second }
  if t.Valid then .ok t else raise .value

/-- `bytes_to_datetime` utils.py:182-208. -/
def bytesToDatetime (data : Bytes) : Res (DateTime × Bool × Bool) := do
  if data.length ≠ 6 then raise .value
  let second ← fromBcd (slice data 0 1)
  let minute ← fromBcd (slice data 1 2)
  let hourData ← pyGet data 2
  let hourByte ← toBytesLE 1 (hourData.toNat &&& 0b00111111 : Nat)
  let hour ← fromBcd hourByte
  let isDst : Bool := hourData.toNat &&& 0b10000000 ≠ 0
  let supportsDst : Bool := hourData.toNat &&& 0b01000000 ≠ 0
  let day ← fromBcd (slice data 3 4)
  let month ← fromBcd (slice data 4 5)
  let year2 ← fromBcd (sliceFrom data 5)
  let year := year2 + 2000
  let t ← mkDateTime year month day hour minute second
  return (t, isDst, supportsDst)

/-- `datetime_to_bytes` utils.py:211-223. -/
def datetimeToBytes (t : DateTime) : Res Bytes := do
  let s ← toBdc t.second
  let mi ← toBdc t.minute
  let h ← toBdc t.hour
  let d ← toBdc t.day
  let mo ← toBdc t.month
  let y ← toBdc ((t.year : Int) - 2000)
  return s ++ mi ++ h ++ d ++ mo ++ y

/-! ### pop_many, text, IP (utils.py:248-276) -/

/-- The loop of `pop_many` utils.py:251-254. -/
def popLoop : Nat → P Bytes
  | 0 => pure []
  | k + 1 => do
    let b ← pop0
    let r ← popLoop k
    return b :: r

/-- `pop_many` utils.py:248-254. -/
def popMany (amount : Nat) : P Bytes :=
  if amount < 2 then fun _ => raise .value else popLoop amount

/-- `bytes.rindex(b"\x00")`: index of the last NUL, `none` for the `ValueError`. utils.py:264. -/
def rindexNul : Bytes → Option Nat
  | [] => none
  | b :: rest =>
    match rindexNul rest with
    | some i => some (i + 1)
    | none => if b = 0 then some 0 else none

/-- ASCII white space removed by `bytes.strip()`. utils.py:269. -/
def isPySpace (b : UInt8) : Bool :=
  b = 0x20 || b = 0x09 || b = 0x0A || b = 0x0D || b = 0x0B || b = 0x0C

/-- `bytes.lstrip()`. utils.py:269. -/
def lstrip (d : Bytes) : Bytes := d.dropWhile isPySpace

/-- `bytes.rstrip()`. utils.py:269. -/
def rstrip (d : Bytes) : Bytes := (d.reverse.dropWhile isPySpace).reverse

/-- `pretty_text` utils.py:257-269. -/
def prettyText (inData : Bytes) : PyStr :=
  let inData := match rindexNul inData with
    | some i => sliceTo inData (i : Int)
    | none => inData
  decodeLatin1 (rstrip (lstrip (replaceByte inData 0x00 [0x20])))

/-- `".".join(parts)`. utils.py:276. -/
def joinDot : List PyStr → PyStr
  | [] => []
  | [a] => a
  | a :: rest => a ++ '.' :: joinDot rest

/-- `parse_ip_address` utils.py:272-276. -/
def parseIpAddress (data : Bytes) : Res PyStr :=
  if data.length ≠ 4 then raise .value
  else .ok (joinDot (data.map fun x => pyStrInt x.toNat))

end Elgas
