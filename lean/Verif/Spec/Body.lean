/-!
Specification vocabulary for message bodies and for the calendar, independent of the model.
-/
namespace Spec

/-- The number written little endian in `w` bytes at offset `off`. -/
def leAt (b : List UInt8) (off w : Nat) : Nat :=
  ((b.drop off).take w).foldr (fun x acc => x.toNat + 256 * acc) 0

/-- The bytes at offsets `off .. off+w-1`. -/
def bytesAt (b : List UInt8) (off w : Nat) : List UInt8 := (b.drop off).take w

/-- All characters are in the latin-1 range. -/
def IsLatin1 (s : List Char) : Prop := ∀ c ∈ s, c.toNat < 256

/-- The latin-1 bytes of a string. -/
def latin1 (s : List Char) : List UInt8 := s.map fun c => UInt8.ofNat c.toNat

/-- `n` written little endian in `w` bytes. -/
def leOf (n : Nat) : Nat → List UInt8
  | 0 => []
  | w + 1 => UInt8.ofNat (n % 256) :: leOf (n / 256) w

/-- Days from 1 January of year 1 to 1 January of year `y` (proleptic Gregorian calendar). -/
def daysBeforeYear (y : Nat) : Nat := 365 * (y - 1) + (y - 1) / 4 - (y - 1) / 100 + (y - 1) / 400

/-- Days from 1 January to the first of the month in a common year. -/
def cumDays (m : Nat) : Nat := [0, 0, 31, 59, 90, 120, 151, 181, 212, 243, 273, 304, 334].getD m 0

/-- Days from 1 January to the first of the month. -/
def daysBeforeMonth (y m : Nat) : Nat :=
  cumDays m + (if m > 2 ∧ y % 4 = 0 ∧ (y % 100 ≠ 0 ∨ y % 400 = 0) then 1 else 0)

/-- Seconds from 2000-01-01T00:00:00 to the given date and time. -/
def secondsSince2000 (y m d hh mm ss : Nat) : Nat :=
  (daysBeforeYear y - daysBeforeYear 2000 + daysBeforeMonth y m + (d - 1)) * 86400
    + hh * 3600 + mm * 60 + ss

end Spec
