/-!
IEEE 754: what the bit patterns of single and double precision stand for.
-/
namespace Elgas

/-- The magnitude of a finite single: bits 0-22 are the fraction, bits 23-30 the exponent, bit 31 is the sign. -/
def mag32 (b : Nat) : Rat :=
  if b / 2 ^ 23 % 2 ^ 8 = 0 then (b % 2 ^ 23 : Nat) * (2 : Rat) ^ (-149 : Int)
  else (2 ^ 23 + b % 2 ^ 23 : Nat) * (2 : Rat) ^ ((b / 2 ^ 23 % 2 ^ 8 : Nat) - 150 : Int)

/-- The magnitude of a finite double: bits 0-51 are the fraction, bits 52-62 the exponent, bit 63 is the sign. -/
def mag64 (b : Nat) : Rat :=
  if b / 2 ^ 52 % 2 ^ 11 = 0 then (b % 2 ^ 52 : Nat) * (2 : Rat) ^ (-1074 : Int)
  else (2 ^ 52 + b % 2 ^ 52 : Nat) * (2 : Rat) ^ ((b / 2 ^ 52 % 2 ^ 11 : Nat) - 1075 : Int)

/-- The sign bit is set. -/
def neg32 (b : Nat) : Bool := b / 2 ^ 31 % 2 = 1
def neg64 (b : Nat) : Bool := b / 2 ^ 63 % 2 = 1

/-- The exponent is not all ones: neither infinite nor a NaN. -/
def finite32 (b : Nat) : Bool := b / 2 ^ 23 % 2 ^ 8 ≠ 255
def finite64 (b : Nat) : Bool := b / 2 ^ 52 % 2 ^ 11 ≠ 2047

/-- The value of a finite number. -/
def value32 (b : Nat) : Rat := if neg32 b then - mag32 b else mag32 b
def value64 (b : Nat) : Rat := if neg64 b then - mag64 b else mag64 b

end Elgas
