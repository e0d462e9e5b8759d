/-!
AES-128 as FIPS-197 describes it, in terms of the field GF(2^8) and of states of four rows and four columns,
independently of the model (which uses tables and lists).
-/
namespace Spec.Aes

/-- The product of two polynomials over GF(2), given by their coefficients as bits. -/
def polyMul (a b : Nat) : Nat :=
  (List.range 8).foldl (fun p i => if b.testBit i then p ^^^ (a <<< i) else p) 0

/-- The remainder of a polynomial of degree at most 14 modulo x^8 + x^4 + x^3 + x + 1. -/
def polyMod (p : Nat) : Nat :=
  [6, 5, 4, 3, 2, 1, 0].foldl (fun p i => if p.testBit (8 + i) then p ^^^ (0x11B <<< i) else p) p

/-- Multiplication in GF(2^8), FIPS-197 section 4.2. -/
def mul (a b : UInt8) : UInt8 := UInt8.ofNat (polyMod (polyMul a.toNat b.toNat))

/-- `x` to the power `n`. -/
def pow (x : UInt8) : Nat → UInt8
  | 0 => 1
  | n + 1 => mul x (pow x n)

/-- The affine map of the S-box, FIPS-197 section 5.1.1: bit `k` of the result is the sum of the bits `k`, `k + 4`,
`k + 5`, `k + 6`, `k + 7` (modulo 8) of the argument and of bit `k` of 63. -/
def affine (x : UInt8) : UInt8 :=
  UInt8.ofNat ((List.range 8).foldl (fun s k =>
    s + if (((x.toNat.testBit k ^^ x.toNat.testBit ((k + 4) % 8)) ^^ x.toNat.testBit ((k + 5) % 8)) ^^
      x.toNat.testBit ((k + 6) % 8)) ^^ x.toNat.testBit ((k + 7) % 8) ^^ (0x63 : Nat).testBit k then 2 ^ k else 0) 0)

/-- `S` is the S-box: the affine map of the inverse in the field, 0 having the inverse 0. -/
def IsSbox (S : UInt8 → UInt8) : Prop :=
  ∀ b, ∃ i, (mul b i = 1 ∨ (b = 0 ∧ i = 0)) ∧ S b = affine i

/-- A state: the byte in row `r` and column `c`, both below 4. -/
abbrev State := Nat → Nat → UInt8

/-- The state of an input block, FIPS-197 section 3.4. -/
def input (b : List UInt8) : State := fun r c => b.getD (r + 4 * c) 0

/-- The block of a state. -/
def output (s : State) : List UInt8 := (List.range 16).map fun i => s (i % 4) (i / 4)

/-- SubBytes, section 5.1.1. -/
def subBytes (S : UInt8 → UInt8) (s : State) : State := fun r c => S (s r c)

/-- ShiftRows, section 5.1.2: row `r` is rotated by `r` places. -/
def shiftRows (s : State) : State := fun r c => s r ((c + r) % 4)

/-- MixColumns, section 5.1.3: each column is multiplied by {03}x^3 + {01}x^2 + {01}x + {02}. -/
def mixColumns (s : State) : State := fun r c =>
  mul 2 (s r c) ^^^ mul 3 (s ((r + 1) % 4) c) ^^^ s ((r + 2) % 4) c ^^^ s ((r + 3) % 4) c

/-- Byte `j` of word `i` of the expanded key, section 5.2. -/
def word (S : UInt8 → UInt8) (key : List UInt8) (i j : Nat) : UInt8 :=
  if i < 4 then key.getD (4 * i + j) 0
  else word S key (i - 4) j ^^^
    if i % 4 = 0 then S (word S key (i - 1) ((j + 1) % 4)) ^^^ (if j = 0 then pow 2 (i / 4 - 1) else 0)
    else word S key (i - 1) j
  termination_by i

/-- AddRoundKey with the key of round `n`, section 5.1.4. -/
def addRoundKey (S : UInt8 → UInt8) (key : List UInt8) (n : Nat) (s : State) : State := fun r c =>
  s r c ^^^ word S key (4 * n + c) r

/-- The state after the first key addition and `n` full rounds. -/
def after (S : UInt8 → UInt8) (key b : List UInt8) : Nat → State
  | 0 => addRoundKey S key 0 (input b)
  | n + 1 => addRoundKey S key (n + 1) (mixColumns (shiftRows (subBytes S (after S key b n))))

/-- The cipher, section 5.1: nine full rounds, and a last one without MixColumns. -/
def cipher (S : UInt8 → UInt8) (key b : List UInt8) : List UInt8 :=
  output (addRoundKey S key 10 (shiftRows (subBytes S (after S key b 9))))

end Spec.Aes
