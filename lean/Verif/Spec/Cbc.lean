/-!
Specification of cipher block chaining over 16-byte blocks, independent of the model.
-/
namespace Spec

/-- Bytewise XOR. -/
def xorBytes (a b : List UInt8) : List UInt8 := List.zipWith (· ^^^ ·) a b

/-- The `i`-th 16-byte block. -/
def block (d : List UInt8) (i : Nat) : List UInt8 := (d.drop (16 * i)).take 16

/-- `c` is the CBC encryption of `p` with block function `enc` and initialisation vector `iv`:
whole blocks, and every ciphertext block is the encryption of the plaintext block XOR the previous
ciphertext block (the IV for the first one). -/
structure CbcOf (enc : List UInt8 → List UInt8) (iv p c : List UInt8) : Prop where
  len_eq : c.length = p.length
  whole : p.length % 16 = 0
  first : 0 < p.length → block c 0 = enc (xorBytes (block p 0) iv)
  next : ∀ i, 16 * (i + 1) < p.length → block c (i + 1) = enc (xorBytes (block p (i + 1)) (block c i))

/-- The length of the padded plaintext of `n` data bytes: data, padding and a two-byte CRC filled up
to whole blocks. -/
def paddedLength (n : Nat) : Nat := (n + 2 + 15) / 16 * 16

end Spec
