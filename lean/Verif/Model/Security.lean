import Verif.Model.Utils
/-!
Model of /repo/elgas/security.py.

AES itself is a parameter: a `BlockCipher` is any pair of functions on 16-byte blocks that invert
each other for every 16-byte key.  CBC mode, as performed by `cryptography`'s `modes.CBC`, is
written out.
-/
namespace Elgas

/-- A 16-byte block cipher with 16-byte keys (AES-128 in the code, security.py:94-96, 102-104). -/
structure BlockCipher where
  enc : Bytes → Bytes → Bytes
  dec : Bytes → Bytes → Bytes
  enc_length : ∀ k b, k.length = 16 → b.length = 16 → (enc k b).length = 16
  dec_length : ∀ k b, k.length = 16 → b.length = 16 → (dec k b).length = 16
  dec_enc : ∀ k b, k.length = 16 → b.length = 16 → dec k (enc k b) = b
  enc_dec : ∀ k b, k.length = 16 → b.length = 16 → enc k (dec k b) = b

/-- XOR of two blocks. Part of `modes.CBC`, security.py:95, 103. -/
def xorBlock (a b : Bytes) : Bytes := List.zipWith (· ^^^ ·) a b

/-- CBC encryption of `n` further blocks. `modes.CBC`, security.py:95-97. -/
def cbcEncrypt (C : BlockCipher) (key : Bytes) : Nat → Bytes → Bytes → Bytes
  | 0, _, _ => []
  | n + 1, iv, data =>
    let c := C.enc key (xorBlock (data.take 16) iv)
    c ++ cbcEncrypt C key n c (data.drop 16)

/-- CBC decryption of `n` further blocks. `modes.CBC`, security.py:103-105. -/
def cbcDecrypt (C : BlockCipher) (key : Bytes) : Nat → Bytes → Bytes → Bytes
  | 0, _, _ => []
  | n + 1, iv, data =>
    let c := data.take 16
    xorBlock (C.dec key c) iv ++ cbcDecrypt C key n c (data.drop 16)

/-- `encrypt` security.py:93-98.  `algorithms.AES(key)` accepts 16/24/32-byte keys, `modes.CBC(iv)`
requires a 16-byte IV; the IV is always the key here, so exactly 16-byte keys are accepted
(`ValueError` otherwise); `finalize()` raises `ValueError` when the data is not a multiple of the
block size. -/
def aesCbcEncrypt (C : BlockCipher) (data key iv : Bytes) : Res Bytes :=
  if key.length ≠ 16 ∨ iv.length ≠ 16 then raise .value
  else if data.length % 16 ≠ 0 then raise .value
  else .ok (cbcEncrypt C key (data.length / 16) iv data)

/-- `decrypt` security.py:101-106. -/
def aesCbcDecrypt (C : BlockCipher) (data key iv : Bytes) : Res Bytes :=
  if key.length ≠ 16 ∨ iv.length ≠ 16 then raise .value
  else if data.length % 16 ≠ 0 then raise .value
  else .ok (cbcDecrypt C key (data.length / 16) iv data)

/-- The successive results of `random.randint(0, 125)` in `data_padding` (security.py:37). -/
abbrev PadRand := Nat → UInt8

/-- `data_padding` security.py:20-39; the draws are an argument. -/
def dataPadding (data : Bytes) (r : PadRand) : Bytes :=
  let rest := (data.length + 2) % 16
  if rest = 0 then [] else (List.range (16 - rest)).map r

/-- `CipherContext` security.py:42-45.  `key_id` is any Python int (the client passes it on
unchecked). -/
structure CipherContext where
  keyId : Int
  key : Bytes
  deriving DecidableEq, Repr

/-- `CipherContext.crc` security.py:47-53. -/
def CipherContext.crc (c : CipherContext) (data : Bytes) (r : PadRand) : Res Nat := do
  let len ← toBytesLE 2 data.length
  let kid ← toByte c.keyId
  return calculateCrc (len ++ [kid] ++ data ++ dataPadding data r)

/-- `CipherContext.encrypt` security.py:55-69. -/
def CipherContext.encrypt (C : BlockCipher) (c : CipherContext) (data : Bytes) (r : PadRand) :
    Res Bytes := do
  let len ← toBytesLE 2 data.length
  let kid ← toByte c.keyId
  let forCrc := len ++ [kid]
  let paddedData := dataPadding data r
  let forCrc := forCrc ++ data
  let forCrc := forCrc ++ paddedData
  let crc := calculateCrc forCrc
  let crcBytes ← toBytesBE 2 crc
  let unencrypted := forCrc ++ crcBytes
  let header := sliceTo unencrypted 3
  let toCipher := sliceFrom unencrypted 3
  let cipherText ← aesCbcEncrypt C toCipher c.key c.key
  return header ++ cipherText

/-- `CipherContext.decrypt` security.py:71-90. -/
def CipherContext.decrypt (C : BlockCipher) (c : CipherContext) (inData : Bytes) : Res Bytes := do
  let header := sliceTo inData 3
  let encrypted := sliceFrom inData 3
  let originalLength := fromLE (sliceTo header 2)
  let keyId ← pyGet header 2
  if (keyId.toNat : Int) ≠ c.keyId then raise .assertion
  let decryptedData ← aesCbcDecrypt C encrypted c.key c.key
  let len ← toBytesLE 2 originalLength
  let forCrc := len ++ [keyId] ++ sliceTo decryptedData (-2)
  let crc ← toBytesBE 2 (calculateCrc forCrc)
  let correctCrc := sliceFrom decryptedData (-2)
  if crc ≠ correctCrc then raise .value
  return sliceTo decryptedData (originalLength : Int)

end Elgas
