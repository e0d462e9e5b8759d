import Verif.Model.Security
/-!
AES-128 (FIPS-197), the block cipher that `cryptography`'s `algorithms.AES` provides to
security.py:94-96 and 102-104 for 16-byte keys, written out.  It is an instance of `BlockCipher`, so that
every theorem about the abstract cipher holds for it.  The library itself (OpenSSL) is not modelled; this
is the published algorithm.
-/
namespace Elgas.Aes

/-- The S-box of FIPS-197 section 5.1.1. Part of `algorithms.AES(key)`, security.py:94-97, 102-105. -/
def sboxTable : List UInt8 := [
  0x63, 0x7c, 0x77, 0x7b, 0xf2, 0x6b, 0x6f, 0xc5, 0x30, 0x01, 0x67, 0x2b, 0xfe, 0xd7, 0xab, 0x76,
  0xca, 0x82, 0xc9, 0x7d, 0xfa, 0x59, 0x47, 0xf0, 0xad, 0xd4, 0xa2, 0xaf, 0x9c, 0xa4, 0x72, 0xc0,
  0xb7, 0xfd, 0x93, 0x26, 0x36, 0x3f, 0xf7, 0xcc, 0x34, 0xa5, 0xe5, 0xf1, 0x71, 0xd8, 0x31, 0x15,
  0x04, 0xc7, 0x23, 0xc3, 0x18, 0x96, 0x05, 0x9a, 0x07, 0x12, 0x80, 0xe2, 0xeb, 0x27, 0xb2, 0x75,
  0x09, 0x83, 0x2c, 0x1a, 0x1b, 0x6e, 0x5a, 0xa0, 0x52, 0x3b, 0xd6, 0xb3, 0x29, 0xe3, 0x2f, 0x84,
  0x53, 0xd1, 0x00, 0xed, 0x20, 0xfc, 0xb1, 0x5b, 0x6a, 0xcb, 0xbe, 0x39, 0x4a, 0x4c, 0x58, 0xcf,
  0xd0, 0xef, 0xaa, 0xfb, 0x43, 0x4d, 0x33, 0x85, 0x45, 0xf9, 0x02, 0x7f, 0x50, 0x3c, 0x9f, 0xa8,
  0x51, 0xa3, 0x40, 0x8f, 0x92, 0x9d, 0x38, 0xf5, 0xbc, 0xb6, 0xda, 0x21, 0x10, 0xff, 0xf3, 0xd2,
  0xcd, 0x0c, 0x13, 0xec, 0x5f, 0x97, 0x44, 0x17, 0xc4, 0xa7, 0x7e, 0x3d, 0x64, 0x5d, 0x19, 0x73,
  0x60, 0x81, 0x4f, 0xdc, 0x22, 0x2a, 0x90, 0x88, 0x46, 0xee, 0xb8, 0x14, 0xde, 0x5e, 0x0b, 0xdb,
  0xe0, 0x32, 0x3a, 0x0a, 0x49, 0x06, 0x24, 0x5c, 0xc2, 0xd3, 0xac, 0x62, 0x91, 0x95, 0xe4, 0x79,
  0xe7, 0xc8, 0x37, 0x6d, 0x8d, 0xd5, 0x4e, 0xa9, 0x6c, 0x56, 0xf4, 0xea, 0x65, 0x7a, 0xae, 0x08,
  0xba, 0x78, 0x25, 0x2e, 0x1c, 0xa6, 0xb4, 0xc6, 0xe8, 0xdd, 0x74, 0x1f, 0x4b, 0xbd, 0x8b, 0x8a,
  0x70, 0x3e, 0xb5, 0x66, 0x48, 0x03, 0xf6, 0x0e, 0x61, 0x35, 0x57, 0xb9, 0x86, 0xc1, 0x1d, 0x9e,
  0xe1, 0xf8, 0x98, 0x11, 0x69, 0xd9, 0x8e, 0x94, 0x9b, 0x1e, 0x87, 0xe9, 0xce, 0x55, 0x28, 0xdf,
  0x8c, 0xa1, 0x89, 0x0d, 0xbf, 0xe6, 0x42, 0x68, 0x41, 0x99, 0x2d, 0x0f, 0xb0, 0x54, 0xbb, 0x16]

/-- The inverse S-box of FIPS-197 section 5.3.2. Part of `algorithms.AES(key)`, security.py:94-97, 102-105. -/
def invSboxTable : List UInt8 := [
  0x52, 0x09, 0x6a, 0xd5, 0x30, 0x36, 0xa5, 0x38, 0xbf, 0x40, 0xa3, 0x9e, 0x81, 0xf3, 0xd7, 0xfb,
  0x7c, 0xe3, 0x39, 0x82, 0x9b, 0x2f, 0xff, 0x87, 0x34, 0x8e, 0x43, 0x44, 0xc4, 0xde, 0xe9, 0xcb,
  0x54, 0x7b, 0x94, 0x32, 0xa6, 0xc2, 0x23, 0x3d, 0xee, 0x4c, 0x95, 0x0b, 0x42, 0xfa, 0xc3, 0x4e,
  0x08, 0x2e, 0xa1, 0x66, 0x28, 0xd9, 0x24, 0xb2, 0x76, 0x5b, 0xa2, 0x49, 0x6d, 0x8b, 0xd1, 0x25,
  0x72, 0xf8, 0xf6, 0x64, 0x86, 0x68, 0x98, 0x16, 0xd4, 0xa4, 0x5c, 0xcc, 0x5d, 0x65, 0xb6, 0x92,
  0x6c, 0x70, 0x48, 0x50, 0xfd, 0xed, 0xb9, 0xda, 0x5e, 0x15, 0x46, 0x57, 0xa7, 0x8d, 0x9d, 0x84,
  0x90, 0xd8, 0xab, 0x00, 0x8c, 0xbc, 0xd3, 0x0a, 0xf7, 0xe4, 0x58, 0x05, 0xb8, 0xb3, 0x45, 0x06,
  0xd0, 0x2c, 0x1e, 0x8f, 0xca, 0x3f, 0x0f, 0x02, 0xc1, 0xaf, 0xbd, 0x03, 0x01, 0x13, 0x8a, 0x6b,
  0x3a, 0x91, 0x11, 0x41, 0x4f, 0x67, 0xdc, 0xea, 0x97, 0xf2, 0xcf, 0xce, 0xf0, 0xb4, 0xe6, 0x73,
  0x96, 0xac, 0x74, 0x22, 0xe7, 0xad, 0x35, 0x85, 0xe2, 0xf9, 0x37, 0xe8, 0x1c, 0x75, 0xdf, 0x6e,
  0x47, 0xf1, 0x1a, 0x71, 0x1d, 0x29, 0xc5, 0x89, 0x6f, 0xb7, 0x62, 0x0e, 0xaa, 0x18, 0xbe, 0x1b,
  0xfc, 0x56, 0x3e, 0x4b, 0xc6, 0xd2, 0x79, 0x20, 0x9a, 0xdb, 0xc0, 0xfe, 0x78, 0xcd, 0x5a, 0xf4,
  0x1f, 0xdd, 0xa8, 0x33, 0x88, 0x07, 0xc7, 0x31, 0xb1, 0x12, 0x10, 0x59, 0x27, 0x80, 0xec, 0x5f,
  0x60, 0x51, 0x7f, 0xa9, 0x19, 0xb5, 0x4a, 0x0d, 0x2d, 0xe5, 0x7a, 0x9f, 0x93, 0xc9, 0x9c, 0xef,
  0xa0, 0xe0, 0x3b, 0x4d, 0xae, 0x2a, 0xf5, 0xb0, 0xc8, 0xeb, 0xbb, 0x3c, 0x83, 0x53, 0x99, 0x61,
  0x17, 0x2b, 0x04, 0x7e, 0xba, 0x77, 0xd6, 0x26, 0xe1, 0x69, 0x14, 0x63, 0x55, 0x21, 0x0c, 0x7d]

/-- SubBytes of one byte. Part of `algorithms.AES(key)`, security.py:94-97, 102-105. -/
def sbox (b : UInt8) : UInt8 := sboxTable.getD b.toNat 0

/-- InvSubBytes of one byte. Part of `algorithms.AES(key)`, security.py:94-97, 102-105. -/
def invSbox (b : UInt8) : UInt8 := invSboxTable.getD b.toNat 0

/-- Multiplication by x in GF(2^8), FIPS-197 section 4.2.1.
Part of `algorithms.AES(key)`, security.py:94-97, 102-105. -/
def xtime (b : UInt8) : UInt8 := (b <<< 1) ^^^ (if b >>> 7 = 0 then 0 else 0x1b)

/-- MixColumns of one column, FIPS-197 section 5.1.3. Part of `algorithms.AES(key)`, security.py:94-97, 102-105. -/
def mixColumn (a b c d : UInt8) : Bytes :=
  let m2 := xtime
  let m3 x := xtime x ^^^ x
  [m2 a ^^^ m3 b ^^^ c ^^^ d, a ^^^ m2 b ^^^ m3 c ^^^ d,
   a ^^^ b ^^^ m2 c ^^^ m3 d, m3 a ^^^ b ^^^ c ^^^ m2 d]

/-- InvMixColumns of one column, FIPS-197 section 5.3.3. Part of `algorithms.AES(key)`, security.py:94-97, 102-105. -/
def invMixColumn (a b c d : UInt8) : Bytes :=
  let m9 x := xtime (xtime (xtime x)) ^^^ x
  let m11 x := xtime (xtime (xtime x)) ^^^ xtime x ^^^ x
  let m13 x := xtime (xtime (xtime x)) ^^^ xtime (xtime x) ^^^ x
  let m14 x := xtime (xtime (xtime x)) ^^^ xtime (xtime x) ^^^ xtime x
  [m14 a ^^^ m11 b ^^^ m13 c ^^^ m9 d, m9 a ^^^ m14 b ^^^ m11 c ^^^ m13 d,
   m13 a ^^^ m9 b ^^^ m14 c ^^^ m11 d, m11 a ^^^ m13 b ^^^ m9 c ^^^ m14 d]

/-- Apply a function of a column to the four columns of a state (column by column in the list).
Part of `algorithms.AES(key)`, security.py:94-97, 102-105. -/
def columns (f : UInt8 → UInt8 → UInt8 → UInt8 → Bytes) : Bytes → Bytes
  | a :: b :: c :: d :: rest => f a b c d ++ columns f rest
  | _ => []

/-- ShiftRows, FIPS-197 section 5.1.2. Part of `algorithms.AES(key)`, security.py:94-97, 102-105. -/
def shiftRows : Bytes → Bytes
  | [s0, s1, s2, s3, s4, s5, s6, s7, s8, s9, s10, s11, s12, s13, s14, s15] =>
    [s0, s5, s10, s15, s4, s9, s14, s3, s8, s13, s2, s7, s12, s1, s6, s11]
  | s => s

/-- InvShiftRows, FIPS-197 section 5.3.1. Part of `algorithms.AES(key)`, security.py:94-97, 102-105. -/
def invShiftRows : Bytes → Bytes
  | [s0, s1, s2, s3, s4, s5, s6, s7, s8, s9, s10, s11, s12, s13, s14, s15] =>
    [s0, s13, s10, s7, s4, s1, s14, s11, s8, s5, s2, s15, s12, s9, s6, s3]
  | s => s

/-- The next round key, FIPS-197 section 5.2 (four words at a time).
Part of `algorithms.AES(key)`, security.py:94-97, 102-105. -/
def nextKey (rcon : UInt8) (k : Bytes) : Bytes :=
  let w i := (k.drop (4 * i)).take 4
  let t := xorBlock ((w 3).drop 1 ++ (w 3).take 1 |>.map sbox) [rcon, 0, 0, 0]
  let w0 := xorBlock (w 0) t
  let w1 := xorBlock (w 1) w0
  let w2 := xorBlock (w 2) w1
  let w3 := xorBlock (w 3) w2
  w0 ++ w1 ++ w2 ++ w3

/-- The round constants. Part of `algorithms.AES(key)`, security.py:94-97, 102-105. -/
def rcons : List UInt8 := [0x01, 0x02, 0x04, 0x08, 0x10, 0x20, 0x40, 0x80, 0x1b, 0x36]

/-- The round keys after the first one. Part of `algorithms.AES(key)`, security.py:94-97, 102-105. -/
def roundKeys : List UInt8 → Bytes → List Bytes
  | [], _ => []
  | r :: rs, k => nextKey r k :: roundKeys rs (nextKey r k)

/-- The rounds of the cipher, FIPS-197 section 5.1; the last round has no MixColumns.
Part of `algorithms.AES(key)`, security.py:94-97, 102-105. -/
def rounds : List Bytes → Bytes → Bytes
  | [], s => s
  | [k], s => xorBlock (shiftRows (s.map sbox)) k
  | k :: ks, s => rounds ks (xorBlock (columns mixColumn (shiftRows (s.map sbox))) k)

/-- The rounds backwards, FIPS-197 section 5.3. Part of `algorithms.AES(key)`, security.py:94-97, 102-105. -/
def invRounds : List Bytes → Bytes → Bytes
  | [], s => s
  | [k], s => (invShiftRows (xorBlock s k)).map invSbox
  | k :: ks, s => (invShiftRows (columns invMixColumn (xorBlock (invRounds ks s) k))).map invSbox

/-- AES-128 encryption of a block. Part of `algorithms.AES(key)`, security.py:94-97, 102-105. -/
def encrypt (key block : Bytes) : Bytes := rounds (roundKeys rcons key) (xorBlock block key)

/-- AES-128 decryption of a block. Part of `algorithms.AES(key)`, security.py:94-97, 102-105. -/
def decrypt (key block : Bytes) : Bytes := xorBlock (invRounds (roundKeys rcons key) block) key

end Elgas.Aes
