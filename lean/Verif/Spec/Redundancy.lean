/-!
Specification of the three redundancy bytes of an ELGAS frame and of CRC-16, independent of the
model.
-/
namespace Spec

/-- XOR of all bytes. -/
def xorAll (d : List UInt8) : UInt8 := d.foldr (· ^^^ ·) 0

/-- Sum of all bytes modulo 256. -/
def sumMod (d : List UInt8) : Nat := (d.map UInt8.toNat).sum % 256

/-- A byte rotated left by `k` bits (`k` counts modulo 8). -/
def rotl8 (b : UInt8) (k : Nat) : UInt8 := UInt8.ofBitVec (b.toBitVec.rotateLeft k)

/-- XOR over all positions `i` of byte `i` rotated left by `length - 1 - i` bits. -/
def rotXor (d : List UInt8) : UInt8 :=
  xorAll (d.mapIdx fun i b => rotl8 b (d.length - 1 - i))

/-- One step of the bit-serial reflected CRC register with polynomial 0xA001: shift right by one,
XOR the polynomial when a 1 was shifted out. -/
def crcBit (r : Nat) : Nat := if r % 2 = 1 then (r / 2) ^^^ 0xA001 else r / 2

/-- Feed one byte into the bit-serial CRC: XOR it into the low byte of the register and do eight
bit steps. -/
def crcByte (r : Nat) (b : UInt8) : Nat :=
  crcBit (crcBit (crcBit (crcBit (crcBit (crcBit (crcBit (crcBit (r ^^^ b.toNat))))))))

/-- CRC-16/MODBUS: initial value 0xFFFF, no final XOR. -/
def crc16Modbus (d : List UInt8) : Nat := d.foldl crcByte 0xFFFF

/-- Exchange the two bytes of a 16-bit word. -/
def swapBytes (n : Nat) : Nat := (n % 256) * 256 + n / 256

end Spec

namespace Spec

/-- The bits of a byte string in transmission order of a reflected CRC (least significant first). -/
def bits (d : List UInt8) : List Bool :=
  d.flatMap fun b => [b.toNat.testBit 0, b.toNat.testBit 1, b.toNat.testBit 2, b.toNat.testBit 3,
    b.toNat.testBit 4, b.toNat.testBit 5, b.toNat.testBit 6, b.toNat.testBit 7]

end Spec
