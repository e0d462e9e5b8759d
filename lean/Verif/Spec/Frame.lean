import Verif.Spec.Redundancy
/-!
Specification of the ELGAS frame layout, independent of the model.
-/
namespace Spec

/-- The protected part of a frame: everything between STX and the redundancy bytes. -/
def frameBody (ty svc : UInt8) (address data : List UInt8) : List UInt8 :=
  -- the length field counts all bytes of the frame but STX:
  -- 0xFE, type, service, 2 length bytes, 6 address bytes, data, 3 redundancy bytes, end character
  let length := 1 + 1 + 1 + 2 + address.length + data.length + 3 + 1
  [0xFE, ty, svc, UInt8.ofNat (length % 256), UInt8.ofNat (length / 256)] ++ address ++ data

/-- A complete frame: STX, protected part, LRC, CHECKSUM, DRC, end character. -/
def frame (ty svc : UInt8) (address data : List UInt8) : List UInt8 :=
  let body := frameBody ty svc address data
  [0x02] ++ body ++ [xorAll body, UInt8.ofNat (sumMod body), rotXor body, 0x0D]

/-- A two-byte number, least significant byte first. -/
def le2 (n : Nat) : List UInt8 := [UInt8.ofNat (n % 256), UInt8.ofNat (n / 256)]
/-- A two-byte number, most significant byte first. -/
def be2 (n : Nat) : List UInt8 := [UInt8.ofNat (n / 256), UInt8.ofNat (n % 256)]

/-- The service numbers of the protocol. -/
def services : List Nat :=
  [0x64, 0x65, 0x67, 0x7B, 0x68, 0x7C, 0x6C, 0x70, 0x71, 0x77, 0x79, 0x87, 0x91, 0x7D]

end Spec
