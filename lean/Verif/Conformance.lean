import Verif.Props.Parameters
import Verif.Props.Client
import Verif.Lemmas.Aes
/-!
The test vectors of /repo/tests replayed on the model (written by tools/gen_conformance.py, which takes
the literals out of the test files).  These are tests of the *model*: they show that it computes what
the repository's own tests expect of the code.  They are not counted as proofs of any property.
-/
namespace Elgas.Conformance
open Spec

-- test_utils.py test_lrc
example : calculateLrc [0xFE, 0x84, 0x6C, 0x0F, 0x00, 0x00, 0x00, 0x00, 0x00, 0x00, 0x00] = 0x19 := by decide +kernel
example : calculateLrc [0xFE, 0x86, 0x6C, 0x17, 0x00, 0x00, 0x00, 0x00, 0x02, 0x00, 0x02, 0x10, 0x33, 0x12, 0x30, 0x05, 0x06, 0x0C, 0x2D] = 0x20 := by decide +kernel
-- test_utils.py test_checksum
example : calculateChecksum [0xFE, 0x84, 0x6C, 0x0F, 0x00, 0x00, 0x00, 0x00, 0x00, 0x00, 0x00] = 0xFD := by decide +kernel
example : calculateChecksum [0xFE, 0x86, 0x6C, 0x17, 0x00, 0x00, 0x00, 0x00, 0x02, 0x00, 0x02, 0x10, 0x33, 0x12, 0x30, 0x05, 0x06, 0x0C, 0x2D] = 0xD4 := by decide +kernel
-- test_utils.py test_drc
example : calculateDrc [0xFE, 0x84, 0x6C, 0x0F, 0x00, 0x00, 0x00, 0x00, 0x00, 0x00, 0x00] = 0x19 := by decide +kernel
example : calculateDrc [0xFE, 0x86, 0x6C, 0x17, 0x00, 0x00, 0x00, 0x00, 0x02, 0x00, 0x02, 0x10, 0x33, 0x12, 0x30, 0x05, 0x06, 0x0C, 0x2D] = 0x9B := by decide +kernel

-- test_utils.py test_escape_characters, test_return_characters
example : escapeCharacters
  [0x02, 0xFE, 0x84, 0x64, 0x19, 0x00, 0x00, 0x00, 0x00, 0x00, 0x00, 0x00, 0xEA, 0x03, 0x89, 0xA3,
  0x3F, 0x25, 0xAB, 0x41, 0x77, 0x69, 0x2A, 0x48, 0xF8, 0x0D] = .ok
  [0x02, 0xFE, 0x84, 0x64, 0x19, 0x00, 0x00, 0x00, 0x00, 0x00, 0x00, 0x00, 0xEA, 0x03, 0x89, 0xA3,
  0x3F, 0x25, 0xAB, 0x41, 0x77, 0x69, 0x2A, 0x48, 0xF8, 0x0D] := by decide +kernel
example : returnCharacters
  [0x02, 0xFE, 0x84, 0x64, 0x19, 0x00, 0x00, 0x00, 0x00, 0x00, 0x00, 0x00, 0xEA, 0x03, 0x89, 0xA3,
  0x3F, 0x25, 0xAB, 0x41, 0x77, 0x69, 0x2A, 0x48, 0xF8, 0x0D] = .ok
  [0x02, 0xFE, 0x84, 0x64, 0x19, 0x00, 0x00, 0x00, 0x00, 0x00, 0x00, 0x00, 0xEA, 0x03, 0x89, 0xA3,
  0x3F, 0x25, 0xAB, 0x41, 0x77, 0x69, 0x2A, 0x48, 0xF8, 0x0D] := by decide +kernel
example : calculateLrc [0xFE, 0x84, 0x64, 0x19, 0x00, 0x00, 0x00, 0x00, 0x00, 0x00, 0x00, 0xEA, 0x03, 0x89, 0xA3, 0x3F,
  0x25, 0xAB, 0x41, 0x77, 0x69] = 0x2A := by decide +kernel
example : calculateChecksum [0xFE, 0x84, 0x64, 0x19, 0x00, 0x00, 0x00, 0x00, 0x00, 0x00, 0x00, 0xEA, 0x03, 0x89, 0xA3, 0x3F,
  0x25, 0xAB, 0x41, 0x77, 0x69] = 0x48 := by decide +kernel
example : calculateDrc [0xFE, 0x84, 0x64, 0x19, 0x00, 0x00, 0x00, 0x00, 0x00, 0x00, 0x00, 0xEA, 0x03, 0x89, 0xA3, 0x3F,
  0x25, 0xAB, 0x41, 0x77, 0x69] = 0xF8 := by decide +kernel
example : escapeCharacters
  [0x02, 0xFE, 0x86, 0x64, 0x35, 0x00, 0x00, 0x00, 0x00, 0x02, 0x00, 0x02, 0x10, 0x33, 0x12, 0x30,
  0x05, 0x06, 0x8D, 0x92, 0x56, 0x18, 0x39, 0x01, 0x00, 0x00, 0x00, 0x00, 0x00, 0x00, 0x00, 0x00,
  0x00, 0x00, 0x00, 0x00, 0xA6, 0x21, 0x7E, 0x08, 0xA8, 0x0B, 0x6E, 0x3F, 0xC1, 0x01, 0x00, 0x0C,
  0x2D, 0x47, 0xE7, 0x67, 0xBB, 0x0D] = .ok
  [0x02, 0xFE, 0x86, 0x64, 0x35, 0x00, 0x00, 0x00, 0x00, 0x02, 0x00, 0x02, 0x10, 0x33, 0x12, 0x30,
  0x05, 0x06, 0x1B, 0x0F, 0x92, 0x56, 0x18, 0x39, 0x01, 0x00, 0x00, 0x00, 0x00, 0x00, 0x00, 0x00,
  0x00, 0x00, 0x00, 0x00, 0x00, 0xA6, 0x21, 0x7E, 0x08, 0xA8, 0x0B, 0x6E, 0x3F, 0xC1, 0x01, 0x00,
  0x0C, 0x2D, 0x47, 0xE7, 0x67, 0xBB, 0x0D] := by decide +kernel
example : returnCharacters
  [0x02, 0xFE, 0x86, 0x64, 0x35, 0x00, 0x00, 0x00, 0x00, 0x02, 0x00, 0x02, 0x10, 0x33, 0x12, 0x30,
  0x05, 0x06, 0x1B, 0x0F, 0x92, 0x56, 0x18, 0x39, 0x01, 0x00, 0x00, 0x00, 0x00, 0x00, 0x00, 0x00,
  0x00, 0x00, 0x00, 0x00, 0x00, 0xA6, 0x21, 0x7E, 0x08, 0xA8, 0x0B, 0x6E, 0x3F, 0xC1, 0x01, 0x00,
  0x0C, 0x2D, 0x47, 0xE7, 0x67, 0xBB, 0x0D] = .ok
  [0x02, 0xFE, 0x86, 0x64, 0x35, 0x00, 0x00, 0x00, 0x00, 0x02, 0x00, 0x02, 0x10, 0x33, 0x12, 0x30,
  0x05, 0x06, 0x8D, 0x92, 0x56, 0x18, 0x39, 0x01, 0x00, 0x00, 0x00, 0x00, 0x00, 0x00, 0x00, 0x00,
  0x00, 0x00, 0x00, 0x00, 0xA6, 0x21, 0x7E, 0x08, 0xA8, 0x0B, 0x6E, 0x3F, 0xC1, 0x01, 0x00, 0x0C,
  0x2D, 0x47, 0xE7, 0x67, 0xBB, 0x0D] := by decide +kernel
example : calculateLrc [0xFE, 0x86, 0x64, 0x35, 0x00, 0x00, 0x00, 0x00, 0x02, 0x00, 0x02, 0x10, 0x33, 0x12, 0x30, 0x05,
  0x06, 0x8D, 0x92, 0x56, 0x18, 0x39, 0x01, 0x00, 0x00, 0x00, 0x00, 0x00, 0x00, 0x00, 0x00, 0x00,
  0x00, 0x00, 0x00, 0xA6, 0x21, 0x7E, 0x08, 0xA8, 0x0B, 0x6E, 0x3F, 0xC1, 0x01, 0x00, 0x0C, 0x2D, 0x47] = 0xE7 := by decide +kernel
example : calculateChecksum [0xFE, 0x86, 0x64, 0x35, 0x00, 0x00, 0x00, 0x00, 0x02, 0x00, 0x02, 0x10, 0x33, 0x12, 0x30, 0x05,
  0x06, 0x8D, 0x92, 0x56, 0x18, 0x39, 0x01, 0x00, 0x00, 0x00, 0x00, 0x00, 0x00, 0x00, 0x00, 0x00,
  0x00, 0x00, 0x00, 0xA6, 0x21, 0x7E, 0x08, 0xA8, 0x0B, 0x6E, 0x3F, 0xC1, 0x01, 0x00, 0x0C, 0x2D, 0x47] = 0x67 := by decide +kernel
example : calculateDrc [0xFE, 0x86, 0x64, 0x35, 0x00, 0x00, 0x00, 0x00, 0x02, 0x00, 0x02, 0x10, 0x33, 0x12, 0x30, 0x05,
  0x06, 0x8D, 0x92, 0x56, 0x18, 0x39, 0x01, 0x00, 0x00, 0x00, 0x00, 0x00, 0x00, 0x00, 0x00, 0x00,
  0x00, 0x00, 0x00, 0xA6, 0x21, 0x7E, 0x08, 0xA8, 0x0B, 0x6E, 0x3F, 0xC1, 0x01, 0x00, 0x0C, 0x2D, 0x47] = 0xBB := by decide +kernel

-- test_utils.py test_return_characters_2
example : returnCharacters [0x1B, 0x1B, 0x0E] = .ok [0x1B, 0x0E] := by decide +kernel

-- test_utils.py test_bytes_to_datetime, test_bytes_to_datetime2, test_datetime_to_bytes
example : bytesToDatetime [0x10, 0x33, 0x12, 0x30, 0x05, 0x06] = .ok (⟨2006, 5, 30, 12, 33, 10, 0⟩, false, false) := by decide +kernel
example : bytesToDatetime [0x00, 0x49, 0x53, 0x14, 0x02, 0x22] = .ok (⟨2022, 2, 14, 13, 49, 0, 0⟩, false, true) := by decide +kernel
example : datetimeToBytes ⟨2006, 5, 30, 12, 33, 10, 0⟩ = .ok [0x10, 0x33, 0x12, 0x30, 0x05, 0x06] := by decide +kernel

-- test_utils.py test_pretty_text
example : prettyText [0x4D, 0x4A, 0x2F, 0x6D, 0x33, 0x00, 0x33, 0x00] = "MJ/m3 3".toList := by decide +kernel

-- test_security.py test_security_cbc: CRC, AES-128-CBC of the padded data, decryption of the device's message
example : calculateCrc [0x10, 0x00, 0x03, 0x6B, 0x04, 0xA5, 0xB1, 0xB3, 0x70, 0xA1, 0xB0, 0xEF, 0x81, 0x00, 0x00, 0x00,
  0x00, 0xE0, 0x03, 0x1D, 0xA5, 0x49, 0x89, 0x40, 0xBD, 0xA3, 0x09, 0x64, 0xD6, 0x66, 0x1F, 0x64, 0x68] = 0x46A3 := by decide +kernel
example : aesCbcDecrypt aes128
  [0x8D, 0x32, 0x1E, 0x0E, 0x42, 0x6D, 0xF9, 0xBF, 0x8E, 0x72, 0x2B, 0x5B, 0xB9, 0xAF, 0xA6, 0x2E,
  0x95, 0x04, 0xA9, 0x2A, 0x88, 0x6B, 0x1D, 0x71, 0xBB, 0xFF, 0x2F, 0x57, 0xF8, 0x5B, 0x8A, 0x5B]
  [0x33, 0x33, 0x33, 0x33, 0x33, 0x33, 0x33, 0x33, 0x33, 0x33, 0x33, 0x33, 0x33, 0x33, 0x33, 0x33]
  [0x33, 0x33, 0x33, 0x33, 0x33, 0x33, 0x33, 0x33, 0x33, 0x33, 0x33, 0x33, 0x33, 0x33, 0x33, 0x33] = .ok
  [0x6B, 0x04, 0xA5, 0xB1, 0xB3, 0x70, 0xA1, 0xB0, 0xEF, 0x81, 0x00, 0x00, 0x00, 0x00, 0xE0, 0x03,
  0x1D, 0xA5, 0x49, 0x89, 0x40, 0xBD, 0xA3, 0x09, 0x64, 0xD6, 0x66, 0x1F, 0x64, 0x68, 0x46, 0xA3] := by decide +kernel
example : (⟨3, [0x33, 0x33, 0x33, 0x33, 0x33, 0x33, 0x33, 0x33, 0x33, 0x33, 0x33, 0x33, 0x33, 0x33, 0x33, 0x33]⟩ : CipherContext).decrypt aes128
  [0x10, 0x00, 0x03, 0x8D, 0x32, 0x1E, 0x0E, 0x42, 0x6D, 0xF9, 0xBF, 0x8E, 0x72, 0x2B, 0x5B, 0xB9,
  0xAF, 0xA6, 0x2E, 0x95, 0x04, 0xA9, 0x2A, 0x88, 0x6B, 0x1D, 0x71, 0xBB, 0xFF, 0x2F, 0x57, 0xF8,
  0x5B, 0x8A, 0x5B] = .ok
  [0x6B, 0x04, 0xA5, 0xB1, 0xB3, 0x70, 0xA1, 0xB0, 0xEF, 0x81, 0x00, 0x00, 0x00, 0x00, 0xE0, 0x03] := by decide +kernel

-- test_frames.py test_failing_lrc
def failingLrc : Bytes :=
  [0x02, 0xFE, 0x87, 0x7D, 0x92, 0x03, 0x00, 0x00, 0x00, 0x01, 0x00, 0x00, 0x75, 0x03, 0x03, 0x00,
  0x1A, 0xFC, 0x06, 0x60, 0xA4, 0x9C, 0x47, 0x5D, 0x9F, 0xA4, 0x4C, 0x58, 0x5B, 0xA0, 0x2D, 0xFF,
  0xE2, 0x8F, 0x02, 0xCD, 0xEA, 0xE6, 0xEB, 0x30, 0xB7, 0x63, 0xA1, 0x95, 0x17, 0x19, 0xDA, 0x91,
  0xEA, 0xE0, 0xBF, 0x08, 0x19, 0x7B, 0xF5, 0x73, 0x9E, 0xE4, 0x0F, 0x52, 0x71, 0xCE, 0xDB, 0x0B,
  0x72, 0x0C, 0x29, 0x94, 0x97, 0x7C, 0x4E, 0xF2, 0x23, 0xC8, 0xA4, 0x0C, 0x89, 0x36, 0x3C, 0x9B,
  0xFA, 0xC3, 0x43, 0x34, 0x97, 0xC8, 0xBF, 0x0E, 0x12, 0xFA, 0x4E, 0xBD, 0x7C, 0x97, 0x6D, 0xEC,
  0x9F, 0x08, 0x78, 0xDD, 0x7C, 0x91, 0xC0, 0xF0, 0x2A, 0x73, 0x84, 0x18, 0xC0, 0x3A, 0x09, 0xD3,
  0xD5, 0xCC, 0xCF, 0x6D, 0xCC, 0x60, 0x4E, 0xDC, 0xDC, 0x04, 0x4C, 0x36, 0x96, 0xFA, 0x1D, 0xFE,
  0xB8, 0x80, 0xB8, 0x76, 0x60, 0x88, 0x8C, 0xCF, 0xC9, 0x46, 0xCA, 0x9A, 0x05, 0xE1, 0xB4, 0x39,
  0xAA, 0x85, 0x1E, 0xDD, 0xB6, 0x76, 0x85, 0x89, 0x61, 0x95, 0x28, 0xA4, 0xB8, 0xA0, 0x0B, 0x53,
  0xAE, 0x73, 0x59, 0x76, 0x53, 0x81, 0xCF, 0x76, 0x0A, 0xC2, 0x52, 0xF5, 0x56, 0xAD, 0x8E, 0xE8,
  0x82, 0xEA, 0x65, 0x2C, 0x07, 0xBC, 0x63, 0xAE, 0xF7, 0x87, 0x9C, 0x1A, 0x58, 0x36, 0x13, 0x29,
  0x3B, 0x92, 0x98, 0x1B, 0x0F, 0x16, 0x57, 0x01, 0x3F, 0x63, 0xDE, 0xF5, 0xAA, 0x9F, 0xFC, 0x02,
  0xAC, 0x71, 0x59, 0xE8, 0x3C, 0xD0, 0xAC, 0xF2, 0xC3, 0x2F, 0xAA, 0x9C, 0x45, 0xF7, 0x16, 0x82,
  0x6F, 0xBA, 0x3D, 0x11, 0x01, 0xD1, 0x7A, 0xE7, 0x34, 0x4E, 0xFB, 0x8E, 0xF6, 0x22, 0xF2, 0x71,
  0x3D, 0xE1, 0x23, 0xC4, 0x26, 0x5B, 0x9B, 0x44, 0x6A, 0x46, 0x3B, 0x92, 0x5F, 0x1E, 0xA0, 0xF3,
  0x91, 0x5B, 0xAF, 0x96, 0x5F, 0x29, 0xC9, 0x5E, 0x7E, 0x1B, 0x1B, 0x12, 0x3E, 0x4C, 0x39, 0xDF,
  0xA9, 0x1F, 0x53, 0xC1, 0x4D, 0x9B, 0x7A, 0xD2, 0x10, 0xDE, 0xFF, 0xE9, 0x64, 0xF2, 0x26, 0x4E,
  0xD2, 0x4C, 0x31, 0xF2, 0x6B, 0x29, 0xC2, 0x53, 0xBC, 0xED, 0x84, 0x15, 0xAF, 0x77, 0x61, 0x20,
  0x15, 0x0A, 0x43, 0xD2, 0x02, 0xDA, 0x53, 0x5C, 0x9F, 0xAA, 0xF6, 0x9D, 0xC8, 0xDA, 0x18, 0x70,
  0x31, 0x83, 0xB0, 0xC5, 0x6C, 0x11, 0x9C, 0xDB, 0x28, 0x43, 0x3E, 0x80, 0x9C, 0xFE, 0x4D, 0x24,
  0x60, 0xDA, 0x10, 0x51, 0xD9, 0x9A, 0xE8, 0x6B, 0xDD, 0x6F, 0xCC, 0xE8, 0x3C, 0x85, 0xA1, 0x75,
  0x1B, 0x0F, 0x3C, 0xE1, 0xC1, 0x66, 0x6E, 0x13, 0xED, 0x8A, 0x00, 0xCC, 0x76, 0xC0, 0x35, 0x9F,
  0x22, 0x55, 0x9B, 0x74, 0x02, 0xB4, 0x71, 0xD4, 0xAF, 0x72, 0x77, 0x90, 0x87, 0xEC, 0x7E, 0x35,
  0xA2, 0xFD, 0x7E, 0x2B, 0xE9, 0xE6, 0xCD, 0x00, 0x3E, 0x21, 0x83, 0x2F, 0xB5, 0x1C, 0x40, 0xF5,
  0xBC, 0x6A, 0xE1, 0xB6, 0x02, 0x63, 0xFE, 0xE0, 0x24, 0x59, 0xEE, 0x98, 0x7D, 0x47, 0xB8, 0x1A,
  0x99, 0x04, 0x7F, 0x95, 0xE7, 0x12, 0xAE, 0x07, 0xB2, 0x65, 0x36, 0x11, 0x62, 0x11, 0x7F, 0xBC,
  0x48, 0x5D, 0x35, 0xAE, 0xAB, 0x11, 0xBF, 0xA4, 0x18, 0x75, 0x2B, 0x9F, 0x27, 0x9D, 0x9B, 0xAC,
  0xCE, 0xB5, 0x7B, 0x7B, 0xC8, 0xCA, 0x36, 0xA9, 0xF1, 0xC4, 0x3D, 0x1E, 0x9C, 0xA0, 0x18, 0x17,
  0xB2, 0x02, 0x62, 0xC1, 0xC1, 0x3D, 0x56, 0xA6, 0x99, 0xF9, 0x5A, 0x57, 0x4C, 0x6F, 0x2A, 0xE0,
  0x46, 0x08, 0x1A, 0xE7, 0xDC, 0x63, 0x7F, 0x61, 0x26, 0x8B, 0x74, 0xB5, 0xF1, 0xCE, 0x38, 0x9F,
  0xC1, 0x9D, 0x83, 0x1A, 0x15, 0xCA, 0x02, 0xCE, 0x7D, 0xB3, 0x48, 0x07, 0x8F, 0x6F, 0xBC, 0x2E,
  0x0C, 0xB5, 0x62, 0x1B, 0x1B, 0x0E, 0xB3, 0x9E, 0xB1, 0x90, 0xC1, 0x6E, 0xB8, 0xD1, 0x3F, 0x2D,
  0x3A, 0xD5, 0xD8, 0xD8, 0x1B, 0x1B, 0x08, 0xBD, 0xC5, 0xB2, 0x9B, 0x2A, 0x50, 0x1F, 0x08, 0xB1,
  0x5C, 0xF7, 0x3C, 0x4C, 0x1B, 0x0E, 0x6A, 0xEA, 0x81, 0x9F, 0xBC, 0x53, 0x37, 0x1B, 0x1B, 0xBB,
  0x49, 0xD9, 0x7F, 0x8A, 0x63, 0x20, 0x70, 0xBE, 0xAD, 0x5E, 0x05, 0x5C, 0x08, 0x7B, 0xF5, 0x22,
  0xBB, 0x2F, 0x24, 0x3D, 0xB3, 0xBB, 0xB5, 0xF7, 0xEC, 0xDD, 0xFE, 0x82, 0x8A, 0x10, 0xA8, 0x0E,
  0x18, 0x60, 0xC0, 0x9B, 0x84, 0x59, 0x63, 0xC6, 0x03, 0xDB, 0xC4, 0xFC, 0xD0, 0x3D, 0x35, 0x65,
  0x7A, 0x99, 0xC1, 0x50, 0x58, 0xA4, 0xD4, 0x3D, 0x45, 0x0B, 0xD1, 0x6F, 0x80, 0x08, 0x23, 0xD0,
  0x82, 0x72, 0x7F, 0x6C, 0xC9, 0x50, 0xC5, 0xC0, 0xCC, 0x0E, 0x06, 0x22, 0x59, 0xF7, 0xF0, 0x38,
  0xB3, 0xDB, 0xD1, 0x03, 0x7E, 0xAE, 0xD2, 0x9C, 0xE1, 0x80, 0x79, 0x18, 0x08, 0xF1, 0x14, 0x21,
  0x5B, 0x28, 0x74, 0x9A, 0x47, 0x3D, 0x70, 0x6F, 0x4E, 0x79, 0x70, 0xC4, 0x4B, 0x24, 0x6F, 0x53,
  0x5E, 0xD2, 0x68, 0x08, 0xB8, 0x29, 0x5E, 0x3C, 0x73, 0x47, 0xA7, 0x10, 0x2A, 0x5B, 0x1B, 0x0F,
  0x72, 0xCC, 0xC9, 0xAC, 0x21, 0xBE, 0xBF, 0xE2, 0x75, 0x5E, 0x38, 0x32, 0xCE, 0xD9, 0xA6, 0x48,
  0x53, 0xF3, 0x0E, 0x07, 0x9F, 0x86, 0x9C, 0xD6, 0xBB, 0x84, 0xDB, 0x46, 0x11, 0x6D, 0xAD, 0x74,
  0xB7, 0x09, 0x25, 0x10, 0x03, 0xD1, 0x56, 0xB3, 0x87, 0x8E, 0x06, 0x9A, 0xB2, 0x30, 0x57, 0x6F,
  0xEE, 0xCA, 0x6C, 0x90, 0xE1, 0x63, 0xCC, 0xF9, 0xCD, 0xA7, 0xEE, 0xFA, 0x41, 0x7C, 0x45, 0x8B,
  0x8E, 0xDE, 0xF3, 0x95, 0x75, 0xAC, 0x37, 0xCC, 0x62, 0xA2, 0xE0, 0x40, 0x07, 0xFD, 0x19, 0x25,
  0x27, 0x99, 0x5F, 0xF2, 0x23, 0xC3, 0x07, 0xC5, 0x21, 0x2E, 0xC8, 0x93, 0x1F, 0x47, 0x4F, 0xB5,
  0x66, 0x7A, 0x09, 0xDF, 0x15, 0xB7, 0x21, 0xDB, 0x79, 0x27, 0xD6, 0x85, 0xD4, 0xF1, 0xA1, 0xDC,
  0xB2, 0xD0, 0x93, 0x19, 0x80, 0x9E, 0x4F, 0x0B, 0x1C, 0xB7, 0x18, 0x43, 0xDF, 0xB9, 0x72, 0x60,
  0xCD, 0x92, 0xF4, 0x4F, 0x4D, 0x52, 0x90, 0x87, 0x28, 0xA7, 0x81, 0xF6, 0x91, 0x4E, 0x4C, 0xE8,
  0x69, 0x31, 0x3B, 0xC3, 0x55, 0x75, 0x9C, 0xEC, 0x1B, 0x0F, 0x60, 0x6B, 0x67, 0x8A, 0x8A, 0x6C,
  0xF9, 0xB0, 0xFA, 0x77, 0xC8, 0x42, 0x39, 0x17, 0xF1, 0x39, 0x8F, 0xFE, 0xD7, 0x76, 0x96, 0xF9,
  0x39, 0x00, 0xE2, 0xBA, 0x1D, 0xE1, 0x76, 0x0B, 0x00, 0xD7, 0xDF, 0x0C, 0x07, 0x83, 0x99, 0x3E,
  0x17, 0x83, 0xF2, 0x16, 0xEE, 0xCC, 0xF2, 0x9A, 0x5D, 0x22, 0xD6, 0xF7, 0x87, 0x53, 0xAD, 0x85,
  0xC1, 0xA7, 0xA8, 0xB5, 0x89, 0x5C, 0x1C, 0x70, 0x24, 0x2B, 0xE1, 0x4B, 0xEF, 0x2F, 0x97, 0x97,
  0x72, 0x07, 0x4F, 0x50, 0x51, 0x55, 0xBD, 0x26, 0x4F, 0xE1, 0x64, 0x0D]
example : ((returnCharacters failingLrc).bind (frameFromBytes encryptedResponseType)).map (fun f =>
    (f.da1, f.sa1, f.data.take 3)) = .ok (0, 1, [0x75, 0x03, 0x03]) := by decide +kernel

-- test_application.py test_read_time_response (no expected values there; those of test_utils are used)
example : ((responseFactory
  [0x02, 0xFE, 0x86, 0x6C, 0x17, 0x00, 0x00, 0x00, 0x00, 0x02, 0x00, 0x02, 0x10, 0x33, 0x12, 0x30,
  0x05, 0x06, 0x0C, 0x2D, 0x20, 0xD4, 0x9B, 0x0D]).bind (fun x => ReadTimeResponse.fromBytes x.2.data)).map (·.time) =
  .ok ⟨2006, 5, 30, 12, 33, 10, 0⟩ := by decide +kernel

-- test_application.py test_parse_parameter_data_object_1
example : (ReadDeviceParametersResponse.fromBytes
  [0x01, 0x00, 0x0D, 0x00, 0x00, 0x4B, 0x00, 0x1E, 0x00, 0x00, 0x01, 0x00, 0x06, 0x00, 0x0A, 0x00,
  0x9B, 0x50, 0x72, 0x65, 0x73, 0x73, 0x75, 0x72, 0x65, 0x20, 0x70, 0x00, 0x20, 0x7D, 0x20, 0x7D,
  0x28, 0x51, 0x7D, 0x21, 0x7D, 0x20, 0x7D, 0x20, 0x62, 0x61, 0x72, 0x00, 0x00, 0x00, 0x00, 0x00,
  0x9A, 0x00, 0x9A, 0x3A, 0x00, 0x00, 0x00, 0x00, 0xCD, 0xCC, 0x4C, 0x3F, 0x00, 0x00, 0x8C, 0x42,
  0x4E, 0x79, 0x87, 0x64, 0x9E, 0x02, 0x5A, 0x00, 0x00, 0x00, 0x0A, 0x00, 0x00, 0x00, 0x00, 0x7D,
  0x4B, 0x00, 0x1E, 0x01, 0x00, 0x02, 0x00, 0x08, 0x00, 0x0C, 0x00, 0x9B, 0x54, 0x65, 0x6D, 0x70,
  0x65, 0x72, 0x61, 0x74, 0x75, 0x72, 0x65, 0x20, 0x74, 0x00, 0x70, 0x70, 0x20, 0x42, 0x34, 0x7D,
  0x20, 0x7D, 0x20, 0xB0, 0x43, 0x00, 0x00, 0x00, 0x00, 0x00, 0x00, 0x96, 0x00, 0x16, 0x3B, 0x00,
  0x00, 0x48, 0xC2, 0x00, 0x00, 0xC8, 0xC1, 0x00, 0x00, 0x70, 0x42, 0xAD, 0x54, 0x61, 0x64, 0xA2,
  0x02, 0x5C, 0x00, 0x00, 0x00, 0x0C, 0x00, 0x00, 0x00, 0x00, 0x20, 0x4B, 0x00, 0x1E, 0x02, 0x00,
  0x15, 0x00, 0x0A, 0x00, 0x0E, 0x00, 0x89, 0x49, 0x6E, 0x74, 0x65, 0x72, 0x6E, 0x61, 0x6C, 0x20,
  0x74, 0x65, 0x6D, 0x70, 0x2E, 0x20, 0x41, 0x33, 0x00, 0xC1, 0x45, 0x78, 0x74, 0x65, 0xB0, 0x43,
  0x00, 0x00, 0x00, 0x00, 0x00, 0x00, 0x00, 0x00, 0x00, 0x3E, 0x00, 0x00, 0x00, 0xC3, 0x00, 0x00,
  0x20, 0xC2, 0x00, 0x00, 0xAA, 0x42, 0x00, 0x00, 0x00, 0x00, 0x9C, 0x02, 0x00, 0x00, 0x00, 0x00,
  0x00, 0x00, 0x00, 0x00, 0x00, 0x6F, 0x4B, 0x00, 0x1E, 0x03, 0x00, 0x16, 0x00, 0x0C, 0x00, 0x10,
  0x00, 0x89, 0x42, 0x61, 0x74, 0x74, 0x65, 0x72, 0x79, 0x20, 0x76, 0x6F, 0x6C, 0x74, 0x61, 0x67,
  0x65, 0x20, 0x41, 0x34, 0x00, 0x31, 0x7D, 0x20, 0x95, 0x56, 0x00, 0x00, 0x00, 0x00, 0x00, 0x00,
  0x00, 0x68, 0xE8, 0x9F, 0x3B, 0x00, 0x00, 0x00, 0x00, 0x00, 0x00, 0x00, 0x00, 0x00, 0x00, 0x90,
  0x40, 0x00, 0x00, 0x00, 0x00, 0x9C, 0x02, 0x00, 0x00, 0x00, 0x00, 0x00, 0x00, 0x00, 0x00, 0x00,
  0x7D, 0x4B, 0x00, 0x1E, 0x04, 0x00, 0x17, 0x00, 0x0E, 0x00, 0x12, 0x00, 0x81, 0x42, 0x61, 0x74,
  0x74, 0x65, 0x72, 0x79, 0x20, 0x63, 0x61, 0x70, 0x61, 0x63, 0x69, 0x74, 0x79, 0x20, 0x41, 0x35,
  0x00, 0x72, 0x7D, 0x20, 0x25, 0x00, 0x00, 0x00, 0x00, 0x00, 0x00, 0x00, 0xC8, 0x00, 0xC8, 0x3A,
  0x00, 0x00, 0x00, 0x00, 0x00, 0x00, 0x00, 0x00, 0x00, 0x00, 0xC8, 0x42, 0x00, 0x00, 0x00, 0x00,
  0x9C, 0x02, 0x00, 0x00, 0x00, 0x00, 0x00, 0x00, 0x00, 0x00, 0x00, 0x20, 0x4B, 0x00, 0x1E, 0x05,
  0x00, 0x1A, 0x00, 0x10, 0x00, 0x14, 0x00, 0x81, 0x47, 0x53, 0x4D, 0x20, 0x73, 0x69, 0x67, 0x6E,
  0x61, 0x6C, 0x20, 0x41, 0x36, 0x00, 0x7D, 0x20, 0x7D, 0x20, 0x7D, 0x20, 0x7D, 0x20, 0xF0, 0x25,
  0x00, 0x00, 0x00, 0x00, 0x00, 0x00, 0x00, 0xC8, 0x00, 0xC8, 0x3A, 0x00, 0x00, 0x00, 0x00, 0x00,
  0x00, 0x00, 0x00, 0x00, 0x00, 0xC8, 0x42, 0x00, 0x00, 0x00, 0x00, 0x9C, 0x02, 0x00, 0x00, 0x00,
  0x00, 0x00, 0x00, 0x00, 0x00, 0x00, 0x20, 0x46, 0x00, 0x1F, 0x00, 0x00, 0xA0, 0x00, 0x90, 0x02,
  0x00, 0x00, 0x50, 0x00, 0x81, 0x43, 0x6F, 0x76, 0x65, 0x72, 0x20, 0x42, 0x31, 0x00, 0x20, 0x7D,
  0x2B, 0x7D, 0x20, 0x7D, 0x20, 0x7D, 0x20, 0xEA, 0x78, 0x94, 0x7D, 0x2D, 0x9C, 0x02, 0x00, 0x00,
  0x00, 0x00, 0x00, 0x20, 0x20, 0x20, 0x20, 0x20, 0x20, 0x43, 0x6C, 0x6F, 0x73, 0x65, 0x64, 0x00,
  0x20, 0x20, 0x20, 0x20, 0x20, 0x20, 0x4F, 0x70, 0x65, 0x6E, 0x65, 0x64, 0x00, 0x4B, 0x00, 0x30,
  0x01, 0x00, 0x1E, 0x00, 0x91, 0x02, 0x00, 0x00, 0x51, 0x00, 0x51, 0x43, 0x61, 0x6C, 0x6C, 0x20,
  0x77, 0x69, 0x6E, 0x64, 0x6F, 0x77, 0x20, 0x42, 0x32, 0x00, 0x00, 0x22, 0x7D, 0x20, 0x7D, 0x20,
  0x53, 0x7D, 0x01, 0x21, 0x00, 0xB8, 0x56, 0x00, 0x00, 0x00, 0x00, 0x00, 0x00, 0x04, 0x20, 0x20,
  0x20, 0x20, 0x20, 0x6E, 0x6F, 0x20, 0x63, 0x61, 0x6C, 0x6C, 0x00, 0x20, 0x20, 0x20, 0x20, 0x20,
  0x20, 0x61, 0x63, 0x74, 0x69, 0x76, 0x65, 0x00, 0x4B, 0x00, 0x30, 0x02, 0x00, 0x1F, 0x00, 0x92,
  0x02, 0x00, 0x00, 0x52, 0x00, 0x49, 0x53, 0x65, 0x72, 0x76, 0x69, 0x63, 0x65, 0x20, 0x77, 0x69,
  0x6E, 0x64, 0x6F, 0x77, 0x20, 0x42, 0x33, 0x00, 0x00, 0x3A, 0xA5, 0x7D, 0x2D, 0x01, 0x41, 0x00,
  0x00, 0x00, 0x00, 0x00, 0x08, 0x51, 0x01, 0x00, 0x00, 0x20, 0x20, 0x6E, 0x6F, 0x20, 0x73, 0x65,
  0x72, 0x76, 0x69, 0x63, 0x65, 0x00, 0x20, 0x20, 0x20, 0x20, 0x20, 0x20, 0x61, 0x63, 0x74, 0x69,
  0x76, 0x65, 0x00, 0x46, 0x00, 0x1F, 0x03, 0x00, 0x1C, 0x00, 0x93, 0x02, 0x00, 0x00, 0x53, 0x00,
  0xC1, 0x4D, 0x6F, 0x64, 0x65, 0x6D, 0x20, 0x70, 0x6F, 0x77, 0x65, 0x72, 0x20, 0x73, 0x75, 0x70,
  0x70, 0x20, 0x42, 0x34, 0x00, 0x00, 0x00, 0x00, 0x9C, 0x02, 0x00, 0x00, 0x00, 0x00, 0x00, 0x20,
  0x20, 0x20, 0x20, 0x20, 0x20, 0x20, 0x20, 0x20, 0x4F, 0x66, 0x66, 0x00, 0x20, 0x20, 0x20, 0x20,
  0x20, 0x20, 0x20, 0x20, 0x20, 0x20, 0x4F, 0x6E, 0x00, 0x46, 0x00, 0x1F, 0x04, 0x00, 0x1B, 0x00,
  0x94, 0x02, 0x00, 0x00, 0x54, 0x00, 0xC1, 0x45, 0x78, 0x74, 0x65, 0x72, 0x6E, 0x61, 0x6C, 0x20,
  0x70, 0x6F, 0x77, 0x65, 0x72, 0x20, 0x42, 0x35, 0x00, 0x35, 0x00, 0x6F, 0x73, 0x65, 0x9C, 0x02,
  0x00, 0x00, 0x00, 0x00, 0x00, 0x20, 0x20, 0x20, 0x20, 0x50, 0x6F, 0x77, 0x65, 0x72, 0x20, 0x4F,
  0x4B, 0x00, 0x20, 0x50, 0x6F, 0x77, 0x65, 0x72, 0x20, 0x65, 0x72, 0x72, 0x6F, 0x72, 0x00, 0x46,
  0x00, 0x1F, 0x05, 0x00, 0x31, 0x00, 0x95, 0x02, 0x00, 0x00, 0x55, 0x00, 0xC1, 0x45, 0x78, 0x74,
  0x2E, 0x70, 0x6F, 0x77, 0x65, 0x72, 0x20, 0x6D, 0x6F, 0x64, 0x65, 0x6D, 0x20, 0x42, 0x36, 0x00,
  0x36, 0x00, 0x20, 0x6E, 0x9C, 0x02, 0x00, 0x00, 0x00, 0x00, 0x00, 0x20, 0x20, 0x20, 0x20, 0x50,
  0x6F, 0x77, 0x65, 0x72, 0x20, 0x4F, 0x4B, 0x00, 0x20, 0x50, 0x6F, 0x77, 0x65, 0x72, 0x20, 0x65,
  0x72, 0x72, 0x6F, 0x72, 0x00, 0x59, 0x00, 0x35, 0x00, 0x00, 0x03, 0x00, 0x12, 0x00, 0x16, 0x00,
  0x97, 0x50, 0x72, 0x69, 0x6D, 0x61, 0x72, 0x79, 0x20, 0x76, 0x6F, 0x6C, 0x75, 0x6D, 0x65, 0x20,
  0x56, 0x6D, 0x00, 0x6D, 0x00, 0x51, 0x01, 0x00, 0x6D, 0x33, 0x00, 0x00, 0x00, 0x00, 0x00, 0x00,
  0x00, 0x00, 0x00, 0x00, 0x00, 0x00, 0xF0, 0x3F, 0xF0, 0x3F, 0x20, 0x20, 0x9C, 0x02, 0x00, 0x00,
  0x00, 0x00, 0x0E, 0x00, 0x0A, 0x00, 0x00, 0x00, 0x00, 0x00, 0x00, 0x00, 0x00, 0x00, 0x00, 0x00,
  0x00, 0x00, 0x00, 0x00, 0x00, 0x00, 0x00, 0x00, 0x00, 0x00, 0x0B, 0x00, 0x00, 0x00]).map
    (fun p => (p.objectNumber, p.objectAmount, p.isEnd, p.data.length)) = .ok (1, 13, false, 969) := by decide +kernel

-- test_application.py test_parse_parameter_data_object_0
example : (ReadDeviceParametersResponse.fromBytes
  [0x00, 0x00, 0x0B, 0x00, 0x00, 0x0E, 0x01, 0x00, 0x83, 0x5D, 0x21, 0xFF, 0x73, 0x31, 0x2E, 0x31,
  0x36, 0x00, 0x10, 0x02, 0x32, 0x31, 0x31, 0x31, 0x33, 0x37, 0x5F, 0x30, 0x30, 0x30, 0x30, 0x30,
  0x30, 0x30, 0x30, 0x31, 0x00, 0x0C, 0x46, 0x13, 0x1E, 0x10, 0x0E, 0x66, 0xA6, 0xCA, 0x42, 0x00,
  0x00, 0x00, 0x00, 0x02, 0xCD, 0xCC, 0x8C, 0x3F, 0xB3, 0x0C, 0x41, 0x3F, 0x35, 0xDE, 0x2E, 0x42,
  0x0A, 0xD7, 0x23, 0x3F, 0x00, 0x00, 0x00, 0x00, 0x00, 0x00, 0x00, 0x00, 0x00, 0x00, 0x00, 0x00,
  0x00, 0x00, 0x00, 0x00, 0x00, 0x00, 0x00, 0x00, 0x00, 0x00, 0x00, 0x00, 0x00, 0x00, 0x00, 0x00,
  0x03, 0x18, 0xC4, 0x42, 0x8A, 0x1F, 0x43, 0x3F, 0xD5, 0x09, 0x88, 0x3E, 0x84, 0x9E, 0x4D, 0x3D,
  0xAC, 0x8B, 0x5B, 0x3D, 0xC6, 0xDC, 0x35, 0x3C, 0x00, 0x6F, 0x01, 0x3C, 0x0A, 0xD7, 0x23, 0x3C,
  0x00, 0x00, 0x00, 0x00, 0x00, 0x00, 0x00, 0x00, 0x00, 0x00, 0x00, 0x00, 0x00, 0x00, 0x00, 0x00,
  0x58, 0x00, 0x0E, 0x00, 0x48, 0x00, 0x34, 0x00, 0x98, 0x02, 0x58, 0x00, 0x00, 0x00, 0x03, 0x00,
  0x00, 0x08, 0x00, 0x02, 0x03, 0x03, 0x00, 0x08, 0x03, 0x00, 0x06, 0x68, 0xA6, 0xCA, 0x42, 0x00,
  0x00, 0x00, 0x00, 0x00, 0x00, 0x00, 0x00, 0x00, 0x00, 0x00, 0x00, 0x00, 0x00, 0x00, 0x00, 0x00,
  0x00, 0x00, 0x00, 0x00, 0x2A, 0x00, 0x07, 0x62, 0x61, 0x72, 0x00, 0x00, 0x00, 0x00, 0x00, 0x20,
  0xB0, 0x43, 0x00, 0x00, 0x00, 0x00, 0x00, 0x00, 0xA1, 0x6D, 0x00, 0x00, 0x00, 0x00, 0x00, 0x00,
  0x00, 0x90, 0x4D, 0x4A, 0x2F, 0x6D, 0x33, 0x00, 0x33, 0x00, 0x01, 0x01, 0x00, 0x00, 0x00, 0x00,
  0x00, 0x41, 0x00, 0x35, 0xE0, 0xFF, 0x7F, 0xFF, 0x77, 0xEE, 0x12, 0x00, 0x00, 0x00, 0x00, 0x00,
  0x00, 0x00, 0x00, 0x00, 0x31, 0x2E, 0x31, 0x36, 0x00, 0x9A, 0xFA, 0x00, 0x00, 0x00, 0x00, 0xE5,
  0x21, 0x00, 0x00, 0x4B, 0x00, 0x1E, 0x00, 0x00, 0x01, 0x00, 0x06, 0x00, 0x0A, 0x00, 0x9B, 0x50,
  0x72, 0x65, 0x73, 0x73, 0x75, 0x72, 0x65, 0x20, 0x70, 0x00, 0x00, 0x00, 0x00, 0x00, 0x00, 0x00,
  0x00, 0x00, 0x00, 0x00, 0x00, 0x00, 0x62, 0x61, 0x72, 0x00, 0x00, 0x00, 0x00, 0x00, 0x9A, 0x00,
  0x9A, 0x3A, 0x00, 0x00, 0x00, 0x00, 0xCD, 0xCC, 0x4C, 0x3F, 0x00, 0x00, 0x8C, 0x42, 0x4E, 0x79,
  0x87, 0x64, 0x9E, 0x02, 0x5A, 0x00, 0x00, 0x00, 0x0A, 0x00, 0x00, 0x00, 0x00, 0x00, 0x4B, 0x00,
  0x1E, 0x01, 0x00, 0x02, 0x00, 0x08, 0x00, 0x0C, 0x00, 0x9B, 0x54, 0x65, 0x6D, 0x70, 0x65, 0x72,
  0x61, 0x74, 0x75, 0x72, 0x65, 0x20, 0x74, 0x00, 0x00, 0x00, 0x00, 0x00, 0x00, 0x00, 0x00, 0x00,
  0x00, 0xB0, 0x43, 0x00, 0x00, 0x00, 0x00, 0x00, 0x00, 0x96, 0x00, 0x16, 0x3B, 0x00, 0x00, 0x48,
  0xC2, 0x00, 0x00, 0xC8, 0xC1, 0x00, 0x00, 0x70, 0x42, 0xAD, 0x54, 0x61, 0x64, 0xA2, 0x02, 0x5C,
  0x00, 0x00, 0x00, 0x0C, 0x00, 0x00, 0x00, 0x00, 0x00, 0x4B, 0x00, 0x1E, 0x02, 0x00, 0x15, 0x00,
  0x0A, 0x00, 0x0E, 0x00, 0x89, 0x49, 0x6E, 0x74, 0x65, 0x72, 0x6E, 0x61, 0x6C, 0x20, 0x74, 0x65,
  0x6D, 0x70, 0x2E, 0x20, 0x41, 0x33, 0x00, 0x00, 0x00, 0x00, 0x00, 0x00, 0xB0, 0x43, 0x00, 0x00,
  0x00, 0x00, 0x00, 0x00, 0x00, 0x00, 0x00, 0x3E, 0x00, 0x00, 0x00, 0xC3, 0x00, 0x00, 0x20, 0xC2,
  0x00, 0x00, 0xAA, 0x42, 0x00, 0x00, 0x00, 0x00, 0x9C, 0x02, 0x00, 0x00, 0x00, 0x00, 0x00, 0x00,
  0x00, 0x00, 0x00, 0x00, 0x4B, 0x00, 0x1E, 0x03, 0x00, 0x16, 0x00, 0x0C, 0x00, 0x10, 0x00, 0x89,
  0x42, 0x61, 0x74, 0x74, 0x65, 0x72, 0x79, 0x20, 0x76, 0x6F, 0x6C, 0x74, 0x61, 0x67, 0x65, 0x20,
  0x41, 0x34, 0x00, 0x00, 0x00, 0x00, 0x00, 0x56, 0x00, 0x00, 0x00, 0x00, 0x00, 0x00, 0x00, 0x68,
  0xE8, 0x9F, 0x3B, 0x00, 0x00, 0x00, 0x00, 0x00, 0x00, 0x00, 0x00, 0x00, 0x00, 0x90, 0x40, 0x00,
  0x00, 0x00, 0x00, 0x9C, 0x02, 0x00, 0x00, 0x00, 0x00, 0x00, 0x00, 0x00, 0x00, 0x00, 0x00, 0x4B,
  0x00, 0x1E, 0x04, 0x00, 0x17, 0x00, 0x0E, 0x00, 0x12, 0x00, 0x81, 0x42, 0x61, 0x74, 0x74, 0x65,
  0x72, 0x79, 0x20, 0x63, 0x61, 0x70, 0x61, 0x63, 0x69, 0x74, 0x79, 0x20, 0x41, 0x35, 0x00, 0x00,
  0x00, 0x00, 0x25, 0x00, 0x00, 0x00, 0x00, 0x00, 0x00, 0x00, 0xC8, 0x00, 0xC8, 0x3A, 0x00, 0x00,
  0x00, 0x00, 0x00, 0x00, 0x00, 0x00, 0x00, 0x00, 0xC8, 0x42, 0x00, 0x00, 0x00, 0x00, 0x9C, 0x02,
  0x00, 0x00, 0x00, 0x00, 0x00, 0x00, 0x00, 0x00, 0x00, 0x00, 0x4B, 0x00, 0x1E, 0x05, 0x00, 0x1A,
  0x00, 0x10, 0x00, 0x14, 0x00, 0x81, 0x47, 0x53, 0x4D, 0x20, 0x73, 0x69, 0x67, 0x6E, 0x61, 0x6C,
  0x20, 0x41, 0x36, 0x00, 0x00, 0x00, 0x00, 0x00, 0x00, 0x00, 0x00, 0x00, 0x00, 0x25, 0x00, 0x00,
  0x00, 0x00, 0x00, 0x00, 0x00, 0xC8, 0x00, 0xC8, 0x3A, 0x00, 0x00, 0x00, 0x00, 0x00, 0x00, 0x00,
  0x00, 0x00, 0x00, 0xC8, 0x42, 0x00, 0x00, 0x00, 0x00, 0x9C, 0x02, 0x00, 0x00, 0x00, 0x00, 0x00,
  0x00, 0x00, 0x00, 0x00, 0x00, 0x46, 0x00, 0x1F, 0x00, 0x00, 0xA0, 0x00, 0x90, 0x02, 0x00, 0x00,
  0x50, 0x00, 0x81, 0x43, 0x6F, 0x76, 0x65, 0x72, 0x20, 0x42, 0x31, 0x00, 0x00, 0x00, 0x00, 0x00,
  0x00, 0x00, 0x00, 0x00, 0x00, 0x00, 0x00, 0x00, 0x00, 0x00, 0x9C, 0x02, 0x00, 0x00, 0x00, 0x00,
  0x00, 0x20, 0x20, 0x20, 0x20, 0x20, 0x20, 0x43, 0x6C, 0x6F, 0x73, 0x65, 0x64, 0x00, 0x20, 0x20,
  0x20, 0x20, 0x20, 0x20, 0x4F, 0x70, 0x65, 0x6E, 0x65, 0x64, 0x00, 0x4B, 0x00, 0x30, 0x01, 0x00,
  0x1E, 0x00, 0x91, 0x02, 0x00, 0x00, 0x51, 0x00, 0x51, 0x43, 0x61, 0x6C, 0x6C, 0x20, 0x77, 0x69,
  0x6E, 0x64, 0x6F, 0x77, 0x20, 0x42, 0x32, 0x00, 0x00, 0x00, 0x00, 0x00, 0x00, 0x00, 0x00, 0x00,
  0x01, 0x21, 0x00, 0xB8, 0x56, 0x00, 0x00, 0x00, 0x00, 0x00, 0x00, 0x04, 0x20, 0x20, 0x20, 0x20,
  0x20, 0x6E, 0x6F, 0x20, 0x63, 0x61, 0x6C, 0x6C, 0x00, 0x20, 0x20, 0x20, 0x20, 0x20, 0x20, 0x61,
  0x63, 0x74, 0x69, 0x76, 0x65, 0x00, 0x4B, 0x00, 0x30, 0x02, 0x00, 0x1F, 0x00, 0x92, 0x02, 0x00,
  0x00, 0x52, 0x00, 0x49, 0x53, 0x65, 0x72, 0x76, 0x69, 0x63, 0x65, 0x20, 0x77, 0x69, 0x6E, 0x64,
  0x6F, 0x77, 0x20, 0x42, 0x33, 0x00, 0x00, 0x00, 0x00, 0x00, 0x00, 0x01, 0x41, 0x00, 0x00, 0x00,
  0x00, 0x00, 0x08, 0x51, 0x01, 0x00, 0x00, 0x20, 0x20, 0x6E, 0x6F, 0x20, 0x73, 0x65, 0x72, 0x76,
  0x69, 0x63, 0x65, 0x00, 0x20, 0x20, 0x20, 0x20, 0x20, 0x20, 0x61, 0x63, 0x74, 0x69, 0x76, 0x65,
  0x00, 0x46, 0x00, 0x1F, 0x03, 0x00, 0x1C, 0x00, 0x93, 0x02, 0x00, 0x00, 0x53, 0x00, 0xC1, 0x4D,
  0x6F, 0x64, 0x65, 0x6D, 0x20, 0x70, 0x6F, 0x77, 0x65, 0x72, 0x20, 0x73, 0x75, 0x70, 0x70, 0x20,
  0x42, 0x34, 0x00, 0x00, 0x00, 0x00, 0x9C, 0x02, 0x00, 0x00, 0x00, 0x00, 0x00, 0x20, 0x20, 0x20,
  0x20, 0x20, 0x20, 0x20, 0x20, 0x20, 0x4F, 0x66, 0x66, 0x00, 0x20, 0x20, 0x20, 0x20, 0x20, 0x20,
  0x20, 0x20, 0x20, 0x20, 0x4F, 0x6E, 0x00]).map
    (fun p => (p.objectNumber, p.objectAmount, p.isEnd, p.data.length)) = .ok (0, 11, false, 1010) := by decide +kernel

-- test_application.py test_read_archive
example : ∃ r, ReadArchiveByTimeResponse.fromBytes
  [0x03, 0x01, 0x00, 0x00, 0x00, 0x60, 0x66, 0x97, 0x29, 0x00, 0x00, 0x46, 0x10, 0x02, 0x22, 0xA6,
  0x0E, 0x9B, 0x7B, 0xC4, 0xF5, 0x28, 0x5C, 0xA7, 0x2E, 0xFF, 0x40, 0x30, 0x18, 0xE2, 0x7A, 0x24,
  0x21, 0xED, 0x40, 0x66, 0x70, 0x69, 0x9E, 0x6D, 0xA9, 0x34, 0x41, 0x27, 0x8B, 0x88, 0xC1, 0x92,
  0x8A, 0xEA, 0x40, 0x00, 0x00, 0x00, 0x00, 0x00, 0x00, 0x00, 0x00, 0x7D, 0x96, 0x81, 0x40, 0x8A,
  0x17, 0x7E, 0x3F, 0x80, 0x00, 0x00, 0x20, 0x00, 0x00, 0x00, 0xD0, 0xCD, 0xB5] = .ok r := ⟨_, rfl⟩

-- test_application.py test_write_time: the frame in the comment of the test
example : requestToBytes requestType ⟨.writeDeviceTime, 0, 0, 0, 0, [0x31, 0x32, 0x33, 0x34, 0x35, 0x36, 0x21, 0x03, 0x59, 0x73, 0x36, 0x34, 0x13, 0x14, 0x04, 0x24, 0x04]⟩ = .ok
  [0x02, 0xFE, 0x84, 0x71, 0x20, 0x00, 0x00, 0x00, 0x00, 0x00, 0x00, 0x00, 0x31, 0x32, 0x33, 0x34,
  0x35, 0x36, 0x21, 0x03, 0x59, 0x73, 0x36, 0x34, 0x13, 0x14, 0x04, 0x24, 0x04, 0x05, 0xF5, 0x03, 0x0D] := by decide +kernel
example : datetimeToBytes ⟨2024, 4, 14, 13, 34, 36, 0⟩ = .ok [0x36, 0x34, 0x13, 0x14, 0x04, 0x24] := by decide +kernel

-- test_call_to_dispatch.py
def callWire : Bytes :=
  [0x02, 0xFE, 0x84, 0x87, 0x9C, 0x00, 0x00, 0x00, 0x00, 0x01, 0x00, 0x00, 0x1B, 0x0F, 0x00, 0x02,
  0x40, 0xA4, 0x94, 0xDD, 0x96, 0xCE, 0x1B, 0x1B, 0xB7, 0x19, 0x41, 0x64, 0xD5, 0x6A, 0x6F, 0x80,
  0xA4, 0x30, 0x30, 0x30, 0x30, 0x30, 0x30, 0x30, 0x30, 0x30, 0x30, 0x30, 0x30, 0x30, 0x30, 0x30,
  0x31, 0x00, 0x23, 0x82, 0x08, 0x70, 0x10, 0x63, 0x43, 0x78, 0x00, 0x00, 0x03, 0x59, 0x07, 0x73,
  0x20, 0x67, 0x06, 0x51, 0x00, 0x01, 0x00, 0x00, 0x1F, 0x06, 0x00, 0x00, 0x00, 0x9E, 0x2B, 0x62,
  0x2D, 0x00, 0x00, 0x00, 0x00, 0x00, 0x00, 0x00, 0x00, 0x01, 0x00, 0x00, 0x00, 0x91, 0xCA, 0xAF,
  0x2C, 0x98, 0x00, 0x00, 0x00, 0x00, 0x00, 0x00, 0x00, 0x2C, 0x40, 0x8C, 0x8C, 0x0A, 0x47, 0x4A,
  0x4B, 0x1D, 0x2A, 0x62, 0x2D, 0x01, 0x7A, 0xFE, 0xCD, 0x01, 0x30, 0x31, 0x2E, 0x30, 0x30, 0x30,
  0x00, 0x00, 0x00, 0x00, 0x00, 0x00, 0x00, 0x00, 0x00, 0x00, 0x00, 0x00, 0x00, 0x00, 0x00, 0x00,
  0x00, 0x00, 0x00, 0x00, 0x00, 0x00, 0x00, 0x00, 0x00, 0x00, 0x00, 0x7D, 0x43, 0x2B, 0x0D]
def callRaw : Bytes :=
  [0x02, 0xFE, 0x84, 0x87, 0x9C, 0x00, 0x00, 0x00, 0x00, 0x01, 0x00, 0x00, 0x8D, 0x00, 0x02, 0x40,
  0xA4, 0x94, 0xDD, 0x96, 0xCE, 0x1B, 0xB7, 0x19, 0x41, 0x64, 0xD5, 0x6A, 0x6F, 0x80, 0xA4, 0x30,
  0x30, 0x30, 0x30, 0x30, 0x30, 0x30, 0x30, 0x30, 0x30, 0x30, 0x30, 0x30, 0x30, 0x30, 0x31, 0x00,
  0x23, 0x82, 0x08, 0x70, 0x10, 0x63, 0x43, 0x78, 0x00, 0x00, 0x03, 0x59, 0x07, 0x73, 0x20, 0x67,
  0x06, 0x51, 0x00, 0x01, 0x00, 0x00, 0x1F, 0x06, 0x00, 0x00, 0x00, 0x9E, 0x2B, 0x62, 0x2D, 0x00,
  0x00, 0x00, 0x00, 0x00, 0x00, 0x00, 0x00, 0x01, 0x00, 0x00, 0x00, 0x91, 0xCA, 0xAF, 0x2C, 0x98,
  0x00, 0x00, 0x00, 0x00, 0x00, 0x00, 0x00, 0x2C, 0x40, 0x8C, 0x8C, 0x0A, 0x47, 0x4A, 0x4B, 0x1D,
  0x2A, 0x62, 0x2D, 0x01, 0x7A, 0xFE, 0xCD, 0x01, 0x30, 0x31, 0x2E, 0x30, 0x30, 0x30, 0x00, 0x00,
  0x00, 0x00, 0x00, 0x00, 0x00, 0x00, 0x00, 0x00, 0x00, 0x00, 0x00, 0x00, 0x00, 0x00, 0x00, 0x00,
  0x00, 0x00, 0x00, 0x00, 0x00, 0x00, 0x00, 0x00, 0x00, 0x7D, 0x43, 0x2B, 0x0D]
example : (returnCharacters callWire).map List.length = .ok (0x9C + 1) := by decide +kernel
example : returnCharacters callWire = .ok callRaw := by decide +kernel
/-- The call of the test. -/
def theCall : Res CallRequest := (frameFromBytes requestType callRaw).bind (fun f => CallRequest.fromBytes f.data)
example : (frameFromBytes requestType callRaw).map (·.service) = .ok .call := by decide +kernel
example : theCall.map (fun c => (c.stationId, c.simCardId, c.modemId, c.protocol)) =
    .ok ("0000000000000001".toList, "23820870106343780000".toList, "359077320670651".toList, .elgas2) := by decide +kernel
example : theCall.map (fun c => (c.address1, c.address2, c.signalStrength, c.connections)) = .ok (1, 0, 31, 6) := by decide +kernel
example : theCall.map (fun c => (c.lastConnectionTime, c.lastConnectionErrorTime, c.lastResetTime, c.lastModemErrorTime)) =
    .ok (⟨2024, 2, 16, 14, 20, 14, 0⟩, ⟨2000, 1, 1, 0, 0, 0, 0⟩, ⟨2023, 10, 4, 7, 2, 41, 0⟩, ⟨2024, 2, 16, 14, 13, 49, 0⟩) := by
  decide +kernel
example : theCall.map (fun c => (c.connectionErrors, c.resets, c.tcpData, c.allData)) = .ok (0, 1, 152, 0) := by decide +kernel
example : theCall.map (fun c => (c.serialNumber, c.ipAddress)) = .ok ("2358001708".toList, "10.71.74.75".toList) := by decide +kernel
example : theCall.map (fun c => (c.lastModemError, c.modemBatteryCapacity, c.modemBatteryVoltage, c.firmwareVersion)) =
    .ok (1, 65146, 461, "01.000".toList) := by decide +kernel

-- test_parser.py test_parser: 26 objects

def body0 : Bytes :=
  [0x83, 0x5D, 0x21, 0xFF, 0x73, 0x31, 0x2E, 0x31, 0x36, 0x00, 0x10, 0x02, 0x32, 0x31, 0x31, 0x31,
  0x33, 0x37, 0x5F, 0x30, 0x30, 0x30, 0x30, 0x30, 0x30, 0x30, 0x30, 0x31, 0x00, 0x0C, 0xE5, 0x99,
  0x1E, 0x10, 0x0E, 0x66, 0xA6, 0xCA, 0x42, 0x00, 0x00, 0x00, 0x00, 0x02, 0xCD, 0xCC, 0x8C, 0x3F,
  0xB3, 0x0C, 0x41, 0x3F, 0x35, 0xDE, 0x2E, 0x42, 0x0A, 0xD7, 0x23, 0x3F, 0x00, 0x00, 0x00, 0x00,
  0x00, 0x00, 0x00, 0x00, 0x00, 0x00, 0x00, 0x00, 0x00, 0x00, 0x00, 0x00, 0x00, 0x00, 0x00, 0x00,
  0x00, 0x00, 0x00, 0x00, 0x00, 0x00, 0x00, 0x00, 0x03, 0x18, 0xC4, 0x42, 0x8A, 0x1F, 0x43, 0x3F,
  0xD5, 0x09, 0x88, 0x3E, 0x84, 0x9E, 0x4D, 0x3D, 0xAC, 0x8B, 0x5B, 0x3D, 0xC6, 0xDC, 0x35, 0x3C,
  0x00, 0x6F, 0x01, 0x3C, 0x0A, 0xD7, 0x23, 0x3C, 0x00, 0x00, 0x00, 0x00, 0x00, 0x00, 0x00, 0x00,
  0x00, 0x00, 0x00, 0x00, 0x00, 0x00, 0x00, 0x00, 0x58, 0x00, 0x0E, 0x00, 0x48, 0x00, 0x34, 0x00,
  0x98, 0x02, 0x58, 0x00, 0x00, 0x00, 0x03, 0x00, 0x00, 0x08, 0x00, 0x12, 0x03, 0x03, 0x00, 0x08,
  0x03, 0x00, 0x06, 0x68, 0xA6, 0xCA, 0x42, 0x00, 0x00, 0x00, 0x00, 0x00, 0x00, 0x00, 0x00, 0x00,
  0x00, 0x00, 0x00, 0x00, 0x00, 0x00, 0x00, 0x00, 0x00, 0x00, 0x00, 0x00, 0x2A, 0x00, 0x07, 0x62,
  0x61, 0x72, 0x00, 0x00, 0x00, 0x00, 0x00, 0x20, 0xB0, 0x43, 0x00, 0x00, 0x00, 0x00, 0x00, 0x00,
  0xA1, 0x6D, 0x00, 0x00, 0x00, 0x00, 0x00, 0x00, 0x00, 0x90, 0x4D, 0x4A, 0x2F, 0x6D, 0x33, 0x00,
  0x33, 0x00, 0x01, 0x01, 0x00, 0x00, 0x00, 0x00, 0x00, 0x41, 0x00, 0x35, 0xE0, 0xFF, 0x7F, 0xFF,
  0x77, 0xEE, 0x12, 0x00, 0x00, 0x00, 0x00, 0x00, 0x00, 0x00, 0x00, 0x00, 0x31, 0x2E, 0x31, 0x36,
  0x00, 0x9A, 0xFA, 0x00, 0x00, 0x00, 0x00, 0xE5, 0x21, 0x00, 0x00]
def body1 : Bytes :=
  [0x00, 0x00, 0x01, 0x00, 0x06, 0x00, 0x0A, 0x00, 0x9B, 0x50, 0x72, 0x65, 0x73, 0x73, 0x75, 0x72,
  0x65, 0x20, 0x70, 0x00, 0x47, 0x00, 0x00, 0x00, 0x00, 0x00, 0x00, 0x2B, 0x2B, 0x2B, 0x00, 0x00,
  0x62, 0x61, 0x72, 0x00, 0x00, 0x00, 0x00, 0x00, 0x9A, 0x00, 0x9A, 0x3A, 0x00, 0x00, 0x00, 0x00,
  0xCD, 0xCC, 0x4C, 0x3F, 0x00, 0x00, 0x8C, 0x42, 0x4E, 0x79, 0x87, 0x64, 0x9E, 0x02, 0x5A, 0x00,
  0x00, 0x00, 0x0A, 0x00, 0x00, 0x00, 0x00, 0x02]
def body2 : Bytes :=
  [0x01, 0x00, 0x02, 0x00, 0x08, 0x00, 0x0C, 0x00, 0x9B, 0x54, 0x65, 0x6D, 0x70, 0x65, 0x72, 0x61,
  0x74, 0x75, 0x72, 0x65, 0x20, 0x74, 0x00, 0x2E, 0x20, 0x56, 0x62, 0x73, 0x00, 0x7D, 0x3F, 0x7D,
  0xB0, 0x43, 0x00, 0x00, 0x00, 0x00, 0x00, 0x00, 0x96, 0x00, 0x16, 0x3B, 0x00, 0x00, 0x48, 0xC2,
  0x00, 0x00, 0xC8, 0xC1, 0x00, 0x00, 0x70, 0x42, 0xAD, 0x54, 0x61, 0x64, 0xA2, 0x02, 0x5C, 0x00,
  0x00, 0x00, 0x0C, 0x00, 0x00, 0x00, 0x00, 0x41]
def body3 : Bytes :=
  [0x02, 0x00, 0x15, 0x00, 0x0A, 0x00, 0x0E, 0x00, 0x89, 0x49, 0x6E, 0x74, 0x65, 0x72, 0x6E, 0x61,
  0x6C, 0x20, 0x74, 0x65, 0x6D, 0x70, 0x2E, 0x20, 0x41, 0x33, 0x00, 0x32, 0x00, 0x23, 0x00, 0x00,
  0xB0, 0x43, 0x00, 0x00, 0x00, 0x00, 0x00, 0x00, 0x00, 0x00, 0x00, 0x3E, 0x00, 0x00, 0x00, 0xC3,
  0x00, 0x00, 0x20, 0xC2, 0x00, 0x00, 0xAA, 0x42, 0x00, 0x00, 0x00, 0x00, 0x9C, 0x02, 0x00, 0x00,
  0x00, 0x00, 0x00, 0x00, 0x00, 0x00, 0x00, 0x00]
def body4 : Bytes :=
  [0x03, 0x00, 0x16, 0x00, 0x0C, 0x00, 0x10, 0x00, 0x89, 0x42, 0x61, 0x74, 0x74, 0x65, 0x72, 0x79,
  0x20, 0x76, 0x6F, 0x6C, 0x74, 0x61, 0x67, 0x65, 0x20, 0x41, 0x34, 0x00, 0x61, 0x78, 0x20, 0x53,
  0x56, 0x00, 0x00, 0x00, 0x00, 0x00, 0x00, 0x00, 0x68, 0xE8, 0x9F, 0x3B, 0x00, 0x00, 0x00, 0x00,
  0x00, 0x00, 0x00, 0x00, 0x00, 0x00, 0x90, 0x40, 0x00, 0x00, 0x00, 0x00, 0x9C, 0x02, 0x00, 0x00,
  0x00, 0x00, 0x00, 0x00, 0x00, 0x00, 0x00, 0x00]
def body5 : Bytes :=
  [0x04, 0x00, 0x17, 0x00, 0x0E, 0x00, 0x12, 0x00, 0x81, 0x42, 0x61, 0x74, 0x74, 0x65, 0x72, 0x79,
  0x20, 0x63, 0x61, 0x70, 0x61, 0x63, 0x69, 0x74, 0x79, 0x20, 0x41, 0x35, 0x00, 0x00, 0x00, 0x00,
  0x25, 0x00, 0x00, 0x00, 0x00, 0x00, 0x00, 0x00, 0xC8, 0x00, 0xC8, 0x3A, 0x00, 0x00, 0x00, 0x00,
  0x00, 0x00, 0x00, 0x00, 0x00, 0x00, 0xC8, 0x42, 0x00, 0x00, 0x00, 0x00, 0x9C, 0x02, 0x00, 0x00,
  0x00, 0x00, 0x00, 0x00, 0x00, 0x00, 0x00, 0x61]
def body6 : Bytes :=
  [0x05, 0x00, 0x1A, 0x00, 0x10, 0x00, 0x14, 0x00, 0x81, 0x47, 0x53, 0x4D, 0x20, 0x73, 0x69, 0x67,
  0x6E, 0x61, 0x6C, 0x20, 0x41, 0x36, 0x00, 0x26, 0x00, 0x42, 0x00, 0x46, 0x00, 0x91, 0x43, 0x6F,
  0x25, 0x00, 0x00, 0x00, 0x00, 0x00, 0x00, 0x00, 0xC8, 0x00, 0xC8, 0x3A, 0x00, 0x00, 0x00, 0x00,
  0x00, 0x00, 0x00, 0x00, 0x00, 0x00, 0xC8, 0x42, 0x00, 0x00, 0x00, 0x00, 0x9C, 0x02, 0x00, 0x00,
  0x00, 0x00, 0x00, 0x00, 0x00, 0x00, 0x00, 0x42]
def body7 : Bytes :=
  [0x00, 0x00, 0xA0, 0x00, 0x90, 0x02, 0x00, 0x00, 0x50, 0x00, 0x81, 0x43, 0x6F, 0x76, 0x65, 0x72,
  0x20, 0x42, 0x31, 0x00, 0x00, 0x00, 0x00, 0x00, 0x04, 0x42, 0x00, 0x3B, 0x00, 0x00, 0x27, 0x00,
  0x4A, 0x00, 0x9C, 0x02, 0x00, 0x00, 0x00, 0x00, 0x00, 0x20, 0x20, 0x20, 0x20, 0x20, 0x20, 0x43,
  0x6C, 0x6F, 0x73, 0x65, 0x64, 0x00, 0x20, 0x20, 0x20, 0x20, 0x20, 0x20, 0x4F, 0x70, 0x65, 0x6E,
  0x65, 0x64, 0x00]
def body8 : Bytes :=
  [0x01, 0x00, 0x1E, 0x00, 0x91, 0x02, 0x00, 0x00, 0x51, 0x00, 0x51, 0x43, 0x61, 0x6C, 0x6C, 0x20,
  0x77, 0x69, 0x6E, 0x64, 0x6F, 0x77, 0x20, 0x42, 0x32, 0x00, 0x20, 0x42, 0x32, 0x00, 0x32, 0x00,
  0x95, 0x02, 0x01, 0x21, 0x00, 0xB8, 0x56, 0x00, 0x00, 0x00, 0x00, 0x00, 0x00, 0x04, 0x20, 0x20,
  0x20, 0x20, 0x20, 0x6E, 0x6F, 0x20, 0x63, 0x61, 0x6C, 0x6C, 0x00, 0x20, 0x20, 0x20, 0x20, 0x20,
  0x20, 0x61, 0x63, 0x74, 0x69, 0x76, 0x65, 0x00]
def body9 : Bytes :=
  [0x02, 0x00, 0x1F, 0x00, 0x92, 0x02, 0x00, 0x00, 0x52, 0x00, 0x49, 0x53, 0x65, 0x72, 0x76, 0x69,
  0x63, 0x65, 0x20, 0x77, 0x69, 0x6E, 0x64, 0x6F, 0x77, 0x20, 0x42, 0x33, 0x00, 0x20, 0x42, 0x33,
  0x00, 0x33, 0x01, 0x41, 0x00, 0x00, 0x00, 0x00, 0x00, 0x08, 0x51, 0x01, 0x00, 0x00, 0x20, 0x20,
  0x6E, 0x6F, 0x20, 0x73, 0x65, 0x72, 0x76, 0x69, 0x63, 0x65, 0x00, 0x20, 0x20, 0x20, 0x20, 0x20,
  0x20, 0x61, 0x63, 0x74, 0x69, 0x76, 0x65, 0x00]
def body10 : Bytes :=
  [0x03, 0x00, 0x1C, 0x00, 0x93, 0x02, 0x00, 0x00, 0x53, 0x00, 0xC1, 0x4D, 0x6F, 0x64, 0x65, 0x6D,
  0x20, 0x70, 0x6F, 0x77, 0x65, 0x72, 0x20, 0x73, 0x75, 0x70, 0x70, 0x20, 0x42, 0x34, 0x00, 0x00,
  0x00, 0x00, 0x9C, 0x02, 0x00, 0x00, 0x00, 0x00, 0x00, 0x20, 0x20, 0x20, 0x20, 0x20, 0x20, 0x20,
  0x20, 0x20, 0x4F, 0x66, 0x66, 0x00, 0x20, 0x20, 0x20, 0x20, 0x20, 0x20, 0x20, 0x20, 0x20, 0x20,
  0x4F, 0x6E, 0x00]
def body11 : Bytes :=
  [0x04, 0x00, 0x1B, 0x00, 0x94, 0x02, 0x00, 0x00, 0x54, 0x00, 0xC1, 0x45, 0x78, 0x74, 0x65, 0x72,
  0x6E, 0x61, 0x6C, 0x20, 0x70, 0x6F, 0x77, 0x65, 0x72, 0x20, 0x42, 0x35, 0x00, 0x20, 0x9C, 0x7D,
  0x22, 0x7D, 0x9C, 0x02, 0x00, 0x00, 0x00, 0x00, 0x00, 0x20, 0x20, 0x20, 0x20, 0x50, 0x6F, 0x77,
  0x65, 0x72, 0x20, 0x4F, 0x4B, 0x00, 0x20, 0x50, 0x6F, 0x77, 0x65, 0x72, 0x20, 0x65, 0x72, 0x72,
  0x6F, 0x72, 0x00]
def body12 : Bytes :=
  [0x05, 0x00, 0x31, 0x00, 0x95, 0x02, 0x00, 0x00, 0x55, 0x00, 0xC1, 0x45, 0x78, 0x74, 0x2E, 0x70,
  0x6F, 0x77, 0x65, 0x72, 0x20, 0x6D, 0x6F, 0x64, 0x65, 0x6D, 0x20, 0x42, 0x36, 0x00, 0x6F, 0x25,
  0x7D, 0x20, 0x9C, 0x02, 0x00, 0x00, 0x00, 0x00, 0x00, 0x20, 0x20, 0x20, 0x20, 0x50, 0x6F, 0x77,
  0x65, 0x72, 0x20, 0x4F, 0x4B, 0x00, 0x20, 0x50, 0x6F, 0x77, 0x65, 0x72, 0x20, 0x65, 0x72, 0x72,
  0x6F, 0x72, 0x00]
def body13 : Bytes :=
  [0x00, 0x00, 0x03, 0x00, 0x12, 0x00, 0x16, 0x00, 0x97, 0x50, 0x72, 0x69, 0x6D, 0x61, 0x72, 0x79,
  0x20, 0x76, 0x6F, 0x6C, 0x75, 0x6D, 0x65, 0x20, 0x56, 0x6D, 0x00, 0x20, 0x7D, 0x20, 0x7D, 0x20,
  0x6D, 0x33, 0x00, 0x00, 0x00, 0x00, 0x00, 0x00, 0x00, 0x00, 0x00, 0x00, 0x00, 0x00, 0xF0, 0x3F,
  0x7D, 0x20, 0x7D, 0x20, 0x9C, 0x02, 0x00, 0x00, 0x00, 0x00, 0x0E, 0x00, 0x0A, 0x00, 0x00, 0x00,
  0x00, 0x00, 0x00, 0x00, 0x00, 0x00, 0x00, 0x00, 0x00, 0x00, 0x00, 0x00, 0x00, 0x00, 0x00, 0x00,
  0x00, 0x00, 0x0B, 0x00, 0x00, 0x00]
def body14 : Bytes :=
  [0x00, 0x00, 0x09, 0x00, 0x1A, 0x00, 0x1E, 0x00, 0x97, 0x53, 0x70, 0x61, 0x72, 0x65, 0x20, 0x70,
  0x72, 0x69, 0x6D, 0x2E, 0x20, 0x76, 0x6F, 0x6C, 0x2E, 0x20, 0x56, 0x73, 0x00, 0x20, 0x20, 0x20,
  0x6D, 0x33, 0x00, 0x00, 0x00, 0x00, 0x00, 0x00, 0x00, 0x00, 0x00, 0x00, 0x00, 0x00, 0xF0, 0x3F,
  0x00, 0x16, 0x00, 0x12, 0x00, 0x00, 0x00, 0x00, 0x0B, 0x00, 0x00, 0x00]
def body15 : Bytes :=
  [0x00, 0x00, 0x07, 0x00, 0x22, 0x00, 0x26, 0x00, 0x97, 0x42, 0x61, 0x73, 0x65, 0x20, 0x76, 0x6F,
  0x6C, 0x75, 0x6D, 0x65, 0x20, 0x56, 0x62, 0x00, 0x7D, 0x20, 0x95, 0x7D, 0x22, 0x7D, 0x21, 0x21,
  0x6D, 0x33, 0x00, 0x00, 0x00, 0x00, 0x00, 0x00, 0x00, 0x00, 0x1E, 0x00, 0x1A, 0x00, 0x00, 0x00, 0x02]
def body16 : Bytes :=
  [0x00, 0x00, 0x08, 0x00, 0x2A, 0x00, 0x2E, 0x00, 0x97, 0x53, 0x70, 0x61, 0x72, 0x65, 0x20, 0x62,
  0x61, 0x73, 0x65, 0x20, 0x76, 0x6F, 0x6C, 0x2E, 0x20, 0x56, 0x62, 0x73, 0x00, 0x30, 0x7D, 0x22,
  0x6D, 0x33, 0x00, 0x00, 0x00, 0x00, 0x00, 0x00, 0x00, 0x26, 0x00, 0x22, 0x00, 0x00, 0x00, 0x02]
def body17 : Bytes :=
  [0x00, 0x00, 0x04, 0x00, 0x32, 0x00, 0x36, 0x00, 0x8B, 0x46, 0x6C, 0x6F, 0x77, 0x20, 0x51, 0x00,
  0x20, 0x20, 0x42, 0x33, 0x7D, 0x20, 0x33, 0x7D, 0x21, 0x41, 0x7D, 0x20, 0x7D, 0x20, 0x7D, 0x20,
  0x6D, 0x33, 0x2F, 0x68, 0x00, 0x00, 0x00, 0x00, 0x9C, 0x02, 0x00, 0x00, 0x00, 0x00, 0x2E, 0x00,
  0x00, 0x00, 0x01]
def body18 : Bytes :=
  [0x00, 0x00, 0x0A, 0x00, 0x36, 0x00, 0x3A, 0x00, 0x83, 0x42, 0x61, 0x73, 0x65, 0x20, 0x66, 0x6C,
  0x6F, 0x77, 0x20, 0x51, 0x62, 0x00, 0x7D, 0x3F, 0x7D, 0x23, 0x7D, 0x20, 0x7D, 0x3C, 0x7D, 0x20,
  0x6D, 0x33, 0x2F, 0x68, 0x00, 0x00, 0x00, 0x00, 0x00, 0x00, 0x32, 0x00, 0x00, 0x00, 0x01]
def body19 : Bytes :=
  [0x00, 0x00, 0x34, 0x00, 0x96, 0x02, 0x00, 0x00, 0x56, 0x00, 0xC1, 0x53, 0x65, 0x74, 0x70, 0x6F,
  0x69, 0x6E, 0x74, 0x20, 0x51, 0x20, 0x6D, 0x61, 0x78, 0x20, 0x53, 0x31, 0x00, 0x7D, 0x20, 0x7D,
  0x20, 0x20, 0x00, 0x3C, 0x1C, 0x46, 0x22, 0x00, 0x00, 0x20, 0x20, 0x20, 0x20, 0x49, 0x6E, 0x61,
  0x63, 0x74, 0x69, 0x76, 0x65, 0x00, 0x20, 0x20, 0x20, 0x20, 0x20, 0x20, 0x41, 0x63, 0x74, 0x69,
  0x76, 0x65, 0x00]
def body20 : Bytes :=
  [0x00, 0x00, 0x05, 0x00, 0x3A, 0x00, 0x3E, 0x00, 0x9B, 0x43, 0x6F, 0x6E, 0x76, 0x65, 0x72, 0x73,
  0x2E, 0x66, 0x61, 0x63, 0x74, 0x6F, 0x72, 0x20, 0x43, 0x00, 0x20, 0x41, 0x35, 0x00, 0x00, 0x00,
  0x00, 0x01, 0x0F, 0x00, 0x00, 0x48, 0x43, 0x00, 0x00, 0x70, 0x41, 0x00, 0x00, 0x80, 0x3F, 0x36,
  0x00, 0x00, 0x00, 0x04]
def body21 : Bytes :=
  [0x00, 0x00, 0x06, 0x00, 0x3E, 0x00, 0x42, 0x00, 0x93, 0x43, 0x6F, 0x6D, 0x70, 0x2E, 0x20, 0x72,
  0x61, 0x74, 0x69, 0x6F, 0x20, 0x5A, 0x2F, 0x5A, 0x62, 0x20, 0x4B, 0x00, 0x00, 0x81, 0x47, 0x53,
  0x00, 0x3A, 0x00, 0x00, 0x00, 0x04]
def body22 : Bytes :=
  [0x00, 0x00, 0x26, 0x00, 0x42, 0x00, 0x46, 0x00, 0x91, 0x43, 0x6F, 0x6D, 0x70, 0x72, 0x65, 0x73,
  0x73, 0x69, 0x62, 0x69, 0x6C, 0x69, 0x74, 0x79, 0x20, 0x5A, 0x00, 0x00, 0x00, 0x00, 0x00, 0x00,
  0x00, 0x00, 0x00, 0x00, 0x00, 0x04]
def body23 : Bytes :=
  [0x00, 0x00, 0x25, 0x00, 0x46, 0x00, 0x4A, 0x00, 0x91, 0x42, 0x61, 0x73, 0x65, 0x20, 0x63, 0x6F,
  0x6D, 0x70, 0x72, 0x65, 0x73, 0x73, 0x2E, 0x20, 0x5A, 0x62, 0x00, 0x76, 0x65, 0x72, 0x20, 0x42,
  0x00, 0x00, 0x00, 0x00, 0x00, 0x04]
def body24 : Bytes :=
  [0x00, 0x00, 0x27, 0x00, 0x4A, 0x00, 0x4E, 0x00, 0xC7, 0x53, 0x74, 0x61, 0x74, 0x75, 0x73, 0x20,
  0x53, 0x74, 0x31, 0x00, 0x43, 0x6C, 0x6F, 0x73, 0x65, 0x64, 0x00, 0x20, 0x20, 0x20, 0x20, 0x20,
  0x3E, 0x00, 0x2A, 0x00, 0xFF, 0x6F, 0xEA, 0xEC, 0xFF, 0x0B, 0xFF, 0xDF, 0x00, 0x00, 0x00, 0x00,
  0x00, 0x00, 0x00, 0x00, 0x00, 0x00, 0x00, 0x00, 0x00, 0x00, 0x00, 0x00, 0x00, 0x00, 0x00]
def body25 : Bytes :=
  [0x00, 0x12, 0x00, 0x00, 0x00, 0x00, 0x00, 0x00, 0x00, 0x05, 0x41, 0x54, 0x53, 0x30, 0x3D, 0x31,
  0x00, 0x00, 0x00, 0x00, 0x00, 0x00, 0x00, 0x00, 0x00, 0x00, 0x00, 0x00, 0x00, 0x00, 0x00, 0x00,
  0x00, 0x00, 0x00, 0x00, 0x00, 0x00, 0x00, 0x00, 0x00, 0x00, 0x41, 0x54, 0x44, 0x2A, 0x39, 0x39,
  0x2A, 0x2A, 0x2A, 0x31, 0x23, 0x00, 0x00, 0x00, 0x00, 0x00, 0x00, 0x00, 0x00, 0x00, 0x00, 0x00,
  0x00, 0x00, 0x00, 0x00, 0x00, 0x00, 0x00, 0x00, 0x00, 0x00, 0x41, 0x54, 0x48, 0x00, 0x00, 0x00,
  0x00, 0x00, 0x41, 0x54, 0x2B, 0x43, 0x47, 0x44, 0x43, 0x4F, 0x4E, 0x54, 0x3D, 0x31, 0x2C, 0x22,
  0x49, 0x50, 0x22, 0x2C, 0x22, 0x65, 0x6C, 0x76, 0x61, 0x63, 0x6F, 0x2E, 0x74, 0x65, 0x6C, 0x65,
  0x32, 0x2E, 0x6D, 0x32, 0x6D, 0x22, 0x00, 0x00, 0x00, 0x00, 0x00, 0x00, 0x00, 0x00, 0x00, 0x00,
  0x00, 0x00, 0x00, 0x00, 0x00, 0x00, 0x00, 0x00, 0x00, 0x00, 0x00, 0x00, 0x00, 0x00, 0x00, 0x00,
  0x00, 0x00, 0x00, 0x00, 0x00, 0x00, 0x00, 0x00, 0x00, 0x00, 0x00, 0x00, 0x00, 0x00, 0x00, 0x00,
  0x00, 0x00, 0x00, 0x00, 0x00, 0x00, 0x00, 0x00, 0x00, 0x00, 0x00, 0x00, 0x00, 0x00, 0x00, 0x00,
  0x00, 0x00, 0x00, 0x00, 0x00, 0x00, 0x00, 0x00, 0x00, 0x00, 0x00, 0x00, 0x00, 0x00, 0x00, 0x00,
  0x00, 0x00, 0x00, 0x00, 0x00, 0x00, 0x00, 0x00, 0x00, 0x00, 0x00, 0x00, 0x00, 0x00, 0x00, 0x00,
  0x00, 0x00, 0x00, 0x00, 0x00, 0x00, 0x00, 0x00, 0x00, 0x00, 0x00, 0x00, 0x00, 0x00, 0x00, 0x00,
  0x00, 0x00, 0x00, 0x00, 0x00, 0x00, 0x00, 0x00, 0x00, 0x00, 0x00, 0x00, 0x00, 0x00, 0x00, 0x00,
  0x00, 0x00, 0x00, 0x00, 0x00, 0x00, 0x00, 0x00, 0x00, 0x00, 0x00, 0x00, 0x00, 0x00, 0x00, 0x00,
  0x00, 0x79, 0x15, 0x54, 0x67, 0x34, 0x81, 0x47, 0x99, 0x42, 0x66, 0x11, 0x45, 0x00, 0x79, 0x15,
  0x54, 0x67, 0x34, 0x81, 0x47, 0x99, 0x42, 0x66, 0x11, 0x45, 0x00, 0x79, 0x15, 0x54, 0x67, 0x34,
  0x81, 0x47, 0x00, 0x00, 0x00, 0x00, 0x00, 0x00, 0x2B, 0x2B, 0x2B, 0x00, 0x00, 0x00, 0x00, 0x00,
  0x79, 0x15, 0x54, 0x67, 0x34, 0x81, 0x47, 0x99, 0x42, 0x00, 0x00, 0x00, 0x00, 0x00, 0x00, 0x00,
  0x00, 0x00, 0x00, 0x00, 0x00, 0x00, 0x00, 0x00, 0x00, 0x00]

/-- The records of the test data. -/
def records : List (UInt8 × Bytes) :=
  [(0, body0), (30, body1), (30, body2), (30, body3), (30, body4), (30, body5), (30, body6), (31, body7), (48, body8), (48, body9), (31, body10), (31, body11), (31, body12), (53, body13), (54, body14), (33, body15), (46, body16), (34, body17), (35, body18), (70, body19), (36, body20), (47, body21), (74, body22), (75, body23), (59, body24), (141, body25)]

/-- The test data. -/
def parserData : Bytes :=
  [0x0E, 0x01, 0x00, 0x83, 0x5D, 0x21, 0xFF, 0x73, 0x31, 0x2E, 0x31, 0x36, 0x00, 0x10, 0x02, 0x32,
  0x31, 0x31, 0x31, 0x33, 0x37, 0x5F, 0x30, 0x30, 0x30, 0x30, 0x30, 0x30, 0x30, 0x30, 0x31, 0x00,
  0x0C, 0xE5, 0x99, 0x1E, 0x10, 0x0E, 0x66, 0xA6, 0xCA, 0x42, 0x00, 0x00, 0x00, 0x00, 0x02, 0xCD,
  0xCC, 0x8C, 0x3F, 0xB3, 0x0C, 0x41, 0x3F, 0x35, 0xDE, 0x2E, 0x42, 0x0A, 0xD7, 0x23, 0x3F, 0x00,
  0x00, 0x00, 0x00, 0x00, 0x00, 0x00, 0x00, 0x00, 0x00, 0x00, 0x00, 0x00, 0x00, 0x00, 0x00, 0x00,
  0x00, 0x00, 0x00, 0x00, 0x00, 0x00, 0x00, 0x00, 0x00, 0x00, 0x00, 0x03, 0x18, 0xC4, 0x42, 0x8A,
  0x1F, 0x43, 0x3F, 0xD5, 0x09, 0x88, 0x3E, 0x84, 0x9E, 0x4D, 0x3D, 0xAC, 0x8B, 0x5B, 0x3D, 0xC6,
  0xDC, 0x35, 0x3C, 0x00, 0x6F, 0x01, 0x3C, 0x0A, 0xD7, 0x23, 0x3C, 0x00, 0x00, 0x00, 0x00, 0x00,
  0x00, 0x00, 0x00, 0x00, 0x00, 0x00, 0x00, 0x00, 0x00, 0x00, 0x00, 0x58, 0x00, 0x0E, 0x00, 0x48,
  0x00, 0x34, 0x00, 0x98, 0x02, 0x58, 0x00, 0x00, 0x00, 0x03, 0x00, 0x00, 0x08, 0x00, 0x12, 0x03,
  0x03, 0x00, 0x08, 0x03, 0x00, 0x06, 0x68, 0xA6, 0xCA, 0x42, 0x00, 0x00, 0x00, 0x00, 0x00, 0x00,
  0x00, 0x00, 0x00, 0x00, 0x00, 0x00, 0x00, 0x00, 0x00, 0x00, 0x00, 0x00, 0x00, 0x00, 0x00, 0x2A,
  0x00, 0x07, 0x62, 0x61, 0x72, 0x00, 0x00, 0x00, 0x00, 0x00, 0x20, 0xB0, 0x43, 0x00, 0x00, 0x00,
  0x00, 0x00, 0x00, 0xA1, 0x6D, 0x00, 0x00, 0x00, 0x00, 0x00, 0x00, 0x00, 0x90, 0x4D, 0x4A, 0x2F,
  0x6D, 0x33, 0x00, 0x33, 0x00, 0x01, 0x01, 0x00, 0x00, 0x00, 0x00, 0x00, 0x41, 0x00, 0x35, 0xE0,
  0xFF, 0x7F, 0xFF, 0x77, 0xEE, 0x12, 0x00, 0x00, 0x00, 0x00, 0x00, 0x00, 0x00, 0x00, 0x00, 0x31,
  0x2E, 0x31, 0x36, 0x00, 0x9A, 0xFA, 0x00, 0x00, 0x00, 0x00, 0xE5, 0x21, 0x00, 0x00, 0x4B, 0x00,
  0x1E, 0x00, 0x00, 0x01, 0x00, 0x06, 0x00, 0x0A, 0x00, 0x9B, 0x50, 0x72, 0x65, 0x73, 0x73, 0x75,
  0x72, 0x65, 0x20, 0x70, 0x00, 0x47, 0x00, 0x00, 0x00, 0x00, 0x00, 0x00, 0x2B, 0x2B, 0x2B, 0x00,
  0x00, 0x62, 0x61, 0x72, 0x00, 0x00, 0x00, 0x00, 0x00, 0x9A, 0x00, 0x9A, 0x3A, 0x00, 0x00, 0x00,
  0x00, 0xCD, 0xCC, 0x4C, 0x3F, 0x00, 0x00, 0x8C, 0x42, 0x4E, 0x79, 0x87, 0x64, 0x9E, 0x02, 0x5A,
  0x00, 0x00, 0x00, 0x0A, 0x00, 0x00, 0x00, 0x00, 0x02, 0x4B, 0x00, 0x1E, 0x01, 0x00, 0x02, 0x00,
  0x08, 0x00, 0x0C, 0x00, 0x9B, 0x54, 0x65, 0x6D, 0x70, 0x65, 0x72, 0x61, 0x74, 0x75, 0x72, 0x65,
  0x20, 0x74, 0x00, 0x2E, 0x20, 0x56, 0x62, 0x73, 0x00, 0x7D, 0x3F, 0x7D, 0xB0, 0x43, 0x00, 0x00,
  0x00, 0x00, 0x00, 0x00, 0x96, 0x00, 0x16, 0x3B, 0x00, 0x00, 0x48, 0xC2, 0x00, 0x00, 0xC8, 0xC1,
  0x00, 0x00, 0x70, 0x42, 0xAD, 0x54, 0x61, 0x64, 0xA2, 0x02, 0x5C, 0x00, 0x00, 0x00, 0x0C, 0x00,
  0x00, 0x00, 0x00, 0x41, 0x4B, 0x00, 0x1E, 0x02, 0x00, 0x15, 0x00, 0x0A, 0x00, 0x0E, 0x00, 0x89,
  0x49, 0x6E, 0x74, 0x65, 0x72, 0x6E, 0x61, 0x6C, 0x20, 0x74, 0x65, 0x6D, 0x70, 0x2E, 0x20, 0x41,
  0x33, 0x00, 0x32, 0x00, 0x23, 0x00, 0x00, 0xB0, 0x43, 0x00, 0x00, 0x00, 0x00, 0x00, 0x00, 0x00,
  0x00, 0x00, 0x3E, 0x00, 0x00, 0x00, 0xC3, 0x00, 0x00, 0x20, 0xC2, 0x00, 0x00, 0xAA, 0x42, 0x00,
  0x00, 0x00, 0x00, 0x9C, 0x02, 0x00, 0x00, 0x00, 0x00, 0x00, 0x00, 0x00, 0x00, 0x00, 0x00, 0x4B,
  0x00, 0x1E, 0x03, 0x00, 0x16, 0x00, 0x0C, 0x00, 0x10, 0x00, 0x89, 0x42, 0x61, 0x74, 0x74, 0x65,
  0x72, 0x79, 0x20, 0x76, 0x6F, 0x6C, 0x74, 0x61, 0x67, 0x65, 0x20, 0x41, 0x34, 0x00, 0x61, 0x78,
  0x20, 0x53, 0x56, 0x00, 0x00, 0x00, 0x00, 0x00, 0x00, 0x00, 0x68, 0xE8, 0x9F, 0x3B, 0x00, 0x00,
  0x00, 0x00, 0x00, 0x00, 0x00, 0x00, 0x00, 0x00, 0x90, 0x40, 0x00, 0x00, 0x00, 0x00, 0x9C, 0x02,
  0x00, 0x00, 0x00, 0x00, 0x00, 0x00, 0x00, 0x00, 0x00, 0x00, 0x4B, 0x00, 0x1E, 0x04, 0x00, 0x17,
  0x00, 0x0E, 0x00, 0x12, 0x00, 0x81, 0x42, 0x61, 0x74, 0x74, 0x65, 0x72, 0x79, 0x20, 0x63, 0x61,
  0x70, 0x61, 0x63, 0x69, 0x74, 0x79, 0x20, 0x41, 0x35, 0x00, 0x00, 0x00, 0x00, 0x25, 0x00, 0x00,
  0x00, 0x00, 0x00, 0x00, 0x00, 0xC8, 0x00, 0xC8, 0x3A, 0x00, 0x00, 0x00, 0x00, 0x00, 0x00, 0x00,
  0x00, 0x00, 0x00, 0xC8, 0x42, 0x00, 0x00, 0x00, 0x00, 0x9C, 0x02, 0x00, 0x00, 0x00, 0x00, 0x00,
  0x00, 0x00, 0x00, 0x00, 0x61, 0x4B, 0x00, 0x1E, 0x05, 0x00, 0x1A, 0x00, 0x10, 0x00, 0x14, 0x00,
  0x81, 0x47, 0x53, 0x4D, 0x20, 0x73, 0x69, 0x67, 0x6E, 0x61, 0x6C, 0x20, 0x41, 0x36, 0x00, 0x26,
  0x00, 0x42, 0x00, 0x46, 0x00, 0x91, 0x43, 0x6F, 0x25, 0x00, 0x00, 0x00, 0x00, 0x00, 0x00, 0x00,
  0xC8, 0x00, 0xC8, 0x3A, 0x00, 0x00, 0x00, 0x00, 0x00, 0x00, 0x00, 0x00, 0x00, 0x00, 0xC8, 0x42,
  0x00, 0x00, 0x00, 0x00, 0x9C, 0x02, 0x00, 0x00, 0x00, 0x00, 0x00, 0x00, 0x00, 0x00, 0x00, 0x42,
  0x46, 0x00, 0x1F, 0x00, 0x00, 0xA0, 0x00, 0x90, 0x02, 0x00, 0x00, 0x50, 0x00, 0x81, 0x43, 0x6F,
  0x76, 0x65, 0x72, 0x20, 0x42, 0x31, 0x00, 0x00, 0x00, 0x00, 0x00, 0x04, 0x42, 0x00, 0x3B, 0x00,
  0x00, 0x27, 0x00, 0x4A, 0x00, 0x9C, 0x02, 0x00, 0x00, 0x00, 0x00, 0x00, 0x20, 0x20, 0x20, 0x20,
  0x20, 0x20, 0x43, 0x6C, 0x6F, 0x73, 0x65, 0x64, 0x00, 0x20, 0x20, 0x20, 0x20, 0x20, 0x20, 0x4F,
  0x70, 0x65, 0x6E, 0x65, 0x64, 0x00, 0x4B, 0x00, 0x30, 0x01, 0x00, 0x1E, 0x00, 0x91, 0x02, 0x00,
  0x00, 0x51, 0x00, 0x51, 0x43, 0x61, 0x6C, 0x6C, 0x20, 0x77, 0x69, 0x6E, 0x64, 0x6F, 0x77, 0x20,
  0x42, 0x32, 0x00, 0x20, 0x42, 0x32, 0x00, 0x32, 0x00, 0x95, 0x02, 0x01, 0x21, 0x00, 0xB8, 0x56,
  0x00, 0x00, 0x00, 0x00, 0x00, 0x00, 0x04, 0x20, 0x20, 0x20, 0x20, 0x20, 0x6E, 0x6F, 0x20, 0x63,
  0x61, 0x6C, 0x6C, 0x00, 0x20, 0x20, 0x20, 0x20, 0x20, 0x20, 0x61, 0x63, 0x74, 0x69, 0x76, 0x65,
  0x00, 0x4B, 0x00, 0x30, 0x02, 0x00, 0x1F, 0x00, 0x92, 0x02, 0x00, 0x00, 0x52, 0x00, 0x49, 0x53,
  0x65, 0x72, 0x76, 0x69, 0x63, 0x65, 0x20, 0x77, 0x69, 0x6E, 0x64, 0x6F, 0x77, 0x20, 0x42, 0x33,
  0x00, 0x20, 0x42, 0x33, 0x00, 0x33, 0x01, 0x41, 0x00, 0x00, 0x00, 0x00, 0x00, 0x08, 0x51, 0x01,
  0x00, 0x00, 0x20, 0x20, 0x6E, 0x6F, 0x20, 0x73, 0x65, 0x72, 0x76, 0x69, 0x63, 0x65, 0x00, 0x20,
  0x20, 0x20, 0x20, 0x20, 0x20, 0x61, 0x63, 0x74, 0x69, 0x76, 0x65, 0x00, 0x46, 0x00, 0x1F, 0x03,
  0x00, 0x1C, 0x00, 0x93, 0x02, 0x00, 0x00, 0x53, 0x00, 0xC1, 0x4D, 0x6F, 0x64, 0x65, 0x6D, 0x20,
  0x70, 0x6F, 0x77, 0x65, 0x72, 0x20, 0x73, 0x75, 0x70, 0x70, 0x20, 0x42, 0x34, 0x00, 0x00, 0x00,
  0x00, 0x9C, 0x02, 0x00, 0x00, 0x00, 0x00, 0x00, 0x20, 0x20, 0x20, 0x20, 0x20, 0x20, 0x20, 0x20,
  0x20, 0x4F, 0x66, 0x66, 0x00, 0x20, 0x20, 0x20, 0x20, 0x20, 0x20, 0x20, 0x20, 0x20, 0x20, 0x4F,
  0x6E, 0x00, 0x46, 0x00, 0x1F, 0x04, 0x00, 0x1B, 0x00, 0x94, 0x02, 0x00, 0x00, 0x54, 0x00, 0xC1,
  0x45, 0x78, 0x74, 0x65, 0x72, 0x6E, 0x61, 0x6C, 0x20, 0x70, 0x6F, 0x77, 0x65, 0x72, 0x20, 0x42,
  0x35, 0x00, 0x20, 0x9C, 0x7D, 0x22, 0x7D, 0x9C, 0x02, 0x00, 0x00, 0x00, 0x00, 0x00, 0x20, 0x20,
  0x20, 0x20, 0x50, 0x6F, 0x77, 0x65, 0x72, 0x20, 0x4F, 0x4B, 0x00, 0x20, 0x50, 0x6F, 0x77, 0x65,
  0x72, 0x20, 0x65, 0x72, 0x72, 0x6F, 0x72, 0x00, 0x46, 0x00, 0x1F, 0x05, 0x00, 0x31, 0x00, 0x95,
  0x02, 0x00, 0x00, 0x55, 0x00, 0xC1, 0x45, 0x78, 0x74, 0x2E, 0x70, 0x6F, 0x77, 0x65, 0x72, 0x20,
  0x6D, 0x6F, 0x64, 0x65, 0x6D, 0x20, 0x42, 0x36, 0x00, 0x6F, 0x25, 0x7D, 0x20, 0x9C, 0x02, 0x00,
  0x00, 0x00, 0x00, 0x00, 0x20, 0x20, 0x20, 0x20, 0x50, 0x6F, 0x77, 0x65, 0x72, 0x20, 0x4F, 0x4B,
  0x00, 0x20, 0x50, 0x6F, 0x77, 0x65, 0x72, 0x20, 0x65, 0x72, 0x72, 0x6F, 0x72, 0x00, 0x59, 0x00,
  0x35, 0x00, 0x00, 0x03, 0x00, 0x12, 0x00, 0x16, 0x00, 0x97, 0x50, 0x72, 0x69, 0x6D, 0x61, 0x72,
  0x79, 0x20, 0x76, 0x6F, 0x6C, 0x75, 0x6D, 0x65, 0x20, 0x56, 0x6D, 0x00, 0x20, 0x7D, 0x20, 0x7D,
  0x20, 0x6D, 0x33, 0x00, 0x00, 0x00, 0x00, 0x00, 0x00, 0x00, 0x00, 0x00, 0x00, 0x00, 0x00, 0xF0,
  0x3F, 0x7D, 0x20, 0x7D, 0x20, 0x9C, 0x02, 0x00, 0x00, 0x00, 0x00, 0x0E, 0x00, 0x0A, 0x00, 0x00,
  0x00, 0x00, 0x00, 0x00, 0x00, 0x00, 0x00, 0x00, 0x00, 0x00, 0x00, 0x00, 0x00, 0x00, 0x00, 0x00,
  0x00, 0x00, 0x00, 0x0B, 0x00, 0x00, 0x00, 0x3F, 0x00, 0x36, 0x00, 0x00, 0x09, 0x00, 0x1A, 0x00,
  0x1E, 0x00, 0x97, 0x53, 0x70, 0x61, 0x72, 0x65, 0x20, 0x70, 0x72, 0x69, 0x6D, 0x2E, 0x20, 0x76,
  0x6F, 0x6C, 0x2E, 0x20, 0x56, 0x73, 0x00, 0x20, 0x20, 0x20, 0x6D, 0x33, 0x00, 0x00, 0x00, 0x00,
  0x00, 0x00, 0x00, 0x00, 0x00, 0x00, 0x00, 0x00, 0xF0, 0x3F, 0x00, 0x16, 0x00, 0x12, 0x00, 0x00,
  0x00, 0x00, 0x0B, 0x00, 0x00, 0x00, 0x34, 0x00, 0x21, 0x00, 0x00, 0x07, 0x00, 0x22, 0x00, 0x26,
  0x00, 0x97, 0x42, 0x61, 0x73, 0x65, 0x20, 0x76, 0x6F, 0x6C, 0x75, 0x6D, 0x65, 0x20, 0x56, 0x62,
  0x00, 0x7D, 0x20, 0x95, 0x7D, 0x22, 0x7D, 0x21, 0x21, 0x6D, 0x33, 0x00, 0x00, 0x00, 0x00, 0x00,
  0x00, 0x00, 0x00, 0x1E, 0x00, 0x1A, 0x00, 0x00, 0x00, 0x02, 0x33, 0x00, 0x2E, 0x00, 0x00, 0x08,
  0x00, 0x2A, 0x00, 0x2E, 0x00, 0x97, 0x53, 0x70, 0x61, 0x72, 0x65, 0x20, 0x62, 0x61, 0x73, 0x65,
  0x20, 0x76, 0x6F, 0x6C, 0x2E, 0x20, 0x56, 0x62, 0x73, 0x00, 0x30, 0x7D, 0x22, 0x6D, 0x33, 0x00,
  0x00, 0x00, 0x00, 0x00, 0x00, 0x00, 0x26, 0x00, 0x22, 0x00, 0x00, 0x00, 0x02, 0x36, 0x00, 0x22,
  0x00, 0x00, 0x04, 0x00, 0x32, 0x00, 0x36, 0x00, 0x8B, 0x46, 0x6C, 0x6F, 0x77, 0x20, 0x51, 0x00,
  0x20, 0x20, 0x42, 0x33, 0x7D, 0x20, 0x33, 0x7D, 0x21, 0x41, 0x7D, 0x20, 0x7D, 0x20, 0x7D, 0x20,
  0x6D, 0x33, 0x2F, 0x68, 0x00, 0x00, 0x00, 0x00, 0x9C, 0x02, 0x00, 0x00, 0x00, 0x00, 0x2E, 0x00,
  0x00, 0x00, 0x01, 0x32, 0x00, 0x23, 0x00, 0x00, 0x0A, 0x00, 0x36, 0x00, 0x3A, 0x00, 0x83, 0x42,
  0x61, 0x73, 0x65, 0x20, 0x66, 0x6C, 0x6F, 0x77, 0x20, 0x51, 0x62, 0x00, 0x7D, 0x3F, 0x7D, 0x23,
  0x7D, 0x20, 0x7D, 0x3C, 0x7D, 0x20, 0x6D, 0x33, 0x2F, 0x68, 0x00, 0x00, 0x00, 0x00, 0x00, 0x00,
  0x32, 0x00, 0x00, 0x00, 0x01, 0x46, 0x00, 0x46, 0x00, 0x00, 0x34, 0x00, 0x96, 0x02, 0x00, 0x00,
  0x56, 0x00, 0xC1, 0x53, 0x65, 0x74, 0x70, 0x6F, 0x69, 0x6E, 0x74, 0x20, 0x51, 0x20, 0x6D, 0x61,
  0x78, 0x20, 0x53, 0x31, 0x00, 0x7D, 0x20, 0x7D, 0x20, 0x20, 0x00, 0x3C, 0x1C, 0x46, 0x22, 0x00,
  0x00, 0x20, 0x20, 0x20, 0x20, 0x49, 0x6E, 0x61, 0x63, 0x74, 0x69, 0x76, 0x65, 0x00, 0x20, 0x20,
  0x20, 0x20, 0x20, 0x20, 0x41, 0x63, 0x74, 0x69, 0x76, 0x65, 0x00, 0x37, 0x00, 0x24, 0x00, 0x00,
  0x05, 0x00, 0x3A, 0x00, 0x3E, 0x00, 0x9B, 0x43, 0x6F, 0x6E, 0x76, 0x65, 0x72, 0x73, 0x2E, 0x66,
  0x61, 0x63, 0x74, 0x6F, 0x72, 0x20, 0x43, 0x00, 0x20, 0x41, 0x35, 0x00, 0x00, 0x00, 0x00, 0x01,
  0x0F, 0x00, 0x00, 0x48, 0x43, 0x00, 0x00, 0x70, 0x41, 0x00, 0x00, 0x80, 0x3F, 0x36, 0x00, 0x00,
  0x00, 0x04, 0x29, 0x00, 0x2F, 0x00, 0x00, 0x06, 0x00, 0x3E, 0x00, 0x42, 0x00, 0x93, 0x43, 0x6F,
  0x6D, 0x70, 0x2E, 0x20, 0x72, 0x61, 0x74, 0x69, 0x6F, 0x20, 0x5A, 0x2F, 0x5A, 0x62, 0x20, 0x4B,
  0x00, 0x00, 0x81, 0x47, 0x53, 0x00, 0x3A, 0x00, 0x00, 0x00, 0x04, 0x29, 0x00, 0x4A, 0x00, 0x00,
  0x26, 0x00, 0x42, 0x00, 0x46, 0x00, 0x91, 0x43, 0x6F, 0x6D, 0x70, 0x72, 0x65, 0x73, 0x73, 0x69,
  0x62, 0x69, 0x6C, 0x69, 0x74, 0x79, 0x20, 0x5A, 0x00, 0x00, 0x00, 0x00, 0x00, 0x00, 0x00, 0x00,
  0x00, 0x00, 0x00, 0x04, 0x29, 0x00, 0x4B, 0x00, 0x00, 0x25, 0x00, 0x46, 0x00, 0x4A, 0x00, 0x91,
  0x42, 0x61, 0x73, 0x65, 0x20, 0x63, 0x6F, 0x6D, 0x70, 0x72, 0x65, 0x73, 0x73, 0x2E, 0x20, 0x5A,
  0x62, 0x00, 0x76, 0x65, 0x72, 0x20, 0x42, 0x00, 0x00, 0x00, 0x00, 0x00, 0x04, 0x42, 0x00, 0x3B,
  0x00, 0x00, 0x27, 0x00, 0x4A, 0x00, 0x4E, 0x00, 0xC7, 0x53, 0x74, 0x61, 0x74, 0x75, 0x73, 0x20,
  0x53, 0x74, 0x31, 0x00, 0x43, 0x6C, 0x6F, 0x73, 0x65, 0x64, 0x00, 0x20, 0x20, 0x20, 0x20, 0x20,
  0x3E, 0x00, 0x2A, 0x00, 0xFF, 0x6F, 0xEA, 0xEC, 0xFF, 0x0B, 0xFF, 0xDF, 0x00, 0x00, 0x00, 0x00,
  0x00, 0x00, 0x00, 0x00, 0x00, 0x00, 0x00, 0x00, 0x00, 0x00, 0x00, 0x00, 0x00, 0x00, 0x00, 0x4D,
  0x01, 0x8D, 0x00, 0x12, 0x00, 0x00, 0x00, 0x00, 0x00, 0x00, 0x00, 0x05, 0x41, 0x54, 0x53, 0x30,
  0x3D, 0x31, 0x00, 0x00, 0x00, 0x00, 0x00, 0x00, 0x00, 0x00, 0x00, 0x00, 0x00, 0x00, 0x00, 0x00,
  0x00, 0x00, 0x00, 0x00, 0x00, 0x00, 0x00, 0x00, 0x00, 0x00, 0x00, 0x00, 0x41, 0x54, 0x44, 0x2A,
  0x39, 0x39, 0x2A, 0x2A, 0x2A, 0x31, 0x23, 0x00, 0x00, 0x00, 0x00, 0x00, 0x00, 0x00, 0x00, 0x00,
  0x00, 0x00, 0x00, 0x00, 0x00, 0x00, 0x00, 0x00, 0x00, 0x00, 0x00, 0x00, 0x41, 0x54, 0x48, 0x00,
  0x00, 0x00, 0x00, 0x00, 0x41, 0x54, 0x2B, 0x43, 0x47, 0x44, 0x43, 0x4F, 0x4E, 0x54, 0x3D, 0x31,
  0x2C, 0x22, 0x49, 0x50, 0x22, 0x2C, 0x22, 0x65, 0x6C, 0x76, 0x61, 0x63, 0x6F, 0x2E, 0x74, 0x65,
  0x6C, 0x65, 0x32, 0x2E, 0x6D, 0x32, 0x6D, 0x22, 0x00, 0x00, 0x00, 0x00, 0x00, 0x00, 0x00, 0x00,
  0x00, 0x00, 0x00, 0x00, 0x00, 0x00, 0x00, 0x00, 0x00, 0x00, 0x00, 0x00, 0x00, 0x00, 0x00, 0x00,
  0x00, 0x00, 0x00, 0x00, 0x00, 0x00, 0x00, 0x00, 0x00, 0x00, 0x00, 0x00, 0x00, 0x00, 0x00, 0x00,
  0x00, 0x00, 0x00, 0x00, 0x00, 0x00, 0x00, 0x00, 0x00, 0x00, 0x00, 0x00, 0x00, 0x00, 0x00, 0x00,
  0x00, 0x00, 0x00, 0x00, 0x00, 0x00, 0x00, 0x00, 0x00, 0x00, 0x00, 0x00, 0x00, 0x00, 0x00, 0x00,
  0x00, 0x00, 0x00, 0x00, 0x00, 0x00, 0x00, 0x00, 0x00, 0x00, 0x00, 0x00, 0x00, 0x00, 0x00, 0x00,
  0x00, 0x00, 0x00, 0x00, 0x00, 0x00, 0x00, 0x00, 0x00, 0x00, 0x00, 0x00, 0x00, 0x00, 0x00, 0x00,
  0x00, 0x00, 0x00, 0x00, 0x00, 0x00, 0x00, 0x00, 0x00, 0x00, 0x00, 0x00, 0x00, 0x00, 0x00, 0x00,
  0x00, 0x00, 0x00, 0x00, 0x00, 0x00, 0x00, 0x00, 0x00, 0x00, 0x00, 0x00, 0x00, 0x00, 0x00, 0x00,
  0x00, 0x00, 0x00, 0x79, 0x15, 0x54, 0x67, 0x34, 0x81, 0x47, 0x99, 0x42, 0x66, 0x11, 0x45, 0x00,
  0x79, 0x15, 0x54, 0x67, 0x34, 0x81, 0x47, 0x99, 0x42, 0x66, 0x11, 0x45, 0x00, 0x79, 0x15, 0x54,
  0x67, 0x34, 0x81, 0x47, 0x00, 0x00, 0x00, 0x00, 0x00, 0x00, 0x2B, 0x2B, 0x2B, 0x00, 0x00, 0x00,
  0x00, 0x00, 0x79, 0x15, 0x54, 0x67, 0x34, 0x81, 0x47, 0x99, 0x42, 0x00, 0x00, 0x00, 0x00, 0x00,
  0x00, 0x00, 0x00, 0x00, 0x00, 0x00, 0x00, 0x00, 0x00, 0x00, 0x00, 0x00]

example : parserData = records.flatMap record := by decide +kernel
example : (parseParameters none (some parserData)).map (fun l => (l.length, l.map (·.cls))) =
    .ok (26, [.SystemParameters, .AnalogQuantity, .AnalogQuantity, .AnalogQuantity, .AnalogQuantity, .AnalogQuantity, .AnalogQuantity, .Binary, .TimeWindow, .TimeWindow, .Binary, .Binary, .Binary, .DoubleCounter, .DoubleErrorCounter, .StandardCounter, .ErrorStandardCounter, .FlowRate, .StandardFlowRate, .SetPoint, .ConversionCoefficient, .Compressibility, .CompressibilityZ, .CompressibilityZBase, .Diagnostics, .Modem]) := by
  rw [show parserData = records.flatMap record by decide +kernel, C56_split records (by decide) (by decide +kernel)]
  decide +kernel

/-- Comparison with a Python literal: floats by their bits (values produced by `round` are skipped). -/
inductive Lit
  | int (n : Nat) | bool (b : Bool) | str (s : PyStr) | none | strs (l : List PyStr)
  | float (single double : Nat)

def agrees : Val → Lit → Bool
  | .int n, .int m => n == m
  | .bool a, .bool b => a == b
  | .str a, .str b => a == b
  | .none, .none => true
  | .strs a, .strs b => a == b
  | .float (.single b), .float s _ => b == s
  | .float (.double b), .float _ d => b == d
  | .float (.rounded _ _), .float _ _ => true
  | _, _ => false

def agreesAll (o : PObj) (l : List (Attr × Lit)) : Bool :=
  l.all fun (a, x) => match a, o.attrs.lookup a, x with
    | .name, some (.str n), .str m => m.isPrefixOf n
    | _, some v, x => agrees v x
    | _, none, _ => false

-- test_schema.py test_all: the objects listed there are what the model parses from the data of test_parser.py
example : ((ObjType.ofByte 0).bind (fun t => parameterFromBytes t body0)).map (fun o => (o.cls, agreesAll o
    [(.device_type, .int 131),
     (.serial_number, .int 1946100061),
     (.firmware_version, .str "1.16".toList),
     (.service_version, .int 16),
     (.certification_variant, .int 2),
     (.station_id, .str "211137_000000001".toList),
     (.password_for_full_access_active, .bool false),
     (.password_for_reading_is_on, .bool false),
     (.metrological_switch, .bool true),
     (.user_switch, .bool true),
     (.switch_function, .int 0),
     (.measuring_period, .int 30),
     (.archive_period, .int 3600),
     (.base_pressure, .float 0x42caa666 0x405954ccc0000000),
     (.base_temperature, .float 0x0 0x0),
     (.compressibility_formula, .int 2),
     (.data_archive_record_length, .int 88),
     (.binary_archive_record_length, .int 14),
     (.daily_archive_record_length, .int 72),
     (.monthly_archive_record_length, .int 52),
     (.instantaneous_values_error_bit_order, .int 664),
     (.binary_archive_record_error_bit_order, .int 88),
     (.data_archive_record_error_bit_order, .int 0),
     (.optical_port_protocol, .int 0),
     (.communication_port_0_speed, .int 8),
     (.communication_port_0_protocol, .int 0),
     (.communication_port_0_bit_control, .int 18),
     (.communication_port_1_speed, .int 3),
     (.communication_port_1_protocol, .int 3),
     (.communication_port_1_bit_control, .int 0),
     (.communication_port_2_speed, .int 8),
     (.communication_port_2_protocol, .int 3),
     (.communication_port_2_bit_control, .int 0),
     (.gas_day_hour, .int 6),
     (.fixed_barometric_pressure, .float 0x42caa668 0x405954cd00000000),
     (.altitude, .float 0x0 0x0),
     (.status_archive_record_length, .int 42),
     (.pressure_unit_type, .int 7),
     (.pressure_unit_text, .str "bar".toList),
     (.temperature_unit_type, .int 32),
     (.temperature_unit_text, .str "°C".toList),
     (.altitude_unit_type, .int 161),
     (.altitude_unit_text, .str "m".toList),
     (.gross_calorific_value_type, .int 144),
     (.gross_calorific_value_text, .str "MJ/m3 3".toList),
     (.dst_region, .int 1),
     (.gmt_hour_shift, .int 1),
     (.billing_archive_record_length, .int 0),
     (.conditions_for_combustion_heat, .int 0),
     (.device_variant, .int 0),
     (.bit_control, .int 65),
     (.places_for_corrected_volume_counters, .int 0),
     (.device_features_bits, .int 53),
     (.device_features, .str "e0ff7fff77ee12000000000000000000".toList),
     (.version_metrological_part, .str "1.16".toList),
     (.metrological_crc, .int 64154),
     (.metrological_crc_32, .int 0),
     (.application_crc_32, .int 8677)])) = .ok (.SystemParameters, true) := by decide +kernel
example : ((ObjType.ofByte 30).bind (fun t => parameterFromBytes t body1)).map (fun o => (o.cls, agreesAll o
    [(.number, .int 0),
     (.id, .int 1),
     (.address_in_actual_values, .int 6),
     (.address_in_data_archive_record, .int 10),
     (.bit_control, .int 155),
     (.in_data_archive, .bool true),
     (.in_daily_archive, .bool true),
     (.in_monthly_archive, .bool false),
     (.is_metrological_quantity, .bool true),
     (.in_fast_archive_1, .bool false),
     (.in_fast_archvie_2, .bool false),
     (.name, .str "Pressure p".toList),
     (.unit, .str "bar".toList),
     (.digit, .float 0x3a99ff1a 0x3f533fe344de5662),
     (.offset, .float 0x0 0x0),
     (.lower_limit_measuring_range, .float 0x3f4ccccd 0x3fe999999999999a),
     (.upper_limit_measuring_range, .float 0x428c0000 0x4051800000000000),
     (.serial_number_transducer, .int 1686600014),
     (.error_bit_order_in_actual_values, .int 670),
     (.error_bit_order_in_binary_archive, .int 90),
     (.error_bit_order_in_data_archive, .int 0),
     (.address_in_daily_archive_record, .int 10),
     (.address_in_monthly_archive_record, .int 0),
     (.samples_in_fast_archive, .int 0)])) = .ok (.AnalogQuantity, true) := by decide +kernel
example : ((ObjType.ofByte 30).bind (fun t => parameterFromBytes t body2)).map (fun o => (o.cls, agreesAll o
    [(.number, .int 1),
     (.id, .int 2),
     (.address_in_actual_values, .int 8),
     (.address_in_data_archive_record, .int 12),
     (.bit_control, .int 155),
     (.in_data_archive, .bool true),
     (.in_daily_archive, .bool true),
     (.in_monthly_archive, .bool false),
     (.is_metrological_quantity, .bool true),
     (.in_fast_archive_1, .bool false),
     (.in_fast_archvie_2, .bool false),
     (.name, .str "Temperature t".toList),
     (.unit, .str "°C".toList),
     (.digit, .float 0x3b16015f 0x3f62c02bd49a20a8),
     (.offset, .float 0xc2480000 0xc049000000000000),
     (.lower_limit_measuring_range, .float 0xc1c80000 0xc039000000000000),
     (.upper_limit_measuring_range, .float 0x42700000 0x404e000000000000),
     (.serial_number_transducer, .int 1684100269),
     (.error_bit_order_in_actual_values, .int 674),
     (.error_bit_order_in_binary_archive, .int 92),
     (.error_bit_order_in_data_archive, .int 0),
     (.address_in_daily_archive_record, .int 12),
     (.address_in_monthly_archive_record, .int 0),
     (.samples_in_fast_archive, .int 0)])) = .ok (.AnalogQuantity, true) := by decide +kernel
example : ((ObjType.ofByte 30).bind (fun t => parameterFromBytes t body3)).map (fun o => (o.cls, agreesAll o
    [(.number, .int 2),
     (.id, .int 21),
     (.address_in_actual_values, .int 10),
     (.address_in_data_archive_record, .int 14),
     (.bit_control, .int 137),
     (.in_data_archive, .bool true),
     (.in_daily_archive, .bool false),
     (.in_monthly_archive, .bool false),
     (.is_metrological_quantity, .bool false),
     (.in_fast_archive_1, .bool false),
     (.in_fast_archvie_2, .bool false),
     (.name, .str "Internal temp. A3".toList),
     (.unit, .str "°C".toList),
     (.digit, .float 0x3e000000 0x3fc0000000000000),
     (.offset, .float 0xc3000000 0xc060000000000000),
     (.lower_limit_measuring_range, .float 0xc2200000 0xc044000000000000),
     (.upper_limit_measuring_range, .float 0x42aa0000 0x4055400000000000),
     (.serial_number_transducer, .int 0),
     (.error_bit_order_in_actual_values, .int 668),
     (.error_bit_order_in_binary_archive, .int 0),
     (.error_bit_order_in_data_archive, .int 0),
     (.address_in_daily_archive_record, .int 0),
     (.address_in_monthly_archive_record, .int 0),
     (.samples_in_fast_archive, .int 0),
     (.decimals, .int 0)])) = .ok (.AnalogQuantity, true) := by decide +kernel
example : ((ObjType.ofByte 30).bind (fun t => parameterFromBytes t body4)).map (fun o => (o.cls, agreesAll o
    [(.number, .int 3),
     (.id, .int 22),
     (.address_in_actual_values, .int 12),
     (.address_in_data_archive_record, .int 16),
     (.bit_control, .int 137),
     (.in_data_archive, .bool true),
     (.in_daily_archive, .bool false),
     (.in_monthly_archive, .bool false),
     (.is_metrological_quantity, .bool false),
     (.in_fast_archive_1, .bool false),
     (.in_fast_archvie_2, .bool false),
     (.name, .str "Battery voltage A4".toList),
     (.unit, .str "V".toList),
     (.digit, .float 0x3b9fe868 0x3f73fd0d0678c005),
     (.offset, .float 0x0 0x0),
     (.lower_limit_measuring_range, .float 0x0 0x0),
     (.upper_limit_measuring_range, .float 0x40900000 0x4012000000000000),
     (.serial_number_transducer, .int 0),
     (.error_bit_order_in_actual_values, .int 668),
     (.error_bit_order_in_binary_archive, .int 0),
     (.error_bit_order_in_data_archive, .int 0),
     (.address_in_daily_archive_record, .int 0),
     (.address_in_monthly_archive_record, .int 0),
     (.samples_in_fast_archive, .int 0),
     (.decimals, .int 0)])) = .ok (.AnalogQuantity, true) := by decide +kernel
example : ((ObjType.ofByte 30).bind (fun t => parameterFromBytes t body5)).map (fun o => (o.cls, agreesAll o
    [(.number, .int 4),
     (.id, .int 23),
     (.address_in_actual_values, .int 14),
     (.address_in_data_archive_record, .int 18),
     (.bit_control, .int 129),
     (.in_data_archive, .bool true),
     (.in_daily_archive, .bool false),
     (.in_monthly_archive, .bool false),
     (.is_metrological_quantity, .bool false),
     (.in_fast_archive_1, .bool false),
     (.in_fast_archvie_2, .bool false),
     (.name, .str "Battery capacity A5".toList),
     (.unit, .str "%".toList),
     (.digit, .float 0x3ac800b5 0x3f590016a634b28f),
     (.offset, .float 0x0 0x0),
     (.lower_limit_measuring_range, .float 0x0 0x0),
     (.upper_limit_measuring_range, .float 0x42c80000 0x4059000000000000),
     (.serial_number_transducer, .int 0),
     (.error_bit_order_in_actual_values, .int 668),
     (.error_bit_order_in_binary_archive, .int 0),
     (.error_bit_order_in_data_archive, .int 0),
     (.address_in_daily_archive_record, .int 0),
     (.address_in_monthly_archive_record, .int 0),
     (.samples_in_fast_archive, .int 0)])) = .ok (.AnalogQuantity, true) := by decide +kernel
example : ((ObjType.ofByte 30).bind (fun t => parameterFromBytes t body6)).map (fun o => (o.cls, agreesAll o
    [(.number, .int 5),
     (.id, .int 26),
     (.address_in_actual_values, .int 16),
     (.address_in_data_archive_record, .int 20),
     (.bit_control, .int 129),
     (.in_data_archive, .bool true),
     (.in_daily_archive, .bool false),
     (.in_monthly_archive, .bool false),
     (.is_metrological_quantity, .bool false),
     (.in_fast_archive_1, .bool false),
     (.in_fast_archvie_2, .bool false),
     (.name, .str "GSM signal A6".toList),
     (.unit, .str "%".toList),
     (.digit, .float 0x3ac800b5 0x3f590016a634b28f),
     (.offset, .float 0x0 0x0),
     (.lower_limit_measuring_range, .float 0x0 0x0),
     (.upper_limit_measuring_range, .float 0x42c80000 0x4059000000000000),
     (.serial_number_transducer, .int 0),
     (.error_bit_order_in_actual_values, .int 668),
     (.error_bit_order_in_binary_archive, .int 0),
     (.error_bit_order_in_data_archive, .int 0),
     (.address_in_daily_archive_record, .int 0),
     (.address_in_monthly_archive_record, .int 0),
     (.samples_in_fast_archive, .int 0)])) = .ok (.AnalogQuantity, true) := by decide +kernel
example : ((ObjType.ofByte 31).bind (fun t => parameterFromBytes t body7)).map (fun o => (o.cls, agreesAll o
    [(.number, .int 0),
     (.id, .int 160),
     (.bit_order_in_actual_values, .int 656),
     (.bit_order_in_data_archive_record, .int 0),
     (.bit_order_in_binary_archive_record, .int 80),
     (.bit_control, .int 129),
     (.in_binary_archive, .bool true),
     (.in_data_archive, .bool false),
     (.active_indicator, .bool false),
     (.name, .str "Cover B1".toList),
     (.error_bit_order_in_actual_values, .int 668),
     (.error_bit_order_in_binary_archive_record, .int 0),
     (.error_bit_order_in_data_archive_record, .int 0),
     (.action_during_change, .int 0),
     (.text_log_0, .str "Closed".toList),
     (.text_log_1, .str "Opened".toList)])) = .ok (.Binary, true) := by decide +kernel
example : ((ObjType.ofByte 48).bind (fun t => parameterFromBytes t body8)).map (fun o => (o.cls, agreesAll o
    [(.number, .int 1),
     (.id, .int 30),
     (.bit_order_in_actual_values, .int 657),
     (.bit_order_in_data_archive_record, .int 0),
     (.bit_order_in_binary_archive_record, .int 81),
     (.bit_control, .int 81),
     (.in_binary_archive, .bool true),
     (.in_data_archive, .bool false),
     (.name, .str "Call window B2".toList),
     (.rows_in_window, .int 1),
     (.rows, .strs ["2100b856000000000000".toList]),
     (.action_during_change, .int 4),
     (.text_log_0, .str "no call".toList),
     (.text_log_1, .str "active".toList)])) = .ok (.TimeWindow, true) := by decide +kernel
example : ((ObjType.ofByte 48).bind (fun t => parameterFromBytes t body9)).map (fun o => (o.cls, agreesAll o
    [(.number, .int 2),
     (.id, .int 31),
     (.bit_order_in_actual_values, .int 658),
     (.bit_order_in_data_archive_record, .int 0),
     (.bit_order_in_binary_archive_record, .int 82),
     (.bit_control, .int 73),
     (.in_binary_archive, .bool true),
     (.in_data_archive, .bool false),
     (.name, .str "Service window B3".toList),
     (.rows_in_window, .int 1),
     (.rows, .strs ["41000000000008510100".toList]),
     (.action_during_change, .int 0),
     (.text_log_0, .str "no service".toList),
     (.text_log_1, .str "active".toList)])) = .ok (.TimeWindow, true) := by decide +kernel
example : ((ObjType.ofByte 31).bind (fun t => parameterFromBytes t body10)).map (fun o => (o.cls, agreesAll o
    [(.number, .int 3),
     (.id, .int 28),
     (.bit_order_in_actual_values, .int 659),
     (.bit_order_in_data_archive_record, .int 0),
     (.bit_order_in_binary_archive_record, .int 83),
     (.bit_control, .int 193),
     (.in_binary_archive, .bool true),
     (.in_data_archive, .bool false),
     (.active_indicator, .bool true),
     (.name, .str "Modem power supp B4".toList),
     (.error_bit_order_in_actual_values, .int 668),
     (.error_bit_order_in_binary_archive_record, .int 0),
     (.error_bit_order_in_data_archive_record, .int 0),
     (.action_during_change, .int 0),
     (.text_log_0, .str "Off".toList),
     (.text_log_1, .str "On".toList)])) = .ok (.Binary, true) := by decide +kernel
example : ((ObjType.ofByte 31).bind (fun t => parameterFromBytes t body11)).map (fun o => (o.cls, agreesAll o
    [(.number, .int 4),
     (.id, .int 27),
     (.bit_order_in_actual_values, .int 660),
     (.bit_order_in_data_archive_record, .int 0),
     (.bit_order_in_binary_archive_record, .int 84),
     (.bit_control, .int 193),
     (.in_binary_archive, .bool true),
     (.in_data_archive, .bool false),
     (.active_indicator, .bool true),
     (.name, .str "External power B5".toList),
     (.error_bit_order_in_actual_values, .int 668),
     (.error_bit_order_in_binary_archive_record, .int 0),
     (.error_bit_order_in_data_archive_record, .int 0),
     (.action_during_change, .int 0),
     (.text_log_0, .str "Power OK".toList),
     (.text_log_1, .str "Power error".toList)])) = .ok (.Binary, true) := by decide +kernel
example : ((ObjType.ofByte 31).bind (fun t => parameterFromBytes t body12)).map (fun o => (o.cls, agreesAll o
    [(.number, .int 5),
     (.id, .int 49),
     (.bit_order_in_actual_values, .int 661),
     (.bit_order_in_data_archive_record, .int 0),
     (.bit_order_in_binary_archive_record, .int 85),
     (.bit_control, .int 193),
     (.in_binary_archive, .bool true),
     (.in_data_archive, .bool false),
     (.active_indicator, .bool true),
     (.name, .str "Ext.power modem B6".toList),
     (.error_bit_order_in_actual_values, .int 668),
     (.error_bit_order_in_binary_archive_record, .int 0),
     (.error_bit_order_in_data_archive_record, .int 0),
     (.action_during_change, .int 0),
     (.text_log_0, .str "Power OK".toList),
     (.text_log_1, .str "Power error".toList)])) = .ok (.Binary, true) := by decide +kernel
example : ((ObjType.ofByte 53).bind (fun t => parameterFromBytes t body13)).map (fun o => (o.cls, agreesAll o
    [(.number, .int 0),
     (.id, .int 3),
     (.address_in_actual_values, .int 18),
     (.address_in_data_archive_record, .int 22),
     (.bit_control, .int 151),
     (.in_data_archive, .bool true),
     (.in_daily_archive, .bool true),
     (.in_monthly_archive, .bool true),
     (.in_factory_archive, .bool false),
     (.is_metrological_quantity, .bool true),
     (.accept_counting_direction, .bool false),
     (.name, .str "Primary volume Vm".toList),
     (.unit, .str "m3".toList),
     (.digit, .float 0x3f800000 0x3ff0000000000000),
     (.error_bit_order_in_actual_values, .int 668),
     (.error_bit_order_in_binary_archive, .int 0),
     (.error_bit_order_in_data_archive, .int 0),
     (.address_in_daily_archive_record, .int 14),
     (.address_in_monthly_archive_record, .int 10),
     (.address_in_billing_archive_record, .int 0),
     (.serial_number_of_gas_meter_text, .str "".toList),
     (.decimals, .int 0)])) = .ok (.DoubleCounter, true) := by decide +kernel
example : ((ObjType.ofByte 54).bind (fun t => parameterFromBytes t body14)).map (fun o => (o.cls, agreesAll o
    [(.number, .int 0),
     (.id, .int 9),
     (.address_in_actual_values, .int 26),
     (.address_in_data_archive_record, .int 30),
     (.bit_control, .int 151),
     (.in_data_archive, .bool true),
     (.in_daily_archive, .bool true),
     (.in_monthly_archive, .bool true),
     (.in_factory_archive, .bool false),
     (.is_metrological_quantity, .bool true),
     (.name, .str "Spare prim. vol. Vs".toList),
     (.unit, .str "m3".toList),
     (.digit, .float 0x3f800000 0x3ff0000000000000),
     (.number_of_primary_counter, .int 0),
     (.address_in_daily_archive_record, .int 22),
     (.address_in_monthly_archive_record, .int 18),
     (.address_in_billing_archive_record, .int 0),
     (.decimals, .int 0)])) = .ok (.DoubleErrorCounter, true) := by decide +kernel
example : ((ObjType.ofByte 33).bind (fun t => parameterFromBytes t body15)).map (fun o => (o.cls, agreesAll o
    [(.number, .int 0),
     (.id, .int 7),
     (.address_in_actual_values, .int 34),
     (.address_in_data_archive_record, .int 38),
     (.bit_control, .int 151),
     (.in_data_archive, .bool true),
     (.in_daily_archive, .bool true),
     (.in_monthly_archive, .bool true),
     (.in_factory_archive, .bool false),
     (.is_metrological_quantity, .bool true),
     (.name, .str "Base volume Vb".toList),
     (.unit, .str "m3".toList),
     (.number_of_primary_counter, .int 0),
     (.number_of_conversion, .int 0),
     (.address_in_daily_archive_record, .int 30),
     (.address_in_monthly_archive_record, .int 26),
     (.address_in_billing_archive_record, .int 0),
     (.decimals, .int 2)])) = .ok (.StandardCounter, true) := by decide +kernel
example : ((ObjType.ofByte 46).bind (fun t => parameterFromBytes t body16)).map (fun o => (o.cls, agreesAll o
    [(.number, .int 0),
     (.id, .int 8),
     (.address_in_actual_values, .int 42),
     (.address_in_data_archive_record, .int 46),
     (.bit_control, .int 151),
     (.in_data_archive, .bool true),
     (.in_daily_archive, .bool true),
     (.in_monthly_archive, .bool true),
     (.in_factory_archive, .bool false),
     (.is_metrological_quantity, .bool true),
     (.name, .str "Spare base vol. Vbs".toList),
     (.unit, .str "m3".toList),
     (.number_of_standard_counter, .int 0),
     (.address_in_daily_archive_record, .int 38),
     (.address_in_monthly_archive_record, .int 34),
     (.address_in_billing_archive_record, .int 0),
     (.decimals, .int 2)])) = .ok (.ErrorStandardCounter, true) := by decide +kernel
example : ((ObjType.ofByte 34).bind (fun t => parameterFromBytes t body17)).map (fun o => (o.cls, agreesAll o
    [(.number, .int 0),
     (.id, .int 4),
     (.address_in_actual_values, .int 50),
     (.address_in_data_archive_record, .int 54),
     (.bit_control, .int 139),
     (.in_data_archive, .bool true),
     (.in_daily_archive, .bool true),
     (.in_monthly_archive, .bool false),
     (.is_metrological_quantity, .bool false),
     (.name, .str "Flow Q".toList),
     (.unit, .str "m3/h".toList),
     (.error_bit_order_in_actual_values, .int 668),
     (.error_bit_order_in_binary_archive, .int 0),
     (.error_bit_order_in_data_archive, .int 0),
     (.address_in_daily_archive_record, .int 46),
     (.address_in_monthly_archive_record, .int 0),
     (.decimals, .int 1)])) = .ok (.FlowRate, true) := by decide +kernel
example : ((ObjType.ofByte 35).bind (fun t => parameterFromBytes t body18)).map (fun o => (o.cls, agreesAll o
    [(.number, .int 0),
     (.id, .int 10),
     (.address_in_actual_values, .int 54),
     (.address_in_data_archive_record, .int 58),
     (.bit_control, .int 131),
     (.in_data_archive, .bool true),
     (.in_daily_archive, .bool true),
     (.in_monthly_archive, .bool false),
     (.is_metrological_quantity, .bool false),
     (.name, .str "Base flow Qb".toList),
     (.unit, .str "m3/h".toList),
     (.number_of_primary_flow_rate, .int 0),
     (.number_of_conversion, .int 0),
     (.address_in_daily_archive_record, .int 50),
     (.address_in_monthly_archive_record, .int 0),
     (.decimals, .int 1)])) = .ok (.StandardFlowRate, true) := by decide +kernel
example : ((ObjType.ofByte 70).bind (fun t => parameterFromBytes t body19)).map (fun o => (o.cls, agreesAll o
    [(.number, .int 0),
     (.id, .int 52),
     (.bit_order_in_actual_values, .int 662),
     (.bit_order_in_data_archive_record, .int 0),
     (.bit_order_in_binary_archive_record, .int 86),
     (.bit_control, .int 193),
     (.in_binary_archive, .bool true),
     (.in_data_archive, .bool false),
     (.active_indicator, .bool true),
     (.name, .str "Setpoint Q max S1".toList),
     (.value_of_limit, .float 0x461c3c00 0x40c3878000000000),
     (.type_of_primary_quantity, .int 34),
     (.number_of_primary_quantity, .int 0),
     (.action_during_change, .int 0),
     (.text_log_0, .str "Inactive".toList),
     (.text_log_1, .str "Active".toList)])) = .ok (.SetPoint, true) := by decide +kernel
example : ((ObjType.ofByte 36).bind (fun t => parameterFromBytes t body20)).map (fun o => (o.cls, agreesAll o
    [(.number, .int 0),
     (.id, .int 5),
     (.address_in_actual_values, .int 58),
     (.address_in_data_archive_record, .int 62),
     (.bit_control, .int 155),
     (.in_data_archive, .bool true),
     (.in_daily_archive, .bool true),
     (.in_monthly_archive, .bool false),
     (.is_metrological_quantity, .bool true),
     (.name, .str "Convers.factor C".toList),
     (.number_of_analog_pressure, .int 0),
     (.number_of_analog_temperature, .int 1),
     (.compressibility_calculation_method, .int 15),
     (.default_value_pressure, .float 0x43480000 0x4069000000000000),
     (.default_value_temperature, .float 0x41700000 0x402e000000000000),
     (.alternate_value_of_compressibility, .float 0x3f800000 0x3ff0000000000000),
     (.address_in_daily_archive_record, .int 54),
     (.address_in_monthly_archive_record, .int 0),
     (.decimals, .int 4)])) = .ok (.ConversionCoefficient, true) := by decide +kernel
example : ((ObjType.ofByte 47).bind (fun t => parameterFromBytes t body21)).map (fun o => (o.cls, agreesAll o
    [(.number, .int 0),
     (.id, .int 6),
     (.address_in_actual_values, .int 62),
     (.address_in_data_archive_record, .int 66),
     (.bit_control, .int 147),
     (.in_data_archive, .bool true),
     (.in_daily_archive, .bool true),
     (.in_monthly_archive, .bool false),
     (.is_metrological_quantity, .bool true),
     (.name, .str "Comp. ratio Z/Zb K".toList),
     (.number_of_conversion_coefficient, .int 0),
     (.address_in_daily_archive_record, .int 58),
     (.address_in_monthly_archive_record, .int 0),
     (.decimals, .int 4)])) = .ok (.Compressibility, true) := by decide +kernel
example : ((ObjType.ofByte 74).bind (fun t => parameterFromBytes t body22)).map (fun o => (o.cls, agreesAll o
    [(.number, .int 0),
     (.id, .int 38),
     (.address_in_actual_values, .int 66),
     (.address_in_data_archive_record, .int 70),
     (.bit_control, .int 145),
     (.in_data_archive, .bool true),
     (.in_daily_archive, .bool false),
     (.in_monthly_archive, .bool false),
     (.is_metrological_quantity, .bool true),
     (.name, .str "Compressibility Z".toList),
     (.number_of_conversion_coefficient, .int 0),
     (.address_in_daily_archive_record, .int 0),
     (.address_in_monthly_archive_record, .int 0),
     (.decimals, .int 4)])) = .ok (.CompressibilityZ, true) := by decide +kernel
example : ((ObjType.ofByte 75).bind (fun t => parameterFromBytes t body23)).map (fun o => (o.cls, agreesAll o
    [(.number, .int 0),
     (.id, .int 37),
     (.address_in_actual_values, .int 70),
     (.address_in_data_archive_record, .int 74),
     (.bit_control, .int 145),
     (.in_data_archive, .bool true),
     (.in_daily_archive, .bool false),
     (.in_monthly_archive, .bool false),
     (.is_metrological_quantity, .bool true),
     (.name, .str "Base compress. Zb".toList),
     (.number_of_conversion_coefficient, .int 0),
     (.address_in_daily_archive_record, .int 0),
     (.address_in_monthly_archive_record, .int 0),
     (.decimals, .int 4)])) = .ok (.CompressibilityZBase, true) := by decide +kernel
example : ((ObjType.ofByte 59).bind (fun t => parameterFromBytes t body24)).map (fun o => (o.cls, agreesAll o
    [(.number, .int 0),
     (.id, .int 39),
     (.address_in_actual_values, .int 74),
     (.address_in_data_archive_record, .int 78),
     (.bit_control, .int 199),
     (.in_data_archive, .bool true),
     (.in_daily_archive, .bool true),
     (.in_monthly_archive, .bool true),
     (.in_factory_archive, .bool false),
     (.name, .str "Status St1".toList),
     (.address_in_daily_archive_record, .int 62),
     (.address_in_monthly_archive_record, .int 42),
     (.mask_1_of_status_archive, .int 3974787071),
     (.mask_2_of_status_archive, .int 3758033919),
     (.mask_1_of_alarm, .int 0),
     (.mask_2_of_alarm, .int 0),
     (.mask_1_of_calling_to_dispatching, .int 0),
     (.mask_2_of_calling_to_dispatching, .int 0),
     (.action_during_change, .int 0)])) = .ok (.Diagnostics, true) := by decide +kernel
example : ((ObjType.ofByte 141).bind (fun t => parameterFromBytes t body25)).map (fun o => (o.cls, agreesAll o
    [(.number, .int 0),
     (.bit_control_0, .int 18),
     (.title, .str "".toList),
     (.modem_type, .int 5),
     (.initialization, .str "ATS0=1".toList),
     (.call_to_dispatching, .str "ATD*99***1#".toList),
     (.modem_hang_up, .str "ATH".toList),
     (.special_initialization, .str "AT+CGDCONT=1,\"IP\",\"elvaco.tele2.m2m\"".toList),
     (.registration_send_period, .int 0),
     (.authentication_mode, .int 0),
     (.port_for_registration, .int 0),
     (.port_for_calling_to_dispatching, .int 0),
     (.sms_call, .str "".toList),
     (.gprs_user_name, .str "".toList),
     (.gprs_password, .str "791554673481479942661145007915546734814799426611450079155467348147".toList),
     (.ping_period, .int 0),
     (.transition_into_command_mode, .str "+++".toList),
     (.pin, .str "791554673481479942".toList),
     (.owner_sim_number, .str "".toList)])) = .ok (.Modem, true) := by decide +kernel

-- test_parameters.py: the objects parsed there are accepted
-- test_parameter_type_30
example : ((ObjType.ofByte 30).bind (fun t => parameterFromBytes t
  [0x01, 0x00, 0x02, 0x00, 0x08, 0x00, 0x0C, 0x00, 0x9B, 0x54, 0x65, 0x6D, 0x70, 0x65, 0x72, 0x61,
  0x74, 0x75, 0x72, 0x65, 0x20, 0x74, 0x00, 0x2E, 0x20, 0x56, 0x62, 0x73, 0x00, 0x7D, 0x3F, 0x7D,
  0xB0, 0x43, 0x00, 0x00, 0x00, 0x00, 0x00, 0x00, 0x96, 0x00, 0x16, 0x3B, 0x00, 0x00, 0x48, 0xC2,
  0x00, 0x00, 0xC8, 0xC1, 0x00, 0x00, 0x70, 0x42, 0xAD, 0x54, 0x61, 0x64, 0xA2, 0x02, 0x5C, 0x00,
  0x00, 0x00, 0x0C, 0x00, 0x00, 0x00, 0x00, 0x41])).map (·.cls) = .ok .AnalogQuantity := by decide +kernel
-- test_parameter_type_31
example : ((ObjType.ofByte 31).bind (fun t => parameterFromBytes t
  [0x00, 0x00, 0xA0, 0x00, 0x90, 0x02, 0x00, 0x00, 0x50, 0x00, 0x81, 0x43, 0x6F, 0x76, 0x65, 0x72,
  0x20, 0x42, 0x31, 0x00, 0x00, 0x00, 0x00, 0x00, 0x04, 0x42, 0x00, 0x3B, 0x00, 0x00, 0x27, 0x00,
  0x4A, 0x00, 0x9C, 0x02, 0x00, 0x00, 0x00, 0x00, 0x00, 0x20, 0x20, 0x20, 0x20, 0x20, 0x20, 0x43,
  0x6C, 0x6F, 0x73, 0x65, 0x64, 0x00, 0x20, 0x20, 0x20, 0x20, 0x20, 0x20, 0x4F, 0x70, 0x65, 0x6E,
  0x65, 0x64, 0x00])).map (·.cls) = .ok .Binary := by decide +kernel
-- test_parameter_type_33
example : ((ObjType.ofByte 33).bind (fun t => parameterFromBytes t
  [0x00, 0x00, 0x07, 0x00, 0x22, 0x00, 0x26, 0x00, 0x97, 0x42, 0x61, 0x73, 0x65, 0x20, 0x76, 0x6F,
  0x6C, 0x75, 0x6D, 0x65, 0x20, 0x56, 0x62, 0x00, 0x7D, 0x20, 0x95, 0x7D, 0x22, 0x7D, 0x21, 0x21,
  0x6D, 0x33, 0x00, 0x00, 0x00, 0x00, 0x00, 0x00, 0x00, 0x00, 0x1E, 0x00, 0x1A, 0x00, 0x00, 0x00, 0x02])).map (·.cls) = .ok .StandardCounter := by decide +kernel
-- test_parameter_type_34
example : ((ObjType.ofByte 34).bind (fun t => parameterFromBytes t
  [0x00, 0x00, 0x04, 0x00, 0x32, 0x00, 0x36, 0x00, 0x8B, 0x46, 0x6C, 0x6F, 0x77, 0x20, 0x51, 0x00,
  0x20, 0x20, 0x42, 0x33, 0x7D, 0x20, 0x33, 0x7D, 0x21, 0x41, 0x7D, 0x20, 0x7D, 0x20, 0x7D, 0x20,
  0x6D, 0x33, 0x2F, 0x68, 0x00, 0x00, 0x00, 0x00, 0x9C, 0x02, 0x00, 0x00, 0x00, 0x00, 0x2E, 0x00,
  0x00, 0x00, 0x01])).map (·.cls) = .ok .FlowRate := by decide +kernel
-- test_parameter_type_35
example : ((ObjType.ofByte 35).bind (fun t => parameterFromBytes t
  [0x00, 0x00, 0x0A, 0x00, 0x36, 0x00, 0x3A, 0x00, 0x83, 0x42, 0x61, 0x73, 0x65, 0x20, 0x66, 0x6C,
  0x6F, 0x77, 0x20, 0x51, 0x62, 0x00, 0x7D, 0x3F, 0x7D, 0x23, 0x7D, 0x20, 0x7D, 0x3C, 0x7D, 0x20,
  0x6D, 0x33, 0x2F, 0x68, 0x00, 0x00, 0x00, 0x00, 0x00, 0x00, 0x32, 0x00, 0x00, 0x00, 0x01])).map (·.cls) = .ok .StandardFlowRate := by decide +kernel
-- test_parameter_type_36
example : ((ObjType.ofByte 36).bind (fun t => parameterFromBytes t
  [0x00, 0x00, 0x05, 0x00, 0x3A, 0x00, 0x3E, 0x00, 0x9B, 0x43, 0x6F, 0x6E, 0x76, 0x65, 0x72, 0x73,
  0x2E, 0x66, 0x61, 0x63, 0x74, 0x6F, 0x72, 0x20, 0x43, 0x00, 0x20, 0x41, 0x35, 0x00, 0x00, 0x00,
  0x00, 0x01, 0x0F, 0x00, 0x00, 0x48, 0x43, 0x00, 0x00, 0x70, 0x41, 0x00, 0x00, 0x80, 0x3F, 0x36,
  0x00, 0x00, 0x00, 0x04])).map (·.cls) = .ok .ConversionCoefficient := by decide +kernel
-- test_parameter_type_46
example : ((ObjType.ofByte 46).bind (fun t => parameterFromBytes t
  [0x00, 0x00, 0x08, 0x00, 0x2A, 0x00, 0x2E, 0x00, 0x97, 0x53, 0x70, 0x61, 0x72, 0x65, 0x20, 0x62,
  0x61, 0x73, 0x65, 0x20, 0x76, 0x6F, 0x6C, 0x2E, 0x20, 0x56, 0x62, 0x73, 0x00, 0x30, 0x7D, 0x22,
  0x6D, 0x33, 0x00, 0x00, 0x00, 0x00, 0x00, 0x00, 0x00, 0x26, 0x00, 0x22, 0x00, 0x00, 0x00, 0x02])).map (·.cls) = .ok .ErrorStandardCounter := by decide +kernel
-- test_parameter_type_47
example : ((ObjType.ofByte 47).bind (fun t => parameterFromBytes t
  [0x00, 0x00, 0x06, 0x00, 0x3E, 0x00, 0x42, 0x00, 0x93, 0x43, 0x6F, 0x6D, 0x70, 0x2E, 0x20, 0x72,
  0x61, 0x74, 0x69, 0x6F, 0x20, 0x5A, 0x2F, 0x5A, 0x62, 0x20, 0x4B, 0x00, 0x00, 0x81, 0x47, 0x53,
  0x00, 0x3A, 0x00, 0x00, 0x00, 0x04])).map (·.cls) = .ok .Compressibility := by decide +kernel
-- test_parameter_type_48
example : ((ObjType.ofByte 48).bind (fun t => parameterFromBytes t
  [0x01, 0x00, 0x1E, 0x00, 0x91, 0x02, 0x00, 0x00, 0x51, 0x00, 0x51, 0x43, 0x61, 0x6C, 0x6C, 0x20,
  0x77, 0x69, 0x6E, 0x64, 0x6F, 0x77, 0x20, 0x42, 0x32, 0x00, 0x20, 0x42, 0x32, 0x00, 0x32, 0x00,
  0x95, 0x02, 0x01, 0x21, 0x00, 0xB8, 0x56, 0x00, 0x00, 0x00, 0x00, 0x00, 0x00, 0x04, 0x20, 0x20,
  0x20, 0x20, 0x20, 0x6E, 0x6F, 0x20, 0x63, 0x61, 0x6C, 0x6C, 0x00, 0x20, 0x20, 0x20, 0x20, 0x20,
  0x20, 0x61, 0x63, 0x74, 0x69, 0x76, 0x65, 0x00])).map (·.cls) = .ok .TimeWindow := by decide +kernel
-- test_parameter_type_53
example : ((ObjType.ofByte 53).bind (fun t => parameterFromBytes t
  [0x00, 0x00, 0x03, 0x00, 0x12, 0x00, 0x16, 0x00, 0x97, 0x50, 0x72, 0x69, 0x6D, 0x61, 0x72, 0x79,
  0x20, 0x76, 0x6F, 0x6C, 0x75, 0x6D, 0x65, 0x20, 0x56, 0x6D, 0x00, 0x20, 0x7D, 0x20, 0x7D, 0x20,
  0x6D, 0x33, 0x00, 0x00, 0x00, 0x00, 0x00, 0x00, 0x00, 0x00, 0x00, 0x00, 0x00, 0x00, 0xF0, 0x3F,
  0x7D, 0x20, 0x7D, 0x20, 0x9C, 0x02, 0x00, 0x00, 0x00, 0x00, 0x0E, 0x00, 0x0A, 0x00, 0x00, 0x00,
  0x00, 0x00, 0x00, 0x00, 0x00, 0x00, 0x00, 0x00, 0x00, 0x00, 0x00, 0x00, 0x00, 0x00, 0x00, 0x00,
  0x00, 0x00, 0x0B, 0x00, 0x00, 0x00])).map (·.cls) = .ok .DoubleCounter := by decide +kernel
-- test_parameter_type_54
example : ((ObjType.ofByte 54).bind (fun t => parameterFromBytes t
  [0x00, 0x00, 0x09, 0x00, 0x1A, 0x00, 0x1E, 0x00, 0x97, 0x53, 0x70, 0x61, 0x72, 0x65, 0x20, 0x70,
  0x72, 0x69, 0x6D, 0x2E, 0x20, 0x76, 0x6F, 0x6C, 0x2E, 0x20, 0x56, 0x73, 0x00, 0x20, 0x20, 0x20,
  0x6D, 0x33, 0x00, 0x00, 0x00, 0x00, 0x00, 0x00, 0x00, 0x00, 0x00, 0x00, 0x00, 0x00, 0xF0, 0x3F,
  0x00, 0x16, 0x00, 0x12, 0x00, 0x00, 0x00, 0x00, 0x0B, 0x00, 0x00, 0x00])).map (·.cls) = .ok .DoubleErrorCounter := by decide +kernel
-- test_parameteer_type_59
example : ((ObjType.ofByte 59).bind (fun t => parameterFromBytes t
  [0x00, 0x00, 0x27, 0x00, 0x4A, 0x00, 0x4E, 0x00, 0xC7, 0x53, 0x74, 0x61, 0x74, 0x75, 0x73, 0x20,
  0x53, 0x74, 0x31, 0x00, 0x43, 0x6C, 0x6F, 0x73, 0x65, 0x64, 0x00, 0x20, 0x20, 0x20, 0x20, 0x20,
  0x3E, 0x00, 0x2A, 0x00, 0xFF, 0x6F, 0xEA, 0xEC, 0xFF, 0x0B, 0xFF, 0xDF, 0x00, 0x00, 0x00, 0x00,
  0x00, 0x00, 0x00, 0x00, 0x00, 0x00, 0x00, 0x00, 0x00, 0x00, 0x00, 0x00, 0x00, 0x00, 0x00])).map (·.cls) = .ok .Diagnostics := by decide +kernel
-- test_parameter_type_70
example : ((ObjType.ofByte 70).bind (fun t => parameterFromBytes t
  [0x00, 0x00, 0x34, 0x00, 0x96, 0x02, 0x00, 0x00, 0x56, 0x00, 0xC1, 0x53, 0x65, 0x74, 0x70, 0x6F,
  0x69, 0x6E, 0x74, 0x20, 0x51, 0x20, 0x6D, 0x61, 0x78, 0x20, 0x53, 0x31, 0x00, 0x7D, 0x20, 0x7D,
  0x20, 0x20, 0x00, 0x3C, 0x1C, 0x46, 0x22, 0x00, 0x00, 0x20, 0x20, 0x20, 0x20, 0x49, 0x6E, 0x61,
  0x63, 0x74, 0x69, 0x76, 0x65, 0x00, 0x20, 0x20, 0x20, 0x20, 0x20, 0x20, 0x41, 0x63, 0x74, 0x69,
  0x76, 0x65, 0x00])).map (·.cls) = .ok .SetPoint := by decide +kernel
-- test_parameter_type_74
example : ((ObjType.ofByte 74).bind (fun t => parameterFromBytes t
  [0x00, 0x00, 0x26, 0x00, 0x42, 0x00, 0x46, 0x00, 0x91, 0x43, 0x6F, 0x6D, 0x70, 0x72, 0x65, 0x73,
  0x73, 0x69, 0x62, 0x69, 0x6C, 0x69, 0x74, 0x79, 0x20, 0x5A, 0x00, 0x00, 0x00, 0x00, 0x00, 0x00,
  0x00, 0x00, 0x00, 0x00, 0x00, 0x04])).map (·.cls) = .ok .CompressibilityZ := by decide +kernel
-- test_parameter_type_75
example : ((ObjType.ofByte 75).bind (fun t => parameterFromBytes t
  [0x00, 0x00, 0x25, 0x00, 0x46, 0x00, 0x4A, 0x00, 0x91, 0x42, 0x61, 0x73, 0x65, 0x20, 0x63, 0x6F,
  0x6D, 0x70, 0x72, 0x65, 0x73, 0x73, 0x2E, 0x20, 0x5A, 0x62, 0x00, 0x76, 0x65, 0x72, 0x20, 0x42,
  0x00, 0x00, 0x00, 0x00, 0x00, 0x04])).map (·.cls) = .ok .CompressibilityZBase := by decide +kernel
-- test_parameter_type_141
example : ((ObjType.ofByte 141).bind (fun t => parameterFromBytes t
  [0x00, 0x12, 0x00, 0x00, 0x00, 0x00, 0x00, 0x00, 0x00, 0x05, 0x41, 0x54, 0x53, 0x30, 0x3D, 0x31,
  0x00, 0x00, 0x00, 0x00, 0x00, 0x00, 0x00, 0x00, 0x00, 0x00, 0x00, 0x00, 0x00, 0x00, 0x00, 0x00,
  0x00, 0x00, 0x00, 0x00, 0x00, 0x00, 0x00, 0x00, 0x00, 0x00, 0x41, 0x54, 0x44, 0x2A, 0x39, 0x39,
  0x2A, 0x2A, 0x2A, 0x31, 0x23, 0x00, 0x00, 0x00, 0x00, 0x00, 0x00, 0x00, 0x00, 0x00, 0x00, 0x00,
  0x00, 0x00, 0x00, 0x00, 0x00, 0x00, 0x00, 0x00, 0x00, 0x00, 0x41, 0x54, 0x48, 0x00, 0x00, 0x00,
  0x00, 0x00, 0x41, 0x54, 0x2B, 0x43, 0x47, 0x44, 0x43, 0x4F, 0x4E, 0x54, 0x3D, 0x31, 0x2C, 0x22,
  0x49, 0x50, 0x22, 0x2C, 0x22, 0x65, 0x6C, 0x76, 0x61, 0x63, 0x6F, 0x2E, 0x74, 0x65, 0x6C, 0x65,
  0x32, 0x2E, 0x6D, 0x32, 0x6D, 0x22, 0x00, 0x00, 0x00, 0x00, 0x00, 0x00, 0x00, 0x00, 0x00, 0x00,
  0x00, 0x00, 0x00, 0x00, 0x00, 0x00, 0x00, 0x00, 0x00, 0x00, 0x00, 0x00, 0x00, 0x00, 0x00, 0x00,
  0x00, 0x00, 0x00, 0x00, 0x00, 0x00, 0x00, 0x00, 0x00, 0x00, 0x00, 0x00, 0x00, 0x00, 0x00, 0x00,
  0x00, 0x00, 0x00, 0x00, 0x00, 0x00, 0x00, 0x00, 0x00, 0x00, 0x00, 0x00, 0x00, 0x00, 0x00, 0x00,
  0x00, 0x00, 0x00, 0x00, 0x00, 0x00, 0x00, 0x00, 0x00, 0x00, 0x00, 0x00, 0x00, 0x00, 0x00, 0x00,
  0x00, 0x00, 0x00, 0x00, 0x00, 0x00, 0x00, 0x00, 0x00, 0x00, 0x00, 0x00, 0x00, 0x00, 0x00, 0x00,
  0x00, 0x00, 0x00, 0x00, 0x00, 0x00, 0x00, 0x00, 0x00, 0x00, 0x00, 0x00, 0x00, 0x00, 0x00, 0x00,
  0x00, 0x00, 0x00, 0x00, 0x00, 0x00, 0x00, 0x00, 0x00, 0x00, 0x00, 0x00, 0x00, 0x00, 0x00, 0x00,
  0x00, 0x00, 0x00, 0x00, 0x00, 0x00, 0x00, 0x00, 0x00, 0x00, 0x00, 0x00, 0x00, 0x00, 0x00, 0x00,
  0x00, 0x79, 0x15, 0x54, 0x67, 0x34, 0x81, 0x47, 0x99, 0x42, 0x66, 0x11, 0x45, 0x00, 0x79, 0x15,
  0x54, 0x67, 0x34, 0x81, 0x47, 0x99, 0x42, 0x66, 0x11, 0x45, 0x00, 0x79, 0x15, 0x54, 0x67, 0x34,
  0x81, 0x47, 0x00, 0x00, 0x00, 0x00, 0x00, 0x00, 0x2B, 0x2B, 0x2B, 0x00, 0x00, 0x00, 0x00, 0x00,
  0x79, 0x15, 0x54, 0x67, 0x34, 0x81, 0x47, 0x99, 0x42, 0x00, 0x00, 0x00, 0x00, 0x00, 0x00, 0x00,
  0x00, 0x00, 0x00, 0x00, 0x00, 0x00, 0x00, 0x00, 0x00, 0x00])).map (·.cls) = .ok .Modem := by decide +kernel
-- test_parameter_0
example : fromLE [0x0E, 0x01] = 270 := by decide +kernel
example : (parameterFromBytes .SYSTEM_PARAMETER
  [0x83, 0x5D, 0x21, 0xFF, 0x73, 0x31, 0x2E, 0x31, 0x36, 0x00, 0x10, 0x02, 0x32, 0x31, 0x31, 0x31,
  0x33, 0x37, 0x5F, 0x30, 0x30, 0x30, 0x30, 0x30, 0x30, 0x30, 0x30, 0x31, 0x00, 0x0C, 0x46, 0x13,
  0x1E, 0x10, 0x0E, 0x66, 0xA6, 0xCA, 0x42, 0x00, 0x00, 0x00, 0x00, 0x02, 0xCD, 0xCC, 0x8C, 0x3F,
  0xB3, 0x0C, 0x41, 0x3F, 0x35, 0xDE, 0x2E, 0x42, 0x0A, 0xD7, 0x23, 0x3F, 0x00, 0x00, 0x00, 0x00,
  0x00, 0x00, 0x00, 0x00, 0x00, 0x00, 0x00, 0x00, 0x00, 0x00, 0x00, 0x00, 0x00, 0x00, 0x00, 0x00,
  0x00, 0x00, 0x00, 0x00, 0x00, 0x00, 0x00, 0x00, 0x03, 0x18, 0xC4, 0x42, 0x8A, 0x1F, 0x43, 0x3F,
  0xD5, 0x09, 0x88, 0x3E, 0x84, 0x9E, 0x4D, 0x3D, 0xAC, 0x8B, 0x5B, 0x3D, 0xC6, 0xDC, 0x35, 0x3C,
  0x00, 0x6F, 0x01, 0x3C, 0x0A, 0xD7, 0x23, 0x3C, 0x00, 0x00, 0x00, 0x00, 0x00, 0x00, 0x00, 0x00,
  0x00, 0x00, 0x00, 0x00, 0x00, 0x00, 0x00, 0x00, 0x58, 0x00, 0x0E, 0x00, 0x48, 0x00, 0x34, 0x00,
  0x98, 0x02, 0x58, 0x00, 0x00, 0x00, 0x03, 0x00, 0x00, 0x08, 0x00, 0x02, 0x03, 0x03, 0x00, 0x08,
  0x03, 0x00, 0x06, 0x68, 0xA6, 0xCA, 0x42, 0x00, 0x00, 0x00, 0x00, 0x00, 0x00, 0x00, 0x00, 0x00,
  0x00, 0x00, 0x00, 0x00, 0x00, 0x00, 0x00, 0x00, 0x00, 0x00, 0x00, 0x00, 0x2A, 0x00, 0x07, 0x62,
  0x61, 0x72, 0x00, 0x00, 0x00, 0x00, 0x00, 0x20, 0xB0, 0x43, 0x00, 0x00, 0x00, 0x00, 0x00, 0x00,
  0xA1, 0x6D, 0x00, 0x00, 0x00, 0x00, 0x00, 0x00, 0x00, 0x90, 0x4D, 0x4A, 0x2F, 0x6D, 0x33, 0x00,
  0x33, 0x00, 0x01, 0x01, 0x00, 0x00, 0x00, 0x00, 0x00, 0x41, 0x00, 0x35, 0xE0, 0xFF, 0x7F, 0xFF,
  0x77, 0xEE, 0x12, 0x00, 0x00, 0x00, 0x00, 0x00, 0x00, 0x00, 0x00, 0x00, 0x31, 0x2E, 0x31, 0x36,
  0x00, 0x9A, 0xFA, 0x00, 0x00, 0x00, 0x00, 0xE5, 0x21, 0x00, 0x00]).map (·.cls) = .ok .SystemParameters := by decide +kernel

end Elgas.Conformance
