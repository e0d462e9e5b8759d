import Verif.Lemmas.Crc
/-! Properties C07 and C08: the CRC of encrypted frames. -/
namespace Elgas
open Spec

/-- C07. The table-driven `calculate_crc` is the bit-by-bit CRC-16/MODBUS (reflected polynomial
0xA001, initial value 0xFFFF) with its two bytes exchanged. -/
theorem C07_crc_is_modbus_swapped (d : Bytes) : calculateCrc d = swapBytes (crc16Modbus d) :=
  calculateCrc_eq d

/-- C07. The result always fits in two bytes, so `to_bytes(2, "big")` cannot overflow. -/
theorem C07_crc_range (d : Bytes) : calculateCrc d < 65536 := calculateCrc_lt d

/-- The published check value of CRC-16/MODBUS ("123456789" gives 0x4B37): the specification is the
right function (a test of the specification, not a claim about the code). -/
example : crc16Modbus [0x31, 0x32, 0x33, 0x34, 0x35, 0x36, 0x37, 0x38, 0x39] = 0x4B37 ∧
    calculateCrc [0x31, 0x32, 0x33, 0x34, 0x35, 0x36, 0x37, 0x38, 0x39] = 0x374B := by decide +kernel

/-- C08 (bursts). Two different byte strings of the same length that differ only inside a window of
16 consecutive bits (in transmission order, any alignment) have different CRCs. -/
theorem C08_crc_detects_bursts (d d' : Bytes) (hl : d.length = d'.length) (hne : d ≠ d') (i : Nat)
    (h : ∀ j, (j < i ∨ i + 16 ≤ j) → (bits d)[j]? = (bits d')[j]?) :
    calculateCrc d ≠ calculateCrc d' := by
  intro hc
  have hc := calculateCrc_inj hc
  simp only [crc16Modbus, crcFold_ser] at hc
  obtain ⟨p, w, w', q, h1, h2, h3, h4⟩ := window_decomp (bits d) (bits d') i 16
    (by rw [bits_length, bits_length, hl]) h
  rw [h1, h2] at hc
  have := crcSer_window p w w' q h3 h4 hc
  apply hne; apply bits_inj; rw [h1, h2, this]

-- a burst of 12 bits over a byte border: it starts at bit 12 and ends at bit 23
example : calculateCrc [0x01, 0x02, 0x03, 0x04] ≠ calculateCrc [0x01, 0xA2, 0xF5, 0x04] :=
  C08_crc_detects_bursts _ _ rfl (by decide) 12 (by
    intro j hj
    rcases hj with hj | hj
    · have : ∀ j, j < 12 → (bits [0x01, 0x02, 0x03, 0x04])[j]? = (bits [0x01, 0xA2, 0xF5, 0x04])[j]? := by
        decide +kernel
      exact this j hj
    · have : ∀ j, j < 32 → 28 ≤ j →
          (bits [0x01, 0x02, 0x03, 0x04])[j]? = (bits [0x01, 0xA2, 0xF5, 0x04])[j]? := by
        decide +kernel
      by_cases h : j < 32
      · exact this j h hj
      · rw [List.getElem?_eq_none (by simp [bits]; omega), List.getElem?_eq_none (by simp [bits]; omega)])

/-- C08. Two different byte strings of the same length that differ only inside a window of two
consecutive bytes have different CRCs. -/
theorem C08_crc_detects_two_bytes (d d' : Bytes) (hl : d.length = d'.length) (hne : d ≠ d') (i : Nat)
    (h : ∀ j, (j < i ∨ i + 2 ≤ j) → d[j]? = d'[j]?) :
    calculateCrc d ≠ calculateCrc d' := by
  intro hc
  have hc := calculateCrc_inj hc
  simp only [crc16Modbus, crcFold_ser] at hc
  obtain ⟨p, w, w', q, h1, h2, h3, h4⟩ := window_decomp d d' i 2 hl h
  rw [h1, h2, bits_append, bits_append, bits_append, bits_append] at hc
  have := crcSer_window _ _ _ _ (by rw [bits_length, bits_length, h3])
    (by rw [bits_length]; omega) hc
  apply hne; rw [h1, h2, bits_inj this]

example : calculateCrc [1, 2, 3, 4] ≠ calculateCrc [1, 0xFF, 0x55, 4] :=
  C08_crc_detects_two_bytes _ _ rfl (by decide) 1 (by
    intro j hj
    rcases hj with hj | hj
    · match j, hj with | 0, _ => rfl
    · match j, hj with
      | 3, _ => rfl
      | j + 4, _ => rfl)

/-- The two-byte window cannot be widened to three bytes: different strings that differ in three
consecutive bytes can have the same CRC. -/
theorem C08_three_bytes_can_collide :
    ∃ d d' : Bytes, d.length = 3 ∧ d'.length = 3 ∧ d ≠ d' ∧ calculateCrc d = calculateCrc d' :=
  ⟨[0, 0, 0], [0x03, 0x40, 0x01], by decide +kernel⟩

end Elgas
