import Verif.Lemmas.Redundancy
/-! Properties C04 and C06: the three redundancy bytes. -/
namespace Elgas
open Spec

/-- C04. LRC is the XOR of all bytes. -/
theorem C04_lrc (d : Bytes) : calculateLrc d = (xorAll d).toNat := calculateLrc_eq d

/-- C04. CHECKSUM is the sum of all bytes mod 256. -/
theorem C04_checksum (d : Bytes) : calculateChecksum d = sumMod d := calculateChecksum_eq d

/-- C04. DRC is the XOR over i of byte i rotated left by (len-1-i) bits. -/
theorem C04_drc (d : Bytes) : calculateDrc d = (rotXor d).toNat := calculateDrc_eq d

/-- C04. All three codes fit into a byte. -/
theorem C04_range (d : Bytes) :
    calculateLrc d < 256 ∧ calculateChecksum d < 256 ∧ calculateDrc d < 256 := by
  refine ⟨?_, ?_, ?_⟩
  · rw [calculateLrc_eq]; exact UInt8.toNat_lt _
  · rw [calculateChecksum_eq]; exact Nat.mod_lt _ (by omega)
  · rw [calculateDrc_eq]; exact UInt8.toNat_lt _

example : xorAll [0xFE, 0x06, 0x71] = 0x89 ∧ sumMod [0xFE, 0x06, 0x71] = 0x75 ∧
    rotXor [0xFE, 0x06, 0x71] = 0x86 := by decide +kernel

/-- All three redundancy codes of the two strings agree. -/
def SameRedundancy (d d' : Bytes) : Prop :=
  calculateLrc d = calculateLrc d' ∧ calculateChecksum d = calculateChecksum d' ∧
  calculateDrc d = calculateDrc d'

theorem rotl8_one_fixed (x : UInt8) : rotl8 x 1 = x ↔ x = 0 ∨ x = 0xFF := by
  revert x; apply u8_forall; decide +kernel

theorem u8_compl_toNat (x : UInt8) : (x ^^^ 0xFF).toNat = 255 - x.toNat := by
  revert x; apply u8_forall; decide +kernel

theorem u8_compl (x : UInt8) : ~~~x = x ^^^ 0xFF := by
  revert x; apply u8_forall; decide +kernel

theorem sameRedundancy_iff (d d' : Bytes) :
    SameRedundancy d d' ↔ xorAll d = xorAll d' ∧ sumMod d = sumMod d' ∧ rotXor d = rotXor d' := by
  simp [SameRedundancy, calculateLrc_eq, calculateChecksum_eq, calculateDrc_eq, UInt8.toNat_inj]

/-- C06 (adjacent bytes). Replacing two adjacent bytes, at least one of them changed, leaves all
three redundancy bytes unchanged if and only if both are replaced by their complements and their sum
is congruent to 127 mod 128. -/
theorem C06_adjacent (pre post : Bytes) (a b a' b' : UInt8) (hne : ¬ (a = a' ∧ b = b')) :
    SameRedundancy (pre ++ a :: b :: post) (pre ++ a' :: b' :: post) ↔
      a' = ~~~a ∧ b' = ~~~b ∧ (a.toNat + b.toNat) % 128 = 127 := by
  rw [sameRedundancy_iff]
  have hx : xorAll (pre ++ a :: b :: post) = xorAll (pre ++ a' :: b' :: post) ↔
      a ^^^ a' = b ^^^ b' := by
    simp only [xorAll_append, xorAll_cons, u8_xor_left_cancel]
    rw [← UInt8.xor_assoc, ← UInt8.xor_assoc, u8_xor_right_cancel]
    constructor
    · intro h
      have : a ^^^ b ^^^ (a' ^^^ b) = a' ^^^ b' ^^^ (a' ^^^ b) := by rw [h]
      rw [show a ^^^ b ^^^ (a' ^^^ b) = a ^^^ a' ^^^ (b ^^^ b) by ac_rfl,
        show a' ^^^ b' ^^^ (a' ^^^ b) = a' ^^^ a' ^^^ (b ^^^ b') by ac_rfl] at this
      simpa using this
    · intro h
      have : a ^^^ a' ^^^ (a' ^^^ b) = b ^^^ b' ^^^ (a' ^^^ b) := by rw [h]
      rw [show a ^^^ a' ^^^ (a' ^^^ b) = a ^^^ b ^^^ (a' ^^^ a') by ac_rfl,
        show b ^^^ b' ^^^ (a' ^^^ b) = a' ^^^ b' ^^^ (b ^^^ b) by ac_rfl] at this
      simpa using this
  have hr : rotXor (pre ++ a :: b :: post) = rotXor (pre ++ a' :: b' :: post) ↔
      rotl8 (a ^^^ a') 1 = b ^^^ b' := by
    simp only [rotXor_append, rotXor_cons, List.length_cons, u8_xor_left_cancel]
    rw [← UInt8.xor_assoc, ← UInt8.xor_assoc, u8_xor_right_cancel,
      show List.length post + 1 = 1 + List.length post by omega, ← rotl8_rotl8 a, ← rotl8_rotl8 a',
      ← rotl8_xor, ← rotl8_xor]
    constructor
    · intro h
      have h := rotl8_injective _ h
      have : rotl8 a 1 ^^^ b ^^^ (rotl8 a' 1 ^^^ b) = rotl8 a' 1 ^^^ b' ^^^ (rotl8 a' 1 ^^^ b) := by
        rw [h]
      rw [show rotl8 a 1 ^^^ b ^^^ (rotl8 a' 1 ^^^ b) = rotl8 a 1 ^^^ rotl8 a' 1 ^^^ (b ^^^ b) by ac_rfl,
        show rotl8 a' 1 ^^^ b' ^^^ (rotl8 a' 1 ^^^ b)
          = rotl8 a' 1 ^^^ rotl8 a' 1 ^^^ (b ^^^ b') by ac_rfl, ← rotl8_xor] at this
      simpa using this
    · intro h
      congr 1
      rw [rotl8_xor] at h
      have : rotl8 a 1 ^^^ rotl8 a' 1 ^^^ (rotl8 a' 1 ^^^ b) = b ^^^ b' ^^^ (rotl8 a' 1 ^^^ b) := by
        rw [h]
      rw [show rotl8 a 1 ^^^ rotl8 a' 1 ^^^ (rotl8 a' 1 ^^^ b)
          = rotl8 a 1 ^^^ b ^^^ (rotl8 a' 1 ^^^ rotl8 a' 1) by ac_rfl,
        show b ^^^ b' ^^^ (rotl8 a' 1 ^^^ b) = rotl8 a' 1 ^^^ b' ^^^ (b ^^^ b) by ac_rfl] at this
      simpa using this
  rw [hx, hr]
  constructor
  · rintro ⟨h1, h2, h3⟩
    rw [← h1, rotl8_one_fixed] at h3
    rcases h3 with h3 | h3
    · exfalso; apply hne
      rw [h3] at h1
      exact ⟨UInt8.xor_eq_zero_iff.1 h3, UInt8.xor_eq_zero_iff.1 h1.symm⟩
    · have ha : a' = a ^^^ 0xFF := by rw [← h3, ← UInt8.xor_assoc]; simp
      have hb : b' = b ^^^ 0xFF := by rw [← h3, h1, ← UInt8.xor_assoc]; simp
      refine ⟨by rw [u8_compl, ha], by rw [u8_compl, hb], ?_⟩
      subst ha hb
      simp only [sumMod_append, sumMod_cons, u8_compl_toNat] at h2
      have := a.toNat_lt; have := b.toNat_lt
      omega
  · rintro ⟨rfl, rfl, h⟩
    simp only [u8_compl]
    have e : ∀ x : UInt8, x ^^^ (x ^^^ 0xFF) = 0xFF := by intro x; rw [← UInt8.xor_assoc]; simp
    refine ⟨by rw [e, e], ?_, by rw [e, e]; decide⟩
    simp only [sumMod_append, sumMod_cons, u8_compl_toNat]
    have := a.toNat_lt; have := b.toNat_lt
    omega

example : ¬ ((0x00 : UInt8) = 0xFF ∧ (0x7F : UInt8) = 0x80) ∧
    SameRedundancy ([0xFE] ++ 0x00 :: 0x7F :: [5]) ([0xFE] ++ 0xFF :: 0x80 :: [5]) := by
  unfold SameRedundancy; decide +kernel

/-- C06 (exchange). Exchanging two bytes that are `k` positions apart is undetected by all three
codes if and only if their XOR is invariant under rotation by `k` bits. -/
theorem C06_exchange (pre mid post : Bytes) (a b : UInt8) :
    SameRedundancy (pre ++ a :: mid ++ b :: post) (pre ++ b :: mid ++ a :: post) ↔
      rotl8 (a ^^^ b) (mid.length + 1) = a ^^^ b := by
  rw [sameRedundancy_iff]
  have h1 : xorAll (pre ++ a :: mid ++ b :: post) = xorAll (pre ++ b :: mid ++ a :: post) := by
    simp only [xorAll_append, xorAll_cons]; ac_rfl
  have h2 : sumMod (pre ++ a :: mid ++ b :: post) = sumMod (pre ++ b :: mid ++ a :: post) := by
    simp only [sumMod_append, sumMod_cons]; omega
  simp only [h1, h2, true_and]
  simp only [rotXor_append, rotXor_cons, List.length_cons]
  generalize hM : rotXor mid = M
  generalize rotXor post = Q
  generalize hn : post.length = n
  generalize rotXor pre = R
  simp only [rotl8_xor, rotl8_rotl8, UInt8.xor_assoc, u8_xor_left_cancel]
  have e : ∀ x y : UInt8, rotl8 x (mid.length + (n + 1)) ^^^ (rotl8 M (n + 1) ^^^ (rotl8 y n ^^^ Q))
      = rotl8 (rotl8 x (mid.length + 1) ^^^ y) n ^^^ (rotl8 M (n + 1) ^^^ Q) := by
    intro x y
    rw [rotl8_xor, rotl8_rotl8, show mid.length + (n + 1) = mid.length + 1 + n by omega]
    ac_rfl
  rw [e, e, u8_xor_right_cancel]
  constructor
  · intro h
    have h := rotl8_injective _ h
    have h' : rotl8 a (mid.length + 1) ^^^ b ^^^ (rotl8 b (mid.length + 1) ^^^ b)
        = rotl8 b (mid.length + 1) ^^^ a ^^^ (rotl8 b (mid.length + 1) ^^^ b) := by rw [h]
    rw [show rotl8 a (mid.length + 1) ^^^ b ^^^ (rotl8 b (mid.length + 1) ^^^ b)
        = rotl8 a (mid.length + 1) ^^^ rotl8 b (mid.length + 1) ^^^ (b ^^^ b) by ac_rfl,
      show rotl8 b (mid.length + 1) ^^^ a ^^^ (rotl8 b (mid.length + 1) ^^^ b)
        = a ^^^ b ^^^ (rotl8 b (mid.length + 1) ^^^ rotl8 b (mid.length + 1)) by ac_rfl] at h'
    simpa using h'
  · intro h
    congr 1
    have h' : rotl8 a (mid.length + 1) ^^^ rotl8 b (mid.length + 1) ^^^ (rotl8 b (mid.length + 1) ^^^ b)
        = a ^^^ b ^^^ (rotl8 b (mid.length + 1) ^^^ b) := by rw [h]
    rw [show rotl8 a (mid.length + 1) ^^^ rotl8 b (mid.length + 1) ^^^ (rotl8 b (mid.length + 1) ^^^ b)
        = rotl8 a (mid.length + 1) ^^^ b ^^^ (rotl8 b (mid.length + 1) ^^^ rotl8 b (mid.length + 1)) by
          ac_rfl,
      show a ^^^ b ^^^ (rotl8 b (mid.length + 1) ^^^ b)
        = rotl8 b (mid.length + 1) ^^^ a ^^^ (b ^^^ b) by ac_rfl] at h'
    simpa using h'

-- three positions apart and different: detected; four apart with an XOR of 0x55: undetected
example : ¬ SameRedundancy ([0xFE] ++ 0x12 :: [7, 7] ++ 0x34 :: [5]) ([0xFE] ++ 0x34 :: [7, 7] ++ 0x12 :: [5]) ∧
    SameRedundancy ([0xFE] ++ 0x12 :: [7, 7, 7] ++ 0x47 :: [5]) ([0xFE] ++ 0x47 :: [7, 7, 7] ++ 0x12 :: [5]) := by
  rw [C06_exchange, C06_exchange]; decide +kernel

/-- C06 (distance 8). Exchanges at a distance that is a multiple of 8 are never detected. -/
theorem C06_exchange_8 (pre mid post : Bytes) (a b : UInt8) (h : (mid.length + 1) % 8 = 0) :
    SameRedundancy (pre ++ a :: mid ++ b :: post) (pre ++ b :: mid ++ a :: post) := by
  rw [C06_exchange, rotl8_mod, h]; simp

example : SameRedundancy ([0xFE] ++ 0x12 :: [1, 2, 3, 4, 5, 6, 7] ++ 0x34 :: [5])
    ([0xFE] ++ 0x34 :: [1, 2, 3, 4, 5, 6, 7] ++ 0x12 :: [5]) := C06_exchange_8 _ _ _ _ _ rfl

/-- C06 (adjacent exchange). Exchanging two adjacent different bytes is undetected only for a byte
and its complement. -/
theorem C06_exchange_adjacent (pre post : Bytes) (a b : UInt8) (hne : a ≠ b) :
    SameRedundancy (pre ++ a :: b :: post) (pre ++ b :: a :: post) ↔ b = ~~~a := by
  have h := C06_exchange pre [] post a b
  simp only [List.append_assoc, List.cons_append, List.nil_append, List.length_nil, Nat.zero_add] at h
  rw [h, rotl8_one_fixed, u8_compl]
  constructor
  · rintro (h | h)
    · exact absurd (UInt8.xor_eq_zero_iff.1 h) hne
    · rw [← h, ← UInt8.xor_assoc]; simp
  · rintro rfl
    right; rw [← UInt8.xor_assoc]; simp

example : ¬ SameRedundancy ([0xFE] ++ 0x12 :: 0x34 :: [5]) ([0xFE] ++ 0x34 :: 0x12 :: [5]) ∧
    SameRedundancy ([0xFE] ++ 0x12 :: 0xED :: [5]) ([0xFE] ++ 0xED :: 0x12 :: [5]) := by
  rw [C06_exchange_adjacent _ _ _ _ (by decide), C06_exchange_adjacent _ _ _ _ (by decide)]; decide

end Elgas
