import Verif.Model.Utils
import Verif.Spec.Redundancy
import Verif.Lemmas.List
namespace Elgas
open Spec

theorem u8_forall {p : UInt8 → Prop} (h : ∀ i : Fin 256, p (UInt8.ofNat i.val)) : ∀ b, p b := by
  intro b
  have := h ⟨b.toNat, b.toNat_lt⟩
  simpa using this

theorem and_ff_of_lt {n : Nat} (h : n < 256) : n &&& 0xFF = n := by
  have := Nat.and_two_pow_sub_one_eq_mod n 8
  simp at this
  rw [this]; exact Nat.mod_eq_of_lt h

theorem and_ff (n : Nat) : n &&& 0xFF = n % 256 := by
  have := Nat.and_two_pow_sub_one_eq_mod n 8
  simpa using this

/-! ### XOR -/

@[simp] theorem xorAll_nil : xorAll [] = 0 := rfl
@[simp] theorem xorAll_cons (b : UInt8) (d : Bytes) : xorAll (b :: d) = b ^^^ xorAll d := rfl
@[simp] theorem xorAll_append (a b : Bytes) : xorAll (a ++ b) = xorAll a ^^^ xorAll b := by
  induction a with
  | nil => simp
  | cons x a ih => simp [ih, UInt8.xor_assoc]

theorem lrc_foldl (d : Bytes) (s : UInt8) :
    d.foldl (fun lrc b => let temp := lrc ^^^ b.toNat; temp &&& 0xFF) s.toNat
      = (s ^^^ xorAll d).toNat := by
  induction d generalizing s with
  | nil => simp
  | cons b d ih =>
    rw [List.foldl_cons]
    have : (let temp := s.toNat ^^^ b.toNat; temp &&& 0xFF) = (s ^^^ b).toNat := by
      simp only [UInt8.toNat_xor]
      exact and_ff_of_lt (by rw [← UInt8.toNat_xor]; exact (s ^^^ b).toNat_lt)
    rw [this, ih, xorAll_cons, UInt8.xor_assoc]

theorem calculateLrc_eq (d : Bytes) : calculateLrc d = (xorAll d).toNat := by
  unfold calculateLrc
  have := lrc_foldl d 0
  simp only [UInt8.toNat_zero, UInt8.zero_xor] at this
  rw [this]
  exact and_ff_of_lt (xorAll d).toNat_lt

/-! ### Sum -/

theorem checksum_foldl (d : Bytes) (s : Nat) (hs : s < 256) :
    d.foldl (fun c b => let temp := c + b.toNat; temp &&& 0xFF) s
      = (s + (d.map UInt8.toNat).sum) % 256 := by
  induction d generalizing s with
  | nil => simp; omega
  | cons b d ih =>
    rw [List.foldl_cons]
    simp only [and_ff]
    simp only [and_ff] at ih
    rw [ih _ (Nat.mod_lt _ (by omega))]
    simp; omega

theorem calculateChecksum_eq (d : Bytes) : calculateChecksum d = sumMod d := by
  unfold calculateChecksum sumMod
  rw [checksum_foldl d 0 (by omega), and_ff]
  simp

/-! ### Rotation -/

theorem rotl8_xor (a b : UInt8) (k : Nat) : rotl8 (a ^^^ b) k = rotl8 a k ^^^ rotl8 b k := by
  apply UInt8.toBitVec_inj.1
  simp only [rotl8, UInt8.toBitVec_xor]
  ext i hi
  simp only [BitVec.getElem_rotateLeft, BitVec.getElem_xor]
  split <;> rfl

@[simp] theorem rotl8_zero_left (k : Nat) : rotl8 0 k = 0 := by
  have := rotl8_xor 0 0 k
  simpa using this

theorem rotl8_mod (b : UInt8) (k : Nat) : rotl8 b k = rotl8 b (k % 8) := by
  simp [rotl8, BitVec.rotateLeft_mod_eq_rotateLeft]

theorem rotl8_add_aux : ∀ i : Fin 256, ∀ j k : Fin 8,
    rotl8 (rotl8 (UInt8.ofNat i.val) j.val) k.val = rotl8 (UInt8.ofNat i.val) ((j.val + k.val) % 8) := by
  decide +kernel

theorem rotl8_rotl8 (b : UInt8) (j k : Nat) : rotl8 (rotl8 b j) k = rotl8 b (j + k) := by
  rw [rotl8_mod b j, rotl8_mod _ k, rotl8_mod b (j + k)]
  have h := rotl8_add_aux ⟨b.toNat, b.toNat_lt⟩ ⟨j % 8, Nat.mod_lt _ (by omega)⟩
    ⟨k % 8, Nat.mod_lt _ (by omega)⟩
  simpa using h

@[simp] theorem rotl8_zero (b : UInt8) : rotl8 b 0 = b := by
  revert b; apply u8_forall; decide +kernel

theorem rotl8_injective {a b : UInt8} (k : Nat) (h : rotl8 a k = rotl8 b k) : a = b := by
  have h2 := congrArg (fun x => rotl8 x (8 - k % 8)) h
  simp only [rotl8_rotl8] at h2
  rw [rotl8_mod a, rotl8_mod b] at h2
  have : (k + (8 - k % 8)) % 8 = 0 := by omega
  simpa [this] using h2

/-! ### DRC -/

theorem drc_rot_aux : ∀ i : Fin 256,
    ((let temp := (UInt8.ofNat i.val).toNat <<< 1
      let temp := if temp &&& 0x100 ≠ 0 then temp + 1 else temp
      temp &&& 0xFF) = (rotl8 (UInt8.ofNat i.val) 1).toNat) := by
  decide +kernel

theorem drcStep_toNat (s b : UInt8) : drcStep s.toNat b = (rotl8 s 1 ^^^ b).toNat := by
  have h := drc_rot_aux ⟨s.toNat, s.toNat_lt⟩
  simp only [UInt8.ofNat_toNat] at h
  simp only [drcStep]
  rw [h, ← UInt8.toNat_xor]
  exact and_ff_of_lt (UInt8.toNat_lt _)

/-- Recursive form of the rotate-XOR. -/
def rotXorRec : Bytes → UInt8
  | [] => 0
  | b :: d => rotl8 b d.length ^^^ rotXorRec d

theorem rotXor_eq_rec (d : Bytes) : rotXor d = rotXorRec d := by
  induction d with
  | nil => rfl
  | cons b d ih =>
    rw [rotXorRec, ← ih]
    simp only [rotXor, List.mapIdx_cons, xorAll_cons, List.length_cons]
    congr 2
    apply List.ext_getElem
    · simp
    · intro i h1 h2
      simp
      congr 1
      omega

theorem drc_foldl (d : Bytes) (s : UInt8) :
    d.foldl drcStep s.toNat = (rotl8 s d.length ^^^ rotXorRec d).toNat := by
  induction d generalizing s with
  | nil => simp [rotXorRec]
  | cons b d ih =>
    rw [List.foldl_cons, drcStep_toNat, ih, rotl8_xor, rotl8_rotl8, rotXorRec, List.length_cons,
      Nat.add_comm d.length 1, UInt8.xor_assoc]

theorem calculateDrc_eq (d : Bytes) : calculateDrc d = (rotXor d).toNat := by
  unfold calculateDrc
  have := drc_foldl d 0
  simp only [UInt8.toNat_zero, rotl8_zero_left, UInt8.zero_xor] at this
  rw [this, and_ff_of_lt (UInt8.toNat_lt _), rotXor_eq_rec]

@[simp] theorem rotXor_nil : rotXor [] = 0 := rfl
theorem rotXor_cons (b : UInt8) (d : Bytes) : rotXor (b :: d) = rotl8 b d.length ^^^ rotXor d := by
  simp [rotXor_eq_rec, rotXorRec]
theorem rotXor_append (a b : Bytes) : rotXor (a ++ b) = rotl8 (rotXor a) b.length ^^^ rotXor b := by
  induction a with
  | nil => simp
  | cons x a ih =>
    rw [List.cons_append, rotXor_cons, ih, rotXor_cons, rotl8_xor, rotl8_rotl8, UInt8.xor_assoc,
      List.length_append]

theorem u8_xor_left_cancel {a b c : UInt8} : a ^^^ b = a ^^^ c ↔ b = c := UInt8.xor_right_inj a
theorem u8_xor_right_cancel {a b c : UInt8} : b ^^^ a = c ^^^ a ↔ b = c := UInt8.xor_left_inj a

theorem sumMod_append (a b : Bytes) : sumMod (a ++ b) = (sumMod a + sumMod b) % 256 := by
  simp [sumMod]
theorem sumMod_cons (x : UInt8) (b : Bytes) : sumMod (x :: b) = (x.toNat + sumMod b) % 256 := by
  simp [sumMod]

end Elgas
