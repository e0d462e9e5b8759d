import Verif.Model.Aes
import Verif.Lemmas.Redundancy
/-! AES-128 decryption inverts encryption. -/
namespace Elgas.Aes

theorem xor_left (a b c : UInt8) : a ^^^ (b ^^^ c) = b ^^^ (a ^^^ c) := by
  rw [← UInt8.xor_assoc, UInt8.xor_comm a b, UInt8.xor_assoc]

theorem xor_cancel (a b : UInt8) : a ^^^ (a ^^^ b) = b := by
  rw [← UInt8.xor_assoc, UInt8.xor_self, UInt8.zero_xor]

theorem xtime_xor (a b : UInt8) : xtime (a ^^^ b) = xtime a ^^^ xtime b := by
  have h7 : ∀ x : UInt8, x >>> 7 = 0 ∨ x >>> 7 = 1 := u8_forall (by decide +kernel)
  unfold xtime
  rw [UInt8.shiftLeft_xor, UInt8.shiftRight_xor]
  generalize a <<< 1 = p
  generalize b <<< 1 = q
  rcases h7 a with ha | ha <;> rcases h7 b with hb | hb <;> rw [ha, hb] <;>
    simp [UInt8.xor_assoc, UInt8.xor_comm q 27, xor_cancel]

theorem invMix_mix (a b c d : UInt8) : columns invMixColumn (mixColumn a b c d) = [a, b, c, d] := by
  simp only [mixColumn, columns, invMixColumn, List.append_nil]
  have h00 : ∀ x : UInt8, (xtime (xtime (xtime (xtime x))) ^^^ xtime (xtime (xtime x)) ^^^ xtime (xtime x)) ^^^ (xtime (xtime (xtime (x))) ^^^ xtime (x) ^^^ (x)) ^^^ (xtime (xtime (xtime (x))) ^^^ xtime (xtime (x)) ^^^ (x)) ^^^ (xtime (xtime (xtime (xtime x ^^^ x))) ^^^ (xtime x ^^^ x)) = x := u8_forall (by decide +kernel)
  have h01 : ∀ x : UInt8, (xtime (xtime (xtime (xtime x ^^^ x))) ^^^ xtime (xtime (xtime x ^^^ x)) ^^^ xtime (xtime x ^^^ x)) ^^^ (xtime (xtime (xtime (xtime x))) ^^^ xtime (xtime x) ^^^ (xtime x)) ^^^ (xtime (xtime (xtime (x))) ^^^ xtime (xtime (x)) ^^^ (x)) ^^^ (xtime (xtime (xtime (x))) ^^^ (x)) = 0 := u8_forall (by decide +kernel)
  have h02 : ∀ x : UInt8, (xtime (xtime (xtime (x))) ^^^ xtime (xtime (x)) ^^^ xtime (x)) ^^^ (xtime (xtime (xtime (xtime x ^^^ x))) ^^^ xtime (xtime x ^^^ x) ^^^ (xtime x ^^^ x)) ^^^ (xtime (xtime (xtime (xtime x))) ^^^ xtime (xtime (xtime x)) ^^^ (xtime x)) ^^^ (xtime (xtime (xtime (x))) ^^^ (x)) = 0 := u8_forall (by decide +kernel)
  have h03 : ∀ x : UInt8, (xtime (xtime (xtime (x))) ^^^ xtime (xtime (x)) ^^^ xtime (x)) ^^^ (xtime (xtime (xtime (x))) ^^^ xtime (x) ^^^ (x)) ^^^ (xtime (xtime (xtime (xtime x ^^^ x))) ^^^ xtime (xtime (xtime x ^^^ x)) ^^^ (xtime x ^^^ x)) ^^^ (xtime (xtime (xtime (xtime x))) ^^^ (xtime x)) = 0 := u8_forall (by decide +kernel)
  have h10 : ∀ x : UInt8, (xtime (xtime (xtime (xtime x))) ^^^ (xtime x)) ^^^ (xtime (xtime (xtime (x))) ^^^ xtime (xtime (x)) ^^^ xtime (x)) ^^^ (xtime (xtime (xtime (x))) ^^^ xtime (x) ^^^ (x)) ^^^ (xtime (xtime (xtime (xtime x ^^^ x))) ^^^ xtime (xtime (xtime x ^^^ x)) ^^^ (xtime x ^^^ x)) = 0 := u8_forall (by decide +kernel)
  have h11 : ∀ x : UInt8, (xtime (xtime (xtime (xtime x ^^^ x))) ^^^ (xtime x ^^^ x)) ^^^ (xtime (xtime (xtime (xtime x))) ^^^ xtime (xtime (xtime x)) ^^^ xtime (xtime x)) ^^^ (xtime (xtime (xtime (x))) ^^^ xtime (x) ^^^ (x)) ^^^ (xtime (xtime (xtime (x))) ^^^ xtime (xtime (x)) ^^^ (x)) = x := u8_forall (by decide +kernel)
  have h12 : ∀ x : UInt8, (xtime (xtime (xtime (x))) ^^^ (x)) ^^^ (xtime (xtime (xtime (xtime x ^^^ x))) ^^^ xtime (xtime (xtime x ^^^ x)) ^^^ xtime (xtime x ^^^ x)) ^^^ (xtime (xtime (xtime (xtime x))) ^^^ xtime (xtime x) ^^^ (xtime x)) ^^^ (xtime (xtime (xtime (x))) ^^^ xtime (xtime (x)) ^^^ (x)) = 0 := u8_forall (by decide +kernel)
  have h13 : ∀ x : UInt8, (xtime (xtime (xtime (x))) ^^^ (x)) ^^^ (xtime (xtime (xtime (x))) ^^^ xtime (xtime (x)) ^^^ xtime (x)) ^^^ (xtime (xtime (xtime (xtime x ^^^ x))) ^^^ xtime (xtime x ^^^ x) ^^^ (xtime x ^^^ x)) ^^^ (xtime (xtime (xtime (xtime x))) ^^^ xtime (xtime (xtime x)) ^^^ (xtime x)) = 0 := u8_forall (by decide +kernel)
  have h20 : ∀ x : UInt8, (xtime (xtime (xtime (xtime x))) ^^^ xtime (xtime (xtime x)) ^^^ (xtime x)) ^^^ (xtime (xtime (xtime (x))) ^^^ (x)) ^^^ (xtime (xtime (xtime (x))) ^^^ xtime (xtime (x)) ^^^ xtime (x)) ^^^ (xtime (xtime (xtime (xtime x ^^^ x))) ^^^ xtime (xtime x ^^^ x) ^^^ (xtime x ^^^ x)) = 0 := u8_forall (by decide +kernel)
  have h21 : ∀ x : UInt8, (xtime (xtime (xtime (xtime x ^^^ x))) ^^^ xtime (xtime (xtime x ^^^ x)) ^^^ (xtime x ^^^ x)) ^^^ (xtime (xtime (xtime (xtime x))) ^^^ (xtime x)) ^^^ (xtime (xtime (xtime (x))) ^^^ xtime (xtime (x)) ^^^ xtime (x)) ^^^ (xtime (xtime (xtime (x))) ^^^ xtime (x) ^^^ (x)) = 0 := u8_forall (by decide +kernel)
  have h22 : ∀ x : UInt8, (xtime (xtime (xtime (x))) ^^^ xtime (xtime (x)) ^^^ (x)) ^^^ (xtime (xtime (xtime (xtime x ^^^ x))) ^^^ (xtime x ^^^ x)) ^^^ (xtime (xtime (xtime (xtime x))) ^^^ xtime (xtime (xtime x)) ^^^ xtime (xtime x)) ^^^ (xtime (xtime (xtime (x))) ^^^ xtime (x) ^^^ (x)) = x := u8_forall (by decide +kernel)
  have h23 : ∀ x : UInt8, (xtime (xtime (xtime (x))) ^^^ xtime (xtime (x)) ^^^ (x)) ^^^ (xtime (xtime (xtime (x))) ^^^ (x)) ^^^ (xtime (xtime (xtime (xtime x ^^^ x))) ^^^ xtime (xtime (xtime x ^^^ x)) ^^^ xtime (xtime x ^^^ x)) ^^^ (xtime (xtime (xtime (xtime x))) ^^^ xtime (xtime x) ^^^ (xtime x)) = 0 := u8_forall (by decide +kernel)
  have h30 : ∀ x : UInt8, (xtime (xtime (xtime (xtime x))) ^^^ xtime (xtime x) ^^^ (xtime x)) ^^^ (xtime (xtime (xtime (x))) ^^^ xtime (xtime (x)) ^^^ (x)) ^^^ (xtime (xtime (xtime (x))) ^^^ (x)) ^^^ (xtime (xtime (xtime (xtime x ^^^ x))) ^^^ xtime (xtime (xtime x ^^^ x)) ^^^ xtime (xtime x ^^^ x)) = 0 := u8_forall (by decide +kernel)
  have h31 : ∀ x : UInt8, (xtime (xtime (xtime (xtime x ^^^ x))) ^^^ xtime (xtime x ^^^ x) ^^^ (xtime x ^^^ x)) ^^^ (xtime (xtime (xtime (xtime x))) ^^^ xtime (xtime (xtime x)) ^^^ (xtime x)) ^^^ (xtime (xtime (xtime (x))) ^^^ (x)) ^^^ (xtime (xtime (xtime (x))) ^^^ xtime (xtime (x)) ^^^ xtime (x)) = 0 := u8_forall (by decide +kernel)
  have h32 : ∀ x : UInt8, (xtime (xtime (xtime (x))) ^^^ xtime (x) ^^^ (x)) ^^^ (xtime (xtime (xtime (xtime x ^^^ x))) ^^^ xtime (xtime (xtime x ^^^ x)) ^^^ (xtime x ^^^ x)) ^^^ (xtime (xtime (xtime (xtime x))) ^^^ (xtime x)) ^^^ (xtime (xtime (xtime (x))) ^^^ xtime (xtime (x)) ^^^ xtime (x)) = 0 := u8_forall (by decide +kernel)
  have h33 : ∀ x : UInt8, (xtime (xtime (xtime (x))) ^^^ xtime (x) ^^^ (x)) ^^^ (xtime (xtime (xtime (x))) ^^^ xtime (xtime (x)) ^^^ (x)) ^^^ (xtime (xtime (xtime (xtime x ^^^ x))) ^^^ (xtime x ^^^ x)) ^^^ (xtime (xtime (xtime (xtime x))) ^^^ xtime (xtime (xtime x)) ^^^ xtime (xtime x)) = x := u8_forall (by decide +kernel)
  simp only [xtime_xor] at *
  refine List.cons_eq_cons.2 ⟨?_, List.cons_eq_cons.2 ⟨?_, List.cons_eq_cons.2 ⟨?_, List.cons_eq_cons.2 ⟨?_, rfl⟩⟩⟩⟩
  · refine Eq.trans ?_ (show a ^^^ 0 ^^^ 0 ^^^ 0 = a by simp)
    refine Eq.trans ?_ (congr (congrArg _ (congr (congrArg _ (congr (congrArg _ (h00 a)) (h01 b))) (h02 c))) (h03 d))
    ac_rfl
  · refine Eq.trans ?_ (show 0 ^^^ b ^^^ 0 ^^^ 0 = b by simp)
    refine Eq.trans ?_ (congr (congrArg _ (congr (congrArg _ (congr (congrArg _ (h10 a)) (h11 b))) (h12 c))) (h13 d))
    ac_rfl
  · refine Eq.trans ?_ (show 0 ^^^ 0 ^^^ c ^^^ 0 = c by simp)
    refine Eq.trans ?_ (congr (congrArg _ (congr (congrArg _ (congr (congrArg _ (h20 a)) (h21 b))) (h22 c))) (h23 d))
    ac_rfl
  · refine Eq.trans ?_ (show 0 ^^^ 0 ^^^ 0 ^^^ d = d by simp)
    refine Eq.trans ?_ (congr (congrArg _ (congr (congrArg _ (congr (congrArg _ (h30 a)) (h31 b))) (h32 c))) (h33 d))
    ac_rfl

theorem mix_invMix (a b c d : UInt8) : columns mixColumn (invMixColumn a b c d) = [a, b, c, d] := by
  simp only [invMixColumn, columns, mixColumn, List.append_nil]
  have h00 : ∀ x : UInt8, (xtime (xtime (xtime (xtime x)) ^^^ xtime (xtime x) ^^^ xtime x)) ^^^ (xtime (xtime (xtime (xtime x)) ^^^ x) ^^^ (xtime (xtime (xtime x)) ^^^ x)) ^^^ ((xtime (xtime (xtime x)) ^^^ xtime (xtime x) ^^^ x)) ^^^ ((xtime (xtime (xtime x)) ^^^ xtime x ^^^ x)) = x := u8_forall (by decide +kernel)
  have h01 : ∀ x : UInt8, (xtime (xtime (xtime (xtime x)) ^^^ xtime x ^^^ x)) ^^^ (xtime (xtime (xtime (xtime x)) ^^^ xtime (xtime x) ^^^ xtime x) ^^^ (xtime (xtime (xtime x)) ^^^ xtime (xtime x) ^^^ xtime x)) ^^^ ((xtime (xtime (xtime x)) ^^^ x)) ^^^ ((xtime (xtime (xtime x)) ^^^ xtime (xtime x) ^^^ x)) = 0 := u8_forall (by decide +kernel)
  have h02 : ∀ x : UInt8, (xtime (xtime (xtime (xtime x)) ^^^ xtime (xtime x) ^^^ x)) ^^^ (xtime (xtime (xtime (xtime x)) ^^^ xtime x ^^^ x) ^^^ (xtime (xtime (xtime x)) ^^^ xtime x ^^^ x)) ^^^ ((xtime (xtime (xtime x)) ^^^ xtime (xtime x) ^^^ xtime x)) ^^^ ((xtime (xtime (xtime x)) ^^^ x)) = 0 := u8_forall (by decide +kernel)
  have h03 : ∀ x : UInt8, (xtime (xtime (xtime (xtime x)) ^^^ x)) ^^^ (xtime (xtime (xtime (xtime x)) ^^^ xtime (xtime x) ^^^ x) ^^^ (xtime (xtime (xtime x)) ^^^ xtime (xtime x) ^^^ x)) ^^^ ((xtime (xtime (xtime x)) ^^^ xtime x ^^^ x)) ^^^ ((xtime (xtime (xtime x)) ^^^ xtime (xtime x) ^^^ xtime x)) = 0 := u8_forall (by decide +kernel)
  have h10 : ∀ x : UInt8, ((xtime (xtime (xtime x)) ^^^ xtime (xtime x) ^^^ xtime x)) ^^^ (xtime (xtime (xtime (xtime x)) ^^^ x)) ^^^ (xtime (xtime (xtime (xtime x)) ^^^ xtime (xtime x) ^^^ x) ^^^ (xtime (xtime (xtime x)) ^^^ xtime (xtime x) ^^^ x)) ^^^ ((xtime (xtime (xtime x)) ^^^ xtime x ^^^ x)) = 0 := u8_forall (by decide +kernel)
  have h11 : ∀ x : UInt8, ((xtime (xtime (xtime x)) ^^^ xtime x ^^^ x)) ^^^ (xtime (xtime (xtime (xtime x)) ^^^ xtime (xtime x) ^^^ xtime x)) ^^^ (xtime (xtime (xtime (xtime x)) ^^^ x) ^^^ (xtime (xtime (xtime x)) ^^^ x)) ^^^ ((xtime (xtime (xtime x)) ^^^ xtime (xtime x) ^^^ x)) = x := u8_forall (by decide +kernel)
  have h12 : ∀ x : UInt8, ((xtime (xtime (xtime x)) ^^^ xtime (xtime x) ^^^ x)) ^^^ (xtime (xtime (xtime (xtime x)) ^^^ xtime x ^^^ x)) ^^^ (xtime (xtime (xtime (xtime x)) ^^^ xtime (xtime x) ^^^ xtime x) ^^^ (xtime (xtime (xtime x)) ^^^ xtime (xtime x) ^^^ xtime x)) ^^^ ((xtime (xtime (xtime x)) ^^^ x)) = 0 := u8_forall (by decide +kernel)
  have h13 : ∀ x : UInt8, ((xtime (xtime (xtime x)) ^^^ x)) ^^^ (xtime (xtime (xtime (xtime x)) ^^^ xtime (xtime x) ^^^ x)) ^^^ (xtime (xtime (xtime (xtime x)) ^^^ xtime x ^^^ x) ^^^ (xtime (xtime (xtime x)) ^^^ xtime x ^^^ x)) ^^^ ((xtime (xtime (xtime x)) ^^^ xtime (xtime x) ^^^ xtime x)) = 0 := u8_forall (by decide +kernel)
  have h20 : ∀ x : UInt8, ((xtime (xtime (xtime x)) ^^^ xtime (xtime x) ^^^ xtime x)) ^^^ ((xtime (xtime (xtime x)) ^^^ x)) ^^^ (xtime (xtime (xtime (xtime x)) ^^^ xtime (xtime x) ^^^ x)) ^^^ (xtime (xtime (xtime (xtime x)) ^^^ xtime x ^^^ x) ^^^ (xtime (xtime (xtime x)) ^^^ xtime x ^^^ x)) = 0 := u8_forall (by decide +kernel)
  have h21 : ∀ x : UInt8, ((xtime (xtime (xtime x)) ^^^ xtime x ^^^ x)) ^^^ ((xtime (xtime (xtime x)) ^^^ xtime (xtime x) ^^^ xtime x)) ^^^ (xtime (xtime (xtime (xtime x)) ^^^ x)) ^^^ (xtime (xtime (xtime (xtime x)) ^^^ xtime (xtime x) ^^^ x) ^^^ (xtime (xtime (xtime x)) ^^^ xtime (xtime x) ^^^ x)) = 0 := u8_forall (by decide +kernel)
  have h22 : ∀ x : UInt8, ((xtime (xtime (xtime x)) ^^^ xtime (xtime x) ^^^ x)) ^^^ ((xtime (xtime (xtime x)) ^^^ xtime x ^^^ x)) ^^^ (xtime (xtime (xtime (xtime x)) ^^^ xtime (xtime x) ^^^ xtime x)) ^^^ (xtime (xtime (xtime (xtime x)) ^^^ x) ^^^ (xtime (xtime (xtime x)) ^^^ x)) = x := u8_forall (by decide +kernel)
  have h23 : ∀ x : UInt8, ((xtime (xtime (xtime x)) ^^^ x)) ^^^ ((xtime (xtime (xtime x)) ^^^ xtime (xtime x) ^^^ x)) ^^^ (xtime (xtime (xtime (xtime x)) ^^^ xtime x ^^^ x)) ^^^ (xtime (xtime (xtime (xtime x)) ^^^ xtime (xtime x) ^^^ xtime x) ^^^ (xtime (xtime (xtime x)) ^^^ xtime (xtime x) ^^^ xtime x)) = 0 := u8_forall (by decide +kernel)
  have h30 : ∀ x : UInt8, (xtime (xtime (xtime (xtime x)) ^^^ xtime (xtime x) ^^^ xtime x) ^^^ (xtime (xtime (xtime x)) ^^^ xtime (xtime x) ^^^ xtime x)) ^^^ ((xtime (xtime (xtime x)) ^^^ x)) ^^^ ((xtime (xtime (xtime x)) ^^^ xtime (xtime x) ^^^ x)) ^^^ (xtime (xtime (xtime (xtime x)) ^^^ xtime x ^^^ x)) = 0 := u8_forall (by decide +kernel)
  have h31 : ∀ x : UInt8, (xtime (xtime (xtime (xtime x)) ^^^ xtime x ^^^ x) ^^^ (xtime (xtime (xtime x)) ^^^ xtime x ^^^ x)) ^^^ ((xtime (xtime (xtime x)) ^^^ xtime (xtime x) ^^^ xtime x)) ^^^ ((xtime (xtime (xtime x)) ^^^ x)) ^^^ (xtime (xtime (xtime (xtime x)) ^^^ xtime (xtime x) ^^^ x)) = 0 := u8_forall (by decide +kernel)
  have h32 : ∀ x : UInt8, (xtime (xtime (xtime (xtime x)) ^^^ xtime (xtime x) ^^^ x) ^^^ (xtime (xtime (xtime x)) ^^^ xtime (xtime x) ^^^ x)) ^^^ ((xtime (xtime (xtime x)) ^^^ xtime x ^^^ x)) ^^^ ((xtime (xtime (xtime x)) ^^^ xtime (xtime x) ^^^ xtime x)) ^^^ (xtime (xtime (xtime (xtime x)) ^^^ x)) = 0 := u8_forall (by decide +kernel)
  have h33 : ∀ x : UInt8, (xtime (xtime (xtime (xtime x)) ^^^ x) ^^^ (xtime (xtime (xtime x)) ^^^ x)) ^^^ ((xtime (xtime (xtime x)) ^^^ xtime (xtime x) ^^^ x)) ^^^ ((xtime (xtime (xtime x)) ^^^ xtime x ^^^ x)) ^^^ (xtime (xtime (xtime (xtime x)) ^^^ xtime (xtime x) ^^^ xtime x)) = x := u8_forall (by decide +kernel)
  simp only [xtime_xor] at *
  refine List.cons_eq_cons.2 ⟨?_, List.cons_eq_cons.2 ⟨?_, List.cons_eq_cons.2 ⟨?_, List.cons_eq_cons.2 ⟨?_, rfl⟩⟩⟩⟩
  · refine Eq.trans ?_ (show a ^^^ 0 ^^^ 0 ^^^ 0 = a by simp)
    refine Eq.trans ?_ (congr (congrArg _ (congr (congrArg _ (congr (congrArg _ (h00 a)) (h01 b))) (h02 c))) (h03 d))
    ac_rfl
  · refine Eq.trans ?_ (show 0 ^^^ b ^^^ 0 ^^^ 0 = b by simp)
    refine Eq.trans ?_ (congr (congrArg _ (congr (congrArg _ (congr (congrArg _ (h10 a)) (h11 b))) (h12 c))) (h13 d))
    ac_rfl
  · refine Eq.trans ?_ (show 0 ^^^ 0 ^^^ c ^^^ 0 = c by simp)
    refine Eq.trans ?_ (congr (congrArg _ (congr (congrArg _ (congr (congrArg _ (h20 a)) (h21 b))) (h22 c))) (h23 d))
    ac_rfl
  · refine Eq.trans ?_ (show 0 ^^^ 0 ^^^ 0 ^^^ d = d by simp)
    refine Eq.trans ?_ (congr (congrArg _ (congr (congrArg _ (congr (congrArg _ (h30 a)) (h31 b))) (h32 c))) (h33 d))
    ac_rfl

theorem invSbox_sbox : ∀ b : UInt8, invSbox (sbox b) = b := u8_forall (by decide +kernel)

theorem sbox_invSbox : ∀ b : UInt8, sbox (invSbox b) = b := u8_forall (by decide +kernel)

theorem map_inv {f g : UInt8 → UInt8} (h : ∀ b, g (f b) = b) (s : Bytes) : (s.map f).map g = s := by
  rw [List.map_map]
  conv => rhs; rw [← List.map_id s]
  exact List.map_congr_left fun b _ => h b

theorem state_cases {P : Bytes → Prop}
    (h : ∀ s0 s1 s2 s3 s4 s5 s6 s7 s8 s9 s10 s11 s12 s13 s14 s15 : UInt8,
      P [s0, s1, s2, s3, s4, s5, s6, s7, s8, s9, s10, s11, s12, s13, s14, s15])
    (s : Bytes) (hs : s.length = 16) : P s := by
  match s, hs with
  | [s0, s1, s2, s3, s4, s5, s6, s7, s8, s9, s10, s11, s12, s13, s14, s15], _ => exact h ..

theorem shiftRows_length (s : Bytes) (hs : s.length = 16) : (shiftRows s).length = 16 :=
  state_cases (P := fun s => (shiftRows s).length = 16) (by intros; rfl) s hs

theorem invShiftRows_length (s : Bytes) (hs : s.length = 16) : (invShiftRows s).length = 16 :=
  state_cases (P := fun s => (invShiftRows s).length = 16) (by intros; rfl) s hs

theorem invShift_shift (s : Bytes) (hs : s.length = 16) : invShiftRows (shiftRows s) = s :=
  state_cases (P := fun s => invShiftRows (shiftRows s) = s) (by intros; rfl) s hs

theorem shift_invShift (s : Bytes) (hs : s.length = 16) : shiftRows (invShiftRows s) = s :=
  state_cases (P := fun s => shiftRows (invShiftRows s) = s) (by intros; rfl) s hs

theorem columns_length {f : UInt8 → UInt8 → UInt8 → UInt8 → Bytes} (hf : ∀ a b c d, (f a b c d).length = 4)
    (s : Bytes) (hs : s.length = 16) : (columns f s).length = 16 :=
  state_cases (P := fun s => (columns f s).length = 16) (by intros; simp [columns, hf]) s hs

theorem columns_append (f : UInt8 → UInt8 → UInt8 → UInt8 → Bytes) (p s : Bytes) (hp : p.length = 4) :
    columns f (p ++ s) = columns f p ++ columns f s := by
  match p, hp with
  | [a, b, c, d], _ => simp [columns]

theorem columns_inv {f g : UInt8 → UInt8 → UInt8 → UInt8 → Bytes} (hf : ∀ a b c d, (f a b c d).length = 4)
    (h : ∀ a b c d, columns g (f a b c d) = [a, b, c, d]) (s : Bytes) (hs : s.length = 16) :
    columns g (columns f s) = s :=
  state_cases (P := fun s => columns g (columns f s) = s)
    (by intros; simp only [columns, columns_append g _ _ (hf ..), h]; rfl) s hs

theorem xorBlock_length (s k : Bytes) (hs : s.length = 16) (hk : k.length = 16) :
    (xorBlock s k).length = 16 := by
  unfold xorBlock; rw [List.length_zipWith, hs, hk]; rfl

theorem xorBlock_cancel (s k : Bytes) (h : s.length = k.length) : xorBlock (xorBlock s k) k = s := by
  induction s generalizing k with
  | nil => cases k with
    | nil => rfl
    | cons _ _ => simp at h
  | cons a s ih => cases k with
    | nil => simp at h
    | cons b k =>
      have := ih k (by simpa using h)
      unfold xorBlock at *
      simp only [List.zipWith_cons_cons, this, UInt8.xor_assoc, UInt8.xor_self, UInt8.xor_zero]

theorem nextKey_length (r : UInt8) (k : Bytes) (hk : k.length = 16) : (nextKey r k).length = 16 :=
  state_cases (P := fun k => (nextKey r k).length = 16) (by intros; rfl) k hk

theorem roundKeys_length (rs : List UInt8) (k : Bytes) (hk : k.length = 16) :
    ∀ x ∈ roundKeys rs k, x.length = 16 := by
  induction rs generalizing k with
  | nil => simp [roundKeys]
  | cons r rs ih =>
    intro x hx
    simp only [roundKeys, List.mem_cons] at hx
    rcases hx with rfl | hx
    · exact nextKey_length r k hk
    · exact ih _ (nextKey_length r k hk) x hx

theorem mix_length (a b c d : UInt8) : (mixColumn a b c d).length = 4 := rfl
theorem invMix_length (a b c d : UInt8) : (invMixColumn a b c d).length = 4 := rfl

theorem rounds_length (ks : List Bytes) (hk : ∀ k ∈ ks, k.length = 16) (s : Bytes) (hs : s.length = 16) :
    (rounds ks s).length = 16 := by
  induction ks generalizing s with
  | nil => exact hs
  | cons k ks ih =>
    have h1 : (shiftRows (s.map sbox)).length = 16 := shiftRows_length _ (by simpa using hs)
    cases ks with
    | nil => exact xorBlock_length _ _ h1 (hk k (by simp))
    | cons k' ks =>
      exact ih (fun x hx => hk x (by simp [hx])) _
        (xorBlock_length _ _ (columns_length mix_length _ h1) (hk k (by simp)))

theorem invRounds_length (ks : List Bytes) (hk : ∀ k ∈ ks, k.length = 16) (s : Bytes) (hs : s.length = 16) :
    (invRounds ks s).length = 16 := by
  induction ks with
  | nil => exact hs
  | cons k ks ih =>
    cases ks with
    | nil =>
      simp only [invRounds, List.length_map]
      exact invShiftRows_length _ (xorBlock_length _ _ hs (hk k (by simp)))
    | cons k' ks =>
      simp only [invRounds, List.length_map]
      exact invShiftRows_length _ (columns_length invMix_length _
        (xorBlock_length _ _ (ih fun x hx => hk x (by simp [hx])) (hk k (by simp))))

theorem invRounds_rounds (ks : List Bytes) (hk : ∀ k ∈ ks, k.length = 16) (s : Bytes) (hs : s.length = 16) :
    invRounds ks (rounds ks s) = s := by
  induction ks generalizing s with
  | nil => rfl
  | cons k ks ih =>
    have hk0 := hk k (by simp)
    have h0 : (s.map sbox).length = 16 := by simpa using hs
    have h1 : (shiftRows (s.map sbox)).length = 16 := shiftRows_length _ h0
    cases ks with
    | nil =>
      simp only [rounds, invRounds]
      rw [xorBlock_cancel _ _ (by omega), invShift_shift _ h0, map_inv invSbox_sbox]
    | cons k' ks =>
      have h2 := columns_length mix_length _ h1
      simp only [rounds, invRounds]
      rw [ih (fun x hx => hk x (by simp [hx])) _ (xorBlock_length _ _ h2 hk0), xorBlock_cancel _ _ (by omega),
        columns_inv mix_length invMix_mix _ h1, invShift_shift _ h0, map_inv invSbox_sbox]

theorem rounds_invRounds (ks : List Bytes) (hk : ∀ k ∈ ks, k.length = 16) (s : Bytes) (hs : s.length = 16) :
    rounds ks (invRounds ks s) = s := by
  induction ks generalizing s with
  | nil => rfl
  | cons k ks ih =>
    have hk0 := hk k (by simp)
    cases ks with
    | nil =>
      have h1 := xorBlock_length s k hs hk0
      simp only [rounds, invRounds]
      rw [map_inv sbox_invSbox, shift_invShift _ h1, xorBlock_cancel _ _ (by omega)]
    | cons k' ks =>
      have hks : ∀ x ∈ k' :: ks, x.length = 16 := fun x hx => hk x (by simp [hx])
      have h0 := invRounds_length (k' :: ks) hks s hs
      have h1 := xorBlock_length _ k h0 hk0
      have h2 := columns_length invMix_length _ h1
      simp only [rounds, invRounds] at ih ⊢
      rw [map_inv sbox_invSbox, shift_invShift _ h2, columns_inv invMix_length mix_invMix _ h1,
        xorBlock_cancel _ _ (by omega)]
      exact ih hks s hs

end Elgas.Aes

namespace Elgas

/-- AES-128 is a block cipher in the sense of the model. -/
def aes128 : BlockCipher where
  enc := Aes.encrypt
  dec := Aes.decrypt
  enc_length k b hk hb :=
    Aes.rounds_length _ (Aes.roundKeys_length _ k hk) _ (Aes.xorBlock_length b k hb hk)
  dec_length k b hk hb :=
    Aes.xorBlock_length _ k (Aes.invRounds_length _ (Aes.roundKeys_length _ k hk) b hb) hk
  dec_enc k b hk hb := by
    unfold Aes.decrypt Aes.encrypt
    rw [Aes.invRounds_rounds _ (Aes.roundKeys_length _ k hk) _ (Aes.xorBlock_length b k hb hk),
      Aes.xorBlock_cancel _ _ (by omega)]
  enc_dec k b hk hb := by
    unfold Aes.decrypt Aes.encrypt
    rw [Aes.xorBlock_cancel _ _ (by rw [Aes.invRounds_length _ (Aes.roundKeys_length _ k hk) b hb, hk]),
      Aes.rounds_invRounds _ (Aes.roundKeys_length _ k hk) b hb]

/-- FIPS-197 appendix C.1: the function is AES-128 (a test of the model, not a claim about the code). -/
example : aes128.enc
    [0x00, 0x01, 0x02, 0x03, 0x04, 0x05, 0x06, 0x07, 0x08, 0x09, 0x0a, 0x0b, 0x0c, 0x0d, 0x0e, 0x0f]
    [0x00, 0x11, 0x22, 0x33, 0x44, 0x55, 0x66, 0x77, 0x88, 0x99, 0xaa, 0xbb, 0xcc, 0xdd, 0xee, 0xff] =
    [0x69, 0xc4, 0xe0, 0xd8, 0x6a, 0x7b, 0x04, 0x30, 0xd8, 0xcd, 0xb7, 0x80, 0x70, 0xb4, 0xc5, 0x5a] := by
  decide +kernel

end Elgas
