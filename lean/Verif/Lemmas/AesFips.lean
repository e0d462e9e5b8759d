import Verif.Lemmas.Aes
import Verif.Spec.Aes
/-! The table-driven AES-128 of the model is the cipher of FIPS-197. -/
namespace Elgas
open Spec

theorem aes_mul2 : ∀ x : UInt8, Spec.Aes.mul 2 x = Aes.xtime x := u8_forall (by decide +kernel)
theorem aes_mul3 : ∀ x : UInt8, Spec.Aes.mul 3 x = Aes.xtime x ^^^ x := u8_forall (by decide +kernel)

theorem output_eq (s : Spec.Aes.State) : Spec.Aes.output s =
    [s 0 0, s 1 0, s 2 0, s 3 0, s 0 1, s 1 1, s 2 1, s 3 1, s 0 2, s 1 2, s 2 2, s 3 2, s 0 3, s 1 3, s 2 3, s 3 3] := rfl

/-- The key of round `n` as a block. -/
def aesKey (S : UInt8 → UInt8) (key : Bytes) (n : Nat) : Bytes :=
  Spec.Aes.output fun r c => Spec.Aes.word S key (4 * n + c) r

theorem aesWord_first (S : UInt8 → UInt8) (key : Bytes) (n j : Nat) : Spec.Aes.word S key (4 * (n + 1) + 0) j =
    Spec.Aes.word S key (4 * n + 0) j ^^^
      (S (Spec.Aes.word S key (4 * n + 3) ((j + 1) % 4)) ^^^ if j = 0 then Spec.Aes.pow 2 n else 0) := by
  rw [Spec.Aes.word, if_neg (by omega), if_pos (by omega)]
  rw [show 4 * (n + 1) + 0 - 4 = 4 * n + 0 by omega, show 4 * (n + 1) + 0 - 1 = 4 * n + 3 by omega,
    show (4 * (n + 1) + 0) / 4 - 1 = n by omega]

theorem aesWord_next (S : UInt8 → UInt8) (key : Bytes) (n c j : Nat) (hc : c < 3) :
    Spec.Aes.word S key (4 * (n + 1) + (c + 1)) j =
    Spec.Aes.word S key (4 * n + (c + 1)) j ^^^ Spec.Aes.word S key (4 * (n + 1) + c) j := by
  conv => lhs; rw [Spec.Aes.word]
  rw [if_neg (by omega), if_neg (by omega)]
  rw [show 4 * (n + 1) + (c + 1) - 4 = 4 * n + (c + 1) by omega,
    show 4 * (n + 1) + (c + 1) - 1 = 4 * (n + 1) + c by omega]

theorem aesKey_zero (S : UInt8 → UInt8) (key : Bytes) (hk : key.length = 16) : aesKey S key 0 = key := by
  refine Aes.state_cases (P := fun key => aesKey S key 0 = key) ?_ key hk
  intros
  unfold aesKey
  rw [output_eq]
  simp [Spec.Aes.word]

theorem aesKey_next (key : Bytes) (n : Nat) :
    Aes.nextKey (Spec.Aes.pow 2 n) (aesKey Aes.sbox key n) = aesKey Aes.sbox key (n + 1) := by
  unfold aesKey
  rw [output_eq, output_eq]
  have h0 := aesWord_first Aes.sbox key n
  have h1 := fun j => aesWord_next Aes.sbox key n 0 j (by omega)
  have h2 := fun j => aesWord_next Aes.sbox key n 1 j (by omega)
  have h3 := fun j => aesWord_next Aes.sbox key n 2 j (by omega)
  simp only [h3, h2, h1, h0]
  rfl

theorem aesKeys (key : Bytes) (hk : key.length = 16) : Aes.roundKeys Aes.rcons key =
    (List.range 10).map fun i => aesKey Aes.sbox key (i + 1) := by
  have h : Aes.rcons = (List.range 10).map (Spec.Aes.pow 2) := by decide +kernel
  have hg : ∀ m n, Aes.roundKeys ((List.range' n m).map (Spec.Aes.pow 2)) (aesKey Aes.sbox key n) =
      (List.range' n m).map fun i => aesKey Aes.sbox key (i + 1) := by
    intro m
    induction m with
    | zero => intro n; rfl
    | succ m ih =>
      intro n
      simp only [List.range'_succ, List.map_cons, Aes.roundKeys]
      rw [aesKey_next, ih (n + 1)]
  have := hg 10 0
  rw [aesKey_zero _ _ hk] at this
  rw [h, List.range_eq_range', this]

theorem aesXor (s : Spec.Aes.State) (S : UInt8 → UInt8) (key : Bytes) (n : Nat) :
    xorBlock (Spec.Aes.output s) (aesKey S key n) = Spec.Aes.output (Spec.Aes.addRoundKey S key n s) := rfl

theorem aesShift (S : UInt8 → UInt8) (s : Spec.Aes.State) : Aes.shiftRows ((Spec.Aes.output s).map S) =
    Spec.Aes.output (Spec.Aes.shiftRows (Spec.Aes.subBytes S s)) := rfl

theorem aesMix (s : Spec.Aes.State) : Aes.columns Aes.mixColumn (Spec.Aes.output s) =
    Spec.Aes.output (Spec.Aes.mixColumns s) := by
  rw [output_eq, output_eq]
  simp only [Aes.columns, Aes.mixColumn, Spec.Aes.mixColumns, aes_mul2, aes_mul3, List.cons_append, List.nil_append,
    List.cons.injEq, and_true]
  simp only [Nat.reduceAdd, Nat.reduceMod]
  refine ⟨?_, ?_, ?_, ?_, ?_, ?_, ?_, ?_, ?_, ?_, ?_, ?_, ?_, ?_, ?_, ?_⟩ <;> first | trivial | ac_rfl

theorem aes_rounds (key b : Bytes) (m n : Nat) :
    Aes.rounds ((List.range' n (m + 1)).map fun i => aesKey Aes.sbox key (i + 1))
      (Spec.Aes.output (Spec.Aes.after Aes.sbox key b n)) =
    Spec.Aes.output (Spec.Aes.addRoundKey Aes.sbox key (n + m + 1) (Spec.Aes.shiftRows
      (Spec.Aes.subBytes Aes.sbox (Spec.Aes.after Aes.sbox key b (n + m))))) := by
  induction m generalizing n with
  | zero =>
    show Aes.rounds [aesKey Aes.sbox key (n + 1)] _ = _
    rw [Aes.rounds, aesShift, aesXor]; rfl
  | succ m ih =>
    have h := ih (n + 1)
    rw [show n + 1 + m = n + (m + 1) by omega] at h
    rw [← h]
    rw [List.range'_succ, List.map_cons, List.range'_succ, List.map_cons, Aes.rounds, aesShift, aesMix, aesXor]
    · rfl
    · simp

theorem aes_input (b : Bytes) (hb : b.length = 16) : Spec.Aes.output (Spec.Aes.input b) = b :=
  Aes.state_cases (P := fun b => Spec.Aes.output (Spec.Aes.input b) = b) (by intros; rfl) b hb

theorem aes_cipher (key b : Bytes) (hk : key.length = 16) (hb : b.length = 16) :
    Aes.encrypt key b = Spec.Aes.cipher Aes.sbox key b := by
  have h := aes_rounds key b 9 0
  rw [← List.range_eq_range', ← aesKeys key hk] at h
  rw [show 0 + 9 + 1 = 10 from rfl, show 0 + 9 = 9 from rfl] at h
  unfold Aes.encrypt
  rw [Spec.Aes.cipher, ← h, Spec.Aes.after, ← aesXor, aes_input b hb, aesKey_zero _ _ hk]

theorem polyStep_xor (k c p q : Nat) :
    (if (p ^^^ q).testBit k then (p ^^^ q) ^^^ c else p ^^^ q) =
    (if p.testBit k then p ^^^ c else p) ^^^ (if q.testBit k then q ^^^ c else q) := by
  rw [Nat.testBit_xor]
  cases p.testBit k <;> cases q.testBit k <;> simp
  · rw [Nat.xor_assoc]
  · rw [Nat.xor_assoc, Nat.xor_assoc, Nat.xor_comm c q]
  · rw [Nat.xor_assoc, ← Nat.xor_assoc c q c, Nat.xor_comm c q, Nat.xor_assoc q c c, Nat.xor_self, Nat.xor_zero]

theorem polyMod_fold (l : List Nat) (p q : Nat) :
    l.foldl (fun p i => if p.testBit (8 + i) then p ^^^ (0x11B <<< i) else p) (p ^^^ q) =
    l.foldl (fun p i => if p.testBit (8 + i) then p ^^^ (0x11B <<< i) else p) p ^^^
    l.foldl (fun p i => if p.testBit (8 + i) then p ^^^ (0x11B <<< i) else p) q := by
  induction l generalizing p q with
  | nil => rfl
  | cons i l ih => simp only [List.foldl_cons]; rw [polyStep_xor, ih]

theorem polyMul_fold (a b c : Nat) (l : List Nat) (p q : Nat) :
    l.foldl (fun p i => if (b ^^^ c).testBit i then p ^^^ (a <<< i) else p) (p ^^^ q) =
    l.foldl (fun p i => if b.testBit i then p ^^^ (a <<< i) else p) p ^^^
    l.foldl (fun p i => if c.testBit i then p ^^^ (a <<< i) else p) q := by
  induction l generalizing p q with
  | nil => rfl
  | cons i l ih =>
    simp only [List.foldl_cons]
    rw [← ih]
    congr 1
    generalize a <<< i = x
    rw [Nat.testBit_xor]
    cases b.testBit i <;> cases c.testBit i <;> simp
    · rw [Nat.xor_assoc]
    · rw [Nat.xor_assoc, Nat.xor_assoc, Nat.xor_comm x q]
    · rw [Nat.xor_assoc, ← Nat.xor_assoc x q x, Nat.xor_comm x q, Nat.xor_assoc q x x, Nat.xor_self, Nat.xor_zero]

theorem mul_xor (a x y : UInt8) : Spec.Aes.mul a (x ^^^ y) = Spec.Aes.mul a x ^^^ Spec.Aes.mul a y := by
  unfold Spec.Aes.mul
  rw [UInt8.toNat_xor]
  have h : Spec.Aes.polyMul a.toNat (x.toNat ^^^ y.toNat) =
      Spec.Aes.polyMul a.toNat x.toNat ^^^ Spec.Aes.polyMul a.toNat y.toNat := polyMul_fold _ _ _ _ 0 0
  rw [h, ← UInt8.ofNat_xor]
  congr 1
  exact polyMod_fold _ _ _

/-- A property that sums keep and that 0 and the powers of x have holds for every byte. -/
theorem byte_sum {P : UInt8 → Prop} (h0 : P 0) (hx : ∀ x y, P x → P y → P (x ^^^ y))
    (h : ∀ k : Fin 8, P (UInt8.ofNat (2 ^ k.val))) (b : UInt8) : P b := by
  have e : ∀ b : UInt8, b = (b &&& 1) ^^^ (b &&& 2) ^^^ (b &&& 4) ^^^ (b &&& 8) ^^^ (b &&& 16) ^^^ (b &&& 32) ^^^
      (b &&& 64) ^^^ (b &&& 128) := u8_forall (by decide +kernel)
  have hb : ∀ b : UInt8, ∀ k : Fin 8, b &&& UInt8.ofNat (2 ^ k.val) = 0 ∨
      b &&& UInt8.ofNat (2 ^ k.val) = UInt8.ofNat (2 ^ k.val) := u8_forall (by decide +kernel)
  have hp : ∀ k : Fin 8, P (b &&& UInt8.ofNat (2 ^ k.val)) := by
    intro k
    rcases hb b k with e | e <;> rw [e]
    · exact h0
    · exact h k
  rw [e b]
  exact hx _ _ (hx _ _ (hx _ _ (hx _ _ (hx _ _ (hx _ _ (hx _ _ (hp 0) (hp 1)) (hp 2)) (hp 3)) (hp 4)) (hp 5)) (hp 6)) (hp 7)

/-- The inverse of a byte in the field, read off the S-box by the inverse of its affine map. -/
def fieldInverse (b : UInt8) : UInt8 :=
  let x := Aes.sbox b
  (x <<< 1 ||| x >>> 7) ^^^ (x <<< 3 ||| x >>> 5) ^^^ (x <<< 6 ||| x >>> 2) ^^^ 5

theorem mul_inverse : ∀ b : UInt8, b = 0 ∨ ∀ k : Fin 8,
    Spec.Aes.mul (fieldInverse b) (Spec.Aes.mul b (UInt8.ofNat (2 ^ k.val))) = UInt8.ofNat (2 ^ k.val) :=
  u8_forall (by decide +kernel)

theorem mul_zero_left : ∀ b : UInt8, Spec.Aes.mul 0 b = 0 := u8_forall (by decide +kernel)
theorem mul_zero_right : ∀ b : UInt8, Spec.Aes.mul b 0 = 0 := u8_forall (by decide +kernel)
theorem mul_one_right : ∀ b : UInt8, Spec.Aes.mul b 1 = b := u8_forall (by decide +kernel)

theorem inverse_eq (b i : UInt8) (h : Spec.Aes.mul b i = 1) : i = fieldInverse b := by
  rcases mul_inverse b with rfl | hb
  · rw [mul_zero_left] at h; exact absurd h (by decide)
  · have : Spec.Aes.mul (fieldInverse b) (Spec.Aes.mul b i) = i := by
      refine byte_sum (P := fun i => Spec.Aes.mul (fieldInverse b) (Spec.Aes.mul b i) = i) ?_ ?_ hb i
      · rw [mul_zero_right, mul_zero_right]
      · intro x y hx hy; rw [mul_xor, mul_xor, hx, hy]
    rw [← this, h, mul_one_right]

theorem affine_inverse : ∀ b : UInt8, (Spec.Aes.mul b (fieldInverse b) = 1 ∨ (b = 0 ∧ fieldInverse b = 0)) ∧
    Aes.sbox b = Spec.Aes.affine (fieldInverse b) := u8_forall (by decide +kernel)

theorem sbox_isSbox : Spec.Aes.IsSbox Aes.sbox := fun b => ⟨_, affine_inverse b⟩

theorem sbox_unique (S : UInt8 → UInt8) (h : Spec.Aes.IsSbox S) : S = Aes.sbox := by
  funext b
  obtain ⟨i, h1 | ⟨rfl, rfl⟩, h2⟩ := h b
  · rw [h2, (affine_inverse b).2, inverse_eq b i h1]
  · rw [h2]; decide +kernel
end Elgas
