import Verif.Lemmas.Rounding
import Verif.Props.Float
import Verif.Spec.Equal
import Verif.Model.Equal
namespace Elgas
open Spec

theorem pow_form_inj {n n' : Nat} {a a' : Nat} {c : Int} (h : (n : Rat) * 2 ^ (c + (a : Int)) = (n' : Rat) * 2 ^ (c + (a' : Int))) :
    n * 2 ^ a = n' * 2 ^ a' := by
  rw [natCast_mul_two_pow, natCast_mul_two_pow] at h
  have hp := two_pow_ne c
  have h2 : ((n * 2 ^ a : Nat) : Rat) = ((n' * 2 ^ a' : Nat) : Rat) := by
    rw [← Rat.mul_div_cancel (a := ((n * 2 ^ a : Nat) : Rat)) hp, h, Rat.mul_div_cancel hp]
  exact Rat.natCast_inj.1 h2

theorem mant_inj {n n' a a' M : Nat} (h : n * 2 ^ a = n' * 2 ^ a') (hn : n < 2 * M) (hn' : n' < 2 * M)
    (h1 : 0 < a → M ≤ n) (h2 : 0 < a' → M ≤ n') : n = n' ∧ a = a' := by
  have key : ∀ n n' a a' : Nat, n * 2 ^ a = n' * 2 ^ a' → n < 2 * M → (0 < a' → M ≤ n') → ¬ a < a' := by
    intro n n' a a' h hn h2 hlt
    obtain ⟨k, rfl⟩ : ∃ k, a' = a + (k + 1) := ⟨a' - a - 1, by omega⟩
    rw [Nat.pow_add, Nat.pow_succ] at h
    have hp : 0 < 2 ^ a := Nat.pow_pos (by omega)
    have h3 : n = n' * (2 ^ k * 2) := by
      apply Nat.eq_of_mul_eq_mul_right hp
      rw [h]; ac_rfl
    have h4 : M ≤ n' := h2 (by omega)
    have h5 : 1 ≤ 2 ^ k := Nat.one_le_pow _ _ (by omega)
    have h6 : n' * 2 ≤ n' * (2 ^ k * 2) := Nat.mul_le_mul_left _ (by omega)
    omega
  have e : a = a' := by
    have := key n n' a a' h hn h2
    have := key n' n a' a h.symm hn' h1
    omega
  subst e
  exact ⟨Nat.eq_of_mul_eq_mul_right (Nat.pow_pos (by omega)) h, rfl⟩

theorem mag64_shape (b : Nat) : ∃ n a : Nat, mag64 b = (n : Rat) * 2 ^ ((-1074 : Int) + (a : Int)) ∧ n < 2 * 2 ^ 52 ∧
    (0 < a → 2 ^ 52 ≤ n) ∧ b % 2 ^ 63 = a * 2 ^ 52 + n := by
  unfold mag64
  split
  · rename_i h
    exact ⟨b % 2 ^ 52, 0, rfl, by omega, by omega, by omega⟩
  · rename_i h
    refine ⟨2 ^ 52 + b % 2 ^ 52, b / 2 ^ 52 % 2 ^ 11 - 1, ?_, by omega, by omega, by omega⟩
    congr 2; omega

theorem mag64_inj {b b' : Nat} (h : mag64 b = mag64 b') : b % 2 ^ 63 = b' % 2 ^ 63 := by
  obtain ⟨n, a, h1, h2, h3, h4⟩ := mag64_shape b
  obtain ⟨n', a', h1', h2', h3', h4'⟩ := mag64_shape b'
  rw [h1, h1'] at h
  obtain ⟨rfl, rfl⟩ := mant_inj (pow_form_inj h) h2 h2' h3 h3'
  omega

theorem mag32_shape (b : Nat) : ∃ n a : Nat, mag32 b = (n : Rat) * 2 ^ ((-149 : Int) + (a : Int)) ∧ n < 2 * 2 ^ 23 ∧
    (0 < a → 2 ^ 23 ≤ n) ∧ b % 2 ^ 31 = a * 2 ^ 23 + n := by
  unfold mag32
  split
  · rename_i h
    exact ⟨b % 2 ^ 23, 0, rfl, by omega, by omega, by omega⟩
  · rename_i h
    refine ⟨2 ^ 23 + b % 2 ^ 23, b / 2 ^ 23 % 2 ^ 8 - 1, ?_, by omega, by omega, by omega⟩
    congr 2; omega

theorem mag32_inj {b b' : Nat} (h : mag32 b = mag32 b') : b % 2 ^ 31 = b' % 2 ^ 31 := by
  obtain ⟨n, a, h1, h2, h3, h4⟩ := mag32_shape b
  obtain ⟨n', a', h1', h2', h3', h4'⟩ := mag32_shape b'
  rw [h1, h1'] at h
  obtain ⟨rfl, rfl⟩ := mant_inj (pow_form_inj h) h2 h2' h3 h3'
  omega

theorem mag64_nonneg (b : Nat) : 0 ≤ mag64 b := by
  obtain ⟨n, a, h1, _⟩ := mag64_shape b
  rw [h1]
  exact Rat.mul_nonneg Rat.natCast_nonneg (Rat.le_of_lt (two_pow_pos _))

theorem mag32_nonneg (b : Nat) : 0 ≤ mag32 b := by
  obtain ⟨n, a, h1, _⟩ := mag32_shape b
  rw [h1]
  exact Rat.mul_nonneg Rat.natCast_nonneg (Rat.le_of_lt (two_pow_pos _))

theorem mag64_mod (b : Nat) : mag64 (b % 2 ^ 63) = mag64 b := by
  unfold mag64
  rw [show b % 2 ^ 63 / 2 ^ 52 % 2 ^ 11 = b / 2 ^ 52 % 2 ^ 11 by omega, show b % 2 ^ 63 % 2 ^ 52 = b % 2 ^ 52 by omega]

theorem mag32_mod (b : Nat) : mag32 (b % 2 ^ 31) = mag32 b := by
  unfold mag32
  rw [show b % 2 ^ 31 / 2 ^ 23 % 2 ^ 8 = b / 2 ^ 23 % 2 ^ 8 by omega, show b % 2 ^ 31 % 2 ^ 23 = b % 2 ^ 23 by omega]

/-- Two doubles have the same value iff they are identical or both a zero. -/
theorem value64_iff {b b' : Nat} (hb : b < 2 ^ 64) (hb' : b' < 2 ^ 64) :
    value64 b = value64 b' ↔ b = b' ∨ (b % 2 ^ 63 = 0 ∧ b' % 2 ^ 63 = 0) := by
  have z : ∀ b, mag64 b = 0 → b % 2 ^ 63 = 0 := fun b h => by
    have := mag64_inj (b := b) (b' := 0) (by rw [h, mag64_zero])
    omega
  have z' : ∀ b, b % 2 ^ 63 = 0 → mag64 b = 0 := fun b h => by rw [← mag64_mod, h, mag64_zero]
  have m0 := mag64_nonneg b
  have m0' := mag64_nonneg b'
  constructor
  · intro h
    unfold value64 neg64 at h
    by_cases s : b / 2 ^ 63 % 2 = 1 <;> by_cases s' : b' / 2 ^ 63 % 2 = 1 <;> simp only [s, s', decide_true, decide_false, if_true, Bool.false_eq_true, if_false] at h
    · have := mag64_inj (b := b) (b' := b') (by grind)
      left; omega
    · right; exact ⟨z _ (by grind), z _ (by grind)⟩
    · right; exact ⟨z _ (by grind), z _ (by grind)⟩
    · have := mag64_inj h
      left; omega
  · rintro (rfl | ⟨h1, h2⟩)
    · rfl
    · unfold value64
      rw [z' _ h1, z' _ h2]
      have : (-0 : Rat) = 0 := by decide
      rw [this]; split <;> split <;> rfl

theorem mag32_zero : mag32 0 = 0 := by decide +kernel

/-- Two singles have the same value iff they are identical or both a zero. -/
theorem value32_iff {b b' : Nat} (hb : b < 2 ^ 32) (hb' : b' < 2 ^ 32) :
    value32 b = value32 b' ↔ b = b' ∨ (b % 2 ^ 31 = 0 ∧ b' % 2 ^ 31 = 0) := by
  have z : ∀ b, mag32 b = 0 → b % 2 ^ 31 = 0 := fun b h => by
    have := mag32_inj (b := b) (b' := 0) (by rw [h, mag32_zero])
    omega
  have z' : ∀ b, b % 2 ^ 31 = 0 → mag32 b = 0 := fun b h => by rw [← mag32_mod, h, mag32_zero]
  have m0 := mag32_nonneg b
  have m0' := mag32_nonneg b'
  constructor
  · intro h
    unfold value32 neg32 at h
    by_cases s : b / 2 ^ 31 % 2 = 1 <;> by_cases s' : b' / 2 ^ 31 % 2 = 1 <;> simp only [s, s', decide_true, decide_false, if_true, Bool.false_eq_true, if_false] at h
    · have := mag32_inj (b := b) (b' := b') (by grind)
      left; omega
    · right; exact ⟨z _ (by grind), z _ (by grind)⟩
    · right; exact ⟨z _ (by grind), z _ (by grind)⟩
    · have := mag32_inj h
      left; omega
  · rintro (rfl | ⟨h1, h2⟩)
    · rfl
    · unfold value32
      rw [z' _ h1, z' _ h2]
      have : (-0 : Rat) = 0 := by decide
      rw [this]; split <;> split <;> rfl

theorem finite64_iff (b : Nat) : finite64 b = true ↔ b % 2 ^ 63 < 0x7FF0000000000000 := by
  unfold finite64
  simp only [ne_eq, decide_not, Bool.not_eq_true', decide_eq_false_iff_not]
  omega

theorem nan64_iff (b : Nat) : nan64 b = true ↔ 0x7FF0000000000000 < b % 2 ^ 63 := by
  unfold nan64 finite64
  simp only [ne_eq, decide_not, Bool.and_eq_true, Bool.not_eq_true', decide_eq_false_iff_not, Bool.not_eq_false', decide_eq_true_eq]
  omega

/-- `==` of two doubles. -/
theorem floatEq_iff {a b : Nat} (ha : a < 2 ^ 64) (hb : b < 2 ^ 64) : floatEq a b = true ↔ Same64 a b := by
  have na := nan64_iff a
  have nb := nan64_iff b
  have fa := finite64_iff a
  have fb := finite64_iff b
  unfold floatEq Same64 SameNumber
  split
  · rename_i h
    simp only [Bool.or_eq_true] at h
    rw [na, nb] at h
    simp only [Bool.false_eq_true, false_iff]
    omega
  · rename_i h
    simp only [Bool.or_eq_true, not_or] at h
    rw [na, nb] at h
    split
    · rename_i h2
      simp only [Bool.and_eq_true] at h2
      rw [decide_eq_true_iff, value64_iff ha hb]
      omega
    · rename_i h2
      simp only [Bool.and_eq_true, not_and] at h2
      rw [decide_eq_true_iff]
      have h3 : ¬ (a % 2 ^ 63 < 0x7FF0000000000000 ∧ b % 2 ^ 63 < 0x7FF0000000000000) := fun hh => h2 (fa.2 hh.1) (fb.2 hh.2)
      omega


theorem widen_inf {b : Nat} (hf : finite32 b = false) :
    widen b = withSign (neg32 b) (2047 * 2 ^ 52 + b % 2 ^ 23 * 2 ^ 29) := by
  unfold widen; rw [hf]; simp

/-- `==` of two singles. -/
theorem floatEq_single {b b' : Nat} (hb : b < 2 ^ 32) (hb' : b' < 2 ^ 32) :
    floatEq (widen b) (widen b') = true ↔ Same32 b b' := by
  have fin := finite32_iff b
  have fin' := finite32_iff b'
  unfold Same32 SameNumber
  cases hf : finite32 b with
  | true =>
    obtain ⟨w1, w2, w3, w4⟩ := C93_single b hf
    have n1 : nan64 (widen b) = false := by unfold nan64; rw [show finite64 (widen b) = true from w2]; rfl
    have r := fin.2 hf
    cases hf' : finite32 b' with
    | true =>
      obtain ⟨v1, v2, v3, v4⟩ := C93_single b' hf'
      have n2 : nan64 (widen b') = false := by unfold nan64; rw [show finite64 (widen b') = true from v2]; rfl
      have r' := fin'.2 hf'
      unfold floatEq
      rw [n1, n2, show finite64 (widen b) = true from w2, show finite64 (widen b') = true from v2]
      simp only [Bool.or_self, Bool.false_eq_true, if_false, Bool.and_self, if_true, decide_eq_true_eq]
      rw [show value64 (widen b) = value32 b from w4, show value64 (widen b') = value32 b' from v4, value32_iff hb hb']
      omega
    | false =>
      obtain ⟨v1, v2, v3, v4⟩ := widen_infinite hf'
      have r' : ¬ b' % 2 ^ 31 < 0x7F800000 := fun hh => by rw [fin'.1 hh] at hf'; cases hf'
      have e : floatEq (widen b) (widen b') = false := by
        unfold floatEq
        rw [show finite64 (widen b) = true from w2, v2]
        split
        · rfl
        · rw [if_neg (by simp), decide_eq_false_iff_not]
          intro h
          rw [← h] at v2
          rw [show finite64 (widen b) = true from w2] at v2; cases v2
      rw [e]
      simp only [Bool.false_eq_true, false_iff]
      omega
  | false =>
    obtain ⟨w1, w2, w3, w4⟩ := widen_infinite hf
    have r : ¬ b % 2 ^ 31 < 0x7F800000 := fun hh => by rw [fin.1 hh] at hf; cases hf
    cases hf' : finite32 b' with
    | true =>
      obtain ⟨v1, v2, v3, v4⟩ := C93_single b' hf'
      have r' := fin'.2 hf'
      have e : floatEq (widen b) (widen b') = false := by
        unfold floatEq
        rw [show finite64 (widen b') = true from v2, w2]
        split
        · rfl
        · rw [if_neg (by simp), decide_eq_false_iff_not]
          intro h
          rw [h] at w2
          rw [show finite64 (widen b') = true from v2] at w2; cases w2
      rw [e]
      simp only [Bool.false_eq_true, false_iff]
      omega
    | false =>
      obtain ⟨v1, v2, v3, v4⟩ := widen_infinite hf'
      have r' : ¬ b' % 2 ^ 31 < 0x7F800000 := fun hh => by rw [fin'.1 hh] at hf'; cases hf'
      have n1 := nan64_iff (widen b)
      rw [floatEq_iff w1 v1]
      unfold Same64 SameNumber
      rw [widen_inf hf, widen_inf hf']
      unfold withSign neg32
      by_cases s : b / 2 ^ 31 % 2 = 1 <;> by_cases s' : b' / 2 ^ 31 % 2 = 1 <;>
        simp only [s, s', decide_true, decide_false, if_true, Bool.false_eq_true, if_false] <;> omega

/-- Rounding loses nothing more when it is repeated. -/
theorem halfEven_again {b : Nat} (hf : finite32 b = true) :
    halfEven (mag64 (roundedMag (mag32 b) 7) * 10 ^ 7) = halfEven (mag32 b * 10 ^ 7) := by
  obtain ⟨m0, m1⟩ := mag32_hyps hf
  by_cases h : (2 : Rat) ^ (16 : Int) ≤ mag32 b
  · have e := large_exact hf h
    obtain ⟨n, x, h1, h2, h3, h4⟩ := mag32_form b hf
    have q1 : (2 : Rat) ^ (-1022 : Int) ≤ n * 2 ^ x := by rw [← h1]; exact Rat.le_trans (two_pow_mono (b := 16) (by omega)) h
    have q2 : (n : Rat) * 2 ^ x < 2 ^ (1022 : Int) := by
      rw [← h1]
      have := two_pow_mono (a := 128) (b := 1022) (by omega); grind
    have : mag64 (nearest64 (mag32 b)) = mag32 b := by rw [h1]; exact nearest64_exact (by omega) q1 q2
    rw [e, this]
  · have hs := small_near m0 (Rat.not_le.1 h)
    have lt : (mag64 (roundedMag (mag32 b) 7) * 10 ^ 7 - halfEven (mag32 b * 10 ^ 7)).abs < 1 / 2 := by
      have hc := Rat.div_mul_cancel (a := (halfEven (mag32 b * 10 ^ 7) : Rat)) (b := 10 ^ 7) (by decide)
      have := Rat.mul_le_mul_of_nonneg_right hs (Rat.le_of_lt (ten_pow_pos 7))
      rw [← abs_mul_pos (ten_pow_pos 7)] at this
      rw [Rat.sub_eq_add_neg, Rat.add_mul, Rat.neg_mul, hc, ← Rat.sub_eq_add_neg] at this
      have small : (2 : Rat) ^ (-36 : Int) / 2 * 10 ^ 7 < 1 / 2 := by decide +kernel
      exact Rat.not_le.1 fun hh => Rat.not_le.2 small (Rat.le_trans hh this)
    refine nearestInt_unique (halfEven_nearest _) ⟨Rat.le_of_lt lt, fun hh => ?_⟩
    rw [hh] at lt; exact absurd lt Rat.lt_irrefl

/-- The nearest integer, sign included. -/
theorem nearestInt_value32 (b : Nat) (k : Int) : NearestInt (value32 b * 10 ^ 7) k ↔
    k = if neg32 b then - halfEven (mag32 b * 10 ^ 7) else halfEven (mag32 b * 10 ^ 7) := by
  have hk := halfEven_nearest (mag32 b * 10 ^ 7)
  have hs : NearestInt (value32 b * 10 ^ 7) (if neg32 b then - halfEven (mag32 b * 10 ^ 7) else halfEven (mag32 b * 10 ^ 7)) := by
    unfold value32
    split
    · have := nearestInt_neg hk
      rwa [← Rat.neg_mul] at this
    · exact hk
  constructor
  · intro h; exact nearestInt_unique h hs
  · rintro rfl; exact hs

/-- `==` of two numbers rounded to seven places. -/
theorem floatEq_rounded {b b' : Nat} (hb : b < 2 ^ 32) (hb' : b' < 2 ^ 32) :
    floatEq (PyFloat.rounded b 7).bits64 (PyFloat.rounded b' 7).bits64 = true ↔ SameRounded 7 b b' := by
  have fin := finite32_iff b
  have fin' := finite32_iff b'
  have fins : ∀ b, finite32 b = true → finite64 (PyFloat.rounded b 7).bits64 = true := fun b h => by
    obtain ⟨k, _, h2, _⟩ := C93_rounded b 7 h (by decide)
    exact h2.2.1
  have infs : ∀ b, finite32 b = false → (PyFloat.rounded b 7).bits64 = widen b := fun b h => (C93_not_finite b 7 h).1
  cases hf : finite32 b with
  | true =>
    have r := fin.2 hf
    have w2 := fins b hf
    cases hf' : finite32 b' with
    | true =>
      have r' := fin'.2 hf'
      have v2 := fins b' hf'
      have n1 : nan64 (PyFloat.rounded b 7).bits64 = false := by unfold nan64; rw [w2]; rfl
      have n2 : nan64 (PyFloat.rounded b' 7).bits64 = false := by unfold nan64; rw [v2]; rfl
      have e1 : floatEq (PyFloat.rounded b 7).bits64 (PyFloat.rounded b' 7).bits64 = true ↔
          value64 (PyFloat.rounded b 7).bits64 = value64 (PyFloat.rounded b' 7).bits64 := by
        unfold floatEq
        rw [n1, n2, w2, v2]
        simp only [Bool.or_self, Bool.false_eq_true, if_false, Bool.and_self, if_true, decide_eq_true_eq]
      have e2 : SameRounded 7 b b' ↔ ∃ k : Int, NearestInt (value32 b * 10 ^ 7) k ∧ NearestInt (value32 b' * 10 ^ 7) k := by
        constructor
        · rintro (h | h)
          · omega
          · exact h.2.2
        · exact fun h => .inr ⟨r, r', h⟩
      rw [e1, e2, value_rounded hf, value_rounded hf']
      have e3 : (∃ k : Int, NearestInt (value32 b * 10 ^ 7) k ∧ NearestInt (value32 b' * 10 ^ 7) k) ↔
          (if neg32 b then - halfEven (mag32 b * 10 ^ 7) else halfEven (mag32 b * 10 ^ 7)) =
          (if neg32 b' then - halfEven (mag32 b' * 10 ^ 7) else halfEven (mag32 b' * 10 ^ 7)) := by
        constructor
        · rintro ⟨k, h1, h2⟩
          rw [← (nearestInt_value32 b k).1 h1, ← (nearestInt_value32 b' k).1 h2]
        · intro h
          exact ⟨_, (nearestInt_value32 b _).2 rfl, (nearestInt_value32 b' _).2 h⟩
      rw [e3]
      obtain ⟨m0, m1⟩ := mag32_hyps hf
      obtain ⟨m0', m1'⟩ := mag32_hyps hf'
      have z := roundedMag_zero m0 m1
      have z' := roundedMag_zero m0' m1'
      have k0 := (mag_bounds (d := 7) (by decide) m0 m1).1
      have k0' := (mag_bounds (d := 7) (by decide) m0' m1').1
      have a := halfEven_again hf
      have a' := halfEven_again hf'
      have same : mag64 (roundedMag (mag32 b) 7) = mag64 (roundedMag (mag32 b') 7) ↔
          halfEven (mag32 b * 10 ^ 7) = halfEven (mag32 b' * 10 ^ 7) := by
        constructor
        · intro h; rw [← a, ← a', h]
        · intro h; unfold roundedMag; rw [h]
      have opp : ∀ x y : Rat, 0 ≤ x → 0 ≤ y → (-x = y ↔ x = 0 ∧ y = 0) := by
        intro x y hx hy
        constructor
        · intro h; constructor <;> grind
        · rintro ⟨rfl, rfl⟩; rfl
      cases s : neg32 b <;> cases s' : neg32 b' <;> simp only [if_true, Bool.false_eq_true, if_false]
      · exact same
      · rw [eq_comm, opp _ _ z'.1 z.1, z.2, z'.2]; omega
      · rw [opp _ _ z.1 z'.1, z.2, z'.2]; omega
      · rw [show (-mag64 (roundedMag (mag32 b) 7) = -mag64 (roundedMag (mag32 b') 7)) ↔
          mag64 (roundedMag (mag32 b) 7) = mag64 (roundedMag (mag32 b') 7) from ⟨fun h => by grind, fun h => by rw [h]⟩, same]
        omega
    | false =>
      have r' : ¬ b' % 2 ^ 31 < 0x7F800000 := fun hh => by rw [fin'.1 hh] at hf'; cases hf'
      have v2 := (widen_infinite hf').2.1
      rw [← infs b' hf'] at v2
      have e : floatEq (PyFloat.rounded b 7).bits64 (PyFloat.rounded b' 7).bits64 = false := by
        unfold floatEq
        rw [w2, v2]
        split
        · rfl
        · rw [if_neg (by simp), decide_eq_false_iff_not]
          intro h
          rw [← h, w2] at v2; cases v2
      rw [e]
      simp only [Bool.false_eq_true, false_iff]
      rintro (⟨h1, rfl⟩ | ⟨h1, h2, _⟩) <;> omega
  | false =>
    have r : ¬ b % 2 ^ 31 < 0x7F800000 := fun hh => by rw [fin.1 hh] at hf; cases hf
    cases hf' : finite32 b' with
    | true =>
      have r' := fin'.2 hf'
      have v2 := fins b' hf'
      have w2 := (widen_infinite hf).2.1
      rw [← infs b hf] at w2
      have e : floatEq (PyFloat.rounded b 7).bits64 (PyFloat.rounded b' 7).bits64 = false := by
        unfold floatEq
        rw [w2, v2]
        split
        · rfl
        · rw [if_neg (by simp), decide_eq_false_iff_not]
          intro h
          rw [h, v2] at w2; cases w2
      rw [e]
      simp only [Bool.false_eq_true, false_iff]
      rintro (⟨h1, rfl⟩ | ⟨h1, h2, _⟩) <;> omega
    | false =>
      have r' : ¬ b' % 2 ^ 31 < 0x7F800000 := fun hh => by rw [fin'.1 hh] at hf'; cases hf'
      rw [infs b hf, infs b' hf', floatEq_single hb hb']
      unfold Same32 SameNumber SameRounded
      constructor
      · intro h; left; omega
      · rintro (⟨h1, rfl⟩ | ⟨h1, h2, _⟩)
        · omega
        · omega

end Elgas
