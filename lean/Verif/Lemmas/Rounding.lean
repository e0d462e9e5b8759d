import Verif.Lemmas.Float
namespace Elgas
open Spec

theorem value64_neg_form (b : Nat) : value64 b = (if neg64 b then -1 else 1) * mag64 b := by
  unfold value64; split <;> grind

theorem isDouble_neg {r : Rat} (h : IsDouble r) : IsDouble (-r) := by
  obtain ⟨b, hb, hf, rfl⟩ := h
  have hm : b % 2 ^ 63 < 2 ^ 63 := by omega
  have h1 : b % 2 ^ 63 / 2 ^ 52 % 2 ^ 11 = b / 2 ^ 52 % 2 ^ 11 := by omega
  have h2 : b % 2 ^ 63 % 2 ^ 52 = b % 2 ^ 52 := by omega
  have h3 : mag64 (b % 2 ^ 63) = mag64 b := by unfold mag64; rw [h1, h2]
  have h4 : finite64 (b % 2 ^ 63) = finite64 b := by unfold finite64; rw [h1]
  obtain ⟨w1, w2, w3, w4⟩ := withSign_value (s := !neg64 b) hm
  refine ⟨withSign (!neg64 b) (b % 2 ^ 63), w1, by rw [w4, h4]; exact hf, ?_⟩
  unfold value64
  rw [w2, w3, h3]
  cases neg64 b <;> simp

theorem abs_neg (x : Rat) : (-x).abs = x.abs := by
  rcases Rat.le_total (a := 0) (b := x) with h | h
  · rw [Rat.abs_of_nonneg h, Rat.abs_of_nonpos (by grind)]; grind
  · rw [Rat.abs_of_nonpos h, Rat.abs_of_nonneg (by grind)]

theorem value64_withSign {s : Bool} {m : Nat} (hm : m < 2 ^ 63) :
    value64 (withSign s m) = if s then - mag64 m else mag64 m := by
  obtain ⟨w1, w2, w3, w4⟩ := withSign_value (s := s) hm
  unfold value64; rw [w2, w3]

theorem withSign_mod {s : Bool} {m : Nat} : withSign s m % 2 = m % 2 := by
  unfold withSign; split <;> omega

theorem nearest64_withSign_top (s : Bool) {y : Rat} (h1 : (2 : Rat) ^ (-1022 : Int) ≤ y)
    (h2 : y < 2 ^ (1024 : Int) - 2 ^ (970 : Int)) :
    NearestDouble (if s then -y else y) (withSign s (nearest64 y)) := by
  obtain ⟨v1, v2, v3⟩ := nearest64_value_top h1 h2
  obtain ⟨w1, w2, w3, w4⟩ := withSign_value (s := s) v1
  refine ⟨w1, by rw [w4]; exact v2, fun b' hb' hf' => ?_⟩
  rw [value64_withSign v1, withSign_mod]
  have hd : IsDouble (value64 b') := ⟨b', hb', hf', rfl⟩
  cases s with
  | false => simpa using nearest64_le_top h1 h2 _ hd
  | true =>
    obtain ⟨k1, k2⟩ := nearest64_le_top h1 h2 _ (isDouble_neg hd)
    simp only [if_true]
    rw [← abs_neg (-y - -mag64 _), ← abs_neg (-y - value64 b')]
    have e1 : -(-y - -mag64 (nearest64 y)) = y - mag64 (nearest64 y) := by grind
    have e2 : -(-y - value64 b') = y - -value64 b' := by grind
    rw [e1, e2]
    exact ⟨k1, fun h hne => k2 h (fun h' => hne (by rw [← h']; grind))⟩

theorem nearest64_withSign (s : Bool) {y : Rat} (h1 : (2 : Rat) ^ (-1022 : Int) ≤ y) (h2 : y < 2 ^ (1022 : Int)) :
    NearestDouble (if s then -y else y) (withSign s (nearest64 y)) := nearest64_withSign_top s h1 (below_top h2)

theorem nearest_zero (s : Bool) : NearestDouble 0 (withSign s 0) := by
  obtain ⟨w1, w2, w3, w4⟩ := withSign_value (s := s) (m := 0) (by omega)
  have hv : value64 (withSign s 0) = 0 := by
    rw [value64_withSign (by omega)]
    have : mag64 0 = 0 := by decide +kernel
    rw [this]; split <;> rfl
  refine ⟨w1, by rw [w4]; rfl, fun b' _ _ => ?_⟩
  rw [hv]
  refine ⟨?_, fun _ _ => ?_⟩
  · rw [Rat.sub_self]; exact Rat.abs_nonneg
  · rw [withSign_mod]

theorem nearestInt_neg {x : Rat} {k : Int} (h : NearestInt x k) : NearestInt (-x) (-k) := by
  have : (-x - ((-k : Int) : Rat)) = -(x - k) := by rw [Rat.intCast_neg]; grind
  unfold NearestInt
  rw [this, abs_neg]
  exact ⟨h.1, fun hh => by have := h.2 hh; omega⟩

/-- The magnitude that `round(x, d)` leaves. -/
def roundedMag (M : Rat) (d : Nat) : Nat :=
  if halfEven (M * 10 ^ d) = 0 then 0 else nearest64 (halfEven (M * 10 ^ d) / 10 ^ d)

theorem roundFloat_eq {b d : Nat} (hf : finite64 b = true) :
    roundFloat b d = withSign (neg64 b) (roundedMag (mag64 b) d) := by
  unfold roundFloat roundedMag; rw [if_pos hf]

theorem bits_rounded {b d : Nat} (hf : finite32 b = true) :
    (PyFloat.rounded b d).bits64 = withSign (neg32 b) (roundedMag (mag32 b) d) := by
  obtain ⟨w1, w2, w3, w4⟩ := widen_value hf
  show roundFloat (widen b) d = _
  rw [roundFloat_eq w2, w3, w4]

theorem ten_pow_pos (d : Nat) : (0 : Rat) < 10 ^ d := Rat.pow_pos (by decide)

theorem ten_pow_nat (d : Nat) : (10 : Rat) ^ d = ((10 ^ d : Nat) : Rat) := by
  rw [Rat.natCast_pow]; rfl

theorem ten_pow_le {d : Nat} (hd : d ≤ 300) : (10 : Nat) ^ d ≤ 2 ^ 1000 := by
  have h1 : (10 : Nat) ^ d ≤ 10 ^ (3 * 100) := Nat.pow_le_pow_right (by omega) hd
  have h2 : ((10 : Nat) ^ 3) ^ 100 ≤ (2 ^ 10) ^ 100 := Nat.pow_le_pow_left (by decide) 100
  rw [Nat.pow_mul] at h1
  rw [← Nat.pow_mul 2] at h2
  exact Nat.le_trans h1 h2

theorem mag_bounds {M : Rat} {d : Nat} (hd : d ≤ 300) (h0 : 0 ≤ M) (h1 : M < 2 ^ (128 : Int)) :
    0 ≤ halfEven (M * 10 ^ d) ∧ (halfEven (M * 10 ^ d) ≠ 0 →
      (2 : Rat) ^ (-1022 : Int) ≤ halfEven (M * 10 ^ d) / 10 ^ d ∧
      (halfEven (M * 10 ^ d) : Rat) / 10 ^ d < 2 ^ (1022 : Int)) := by
  have hp := ten_pow_pos d
  have hn : (0 : Rat) ≤ M * 10 ^ d := Rat.mul_nonneg h0 (Rat.le_of_lt hp)
  have hk : 0 ≤ halfEven (M * 10 ^ d) := by
    have := halfEven_mono hn
    have e : halfEven 0 = 0 := halfEven_int 0
    omega
  refine ⟨hk, fun hne => ?_⟩
  have h1k : (1 : Rat) ≤ halfEven (M * 10 ^ d) := by
    have : (1 : Int) ≤ halfEven (M * 10 ^ d) := by omega
    exact Rat.intCast_le_intCast.2 this
  have hnear := (halfEven_near (M * 10 ^ d)).1
  have h10 : (1 : Rat) ≤ 10 ^ d := by
    rw [ten_pow_nat]
    have : 1 ≤ (10 : Nat) ^ d := Nat.one_le_pow _ _ (by omega)
    exact Rat.natCast_le_natCast.2 this
  have h10' : (10 : Rat) ^ d ≤ 2 ^ (1000 : Int) := by
    rw [ten_pow_nat, show (1000 : Int) = ((1000 : Nat) : Int) from rfl, two_pow_nat]
    exact Rat.natCast_le_natCast.2 (ten_pow_le hd)
  generalize (halfEven (M * 10 ^ d) : Rat) = k at *
  constructor
  · rw [← Rat.not_lt, Rat.div_lt_iff hp, Rat.not_lt]
    have a1 : (2 : Rat) ^ (-1022 : Int) * 10 ^ d ≤ 2 ^ (-1022 : Int) * 2 ^ (1000 : Int) :=
      Rat.mul_le_mul_of_nonneg_left h10' (Rat.le_of_lt (two_pow_pos _))
    rw [← two_pow_add] at a1
    have a2 := two_pow_mono (a := -1022 + 1000) (b := 0) (by omega)
    have a3 : (2 : Rat) ^ (0 : Int) = 1 := by decide
    grind
  · rw [Rat.div_lt_iff hp]
    have a1 : M * 10 ^ d < 2 ^ (128 : Int) * 10 ^ d := Rat.mul_lt_mul_of_pos_right h1 hp
    have a2 : (2 : Rat) ^ (129 : Int) * 10 ^ d ≤ 2 ^ (1022 : Int) * 10 ^ d :=
      Rat.mul_le_mul_of_nonneg_right (two_pow_mono (by omega)) (Rat.le_of_lt hp)
    have a3 : (2 : Rat) ^ (129 : Int) = 2 * 2 ^ (128 : Int) := two_pow_succ 128
    have a4 : (1 : Rat) * 10 ^ d ≤ 2 ^ (128 : Int) * 10 ^ d :=
      Rat.mul_le_mul_of_nonneg_right (by decide +kernel) (Rat.le_of_lt hp)
    rw [a3, Rat.mul_assoc] at a2
    generalize (2 : Rat) ^ (128 : Int) * 10 ^ d = X at *
    generalize (2 : Rat) ^ (1022 : Int) * 10 ^ d = Y at *
    rw [Rat.one_mul] at a4
    clear h10'
    generalize (10 : Rat) ^ d = T at *
    grind

theorem roundedMag_lt {M : Rat} {d : Nat} (hd : d ≤ 300) (h0 : 0 ≤ M) (h1 : M < 2 ^ (128 : Int)) :
    roundedMag M d < 2 ^ 63 ∧ finite64 (roundedMag M d) = true := by
  unfold roundedMag
  split
  · exact ⟨by omega, rfl⟩
  · rename_i hne
    obtain ⟨b1, b2⟩ := (mag_bounds hd h0 h1).2 hne
    obtain ⟨v1, v2, v3⟩ := nearest64_value b1 b2
    exact ⟨v1, v2⟩

end Elgas
