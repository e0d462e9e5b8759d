import Verif.Model.Float
import Verif.Spec.Float
namespace Elgas
open Spec

theorem two_pow_pos (e : Int) : (0 : Rat) < 2 ^ e := Rat.zpow_pos (by decide)

theorem two_ne : (2 : Rat) ≠ 0 := by decide

theorem two_pow_add (a b : Int) : (2 : Rat) ^ (a + b) = 2 ^ a * 2 ^ b := Rat.zpow_add two_ne a b

theorem two_pow_succ (a : Int) : (2 : Rat) ^ (a + 1) = 2 * 2 ^ a := by
  rw [Rat.zpow_add_one two_ne]; grind

theorem two_pow_nat (n : Nat) : (2 : Rat) ^ (n : Int) = ((2 ^ n : Nat) : Rat) := by
  rw [Rat.zpow_natCast, Rat.natCast_pow]; rfl

theorem two_pow_mono {a b : Int} (h : a ≤ b) : (2 : Rat) ^ a ≤ 2 ^ b := by
  obtain ⟨n, rfl⟩ : ∃ n : Nat, b = a + n := ⟨(b - a).toNat, by omega⟩
  rw [two_pow_add, two_pow_nat]
  have h1 : (1 : Rat) ≤ ((2 ^ n : Nat) : Rat) := by
    have : (1 : Nat) ≤ 2 ^ n := Nat.one_le_two_pow
    exact_mod_cast Rat.natCast_le_natCast.2 this
  have := Rat.mul_le_mul_of_nonneg_left h1 (Rat.le_of_lt (two_pow_pos a))
  grind

theorem two_pow_lt {a b : Int} (h : (2 : Rat) ^ a < 2 ^ b) : a < b := by
  rcases Int.lt_or_le a b with h1 | h1
  · exact h1
  · have := two_pow_mono h1; grind

theorem intCast_succ (n : Int) : ((n + 1 : Int) : Rat) = (n : Rat) + 1 := by simp [Rat.intCast_add]

theorem abs_le_iff {x y : Rat} : x.abs ≤ y ↔ x ≤ y ∧ -x ≤ y := by
  rcases Rat.le_total (a := 0) (b := x) with h | h
  · rw [Rat.abs_of_nonneg h]; constructor
    · intro h'; grind
    · exact fun h' => h'.1
  · rw [Rat.abs_of_nonpos h]; constructor
    · intro h'; grind
    · exact fun h' => h'.2

/-! ### The nearest integer -/

theorem halfEven_near (x : Rat) : (halfEven x : Rat) - x ≤ 1 / 2 ∧ x - (halfEven x : Rat) ≤ 1 / 2 := by
  have h1 := Rat.floor_le x
  have h2 := Rat.lt_floor_add_one x
  rw [intCast_succ] at h2
  unfold halfEven
  split
  · grind
  · split
    · rw [intCast_succ]; grind
    · split
      · grind
      · rw [intCast_succ]; grind

theorem halfEven_nearest (x : Rat) : NearestInt x (halfEven x) := by
  obtain ⟨h1, h2⟩ := halfEven_near x
  refine ⟨abs_le_iff.2 ⟨h2, by grind⟩, ?_⟩
  have h3 := Rat.floor_le x
  have h4 := Rat.lt_floor_add_one x
  rw [intCast_succ] at h4
  intro h
  unfold halfEven at h ⊢
  split at h
  · exfalso; clear h1 h2; rw [Rat.abs_of_nonneg (by grind)] at h
    have : 1 / 2 ≤ x - (x.floor : Rat) := by rw [h]; exact Rat.le_refl
    grind
  · split at h
    · exfalso; clear h1 h2; rw [intCast_succ, Rat.abs_of_nonpos (by grind)] at h
      have : 1 / 2 ≤ -(x - ((x.floor : Rat) + 1)) := by rw [h]; exact Rat.le_refl
      grind
    · rw [if_neg (by assumption), if_neg (by assumption)]
      split
      · assumption
      · omega

theorem lt_cast {m n : Int} (h : (m : Rat) < n + 1) : m ≤ n := by
  rw [← intCast_succ] at h
  have := Rat.intCast_lt_intCast.1 h
  omega

/-- The nearest integer is unique. -/
theorem nearestInt_unique {x : Rat} {j k : Int} (hj : NearestInt x j) (hk : NearestInt x k) : j = k := by
  have key : ∀ {j k : Int}, NearestInt x j → NearestInt x k → j ≤ k := by
    intro j k hj hk
    obtain ⟨a1, a2⟩ := abs_le_iff.1 hj.1
    obtain ⟨b1, b2⟩ := abs_le_iff.1 hk.1
    refine Int.not_lt.1 fun h => ?_
    have h1 : k + 1 ≤ j := h
    have h2 : (k : Rat) + 1 ≤ j := by rw [← intCast_succ]; exact Rat.intCast_le_intCast.2 h1
    have e1 : x - j = - (1 / 2) := by grind
    have e2 : x - k = 1 / 2 := by grind
    have p1 := hj.2 (by rw [e1]; decide +kernel)
    have p2 := hk.2 (by rw [e2]; decide +kernel)
    have : j ≤ k + 1 := lt_cast (by rw [intCast_succ]; grind)
    omega
  exact Int.le_antisymm (key hj hk) (key hk hj)

theorem halfEven_int (n : Int) : halfEven n = n :=
  nearestInt_unique (halfEven_nearest n) ⟨by rw [Rat.sub_self]; decide +kernel, by rw [Rat.sub_self]; intro h; exact absurd h (by decide +kernel)⟩

theorem halfEven_mono {x y : Rat} (h : x ≤ y) : halfEven x ≤ halfEven y := by
  obtain ⟨a1, a2⟩ := halfEven_near x
  obtain ⟨b1, b2⟩ := halfEven_near y
  refine Int.not_lt.1 fun hlt => ?_
  have h1 : halfEven y + 1 ≤ halfEven x := hlt
  have h2 : (halfEven y : Rat) + 1 ≤ halfEven x := by rw [← intCast_succ]; exact Rat.intCast_le_intCast.2 h1
  have : x = y := by grind
  subst this
  omega

theorem halfEven_between {x : Rat} {m n : Int} (h1 : (m : Rat) ≤ x) (h2 : x ≤ n) : m ≤ halfEven x ∧ halfEven x ≤ n := by
  have := halfEven_mono h1
  have := halfEven_mono h2
  rw [halfEven_int] at *
  omega

/-- No integer is nearer. -/
theorem nearestInt_le {x : Rat} {k : Int} (hk : NearestInt x k) (n : Int) : (x - k).abs ≤ (x - n).abs := by
  rcases Int.lt_trichotomy k n with h | h | h
  · have h1 : k + 1 ≤ n := h
    have h2 : (k : Rat) + 1 ≤ n := by rw [← intCast_succ]; exact Rat.intCast_le_intCast.2 h1
    obtain ⟨a1, a2⟩ := abs_le_iff.1 hk.1
    have h3 : (1 / 2 : Rat) ≤ (x - n).abs := by
      rw [Rat.abs_of_nonpos (by grind)]; grind
    exact Rat.le_trans hk.1 h3
  · subst h; exact Rat.le_refl
  · have h1 : n + 1 ≤ k := h
    have h2 : (n : Rat) + 1 ≤ k := by rw [← intCast_succ]; exact Rat.intCast_le_intCast.2 h1
    obtain ⟨a1, a2⟩ := abs_le_iff.1 hk.1
    have h3 : (1 / 2 : Rat) ≤ (x - n).abs := by
      rw [Rat.abs_of_nonneg (by grind)]; grind
    exact Rat.le_trans hk.1 h3

/-! ### The exponent -/

theorem exponentOf_bounds {y : Rat} (hy : 0 < y) :
    (2 : Rat) ^ (52 : Int) ≤ y / 2 ^ exponentOf y ∧ y / 2 ^ exponentOf y < 2 ^ (53 : Int) := by
  have hn : 0 < y.num := by
    have := Rat.num_nonneg.2 (Rat.le_of_lt hy)
    have : y.num ≠ 0 := fun h => by rw [Rat.num_eq_zero] at h; rw [h] at hy; exact absurd hy (by decide)
    omega
  have hd := y.den_pos
  have a1 := Nat.log2_self_le (n := y.num.toNat) (by omega)
  have a2 := Nat.lt_log2_self (n := y.num.toNat)
  have b1 := Nat.log2_self_le (n := y.den) (by omega)
  have b2 := Nat.lt_log2_self (n := y.den)
  have ey : y * (y.den : Rat) = ((y.num.toNat : Nat) : Rat) := by
    have h1 : ((y.num.toNat : Nat) : Rat) = (y.num : Rat) := by
      have : ((y.num.toNat : Nat) : Int) = y.num := by omega
      rw [← this]; rfl
    have h2 : (y.den : Rat) ≠ 0 := fun h => by
      have := Rat.natCast_pos.2 hd
      rw [h] at this; exact absurd this (by decide)
    rw [h1]
    have h3 := Rat.mkRat_eq_div y.num y.den
    rw [Rat.mkRat_self] at h3
    have := Rat.div_mul_cancel (a := (y.num : Rat)) h2
    rw [← h3] at this
    exact this
  have c1 : (2 : Rat) ^ (y.num.toNat.log2 : Int) ≤ y * y.den := by
    rw [ey, two_pow_nat]; exact Rat.natCast_le_natCast.2 a1
  have c2 : y * y.den < (2 : Rat) ^ ((y.num.toNat.log2 : Int) + 1) := by
    have : ((y.num.toNat.log2 : Int) + 1) = ((y.num.toNat.log2 + 1 : Nat) : Int) := by omega
    rw [ey, this, two_pow_nat]; exact Rat.natCast_lt_natCast.2 a2
  have d1 : (2 : Rat) ^ (y.den.log2 : Int) ≤ y.den := by
    rw [two_pow_nat]; exact Rat.natCast_le_natCast.2 b1
  have d2 : (y.den : Rat) < (2 : Rat) ^ ((y.den.log2 : Int) + 1) := by
    have : ((y.den.log2 : Int) + 1) = ((y.den.log2 + 1 : Nat) : Int) := by omega
    rw [this, two_pow_nat]; exact Rat.natCast_lt_natCast.2 b2
  have key : (2 : Rat) ^ ((y.num.toNat.log2 : Int) - y.den.log2 - 1) ≤ y ∧
      y < (2 : Rat) ^ ((y.num.toNat.log2 : Int) - y.den.log2 + 1) := by
    generalize (y.num.toNat.log2 : Int) = p at c1 c2 ⊢
    generalize (y.den.log2 : Int) = q at d1 d2 ⊢
    constructor
    · have h1 : y * y.den ≤ y * 2 ^ (q + 1) := Rat.mul_le_mul_of_nonneg_left (Rat.le_of_lt d2) (Rat.le_of_lt hy)
      have h2 : (2 : Rat) ^ (p - q - 1) * 2 ^ (q + 1) ≤ y * 2 ^ (q + 1) := by
        rw [← two_pow_add, show p - q - 1 + (q + 1) = p by omega]
        exact Rat.le_trans c1 h1
      exact Rat.le_of_mul_le_mul_right h2 (two_pow_pos _)
    · have h1 : y * 2 ^ q ≤ y * y.den := Rat.mul_le_mul_of_nonneg_left d1 (Rat.le_of_lt hy)
      have h2 : y * 2 ^ q < (2 : Rat) ^ (p - q + 1) * 2 ^ q := by
        rw [← two_pow_add, show p - q + 1 + q = p + 1 by omega]
        grind
      exact Rat.lt_of_mul_lt_mul_right h2 (Rat.le_of_lt (two_pow_pos _))
  have fin : ∀ e : Int, (2 : Rat) ^ (e + 52) ≤ y → y < (2 : Rat) ^ (e + 53) →
      (2 : Rat) ^ (52 : Int) ≤ y / 2 ^ e ∧ y / 2 ^ e < 2 ^ (53 : Int) := by
    intro e h1 h2
    have hp := two_pow_pos e
    have hne : (2 : Rat) ^ e ≠ 0 := fun h => by rw [h] at hp; exact Rat.lt_irrefl hp
    have hc := Rat.div_mul_cancel (a := y) hne
    rw [Int.add_comm, two_pow_add] at h1 h2
    constructor
    · refine Rat.le_of_mul_le_mul_right (c := 2 ^ e) ?_ hp
      rw [hc]; exact h1
    · refine Rat.lt_of_mul_lt_mul_right (c := 2 ^ e) ?_ (Rat.le_of_lt hp)
      rw [hc]; exact h2
  unfold exponentOf
  dsimp only
  generalize (y.num.toNat.log2 : Int) - y.den.log2 = t at key ⊢
  split
  · rename_i h
    exact fin (t - 53) (by rw [show t - 53 + 52 = t - 1 by omega]; exact key.1) (by rw [show t - 53 + 53 = t by omega]; exact h)
  · rename_i h
    exact fin (t - 52) (by rw [show t - 52 + 52 = t by omega]; exact Rat.not_lt.1 h)
      (by rw [show t - 52 + 53 = t + 1 by omega]; exact key.2)

/-! ### The nearest double -/

theorem two_pow_ne (e : Int) : (2 : Rat) ^ e ≠ 0 := fun h => by
  have := two_pow_pos e; rw [h] at this; exact Rat.lt_irrefl this

theorem pow_nat_eq (n : Nat) : ((2 ^ n : Nat) : Rat) = 2 ^ (n : Int) := (two_pow_nat n).symm

/-- The mantissa of the nearest double. -/
theorem mantissa_bounds {y : Rat} (hy : 0 < y) :
    2 ^ 52 ≤ halfEven (y / 2 ^ exponentOf y) ∧ halfEven (y / 2 ^ exponentOf y) ≤ 2 ^ 53 := by
  obtain ⟨h1, h2⟩ := exponentOf_bounds hy
  exact halfEven_between (m := 2 ^ 52) (n := 2 ^ 53) h1 (Rat.le_of_lt h2)

/-- The doubles between these bounds are normal. -/
theorem exponent_range {y : Rat} (h1 : (2 : Rat) ^ (-1022 : Int) ≤ y) (h2 : y < 2 ^ (1022 : Int)) :
    -1074 ≤ exponentOf y ∧ exponentOf y < 970 := by
  have hy : 0 < y := by have := two_pow_pos (-1022); grind
  obtain ⟨g1, g2⟩ := exponentOf_bounds hy
  have hp := two_pow_pos (exponentOf y)
  have hc := Rat.div_mul_cancel (a := y) (two_pow_ne (exponentOf y))
  have k1 := Rat.mul_le_mul_of_nonneg_right g1 (Rat.le_of_lt hp)
  have k2 := Rat.mul_lt_mul_of_pos_right g2 hp
  rw [hc, ← two_pow_add] at k1 k2
  have := two_pow_lt (a := 52 + exponentOf y) (b := 1022) (by grind)
  have := two_pow_lt (a := -1022) (b := 53 + exponentOf y) (by grind)
  omega

/-- Below the middle between the largest double and the next power of two. -/
theorem exponent_range_top {y : Rat} (h1 : (2 : Rat) ^ (-1022 : Int) ≤ y) (h2 : y < 2 ^ (1024 : Int) - 2 ^ (970 : Int)) :
    -1074 ≤ exponentOf y ∧ exponentOf y ≤ 971 ∧
    (exponentOf y = 971 → halfEven (y / 2 ^ exponentOf y) < 2 ^ 53) := by
  have hy : 0 < y := by have := two_pow_pos (-1022); grind
  obtain ⟨g1, g2⟩ := exponentOf_bounds hy
  have hp := two_pow_pos (exponentOf y)
  have hc := Rat.div_mul_cancel (a := y) (two_pow_ne (exponentOf y))
  have k1 := Rat.mul_le_mul_of_nonneg_right g1 (Rat.le_of_lt hp)
  have k2 := Rat.mul_lt_mul_of_pos_right g2 hp
  rw [hc, ← two_pow_add] at k1 k2
  have p970 := two_pow_pos 970
  have := two_pow_lt (a := 52 + exponentOf y) (b := 1024) (by grind)
  have := two_pow_lt (a := -1022) (b := 53 + exponentOf y) (by grind)
  refine ⟨by omega, by omega, fun he => ?_⟩
  have hx : y / 2 ^ exponentOf y < 2 ^ (53 : Int) - 1 / 2 := by
    have q : (2 : Rat) ^ (1024 : Int) - 2 ^ (970 : Int) = (2 ^ (53 : Int) - 1 / 2) * 2 ^ (971 : Int) := by decide +kernel
    rw [he] at hc hp ⊢
    refine Rat.lt_of_mul_lt_mul_right (c := 2 ^ (971 : Int)) ?_ (Rat.le_of_lt hp)
    rw [hc, ← q]
    exact h2
  have hn := (halfEven_near (y / 2 ^ exponentOf y)).1
  generalize halfEven (y / 2 ^ exponentOf y) = m at *
  refine Rat.intCast_lt_intCast.1 ?_
  have : ((2 ^ 53 : Int) : Rat) = 2 ^ (53 : Int) := by decide +kernel
  rw [this]
  grind

theorem below_top {y : Rat} (h : y < 2 ^ (1022 : Int)) : y < 2 ^ (1024 : Int) - 2 ^ (970 : Int) := by
  have : (2 : Rat) ^ (1022 : Int) ≤ 2 ^ (1024 : Int) - 2 ^ (970 : Int) := by decide +kernel
  grind

theorem nearest64_value_top {y : Rat} (h1 : (2 : Rat) ^ (-1022 : Int) ≤ y) (h2 : y < 2 ^ (1024 : Int) - 2 ^ (970 : Int)) :
    nearest64 y < 2 ^ 63 ∧ finite64 (nearest64 y) = true ∧
    mag64 (nearest64 y) = halfEven (y / 2 ^ exponentOf y) * 2 ^ exponentOf y := by
  have hy : 0 < y := by have := two_pow_pos (-1022); grind
  obtain ⟨e1, e2, e3⟩ := exponent_range_top h1 h2
  obtain ⟨m1, m2⟩ := mantissa_bounds hy
  unfold nearest64
  generalize exponentOf y = E at *
  generalize halfEven (y / 2 ^ E) = m at *
  obtain ⟨n, rfl⟩ : ∃ n : Nat, m = n := ⟨m.toNat, by omega⟩
  obtain ⟨F, hF⟩ : ∃ F : Nat, E + 1074 = F := ⟨(E + 1074).toNat, by omega⟩
  have hE : E = F - 1074 := by omega
  subst hE
  have hb : (((F : Int) - 1074 + 1074) * 2 ^ 52 + (n : Int)).toNat = F * 2 ^ 52 + n := by omega
  rw [hb]
  have m1' : 2 ^ 52 ≤ n := by omega
  have m2' : n ≤ 2 ^ 53 := by omega
  have hF2 : F ≤ 2045 := by omega
  have hF3 : F = 2045 → n < 2 ^ 53 := fun h => by have := e3 (by omega); omega
  refine ⟨by omega, ?_, ?_⟩
  · unfold finite64
    have : (F * 2 ^ 52 + n) / 2 ^ 52 % 2 ^ 11 ≠ 2047 := by omega
    simpa using this
  · rcases Nat.lt_or_ge n (2 ^ 53) with h | h
    · have q1 : (F * 2 ^ 52 + n) / 2 ^ 52 % 2 ^ 11 = F + 1 := by omega
      have q2 : (F * 2 ^ 52 + n) % 2 ^ 52 = n - 2 ^ 52 := by omega
      unfold mag64
      rw [q1, q2, if_neg (by omega), show 2 ^ 52 + (n - 2 ^ 52) = n by omega,
        show (((F + 1 : Nat) : Int) - 1075) = (F : Int) - 1074 by omega]
      rfl
    · have hn : n = 2 ^ 53 := by omega
      subst hn
      have q1 : (F * 2 ^ 52 + 2 ^ 53) / 2 ^ 52 % 2 ^ 11 = F + 2 := by omega
      have q2 : (F * 2 ^ 52 + 2 ^ 53) % 2 ^ 52 = 0 := by omega
      unfold mag64
      rw [q1, q2, if_neg (by omega), show (((F + 2 : Nat) : Int) - 1075) = ((F : Int) - 1074) + 1 by omega, two_pow_succ]
      have : (((2 ^ 53 : Nat) : Int) : Rat) = 2 * ((2 ^ 52 + 0 : Nat) : Rat) := by decide +kernel
      rw [this]
      generalize ((2 ^ 52 + 0 : Nat) : Rat) = c
      grind

theorem nearest64_value {y : Rat} (h1 : (2 : Rat) ^ (-1022 : Int) ≤ y) (h2 : y < 2 ^ (1022 : Int)) :
    nearest64 y < 2 ^ 63 ∧ finite64 (nearest64 y) = true ∧
    mag64 (nearest64 y) = halfEven (y / 2 ^ exponentOf y) * 2 ^ exponentOf y := nearest64_value_top h1 (below_top h2)

/-- Every double is a small integer times a power of two. -/
theorem isDouble_form {r : Rat} (h : IsDouble r) :
    ∃ n e : Int, r = n * 2 ^ e ∧ -1074 ≤ e ∧ -2 ^ 53 < n ∧ n < 2 ^ 53 := by
  obtain ⟨b, hb, hf, rfl⟩ := h
  have key : ∃ n : Nat, ∃ e : Int, mag64 b = (n : Rat) * 2 ^ e ∧ -1074 ≤ e ∧ n < 2 ^ 53 := by
    unfold mag64
    split
    · exact ⟨b % 2 ^ 52, -1074, rfl, by omega, by omega⟩
    · exact ⟨2 ^ 52 + b % 2 ^ 52, _, rfl, by omega, by omega⟩
  obtain ⟨n, e, h1, h2, h3⟩ := key
  unfold value64
  rw [h1]
  split
  · refine ⟨-(n : Int), e, ?_, h2, by omega, by omega⟩
    have : ((-(n : Int) : Int) : Rat) = -((n : Nat) : Rat) := by rw [Rat.intCast_neg]; rfl
    rw [this]; grind
  · exact ⟨n, e, rfl, h2, by omega, by omega⟩

theorem abs_mul_pos {x P : Rat} (hp : 0 < P) : (x * P).abs = x.abs * P := by
  rcases Rat.le_total (a := 0) (b := x) with h | h
  · rw [Rat.abs_of_nonneg h, Rat.abs_of_nonneg (Rat.mul_nonneg h (Rat.le_of_lt hp))]
  · rw [Rat.abs_of_nonpos h, Rat.abs_of_nonpos]
    · grind
    · have := Rat.mul_le_mul_of_nonneg_right h (Rat.le_of_lt hp); grind

/-- No double is nearer. -/
theorem nearest64_le_top {y : Rat} (h1 : (2 : Rat) ^ (-1022 : Int) ≤ y) (h2 : y < 2 ^ (1024 : Int) - 2 ^ (970 : Int)) :
    ∀ r', IsDouble r' → (y - mag64 (nearest64 y)).abs ≤ (y - r').abs ∧
      ((y - mag64 (nearest64 y)).abs = (y - r').abs → r' ≠ mag64 (nearest64 y) → nearest64 y % 2 = 0) := by
  have hy : 0 < y := by have := two_pow_pos (-1022); grind
  obtain ⟨v1, v2, v3⟩ := nearest64_value_top h1 h2
  intro r' hr'
  have hev : halfEven (y / 2 ^ exponentOf y) % 2 = 0 → nearest64 y % 2 = 0 := by
    intro h
    obtain ⟨e1, e2, _⟩ := exponent_range_top h1 h2
    obtain ⟨m1, m2⟩ := mantissa_bounds hy
    unfold nearest64
    omega
  · rw [v3]
    obtain ⟨g1, g2⟩ := exponentOf_bounds hy
    have hne := two_pow_ne (exponentOf y)
    have hp := two_pow_pos (exponentOf y)
    generalize exponentOf y = E at *
    have hc := Rat.div_mul_cancel (a := y) hne
    have hn := halfEven_nearest (y / 2 ^ E)
    clear v3
    generalize nearest64 y = N at *
    generalize halfEven (y / 2 ^ E) = m at *
    generalize y / 2 ^ E = x at *
    subst hc
    have all : ∀ n : Int, (x * 2 ^ E - m * 2 ^ E).abs ≤ (x * 2 ^ E - n * 2 ^ E).abs := by
      intro n
      have := Rat.mul_le_mul_of_nonneg_right (nearestInt_le hn n) (Rat.le_of_lt hp)
      rw [← abs_mul_pos hp, ← abs_mul_pos hp] at this
      have e1 : (x - m) * 2 ^ E = x * 2 ^ E - m * 2 ^ E := by grind
      have e2 : (x - n) * 2 ^ E = x * 2 ^ E - n * 2 ^ E := by grind
      rw [e1, e2] at this
      exact this
    obtain ⟨n, e, rfl, f1, f2, f3⟩ := isDouble_form hr'
    rcases Int.lt_or_le e E with he | he
    · -- a smaller exponent: the number is below the power of two below `y`
      have t1 : (n : Rat) * 2 ^ e < 2 ^ (52 : Int) * 2 ^ E := by
        have a1 : (n : Rat) * 2 ^ e < ((2 ^ 53 : Int) : Rat) * 2 ^ e :=
          Rat.mul_lt_mul_of_pos_right (Rat.intCast_lt_intCast.2 (by omega)) (two_pow_pos e)
        have a2 : ((2 ^ 53 : Int) : Rat) * 2 ^ e = 2 ^ (53 + e) := by rw [two_pow_add]; rfl
        rw [a2] at a1
        rw [← two_pow_add]
        have := two_pow_mono (a := 53 + e) (b := 52 + E) (by omega)
        grind
      have t2 : ((2 ^ 52 : Int) : Rat) * 2 ^ E ≤ x * 2 ^ E := Rat.mul_le_mul_of_nonneg_right g1 (Rat.le_of_lt hp)
      have t3 : (2 : Rat) ^ (52 : Int) = ((2 ^ 52 : Int) : Rat) := by decide +kernel
      rw [t3] at t1
      have lt : (x * 2 ^ E - m * 2 ^ E).abs < (x * 2 ^ E - n * 2 ^ e).abs := by
        have := all (2 ^ 52)
        rw [Rat.abs_of_nonneg (x := x * 2 ^ E - ((2 ^ 52 : Int) : Rat) * 2 ^ E) (by grind)] at this
        rw [Rat.abs_of_nonneg (x := x * 2 ^ E - n * 2 ^ e) (by grind)]
        grind
      exact ⟨Rat.le_of_lt lt, fun h => by rw [h] at lt; exact absurd lt Rat.lt_irrefl⟩
    · obtain ⟨d, hd⟩ : ∃ d : Nat, e = E + d := ⟨(e - E).toNat, by omega⟩
      subst hd
      have := all (n * 2 ^ d)
      have e3 : (n : Rat) * 2 ^ (E + (d : Int)) = ((n * 2 ^ d : Int) : Rat) * 2 ^ E := by
        rw [two_pow_add, two_pow_nat, Rat.intCast_mul]
        have : ((2 ^ d : Int) : Rat) = ((2 ^ d : Nat) : Rat) := by
          have : (2 ^ d : Int) = ((2 ^ d : Nat) : Int) := by simp
          rw [this]; rfl
        rw [this]; grind
      rw [e3]
      refine ⟨this, fun h hne' => hev ?_⟩
      generalize n * 2 ^ d = k at *
      have e1 : (x - m) * 2 ^ E = x * 2 ^ E - m * 2 ^ E := by grind
      have e2 : (x - k) * 2 ^ E = x * 2 ^ E - k * 2 ^ E := by grind
      rw [← e1, ← e2, abs_mul_pos hp, abs_mul_pos hp] at h
      have h' : (x - m).abs = (x - k).abs := by
        rw [← Rat.mul_div_cancel (a := (x - m).abs) hne, h, Rat.mul_div_cancel hne]
      have hmk : m ≠ k := fun h => hne' (by rw [h])
      refine hn.2 ?_
      have far : (1 : Rat) ≤ (x - m).abs + (x - k).abs := by
        rcases Int.lt_or_gt_of_ne hmk with h1 | h1
        · have : ((m + 1 : Int) : Rat) ≤ k := Rat.intCast_le_intCast.2 h1
          rw [intCast_succ] at this
          have := (abs_le_iff (x := x - m)).1 (Rat.le_refl)
          have := (abs_le_iff (x := x - k)).1 (Rat.le_refl)
          grind
        · have : ((k + 1 : Int) : Rat) ≤ m := Rat.intCast_le_intCast.2 h1
          rw [intCast_succ] at this
          have := (abs_le_iff (x := x - m)).1 (Rat.le_refl)
          have := (abs_le_iff (x := x - k)).1 (Rat.le_refl)
          grind
      have := hn.1
      grind

theorem nearest64_le {y : Rat} (h1 : (2 : Rat) ^ (-1022 : Int) ≤ y) (h2 : y < 2 ^ (1022 : Int)) :
    ∀ r', IsDouble r' → (y - mag64 (nearest64 y)).abs ≤ (y - r').abs ∧
      ((y - mag64 (nearest64 y)).abs = (y - r').abs → r' ≠ mag64 (nearest64 y) → nearest64 y % 2 = 0) :=
  nearest64_le_top h1 (below_top h2)

theorem natCast_mul_two_pow (n d : Nat) (E : Int) : (n : Rat) * 2 ^ (E + (d : Int)) = ((n * 2 ^ d : Nat) : Rat) * 2 ^ E := by
  rw [two_pow_add, two_pow_nat, Rat.natCast_mul]; grind

/-- Integers of 53 bits times a power of two are doubles. -/
theorem nearest64_exact {n : Nat} {e : Int} (hn : n < 2 ^ 53) (h1 : (2 : Rat) ^ (-1022 : Int) ≤ n * 2 ^ e)
    (h2 : (n : Rat) * 2 ^ e < 2 ^ (1022 : Int)) : mag64 (nearest64 (n * 2 ^ e)) = n * 2 ^ e := by
  have hy : (0 : Rat) < n * 2 ^ e := by have := two_pow_pos (-1022); grind
  rw [(nearest64_value h1 h2).2.2]
  obtain ⟨g1, g2⟩ := exponentOf_bounds hy
  have hne := two_pow_ne (exponentOf (n * 2 ^ e))
  have hp := two_pow_pos (exponentOf (n * 2 ^ e))
  generalize exponentOf (n * 2 ^ e) = E at *
  have hc := Rat.div_mul_cancel (a := (n : Rat) * 2 ^ e) hne
  have k1 := Rat.mul_le_mul_of_nonneg_right g1 (Rat.le_of_lt hp)
  rw [hc, ← two_pow_add] at k1
  have k2 : (n : Rat) * 2 ^ e < 2 ^ (53 + e) := by
    rw [two_pow_add]
    refine Rat.mul_lt_mul_of_pos_right ?_ (two_pow_pos e)
    have : (2 : Rat) ^ (53 : Int) = ((2 ^ 53 : Nat) : Rat) := two_pow_nat 53
    rw [this]; exact Rat.natCast_lt_natCast.2 hn
  have := two_pow_lt (a := 52 + E) (b := 53 + e) (by grind)
  obtain ⟨d, rfl⟩ : ∃ d : Nat, e = E + d := ⟨(e - E).toNat, by omega⟩
  have e1 := natCast_mul_two_pow n d E
  rw [e1, Rat.mul_div_cancel hne]
  have : ((n * 2 ^ d : Nat) : Rat) = (((n * 2 ^ d : Nat) : Int) : Rat) := rfl
  rw [this, halfEven_int]

/-- The nearest double grows with the number. -/
theorem nearest64_mono {y z : Rat} (hyz : y ≤ z) (h1 : (2 : Rat) ^ (-1022 : Int) ≤ y) (h2 : z < 2 ^ (1022 : Int)) :
    mag64 (nearest64 y) ≤ mag64 (nearest64 z) := by
  have hy : 0 < y := by have := two_pow_pos (-1022); grind
  have hz : 0 < z := by grind
  rw [(nearest64_value h1 (by grind)).2.2, (nearest64_value (y := z) (by grind) h2).2.2]
  obtain ⟨a1, a2⟩ := exponentOf_bounds hy
  obtain ⟨b1, b2⟩ := exponentOf_bounds hz
  obtain ⟨m1, m2⟩ := mantissa_bounds hy
  obtain ⟨n1, n2⟩ := mantissa_bounds hz
  have hp := two_pow_pos (exponentOf y)
  have hq := two_pow_pos (exponentOf z)
  have hc := Rat.div_mul_cancel (a := y) (two_pow_ne (exponentOf y))
  have hd := Rat.div_mul_cancel (a := z) (two_pow_ne (exponentOf z))
  have hmono : exponentOf y = exponentOf z → y / 2 ^ exponentOf y ≤ z / 2 ^ exponentOf z := by
    intro e
    rw [e] at hc ⊢
    refine Rat.le_of_mul_le_mul_right (c := 2 ^ exponentOf z) ?_ hq
    rw [hc, hd]; exact hyz
  generalize exponentOf y = E at *
  generalize exponentOf z = F at *
  rcases Int.lt_trichotomy E F with h | h | h
  · have c1 : (halfEven (y / 2 ^ E) : Rat) * 2 ^ E ≤ ((2 ^ 53 : Int) : Rat) * 2 ^ E :=
      Rat.mul_le_mul_of_nonneg_right (Rat.intCast_le_intCast.2 m2) (Rat.le_of_lt hp)
    have c2 : ((2 ^ 52 : Int) : Rat) * 2 ^ F ≤ (halfEven (z / 2 ^ F) : Rat) * 2 ^ F :=
      Rat.mul_le_mul_of_nonneg_right (Rat.intCast_le_intCast.2 n1) (Rat.le_of_lt hq)
    have e1 : ((2 ^ 53 : Int) : Rat) * 2 ^ E = 2 ^ (53 + E) := by rw [two_pow_add]; rfl
    have e2 : ((2 ^ 52 : Int) : Rat) * 2 ^ F = 2 ^ (52 + F) := by rw [two_pow_add]; rfl
    rw [e1] at c1
    rw [e2] at c2
    have := two_pow_mono (a := 53 + E) (b := 52 + F) (by omega)
    grind
  · subst h
    exact Rat.mul_le_mul_of_nonneg_right (Rat.intCast_le_intCast.2 (halfEven_mono (hmono rfl))) (Rat.le_of_lt hp)
  · exfalso
    have k1 := Rat.mul_le_mul_of_nonneg_right a1 (Rat.le_of_lt hp)
    have k2 := Rat.mul_lt_mul_of_pos_right b2 hq
    rw [hc, ← two_pow_add] at k1
    rw [hd, ← two_pow_add] at k2
    have := two_pow_lt (a := 52 + E) (b := 53 + F) (by grind)
    omega

/-- How far the nearest double is. -/
theorem nearest64_error {y : Rat} {e : Int} (h1 : (2 : Rat) ^ (-1022 : Int) ≤ y) (h2 : y < 2 ^ (1022 : Int))
    (he : y < 2 ^ (e + 53)) : (mag64 (nearest64 y) - y).abs ≤ 2 ^ e / 2 := by
  have hy : 0 < y := by have := two_pow_pos (-1022); grind
  rw [(nearest64_value h1 h2).2.2]
  obtain ⟨a1, a2⟩ := exponentOf_bounds hy
  have hp := two_pow_pos (exponentOf y)
  have hc := Rat.div_mul_cancel (a := y) (two_pow_ne (exponentOf y))
  have hn := halfEven_near (y / 2 ^ exponentOf y)
  generalize exponentOf y = E at *
  have k1 := Rat.mul_le_mul_of_nonneg_right a1 (Rat.le_of_lt hp)
  rw [hc, ← two_pow_add] at k1
  have := two_pow_lt (a := 52 + E) (b := e + 53) (by grind)
  have hm := two_pow_mono (a := E) (b := e) (by omega)
  generalize (halfEven (y / 2 ^ E) : Rat) = m at *
  generalize y / 2 ^ E = x at *
  subst hc
  have q1 := Rat.mul_le_mul_of_nonneg_right hn.1 (Rat.le_of_lt hp)
  have q2 := Rat.mul_le_mul_of_nonneg_right hn.2 (Rat.le_of_lt hp)
  refine abs_le_iff.2 ⟨by grind, by grind⟩

theorem withSign_value {s : Bool} {m : Nat} (hm : m < 2 ^ 63) :
    withSign s m < 2 ^ 64 ∧ neg64 (withSign s m) = s ∧ mag64 (withSign s m) = mag64 m ∧
    finite64 (withSign s m) = finite64 m := by
  cases s with
  | false =>
    refine ⟨by simp only [withSign]; simp; omega, ?_, rfl, rfl⟩
    simp only [withSign, neg64]
    have : m / 2 ^ 63 % 2 = 0 := by omega
    simp [this]
  | true =>
    have h1 : (2 ^ 63 + m) / 2 ^ 52 % 2 ^ 11 = m / 2 ^ 52 % 2 ^ 11 := by omega
    have h2 : (2 ^ 63 + m) % 2 ^ 52 = m % 2 ^ 52 := by omega
    have h3 : (2 ^ 63 + m) / 2 ^ 63 % 2 = 1 := by omega
    simp only [withSign, if_true]
    refine ⟨by omega, ?_, ?_, ?_⟩
    · unfold neg64; rw [h3]; rfl
    · unfold mag64; rw [h1, h2]
    · unfold finite64; rw [h1]

/-- A finite single: an integer of 24 bits times a power of two. -/
theorem mag32_form (b : Nat) (hf : finite32 b = true) :
    ∃ (n : Nat) (e : Int), mag32 b = n * 2 ^ e ∧ n < 2 ^ 24 ∧ -149 ≤ e ∧ e ≤ 104 := by
  unfold finite32 at hf
  have hf' : b / 2 ^ 23 % 2 ^ 8 ≠ 255 := by simpa using hf
  unfold mag32
  split
  · exact ⟨_, _, rfl, by omega, by omega, by omega⟩
  · exact ⟨_, _, rfl, by omega, by omega, by omega⟩

theorem form_pos {n : Nat} {e : Int} (h : (n : Rat) * 2 ^ e ≠ 0) : (2 : Rat) ^ e ≤ n * 2 ^ e := by
  have hn : n ≠ 0 := fun h0 => h (by subst h0; show (0 : Rat) * _ = 0; grind)
  have h1 : (1 : Rat) ≤ (n : Rat) := by
    have := Rat.natCast_le_natCast.2 (show 1 ≤ n by omega)
    exact this
  have := Rat.mul_le_mul_of_nonneg_right h1 (Rat.le_of_lt (two_pow_pos e))
  grind

theorem form_lt {n : Nat} {k : Nat} {e : Int} (h : n < 2 ^ k) : (n : Rat) * 2 ^ e < 2 ^ ((k : Int) + e) := by
  rw [two_pow_add, two_pow_nat]
  exact Rat.mul_lt_mul_of_pos_right (Rat.natCast_lt_natCast.2 h) (two_pow_pos e)

theorem mag32_bounds {b : Nat} (hf : finite32 b = true) : 0 ≤ mag32 b ∧ mag32 b < 2 ^ (128 : Int) ∧
    (mag32 b ≠ 0 → (2 : Rat) ^ (-149 : Int) ≤ mag32 b) := by
  obtain ⟨n, e, h1, h2, h3, h4⟩ := mag32_form b hf
  rw [h1]
  refine ⟨Rat.mul_nonneg Rat.natCast_nonneg (Rat.le_of_lt (two_pow_pos e)), ?_, fun h => ?_⟩
  · have := form_lt (e := e) h2
    have := two_pow_mono (a := (24 : Nat) + e) (b := 128) (by omega)
    grind
  · exact Rat.le_trans (two_pow_mono h3) (form_pos h)

/-- `struct.unpack("<f", ...)` gives the number itself. -/
theorem widen_value {b : Nat} (hf : finite32 b = true) : widen b < 2 ^ 64 ∧ finite64 (widen b) = true ∧
    neg64 (widen b) = neg32 b ∧ mag64 (widen b) = mag32 b := by
  unfold widen
  rw [if_pos hf]
  by_cases h0 : mag32 b = 0
  · rw [if_pos h0]
    obtain ⟨w1, w2, w3, w4⟩ := withSign_value (s := neg32 b) (m := 0) (by omega)
    rw [w2, w3, w4, h0]
    refine ⟨w1, rfl, rfl, ?_⟩
    decide +kernel
  · rw [if_neg h0]
    obtain ⟨m1, m2, m3⟩ := mag32_bounds hf
    have q1 : (2 : Rat) ^ (-1022 : Int) ≤ mag32 b := Rat.le_trans (two_pow_mono (by omega)) (m3 h0)
    have q2 : mag32 b < 2 ^ (1022 : Int) := by have := two_pow_mono (a := 128) (b := 1022) (by omega); grind
    obtain ⟨n1, n2, n3⟩ := nearest64_value q1 q2
    obtain ⟨w1, w2, w3, w4⟩ := withSign_value (s := neg32 b) n1
    rw [w2, w3, w4]
    refine ⟨w1, n2, rfl, ?_⟩
    obtain ⟨n, e, h1, h2, h3, h4⟩ := mag32_form b hf
    rw [h1] at q1 q2 ⊢
    exact nearest64_exact (by omega) q1 q2

theorem widen_infinite {b : Nat} (hf : finite32 b = false) : widen b < 2 ^ 64 ∧ finite64 (widen b) = false ∧
    neg64 (widen b) = neg32 b ∧ (widen b % 2 ^ 52 = 0 ↔ b % 2 ^ 23 = 0) := by
  unfold widen
  rw [hf]
  simp only [Bool.false_eq_true, if_false]
  have hm : 2047 * 2 ^ 52 + b % 2 ^ 23 * 2 ^ 29 < 2 ^ 63 := by omega
  obtain ⟨w1, w2, w3, w4⟩ := withSign_value (s := neg32 b) hm
  refine ⟨w1, ?_, w2, ?_⟩
  · rw [w4]
    unfold finite64
    have : (2047 * 2 ^ 52 + b % 2 ^ 23 * 2 ^ 29) / 2 ^ 52 % 2 ^ 11 = 2047 := by omega
    simp [this]
  · unfold withSign
    split <;> omega

end Elgas
