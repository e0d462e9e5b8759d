import Verif.Lemmas.Frames
import Verif.Spec.Bcd
namespace Elgas
open Spec

/-! ### hex digits -/

theorem digitChar_isDigit : ∀ i : Fin 16, (Nat.digitChar i.val).isDigit = decide (i.val ≤ 9) := by
  decide +kernel

theorem digitChar_isDigit' {n : Nat} (h : n < 16) : (Nat.digitChar n).isDigit = decide (n ≤ 9) :=
  digitChar_isDigit ⟨n, h⟩

theorem hexVal_digitChar : ∀ i : Fin 16, hexVal (Nat.digitChar i.val) = some i.val := by
  decide +kernel

theorem hexVal_digitChar' {n : Nat} (h : n < 16) : hexVal (Nat.digitChar n) = some n :=
  hexVal_digitChar ⟨n, h⟩

theorem toHex_nil : toHex [] = [] := rfl
theorem toHex_cons (x : UInt8) (d : Bytes) :
    toHex (x :: d) = Nat.digitChar (x.toNat / 16) :: Nat.digitChar (x.toNat % 16) :: toHex d := rfl

theorem toHex_all (d : Bytes) : (toHex d).all Char.isDigit = true ↔ ∀ x ∈ d, IsBcd x := by
  induction d with
  | nil => simp [toHex_nil]
  | cons x d ih =>
    have := x.toNat_lt
    rw [toHex_cons, List.all_cons, List.all_cons, digitChar_isDigit' (by omega),
      digitChar_isDigit' (by omega)]
    simp only [Bool.and_eq_true, decide_eq_true_eq, ih, List.mem_cons, forall_eq_or_imp, IsBcd]
    constructor
    · rintro ⟨a, b, c⟩; exact ⟨⟨a, b⟩, c⟩
    · rintro ⟨⟨a, b⟩, c⟩; exact ⟨a, b, c⟩

theorem ofDigitChars_toHex (d : Bytes) (h : ∀ x ∈ d, IsBcd x) (init : Nat) :
    Nat.ofDigitChars 10 (toHex d) init = d.foldl (fun acc b => 100 * acc + bcdByte b) init := by
  induction d generalizing init with
  | nil => simp [toHex_nil]
  | cons x d ih =>
    have hx : IsBcd x := h x (by simp)
    unfold IsBcd at hx
    rw [toHex_cons, Nat.ofDigitChars_cons_digitChar_of_lt_ten (by omega),
      Nat.ofDigitChars_cons_digitChar_of_lt_ten (by omega), ih (fun y hy => h y (by simp [hy]))]
    simp only [List.foldl_cons, bcdByte]
    congr 1; omega

theorem fromBcd_eq (d : Bytes) :
    fromBcd d = if d ≠ [] ∧ ∀ x ∈ d, IsBcd x then .ok (bcdValue d) else .error .value := by
  unfold fromBcd pyInt
  by_cases h : d = []
  · subst h; simp [toHex_nil]
  · have hne : toHex d ≠ [] := by
      cases d with
      | nil => exact absurd rfl h
      | cons x d => rw [toHex_cons]; simp
    rw [if_neg hne]
    by_cases h2 : ∀ x ∈ d, IsBcd x
    · rw [if_pos ((toHex_all d).2 h2), if_pos ⟨h, h2⟩, ofDigitChars_toHex d h2 0]; rfl
    · rw [if_neg (fun hh => h2 ((toHex_all d).1 hh)), if_neg (fun hh => h2 hh.2)]; rfl

theorem fromBcd_one (x : UInt8) :
    fromBcd [x] = if IsBcd x then .ok (bcdByte x) else .error .value := by
  rw [fromBcd_eq]; simp [bcdValue]

/-! ### encoding -/

/-- The byte with the two decimal digits of `n % 100`. -/
def bcdPack (n : Nat) : UInt8 := UInt8.ofNat (16 * (n / 10 % 10) + n % 10)

theorem bcdPack_toNat (n : Nat) : (bcdPack n).toNat = 16 * (n / 10 % 10) + n % 10 := by
  unfold bcdPack; rw [u8_ofNat_toNat_lt (by omega)]

theorem bcdPack_isBcd (n : Nat) : IsBcd (bcdPack n) := by
  unfold IsBcd; rw [bcdPack_toNat]; omega

theorem bcdByte_bcdPack (n : Nat) : bcdByte (bcdPack n) = n % 100 := by
  unfold bcdByte; rw [bcdPack_toNat]; omega

theorem bcdPack_bcdByte {b : UInt8} (h : IsBcd b) : bcdPack (bcdByte b) = b := by
  apply UInt8.toNat_inj.1
  unfold IsBcd at h
  rw [bcdPack_toNat]; unfold bcdByte; omega

theorem bcdByte_lt {b : UInt8} (h : IsBcd b) : bcdByte b < 100 := by
  unfold IsBcd at h; unfold bcdByte; omega

/-- Closed recursive form of the encoding: base-100 digits. -/
def bcdEnc (n : Nat) : Bytes :=
  if n < 100 then [bcdPack n] else bcdEnc (n / 100) ++ [bcdPack n]
termination_by n
decreasing_by omega

theorem bcdEnc_lt {n : Nat} (h : n < 100) : bcdEnc n = [bcdPack n] := by
  rw [bcdEnc, if_pos h]
theorem bcdEnc_ge {n : Nat} (h : ¬ n < 100) : bcdEnc n = bcdEnc (n / 100) ++ [bcdPack n] := by
  rw [bcdEnc, if_neg h]

theorem fromHex_append2 (a : PyStr) (d : Bytes) (x y : Nat) (hx : x < 16) (hy : y < 16)
    (ha : fromHex a = .ok d) :
    fromHex (a ++ [Nat.digitChar x, Nat.digitChar y]) = .ok (d ++ [UInt8.ofNat (16 * x + y)]) := by
  fun_induction fromHex a generalizing d with
  | case1 =>
    simp at ha; subst ha
    simp only [List.nil_append, fromHex, hexVal_digitChar' hx, hexVal_digitChar' hy]; rfl
  | case2 => simp at ha
  | case3 p q rest u v hu hv ih =>
    rw [bind_eq_ok] at ha
    obtain ⟨r, hr, h2⟩ := ha
    rw [pure_res, Except.ok.injEq] at h2; subst h2
    simp only [List.cons_append, fromHex, hu, hv]
    rw [ih r hr]; rfl
  | case4 => simp at ha

/-- Padding to an even number of characters. -/
def padEven (c : PyStr) : PyStr := if c.length % 2 ≠ 0 then '0' :: c else c

theorem padEven_append2 (c : PyStr) (x y : Char) : padEven (c ++ [x, y]) = padEven c ++ [x, y] := by
  unfold padEven
  have : (c ++ [x, y]).length % 2 = c.length % 2 := by simp
  rw [this]
  split <;> rfl

theorem toDigits_hundred {n : Nat} (h : 100 ≤ n) :
    Nat.toDigits 10 n = Nat.toDigits 10 (n / 100) ++
      [Nat.digitChar (n / 10 % 10), Nat.digitChar (n % 10)] := by
  rw [Nat.toDigits_of_base_le (by omega) (by omega : 10 ≤ n),
    Nat.toDigits_of_base_le (by omega) (by omega : 10 ≤ n / 10), Nat.div_div_eq_div_mul]
  simp

theorem fromHex_padEven_lt : ∀ i : Fin 100,
    fromHex (padEven (Nat.toDigits 10 i.val)) = .ok [bcdPack i.val] := by
  decide +kernel

theorem toBdc_nat (n : Nat) : toBdc (n : Int) = .ok (bcdEnc n) := by
  have hp : pyStrInt (n : Int) = Nat.toDigits 10 n := by
    unfold pyStrInt; rw [if_neg (by omega)]; simp
  have : toBdc (n : Int) = fromHex (padEven (Nat.toDigits 10 n)) := by
    unfold toBdc padEven; simp only [hp]
  rw [this]
  clear this hp
  induction n using Nat.strongRecOn with
  | ind n ih =>
    by_cases h : n < 100
    · rw [bcdEnc_lt h]; exact fromHex_padEven_lt ⟨n, h⟩
    · rw [bcdEnc_ge h, toDigits_hundred (by omega), padEven_append2,
        fromHex_append2 _ _ _ _ (by omega) (by omega) (ih (n / 100) (by omega))]
      rfl

theorem fromHex_not_hex (a : PyStr) (h : ∃ c ∈ a, hexVal c = none) : fromHex a = .error .value := by
  fun_induction fromHex a with
  | case1 => simp at h
  | case2 => rfl
  | case3 p q rest u v hu hv ih =>
    obtain ⟨c, hc, hn⟩ := h
    simp only [List.mem_cons] at hc
    rcases hc with rfl | rfl | hc
    · simp_all
    · simp_all
    · rw [ih ⟨c, hc, hn⟩]; rfl
  | case4 => rfl

theorem toBdc_neg {n : Int} (h : n < 0) : toBdc n = .error .value := by
  unfold toBdc pyStrInt
  rw [if_pos h]
  apply fromHex_not_hex
  refine ⟨'-', ?_, by decide⟩
  split <;> simp

theorem bcdEnc_ne_nil (n : Nat) : bcdEnc n ≠ [] := by
  rw [bcdEnc]; split <;> simp

theorem bcdEnc_isBcd (n : Nat) : ∀ x ∈ bcdEnc n, IsBcd x := by
  induction n using Nat.strongRecOn with
  | ind n ih =>
    by_cases h : n < 100
    · rw [bcdEnc_lt h]; simpa using bcdPack_isBcd n
    · rw [bcdEnc_ge h]
      intro x hx
      simp only [List.mem_append, List.mem_singleton] at hx
      rcases hx with hx | rfl
      · exact ih (n / 100) (by omega) x hx
      · exact bcdPack_isBcd n

theorem bcdValue_append_one (d : Bytes) (x : UInt8) : bcdValue (d ++ [x]) = 100 * bcdValue d + bcdByte x := by
  simp [bcdValue]

theorem bcdValue_bcdEnc (n : Nat) : bcdValue (bcdEnc n) = n := by
  induction n using Nat.strongRecOn with
  | ind n ih =>
    by_cases h : n < 100
    · rw [bcdEnc_lt h]; simp [bcdValue, bcdByte_bcdPack]; omega
    · rw [bcdEnc_ge h, bcdValue_append_one, ih (n / 100) (by omega), bcdByte_bcdPack]; omega

theorem bcdEnc_head (n : Nat) (h : 100 ≤ n) : (bcdEnc n).head? ≠ some 0 := by
  induction n using Nat.strongRecOn with
  | ind n ih =>
    rw [bcdEnc_ge (by omega)]
    by_cases h2 : n / 100 < 100
    · rw [bcdEnc_lt h2]
      simp only [List.singleton_append, List.head?_cons, ne_eq, Option.some.injEq]
      intro hh
      have := congrArg bcdByte hh
      rw [bcdByte_bcdPack] at this
      simp [bcdByte] at this
      omega
    · have := ih (n / 100) (by omega) (by omega)
      have hne := bcdEnc_ne_nil (n / 100)
      cases hc : bcdEnc (n / 100) with
      | nil => exact absurd hc hne
      | cons a l => rw [hc] at this; simpa using this

theorem bcdValue_inj {a b : Bytes} (hl : a.length = b.length) (ha : ∀ x ∈ a, IsBcd x)
    (hb : ∀ x ∈ b, IsBcd x) (h : bcdValue a = bcdValue b) : a = b := by
  induction hn : a.length generalizing a b with
  | zero =>
    rw [List.length_eq_zero_iff.1 hn, List.length_eq_zero_iff.1 (by omega : b.length = 0)]
  | succ n ih =>
    rcases List.eq_nil_or_concat a with rfl | ⟨a', x, rfl⟩
    · simp at hn
    rcases List.eq_nil_or_concat b with rfl | ⟨b', y, rfl⟩
    · simp at hl
    simp only [List.concat_eq_append] at *
    rw [bcdValue_append_one, bcdValue_append_one] at h
    have hx := ha x (by simp)
    have hy := hb y (by simp)
    have h1 := bcdByte_lt hx
    have h2 := bcdByte_lt hy
    have e1 : bcdValue a' = bcdValue b' := by omega
    have e2 : bcdByte x = bcdByte y := by omega
    simp at hl hn
    rw [ih hl (fun z hz => ha z (by simp [hz])) (fun z hz => hb z (by simp [hz])) e1 hn,
      ← bcdPack_bcdByte hx, ← bcdPack_bcdByte hy, e2]

end Elgas
