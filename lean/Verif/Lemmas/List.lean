import Verif.Py.Basic
/-! Generic lemmas about Python slices, `Except` and byte lists. -/
namespace Elgas

@[simp] theorem clampIdx_nonneg (n k : Nat) : clampIdx n (k : Int) = min k n := by
  simp [clampIdx]; omega

@[simp] theorem clampIdx_ofNat (n k : Nat) :
    clampIdx n (no_index (OfNat.ofNat k) : Int) = min k n :=
  clampIdx_nonneg n k

theorem clampIdx_neg (n k : Nat) (h : 0 < k) : clampIdx n (-(k : Int)) = n - k := by
  have h' : (-(k : Int)) < 0 := by omega
  simp only [clampIdx, if_pos h']; omega

@[simp] theorem clampIdx_neg_ofNat (n k : Nat) (h : 0 < k) :
    clampIdx n (-(no_index (OfNat.ofNat k) : Int)) = n - k :=
  clampIdx_neg n k h

theorem sliceTo_nat {α} (l : List α) (k : Nat) : sliceTo l (k : Int) = l.take k := by
  simp [sliceTo, List.take_eq_take_iff]

theorem sliceFrom_nat {α} (l : List α) (k : Nat) : sliceFrom l (k : Int) = l.drop k := by
  simp only [sliceFrom, clampIdx_nonneg]
  by_cases h : k ≤ l.length
  · rw [Nat.min_eq_left h]
  · rw [Nat.min_eq_right (by omega), List.drop_of_length_le (by omega),
      List.drop_of_length_le (by omega)]

theorem slice_nat {α} (l : List α) (a b : Nat) : slice l (a : Int) (b : Int) = (l.take b).drop a := by
  simp only [slice, clampIdx_nonneg]
  have h1 : l.take (min b l.length) = l.take b := by simp [List.take_eq_take_iff]
  rw [h1]
  by_cases h : a ≤ l.length
  · rw [Nat.min_eq_left h]
  · rw [Nat.min_eq_right (by omega), List.drop_of_length_le (by simp; omega),
      List.drop_of_length_le (by simp; omega)]

@[simp] theorem sliceTo_ofNat {α} (l : List α) (k : Nat) :
    sliceTo l (no_index (OfNat.ofNat k) : Int) = l.take k := sliceTo_nat l k
@[simp] theorem sliceFrom_ofNat {α} (l : List α) (k : Nat) :
    sliceFrom l (no_index (OfNat.ofNat k) : Int) = l.drop k := sliceFrom_nat l k
@[simp] theorem slice_ofNat {α} (l : List α) (a b : Nat) :
    slice l (no_index (OfNat.ofNat a) : Int) (no_index (OfNat.ofNat b) : Int)
      = (l.take b).drop a := slice_nat l a b

@[simp] theorem sliceTo_neg_ofNat {α} (l : List α) (k : Nat) (h : 0 < k) :
    sliceTo l (-(no_index (OfNat.ofNat k) : Int)) = l.take (l.length - k) := by
  simp only [sliceTo, clampIdx_neg_ofNat _ _ h]
@[simp] theorem sliceFrom_neg_ofNat {α} (l : List α) (k : Nat) (h : 0 < k) :
    sliceFrom l (-(no_index (OfNat.ofNat k) : Int)) = l.drop (l.length - k) := by
  simp only [sliceFrom, clampIdx_neg_ofNat _ _ h]

theorem slice_nat_neg {α} (l : List α) (a k : Nat) (hk : 0 < k) :
    slice l (a : Int) (-(k : Int)) = (l.take (l.length - k)).drop a := by
  simp only [slice, clampIdx_nonneg, clampIdx_neg _ _ hk]
  by_cases h : a ≤ l.length
  · rw [Nat.min_eq_left h]
  · rw [Nat.min_eq_right (by omega), List.drop_of_length_le (by simp),
      List.drop_of_length_le (by simp; omega)]

@[simp] theorem slice_ofNat_neg {α} (l : List α) (a k : Nat) (h : 0 < k) :
    slice l (no_index (OfNat.ofNat a) : Int) (-(no_index (OfNat.ofNat k) : Int))
      = (l.take (l.length - k)).drop a :=
  slice_nat_neg l a k h

/-! ### `pyGet` -/

theorem pyGet_nat {α} (l : List α) (i : Nat) :
    pyGet l (i : Int) = match l[i]? with | some x => .ok x | none => raise .index := by
  have h : ¬ ((i : Int) < 0) := by omega
  simp only [pyGet, if_neg h, Int.toNat_natCast]
  rfl

theorem pyGet_nat_lt {α} (l : List α) (i : Nat) (h : i < l.length) :
    pyGet l (i : Int) = .ok l[i] := by
  rw [pyGet_nat]; simp [h]

theorem pyGet_nat_ge {α} (l : List α) (i : Nat) (h : l.length ≤ i) :
    pyGet l (i : Int) = raise .index := by
  rw [pyGet_nat]; simp [h]

theorem pyGet_neg_le {α} (l : List α) (k : Nat) (h0 : 0 < k) (h : k ≤ l.length) :
    pyGet l (-(k : Int)) = .ok (l[l.length - k]'(by omega)) := by
  have e : (l.length : Int) + -(k : Int) = ((l.length - k : Nat) : Int) := by omega
  have hlt : (-(k : Int)) < 0 := by omega
  simp only [pyGet, hlt, if_true, e]
  rw [if_neg (by omega)]
  simp [show l.length - k < l.length by omega]

theorem pyGet_neg_gt {α} (l : List α) (k : Nat) (h : l.length < k) :
    pyGet l (-(k : Int)) = raise .index := by
  have hlt : (-(k : Int)) < 0 := by omega
  simp only [pyGet, hlt, if_true]
  rw [if_pos (by omega)]

/-! ### `Except` -/

@[simp] theorem raise_def {α : Type _} (e : PyErr) : (raise e : Res α) = .error e := rfl

@[simp] theorem bind_ok {α β : Type _} (a : α) (f : α → Res β) :
    ((Except.ok a : Res α) >>= f) = f a := id rfl
@[simp] theorem bind_error {α β : Type _} (e : PyErr) (f : α → Res β) :
    ((Except.error e : Res α) >>= f) = .error e := id rfl
@[simp] theorem pure_res {α : Type _} (a : α) : (pure a : Res α) = .ok a := id rfl
@[simp] theorem map_ok {α β : Type _} (a : α) (f : α → β) :
    (f <$> (Except.ok a : Res α)) = .ok (f a) := id rfl
@[simp] theorem map_error {α β : Type _} (e : PyErr) (f : α → β) :
    (f <$> (Except.error e : Res α)) = .error e := id rfl

theorem bind_eq_ok {α β : Type _} {x : Res α} {f : α → Res β} {b : β} :
    (x >>= f) = .ok b ↔ ∃ a, x = .ok a ∧ f a = .ok b := by
  cases x <;> simp

theorem map_eq_ok {α β : Type _} {x : Res α} {f : α → β} {b : β} :
    (f <$> x) = .ok b ↔ ∃ a, x = .ok a ∧ f a = b := by
  cases x <;> simp

theorem bind_eq_error {α β : Type _} {x : Res α} {f : α → Res β} {e : PyErr} :
    (x >>= f) = .error e ↔ x = .error e ∨ ∃ a, x = .ok a ∧ f a = .error e := by
  cases x <;> simp

/-! ### Prefix / suffix -/

theorem startsWith_iff {d p : Bytes} : startsWith d p = true ↔ p <+: d := by
  simp [startsWith, List.isPrefixOf_iff_prefix]

theorem endsWith_iff {d p : Bytes} : endsWith d p = true ↔ p <:+ d := by
  simp [endsWith, List.isSuffixOf_iff_suffix]

theorem endsWith_singleton {d : Bytes} {b : UInt8} :
    endsWith d [b] = true ↔ ∃ d', d = d' ++ [b] := by
  rw [endsWith_iff]; constructor
  · rintro ⟨t, rfl⟩; exact ⟨t, rfl⟩
  · rintro ⟨t, rfl⟩; exact ⟨t, rfl⟩

@[simp] theorem endsWith_append_singleton (d : Bytes) (b : UInt8) : endsWith (d ++ [b]) [b] = true :=
  endsWith_singleton.2 ⟨d, rfl⟩

end Elgas
