import Verif.Model.Application
import Verif.Lemmas.List
import Verif.Spec.Body
namespace Elgas
open Spec

theorem isLeap_iff (y : Nat) : isLeap y = true ↔ y % 4 = 0 ∧ (y % 100 ≠ 0 ∨ y % 400 = 0) := by
  simp [isLeap]

def yearLen (y : Nat) : Nat := if isLeap y then 366 else 365

theorem div_step (y k : Nat) (hk : 0 < k) : (y + 1) / k = y / k + (if (y + 1) % k = 0 then 1 else 0) := by
  rw [Nat.succ_div]
  congr 1
  simp only [Nat.dvd_iff_mod_eq_zero]

theorem daysBeforeYear_succ (y : Nat) (h : 1 ≤ y) :
    daysBeforeYear (y + 1) = daysBeforeYear y + yearLen y := by
  obtain ⟨z, rfl⟩ : ∃ z, y = z + 1 := ⟨y - 1, by omega⟩
  unfold daysBeforeYear yearLen
  simp only [isLeap_iff, Nat.add_sub_cancel]
  have h4 := div_step z 4 (by omega)
  have h100 := div_step z 100 (by omega)
  have h400 := div_step z 400 (by omega)
  have hle : z / 100 ≤ z / 4 := Nat.div_le_div_left (by omega) (by omega)
  have m1 : (z + 1) % 100 = 0 → (z + 1) % 4 = 0 := by omega
  have m2 : (z + 1) % 400 = 0 → (z + 1) % 100 = 0 := by omega
  rw [h4, h100, h400]
  clear h4 h100 h400
  generalize z / 4 = a at *
  generalize z / 100 = b at *
  generalize z / 400 = c at *
  by_cases c4 : (z + 1) % 4 = 0 <;> by_cases c100 : (z + 1) % 100 = 0 <;>
    by_cases c400 : (z + 1) % 400 = 0 <;> simp [c4, c100, c400] at m1 m2 ⊢ <;> omega

theorem yearOfDays_spec (fuel y d : Nat) (r : Nat × Nat) (hr : yearOfDays fuel y d = r)
    (hy : 1 ≤ y) (hf : d ≤ fuel * 365 + 364) :
    daysBeforeYear r.1 + r.2 = daysBeforeYear y + d ∧ r.2 < yearLen r.1 ∧
    y ≤ r.1 ∧ (r.1 - y) * 365 ≤ d := by
  have hlen : ∀ y, 365 ≤ yearLen y ∧ yearLen y ≤ 366 := by
    intro y; unfold yearLen; split <;> omega
  induction fuel generalizing y d with
  | zero =>
    simp only [yearOfDays] at hr
    subst hr
    have := hlen y
    exact ⟨rfl, by dsimp only; omega, by dsimp only; omega, by dsimp only; omega⟩
  | succ n ih =>
    simp only [yearOfDays] at hr
    change (if d < yearLen y then (y, d) else yearOfDays n (y + 1) (d - yearLen y)) = r at hr
    have := hlen y
    by_cases h : d < yearLen y
    · rw [if_pos h] at hr; subst hr
      exact ⟨rfl, h, by dsimp only; omega, by dsimp only; omega⟩
    · rw [if_neg h] at hr
      obtain ⟨h1, h2, h3, h4⟩ := ih (y + 1) (d - yearLen y) hr (by omega) (by omega)
      rw [daysBeforeYear_succ y hy] at h1
      refine ⟨by omega, h2, by omega, ?_⟩
      have e : r.1 - y = (r.1 - (y + 1)) + 1 := by omega
      rw [e, Nat.add_mul, Nat.one_mul]
      have h6 : yearLen y ≤ d := by omega
      calc _ ≤ d - yearLen y + yearLen y := Nat.add_le_add h4 this.1
        _ = d := Nat.sub_add_cancel h6
        _ ≤ d := Nat.le_refl _

theorem daysBeforeMonth_succ (y m : Nat) (h1 : 1 ≤ m) (h2 : m ≤ 11) :
    daysBeforeMonth y (m + 1) = daysBeforeMonth y m + daysInMonth y m := by
  have hm : m = 1 ∨ m = 2 ∨ m = 3 ∨ m = 4 ∨ m = 5 ∨ m = 6 ∨ m = 7 ∨ m = 8 ∨ m = 9 ∨ m = 10 ∨ m = 11 := by
    omega
  unfold daysBeforeMonth daysInMonth
  simp only [isLeap_iff]
  by_cases hl : y % 4 = 0 ∧ (y % 100 ≠ 0 ∨ y % 400 = 0)
  · rcases hm with rfl | rfl | rfl | rfl | rfl | rfl | rfl | rfl | rfl | rfl | rfl <;>
      simp only [hl] <;> decide
  · rcases hm with rfl | rfl | rfl | rfl | rfl | rfl | rfl | rfl | rfl | rfl | rfl <;>
      simp only [hl, and_false] <;> decide

theorem monthOfDays_spec (y fuel m d : Nat) (r : Nat × Nat)
    (hr : monthOfDays y fuel m d = r) (h1 : 1 ≤ m) (h2 : m + fuel = 12)
    (hd : daysBeforeMonth y m + d < daysBeforeMonth y 12 + 31) :
    daysBeforeMonth y r.1 + (r.2 - 1) = daysBeforeMonth y m + d ∧ 1 ≤ r.1 ∧ r.1 ≤ 12 ∧ 1 ≤ r.2 ∧
    r.2 ≤ daysInMonth y r.1 := by
  induction fuel generalizing m d with
  | zero =>
    have : m = 12 := by omega
    subst this
    simp only [monthOfDays] at hr
    subst hr
    have : daysInMonth y 12 = 31 := rfl
    dsimp only
    omega
  | succ n ih =>
    simp only [monthOfDays] at hr
    by_cases h : d < daysInMonth y m
    · rw [if_pos h] at hr; subst hr; dsimp only; omega
    · rw [if_neg h] at hr
      have hs := daysBeforeMonth_succ y m h1 (by omega)
      obtain ⟨a, b, c, e, f⟩ := ih (m + 1) (d - daysInMonth y m) hr (by omega) (by omega) (by omega)
      exact ⟨by omega, b, c, e, f⟩

theorem yearLength (y : Nat) : daysBeforeMonth y 12 + 31 = yearLen y := by
  unfold daysBeforeMonth yearLen
  simp only [isLeap_iff]
  by_cases hl : y % 4 = 0 ∧ (y % 100 ≠ 0 ∨ y % 400 = 0)
  · simp only [hl]; decide
  · simp only [hl, and_false]; decide

/-- `datetime(2000, 1, 1) + timedelta(seconds=s)` is the valid date and time `s` seconds later. -/
theorem base2000PlusSeconds_spec (s : Nat) (hs : s < 2 ^ 32) :
    let t := base2000PlusSeconds s
    t.Valid ∧ t.microsecond = 0 ∧ 2000 ≤ t.year ∧
    secondsSince2000 t.year t.month t.day t.hour t.minute t.second = s := by
  obtain ⟨h1, h2, h3, h4⟩ := yearOfDays_spec (s / 86400) 2000 (s / 86400) _ rfl (by omega) (by omega)
  have hrec : base2000PlusSeconds s =
      { year := (yearOfDays (s / 86400) 2000 (s / 86400)).1,
        month := (monthOfDays (yearOfDays (s / 86400) 2000 (s / 86400)).1 11 1
          (yearOfDays (s / 86400) 2000 (s / 86400)).2).1,
        day := (monthOfDays (yearOfDays (s / 86400) 2000 (s / 86400)).1 11 1
          (yearOfDays (s / 86400) 2000 (s / 86400)).2).2,
        hour := s % 86400 / 3600, minute := s % 86400 % 3600 / 60, second := s % 86400 % 60 } := rfl
  rw [hrec]
  generalize yearOfDays (s / 86400) 2000 (s / 86400) = yr at *
  obtain ⟨y, yd⟩ := yr
  dsimp only at *
  have hd1 : daysBeforeMonth y 1 = 0 := by simp [daysBeforeMonth, cumDays]
  have hyl := yearLength y
  obtain ⟨a, b, c, e, f⟩ := monthOfDays_spec y 11 1 yd _ rfl (by omega) (by omega) (by omega)
  generalize monthOfDays y 11 1 yd = md at *
  obtain ⟨m, dd⟩ := md
  dsimp only at *
  refine ⟨⟨by dsimp only; omega, by dsimp only; omega, b, c, e, f, by dsimp only; omega,
    by dsimp only; omega, by dsimp only; omega, by dsimp only; omega⟩, rfl, h3, ?_⟩
  unfold secondsSince2000
  have hmono : daysBeforeYear 2000 ≤ daysBeforeYear y := by unfold daysBeforeYear; omega
  have : daysBeforeYear y - daysBeforeYear 2000 + daysBeforeMonth y m + (dd - 1) = s / 86400 := by
    omega
  rw [this]
  omega

end Elgas
