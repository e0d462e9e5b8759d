import Verif.Lemmas.Equal
import Verif.Spec.Edited
namespace Elgas
open Spec

/-! ### A double is determined by sign and nearness -/

theorem mag64_strict {m n : Nat} (h : m < n) (hn : n < 2047 * 2 ^ 52) : mag64 m < mag64 n := by
  have hp := two_pow_pos
  have hM : mag64 m < 2 ^ 52 * 2 ^ (((max 1 (m / 2 ^ 52) : Nat) : Int) + 1 - 1075) := by
    have hlt : ∀ k : Nat, k < 2 ^ 53 → ∀ e : Int, (k : Rat) * 2 ^ e < 2 ^ 52 * 2 ^ (e + 1) := by
      intro k hk e
      have : (k : Rat) < ((2 ^ 53 : Nat) : Rat) := Rat.natCast_lt_natCast.2 hk
      have h1 := Rat.mul_lt_mul_of_pos_right this (hp e)
      rw [two_pow_succ]
      have h2 : ((2 ^ 53 : Nat) : Rat) = 2 ^ 52 * 2 := by decide +kernel
      rw [h2] at h1
      grind
    unfold mag64
    have hE : m / 2 ^ 52 % 2 ^ 11 = m / 2 ^ 52 := by omega
    rw [hE]
    split
    · rename_i h0
      have e1 : (((max 1 (m / 2 ^ 52) : Nat) : Int) + 1 - 1075) = (-1074 : Int) + 1 := by omega
      rw [e1]
      exact hlt _ (by omega) _
    · have e1 : (((max 1 (m / 2 ^ 52) : Nat) : Int) + 1 - 1075) = ((m / 2 ^ 52 : Nat) - 1075 : Int) + 1 := by omega
      rw [e1]
      exact hlt _ (by omega) _
  by_cases he : m / 2 ^ 52 = n / 2 ^ 52
  · unfold mag64
    rw [he]
    have hf : m % 2 ^ 52 < n % 2 ^ 52 := by omega
    split
    · exact Rat.mul_lt_mul_of_pos_right (Rat.natCast_lt_natCast.2 hf) (hp _)
    · exact Rat.mul_lt_mul_of_pos_right (Rat.natCast_lt_natCast.2 (by omega)) (hp _)
  · have hlt : m / 2 ^ 52 < n / 2 ^ 52 := by omega
    have hN : 2 ^ 52 * 2 ^ (((n / 2 ^ 52 : Nat) : Int) - 1075) ≤ mag64 n := by
      unfold mag64
      have hE : n / 2 ^ 52 % 2 ^ 11 = n / 2 ^ 52 := by omega
      rw [hE, if_neg (by omega)]
      refine Rat.mul_le_mul_of_nonneg_right ?_ (Rat.le_of_lt (hp _))
      have : ((2 ^ 52 : Nat) : Rat) ≤ ((2 ^ 52 + n % 2 ^ 52 : Nat) : Rat) := Rat.natCast_le_natCast.2 (by omega)
      have e2 : ((2 ^ 52 : Nat) : Rat) = 2 ^ 52 := by decide +kernel
      rw [← e2]; exact this
    by_cases h0 : m / 2 ^ 52 = 0
    · have h1 : mag64 m < 2 ^ 52 * 2 ^ (-1074 : Int) := by
        unfold mag64
        have hE : m / 2 ^ 52 % 2 ^ 11 = m / 2 ^ 52 := by omega
        rw [hE, if_pos h0]
        refine Rat.mul_lt_mul_of_pos_right ?_ (hp _)
        have e2 : ((2 ^ 52 : Nat) : Rat) = 2 ^ 52 := by decide +kernel
        rw [← e2]
        exact Rat.natCast_lt_natCast.2 (by omega)
      have h2 : (2 : Rat) ^ (-1074 : Int) ≤ 2 ^ (((n / 2 ^ 52 : Nat) : Int) - 1075) := two_pow_mono (by omega)
      have h3 := Rat.mul_le_mul_of_nonneg_left h2 (c := 2 ^ 52) (by decide +kernel)
      grind
    · have h2 : (2 : Rat) ^ (((max 1 (m / 2 ^ 52) : Nat) : Int) + 1 - 1075) ≤ 2 ^ (((n / 2 ^ 52 : Nat) : Int) - 1075) :=
        two_pow_mono (by omega)
      have h3 := Rat.mul_le_mul_of_nonneg_left h2 (c := 2 ^ 52) (by decide +kernel)
      grind

theorem finite_lt {b : Nat} (h : finite64 b = true) : b % 2 ^ 63 < 2047 * 2 ^ 52 := by
  unfold finite64 at h
  simp only [ne_eq, decide_eq_true_eq] at h
  omega

theorem value64_inj {a b : Nat} (ha : a < 2 ^ 64) (hb : b < 2 ^ 64)
    (hs : neg64 a = neg64 b) (h : value64 a = value64 b) : a = b := by
  have h1 : mag64 a = mag64 b := by
    unfold value64 at h
    rw [hs] at h
    split at h <;> grind
  have h2 := mag64_inj h1
  unfold neg64 at hs
  rw [decide_eq_decide] at hs
  omega

/-- A number strictly between two others is nearer to their middle. -/
theorem between_nearer {x p q r : Rat} (h : (x - p).abs = (x - q).abs) (h1 : p < r) (h2 : r < q) :
    (x - r).abs < (x - p).abs := by
  have hx : x - p = q - x := by
    rcases Rat.le_total (a := 0) (b := x - p) with h3 | h3 <;> rcases Rat.le_total (a := 0) (b := x - q) with h4 | h4
    · rw [Rat.abs_of_nonneg h3, Rat.abs_of_nonneg h4] at h; grind
    · rw [Rat.abs_of_nonneg h3, Rat.abs_of_nonpos h4] at h; grind
    · rw [Rat.abs_of_nonpos h3, Rat.abs_of_nonneg h4] at h; grind
    · rw [Rat.abs_of_nonpos h3, Rat.abs_of_nonpos h4] at h; grind
  rw [Rat.abs_of_nonneg (x := x - p) (by grind)]
  rcases Rat.le_total (a := 0) (b := x - r) with h3 | h3
  · rw [Rat.abs_of_nonneg h3]; grind
  · rw [Rat.abs_of_nonpos h3]; grind

/-- Two doubles of the same sign that both are next to `x` are the same. -/
theorem nearestDouble_unique {x : Rat} {a b : Nat} (ha : NearestDouble x a) (hb : NearestDouble x b)
    (hs : neg64 a = neg64 b) : a = b := by
  obtain ⟨a1, a2, a3⟩ := ha
  obtain ⟨b1, b2, b3⟩ := hb
  have he : (x - value64 a).abs = (x - value64 b).abs := by
    have := (a3 b b1 b2).1
    have := (b3 a a1 a2).1
    grind
  by_cases hv : value64 a = value64 b
  · exact value64_inj a1 b1 hs hv
  · exfalso
    have ea := (a3 b b1 b2).2 he (fun e => hv e.symm)
    have eb := (b3 a a1 a2).2 he.symm hv
    have key : ∀ m n : Nat, m < n → n < 2047 * 2 ^ 52 → m % 2 = 0 → n % 2 = 0 →
        (x - (if neg64 a then - mag64 m else mag64 m)).abs = (x - (if neg64 a then - mag64 n else mag64 n)).abs →
        (∀ b', b' < 2 ^ 64 → finite64 b' → (x - (if neg64 a then - mag64 m else mag64 m)).abs ≤ (x - value64 b').abs) →
        (∀ b', b' < 2 ^ 64 → finite64 b' → (x - (if neg64 a then - mag64 n else mag64 n)).abs ≤ (x - value64 b').abs) → False := by
      intro m n hmn hn hm2 hn2 heq hm3 hn3
      have l1 := mag64_strict (m := m) (n := m + 1) (by omega) (by omega)
      have l2 := mag64_strict (m := m + 1) (n := n) (by omega) hn
      have hlt : m + 1 < 2 ^ 63 := by omega
      obtain ⟨w1, w2, w3, w4⟩ := withSign_value (s := neg64 a) hlt
      have hf : finite64 (withSign (neg64 a) (m + 1)) = true := by
        rw [w4]; unfold finite64; simp only [ne_eq, decide_eq_true_eq]; omega
      have q1 := hm3 _ w1 hf
      have q2 := hn3 _ w1 hf
      rw [value64_withSign hlt] at q1 q2
      cases hna : neg64 a with
      | true =>
        simp only [hna, if_true] at heq q1 q2
        have := between_nearer heq.symm (r := - mag64 (m + 1)) (by grind) (by grind)
        grind
      | false =>
        simp only [hna, if_false, Bool.false_eq_true] at heq q1 q2
        have := between_nearer heq (r := mag64 (m + 1)) l1 l2
        grind
    have va : value64 a = if neg64 a then - mag64 (a % 2 ^ 63) else mag64 (a % 2 ^ 63) := by
      rw [mag64_mod]; rfl
    have vb : value64 b = if neg64 a then - mag64 (b % 2 ^ 63) else mag64 (b % 2 ^ 63) := by
      rw [mag64_mod, hs]; rfl
    have fa := finite_lt a2
    have fb := finite_lt b2
    rcases Nat.lt_trichotomy (a % 2 ^ 63) (b % 2 ^ 63) with h | h | h
    · refine key _ _ h fb (by omega) (by omega) (by rw [← va, ← vb]; exact he) ?_ ?_
      · rw [← va]; exact fun b' h1 h2 => (a3 b' h1 h2).1
      · rw [← vb]; exact fun b' h1 h2 => (b3 b' h1 h2).1
    · exact hv (by rw [va, vb, h])
    · refine key _ _ h fa (by omega) (by omega) (by rw [← va, ← vb]; exact he.symm) ?_ ?_
      · rw [← vb]; exact fun b' h1 h2 => (b3 b' h1 h2).1
      · rw [← va]; exact fun b' h1 h2 => (a3 b' h1 h2).1


/-! ### Conversions -/

theorem textOf_iff (F : FloatText) (j : Json) (s : PyStr) : textOf F j = some s ↔ IsText F j s := by
  constructor
  · intro h
    cases j <;> simp only [textOf, Option.some.injEq, reduceCtorEq] at h
    · subst h; exact .str _
    · subst h; exact .num _
  · intro h
    cases h <;> rfl

theorem wholePart_truncate (x : Rat) : WholePart x (truncate x) := by
  unfold WholePart truncate
  have h1 := Rat.floor_le x
  have h2 := Rat.lt_floor_add_one x
  have h3 := Rat.floor_le (-x)
  have h4 := Rat.lt_floor_add_one (-x)
  rw [intCast_succ] at h2 h4
  constructor
  · intro h; rw [if_neg (by grind)]; exact ⟨h1, h2⟩
  · intro h; rw [if_pos h, Rat.intCast_neg]; exact ⟨by grind, by grind⟩

theorem wholePart_unique {x : Rat} {m n : Int} (hm : WholePart x m) (hn : WholePart x n) : m = n := by
  by_cases h : x < 0
  · obtain ⟨m1, m2⟩ := hm.2 h
    obtain ⟨n1, n2⟩ := hn.2 h
    have a : m ≤ n := lt_cast (by grind)
    have b : n ≤ m := lt_cast (by grind)
    omega
  · obtain ⟨m1, m2⟩ := hm.1 (by grind)
    obtain ⟨n1, n2⟩ := hn.1 (by grind)
    have a : m ≤ n := lt_cast (by grind)
    have b : n ≤ m := lt_cast (by grind)
    omega

theorem intOf_iff (F : FloatText) (c : Conv) (j : Json) (n : Int) : intOf F c j = some n ↔ IsInt F c j n := by
  constructor
  · intro h
    cases j with
    | int m => simp only [intOf, Option.some.injEq] at h; subst h; exact .int _
    | num x =>
      simp only [intOf] at h
      split at h
      · rename_i hf
        simp only [Option.some.injEq] at h
        subst h
        exact .num _ _ hf (wholePart_truncate _)
      · cases h
    | str s => exact .text _ s _ (.str s) h
    | numText x => exact .text _ _ _ (.num x) h
    | _ => simp [intOf] at h
  · intro h
    cases h with
    | int => rfl
    | num x _ hf hw => simp only [intOf]; rw [if_pos hf, wholePart_unique (wholePart_truncate _) hw]
    | text _ s _ hs h => cases hs <;> exact h

theorem cast_top {n : Nat} (h : n < 2 ^ 1024 - 2 ^ 970) : (n : Rat) < 2 ^ (1024 : Int) - 2 ^ (970 : Int) := by
  have h1 := two_pow_nat 1024
  have h2 := two_pow_nat 970
  have h3 : (n + 2 ^ 970 : Nat) < 2 ^ 1024 := by omega
  have h4 : ((n + 2 ^ 970 : Nat) : Rat) < ((2 ^ 1024 : Nat) : Rat) := Rat.natCast_lt_natCast.2 h3
  rw [Rat.natCast_add] at h4
  rw [← h1, ← h2] at h4
  grind

theorem floatOfInt_iff (n : Int) (b : Nat) :
    floatOfInt n = some b ↔ n.natAbs < 2 ^ 1024 - 2 ^ 970 ∧ NearestDouble n b ∧ neg64 b = decide (n < 0) := by
  have sound : ∀ b, floatOfInt n = some b →
      n.natAbs < 2 ^ 1024 - 2 ^ 970 ∧ NearestDouble n b ∧ neg64 b = decide (n < 0) := by
    intro b h
    unfold floatOfInt at h
    split at h
    · rename_i h0
      simp only [Option.some.injEq] at h
      subst h h0
      exact ⟨by decide +kernel, nearest_zero false, by decide +kernel⟩
    · rename_i h0
      split at h
      · rename_i h1
        simp only [Option.some.injEq] at h
        subst h
        have hy : (2 : Rat) ^ (-1022 : Int) ≤ (n.natAbs : Rat) := by
          have a1 : (2 : Rat) ^ (-1022 : Int) ≤ 2 ^ (0 : Int) := two_pow_mono (by decide)
          have a2 : ((1 : Nat) : Rat) ≤ (n.natAbs : Rat) := Rat.natCast_le_natCast.2 (by omega)
          have a3 : (2 : Rat) ^ (0 : Int) = ((1 : Nat) : Rat) := by decide +kernel
          rw [a3] at a1
          exact Rat.le_trans a1 a2
        have ht := cast_top h1
        have hN := nearest64_withSign_top (decide (n < 0)) hy ht
        have hv := nearest64_value_top hy ht
        have hc : (if decide (n < 0) = true then -(n.natAbs : Rat) else (n.natAbs : Rat)) = (n : Rat) := by
          by_cases hneg : n < 0
          · rw [if_pos (by simpa using hneg)]
            have : (n : Rat) = ((-(n.natAbs : Int) : Int) : Rat) := by congr 1; omega
            rw [this, Rat.intCast_neg, Rat.intCast_natCast]
          · rw [if_neg (by simpa using hneg)]
            have : (n : Rat) = (((n.natAbs : Int) : Int) : Rat) := by congr 1; omega
            rw [this, Rat.intCast_natCast]
        rw [hc] at hN
        exact ⟨h1, hN, (withSign_value hv.1).2.1⟩
      · cases h
  constructor
  · exact sound b
  · rintro ⟨h1, h2, h3⟩
    have : ∃ b', floatOfInt n = some b' := by
      unfold floatOfInt
      split
      · exact ⟨_, rfl⟩
      · exact ⟨_, rfl⟩
    obtain ⟨b', hb'⟩ := this
    obtain ⟨_, k2, k3⟩ := sound b' hb'
    rw [hb', nearestDouble_unique k2 h2 (by rw [k3, h3])]

theorem floatOf_iff (F : FloatText) (j : Json) (b : Nat) : floatOf F j = some b ↔ IsFloat F j b := by
  constructor
  · intro h
    cases j with
    | int n =>
      obtain ⟨h1, h2, h3⟩ := (floatOfInt_iff n b).1 h
      exact .int n b h1 h2 h3
    | num x => simp only [floatOf, Option.some.injEq] at h; subst h; exact .num x
    | str s => exact .text _ s _ (.str s) h
    | numText x => exact .text _ _ _ (.num x) h
    | _ => simp [floatOf] at h
  · intro h
    cases h with
    | num x => rfl
    | text _ s _ hs h => cases hs <;> exact h
    | int n _ h1 h2 h3 => exact (floatOfInt_iff n b).2 ⟨h1, h2, h3⟩

theorem finiteOf_iff (F : FloatText) (j : Json) (b : Nat) :
    finiteOf F j = some b ↔ IsFloat F j b ∧ finite64 b = true := by
  unfold finiteOf
  rw [Option.bind_eq_some_iff]
  constructor
  · rintro ⟨a, h1, h2⟩
    split at h2
    · rename_i hf
      simp only [Option.some.injEq] at h2
      subst h2
      exact ⟨(floatOf_iff F j a).1 h1, hf⟩
    · cases h2
  · rintro ⟨h1, h2⟩
    exact ⟨b, (floatOf_iff F j b).2 h1, by rw [if_pos h2]⟩

theorem truthy_same (t : String) : t ∈ truthyTexts ↔ t ∈ yesTexts := by
  unfold truthyTexts yesTexts
  simp only [List.mem_cons, List.not_mem_nil, or_false]
  grind

theorem falsy_same (t : String) : t ∈ falsyTexts ↔ t ∈ noTexts := by
  unfold falsyTexts noTexts
  simp only [List.mem_cons, List.not_mem_nil, or_false]
  grind

theorem yes_not_no : ∀ t ∈ yesTexts, t ∉ noTexts := by decide

theorem boolOfText_iff (s : PyStr) (b : Bool) :
    boolOfText s = some b ↔ ∃ t : String, s = t.toList ∧ (if b then t ∈ yesTexts else t ∈ noTexts) := by
  have o : (String.ofList s).toList = s := String.toList_ofList
  unfold boolOfText
  simp only [List.contains_iff_mem, truthy_same, falsy_same]
  constructor
  · intro h
    refine ⟨String.ofList s, o.symm, ?_⟩
    split at h
    · rename_i h1; cases h; exact h1
    · split at h
      · rename_i h1; cases h; exact h1
      · cases h
  · rintro ⟨t, rfl, h⟩
    rw [String.ofList_toList]
    cases b with
    | true => simp only [if_true] at h; rw [if_pos h]
    | false =>
      simp only [Bool.false_eq_true, if_false] at h
      rw [if_neg (fun hy => yes_not_no t hy h), if_pos h]

theorem boolOf_text {F : FloatText} {j : Json} {s : PyStr} (h : IsText F j s) : boolOf F j = boolOfText s := by
  cases h <;> rfl

theorem boolOf_iff (F : FloatText) (j : Json) (b : Bool) : boolOf F j = some b ↔ IsBool F j b := by
  have text : ∀ j s, IsText F j s → boolOfText s = some b → IsBool F j b := by
    intro j s hs h
    obtain ⟨t, rfl, h'⟩ := (boolOfText_iff s b).1 h
    clear h
    cases b with
    | true => exact .yes _ t hs h'
    | false => exact .no _ t hs h'
  constructor
  · intro h
    cases j with
    | bool a => simp only [boolOf, Option.some.injEq] at h; subst h; exact .bool _
    | int n =>
      simp only [boolOf] at h
      split at h
      · rename_i h1; cases h; subst h1; exact .int true
      · split at h
        · rename_i h1; cases h; subst h1; exact .int false
        · cases h
    | num x =>
      simp only [boolOf, Bool.and_eq_true, decide_eq_true_eq] at h
      split at h
      · rename_i h1; cases h; exact .num x true h1.1 h1.2
      · split at h
        · rename_i h1; cases h; exact .num x false h1.1 h1.2
        · cases h
    | str s => exact text _ s (.str s) h
    | numText x => exact text _ _ (.num x) h
    | _ => simp [boolOf] at h
  · intro h
    cases h with
    | bool => rfl
    | int => cases b <;> rfl
    | num x _ hf h =>
      simp only [boolOf, hf, Bool.true_and, decide_eq_true_eq, h]
      cases b with
      | true => rfl
      | false => rfl
    | yes _ t hs h => rw [boolOf_text hs]; exact (boolOfText_iff t.toList true).2 ⟨t, rfl, h⟩
    | no _ t hs h => rw [boolOf_text hs]; exact (boolOfText_iff t.toList false).2 ⟨t, rfl, h⟩


/-! ### Fields -/

theorem each_congr {α β : Type} {R S : α → β → Prop} (h : ∀ a b, R a b ↔ S a b) (l : List α) (m : List β) :
    Each R l m ↔ Each S l m := by
  constructor
  · intro k
    induction k with
    | nil => exact .nil
    | cons r _ ih => exact .cons ((h _ _).1 r) ih
  · intro k
    induction k with
    | nil => exact .nil
    | cons r _ ih => exact .cons ((h _ _).2 r) ih

theorem mapM_some_iff {α β : Type} (f : α → Option β) (l : List α) (m : List β) :
    l.mapM f = some m ↔ Each (fun a b => f a = some b) l m := by
  induction l generalizing m with
  | nil =>
    constructor
    · intro h; cases h; exact .nil
    · intro h; cases h; rfl
  | cons a l ih =>
    rw [List.mapM_cons]
    constructor
    · intro h
      cases ha : f a with
      | none => rw [ha] at h; cases h
      | some b =>
        rw [ha] at h
        cases hl : l.mapM f with
        | none => rw [hl] at h; cases h
        | some bs =>
          rw [hl] at h
          cases h
          exact .cons ha ((ih bs).1 hl)
    · intro h
      cases h with
      | cons r t => rw [r, (ih _).2 t]; rfl

theorem stringsLoadAny_iff (F : FloatText) (j : Json) (ss : List PyStr) :
    stringsLoadAny F j = some ss ↔ ∃ l, j = .list l ∧ Each (IsText F) l ss := by
  constructor
  · intro h
    cases j with
    | list l => exact ⟨l, rfl, (each_congr (textOf_iff F) _ _).1 ((mapM_some_iff _ _ _).1 h)⟩
    | _ => simp [stringsLoadAny] at h
  · rintro ⟨l, rfl, h⟩
    exact (mapM_some_iff _ _ _).2 ((each_congr (textOf_iff F) _ _).2 h)

theorem unknown_iff {α : Type} {d : List (String × α)} {ks : List String} :
    (d.any fun p => !ks.contains p.1) = true ↔ ¬ ∀ p ∈ d, p.1 ∈ ks := by
  rw [List.any_eq_true]
  constructor
  · rintro ⟨p, hp, h⟩ hall
    rw [List.contains_iff_mem.2 (hall p hp)] at h
    cases h
  · intro h
    simp only [Classical.not_forall] at h
    obtain ⟨p, hp, hn⟩ := h
    refine ⟨p, hp, ?_⟩
    cases hc : ks.contains p.1 with
    | true => exact absurd (List.contains_iff_mem.1 hc) hn
    | false => rfl

theorem gasLoadAny_iff (F : FloatText) (j : Json) (g : List (GasAttr × Nat)) :
    gasLoadAny F j = some g ↔ ∃ d, j = .dict d ∧ (∀ p ∈ d, ∃ a ∈ gasFields, p.1 = a.key) ∧
      Each (fun a x => x.1 = a ∧ ∃ j, d.lookup a.key = some j ∧ IsFloat F j x.2 ∧ finite64 x.2 = true) gasFields g := by
  have keys : ∀ d : List (String × Json),
      (∀ p ∈ d, p.1 ∈ gasFields.map GasAttr.key) ↔ ∀ p ∈ d, ∃ a ∈ gasFields, p.1 = a.key := by
    intro d
    simp only [List.mem_map]
    constructor <;> (intro h p hp; obtain ⟨a, h1, h2⟩ := h p hp; exact ⟨a, h1, h2.symm⟩)
  have one : ∀ (d : List (String × Json)) (a : GasAttr) (x : GasAttr × Nat),
      ((do let j ← d.lookup a.key; let b ← finiteOf F j; return (a, b)) = some x) ↔
      x.1 = a ∧ ∃ j, d.lookup a.key = some j ∧ IsFloat F j x.2 ∧ finite64 x.2 = true := by
    intro d a x
    constructor
    · intro h
      cases hl : d.lookup a.key with
      | none => rw [hl] at h; cases h
      | some j =>
        rw [hl] at h
        cases hf : finiteOf F j with
        | none => rw [Option.bind_eq_bind, Option.bind_some, hf] at h; cases h
        | some b =>
          rw [Option.bind_eq_bind, Option.bind_some, hf] at h
          cases h
          exact ⟨rfl, j, rfl, (finiteOf_iff F j b).1 hf⟩
    · rintro ⟨rfl, j, h1, h2⟩
      rw [h1, Option.bind_eq_bind, Option.bind_some, (finiteOf_iff F j x.2).2 h2]
      rfl
  constructor
  · intro h
    cases j with
    | dict d =>
      simp only [gasLoadAny] at h
      split at h
      · cases h
      · rename_i hk
        rw [unknown_iff, Classical.not_not, keys] at hk
        exact ⟨d, rfl, hk, (each_congr (one d) _ _).1 ((mapM_some_iff _ _ _).1 h)⟩
    | _ => simp [gasLoadAny] at h
  · rintro ⟨d, rfl, hk, h⟩
    simp only [gasLoadAny]
    rw [if_neg (by rw [unknown_iff, Classical.not_not, keys]; exact hk)]
    exact (mapM_some_iff _ _ _).2 ((each_congr (one d) _ _).2 h)

/-- A field loads a value exactly if the specification accepts it. -/
theorem loadAny_iff (F : FloatText) (c : Conv) (an : Bool) (k : FieldKind) (j : Json) (v : AVal) :
    FieldKind.loadAny F c an k j = some v ↔ Accepts F c k an j v := by
  constructor
  · intro h
    by_cases hj : j = .none
    · subst hj
      simp only [FieldKind.loadAny] at h
      split at h
      · rename_i ha; cases h; subst ha; exact .null k
      · cases h
    · cases k with
      | integer =>
        have h' : (intOf F c j).map AVal.int = some v := by cases j <;> first | exact absurd rfl hj | exact h
        obtain ⟨a, h1, rfl⟩ := Option.map_eq_some_iff.1 h'
        exact .integer _ _ _ ((intOf_iff F c j a).1 h1)
      | string =>
        have h' : (textOf F j).map AVal.str = some v := by cases j <;> first | exact absurd rfl hj | exact h
        obtain ⟨a, h1, rfl⟩ := Option.map_eq_some_iff.1 h'
        exact .string _ _ _ ((textOf_iff F j a).1 h1)
      | boolean =>
        have h' : (boolOf F j).map AVal.bool = some v := by cases j <;> first | exact absurd rfl hj | exact h
        obtain ⟨a, h1, rfl⟩ := Option.map_eq_some_iff.1 h'
        exact .boolean _ _ _ ((boolOf_iff F j a).1 h1)
      | floatStr =>
        have h' : (finiteOf F j).map AVal.float = some v := by cases j <;> first | exact absurd rfl hj | exact h
        obtain ⟨a, h1, rfl⟩ := Option.map_eq_some_iff.1 h'
        exact .floatStr _ _ _ ((finiteOf_iff F j a).1 h1).1 ((finiteOf_iff F j a).1 h1).2
      | float =>
        have h' : (finiteOf F j).map AVal.float = some v := by cases j <;> first | exact absurd rfl hj | exact h
        obtain ⟨a, h1, rfl⟩ := Option.map_eq_some_iff.1 h'
        exact .float _ _ _ ((finiteOf_iff F j a).1 h1).1 ((finiteOf_iff F j a).1 h1).2
      | number =>
        have h' : (floatOf F j).map AVal.float = some v := by cases j <;> first | exact absurd rfl hj | exact h
        obtain ⟨a, h1, rfl⟩ := Option.map_eq_some_iff.1 h'
        exact .number _ _ _ ((floatOf_iff F j a).1 h1)
      | stringList =>
        have h' : (stringsLoadAny F j).map AVal.strs = some v := by cases j <;> first | exact absurd rfl hj | exact h
        obtain ⟨a, h1, rfl⟩ := Option.map_eq_some_iff.1 h'
        obtain ⟨l, rfl, h2⟩ := (stringsLoadAny_iff F j a).1 h1
        exact .strings _ _ _ h2
      | gas =>
        have h' : (gasLoadAny F j).map AVal.gas = some v := by cases j <;> first | exact absurd rfl hj | exact h
        obtain ⟨a, h1, rfl⟩ := Option.map_eq_some_iff.1 h'
        obtain ⟨d, rfl, h2, h3⟩ := (gasLoadAny_iff F j a).1 h1
        exact .gas _ _ _ h2 h3
  · intro h
    cases h with
    | null => rfl
    | integer _ _ n h =>
      have := (intOf_iff F c j n).2 h
      cases j <;> simp_all [FieldKind.loadAny, intOf]
    | string _ _ s h =>
      have := (textOf_iff F j s).2 h
      cases j <;> simp_all [FieldKind.loadAny, textOf]
    | boolean _ _ b h =>
      have := (boolOf_iff F j b).2 h
      cases j <;> simp_all [FieldKind.loadAny, boolOf]
    | floatStr _ _ b h hf =>
      have := (finiteOf_iff F j b).2 ⟨h, hf⟩
      cases j <;> simp_all [FieldKind.loadAny, finiteOf, floatOf]
    | float _ _ b h hf =>
      have := (finiteOf_iff F j b).2 ⟨h, hf⟩
      cases j <;> simp_all [FieldKind.loadAny, finiteOf, floatOf]
    | number _ _ b h =>
      have := (floatOf_iff F j b).2 h
      cases j <;> simp_all [FieldKind.loadAny, floatOf]
    | strings _ l ss h =>
      have := (stringsLoadAny_iff F (.list l) ss).2 ⟨l, rfl, h⟩
      simp only [FieldKind.loadAny, this, Option.map_some]
    | gas _ d g hk h =>
      have := (gasLoadAny_iff F (.dict d) g).2 ⟨d, rfl, hk, h⟩
      simp only [FieldKind.loadAny, this, Option.map_some]

end Elgas
