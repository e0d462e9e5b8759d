import Verif.Lemmas.Rounding
import Verif.Props.Parameters
import Verif.Spec.Schemas
namespace Elgas
open Spec

/-- C93. `struct.unpack("<f", …)`: the float object is the number on the wire, sign included. -/
theorem C93_single (b : Nat) (hf : finite32 b = true) :
    (PyFloat.single b).bits64 < 2 ^ 64 ∧ finite64 (PyFloat.single b).bits64 = true ∧
    neg64 (PyFloat.single b).bits64 = neg32 b ∧ value64 (PyFloat.single b).bits64 = value32 b := by
  obtain ⟨w1, w2, w3, w4⟩ := widen_value hf
  refine ⟨w1, w2, w3, ?_⟩
  show value64 (widen b) = _
  unfold value64 value32
  rw [w3, w4]

theorem mag32_hyps {b : Nat} (hf : finite32 b = true) : 0 ≤ mag32 b ∧ mag32 b < 2 ^ (128 : Int) :=
  ⟨(mag32_bounds hf).1, (mag32_bounds hf).2.1⟩

/-- C93. `round(x, d)`: the decimal fraction with `d` places next to the number, ties to even, as the nearest double,
ties to even; the sign stays. -/
theorem C93_rounded (b d : Nat) (hf : finite32 b = true) (hd : d ≤ 300) :
    ∃ k : Int, NearestInt (value32 b * 10 ^ d) k ∧ NearestDouble (k / 10 ^ d) (PyFloat.rounded b d).bits64 ∧
      neg64 (PyFloat.rounded b d).bits64 = neg32 b := by
  obtain ⟨m0, m1⟩ := mag32_hyps hf
  obtain ⟨l1, l2⟩ := roundedMag_lt hd m0 m1
  have hk := halfEven_nearest (mag32 b * 10 ^ d)
  obtain ⟨k0, kb⟩ := mag_bounds hd m0 m1
  rw [bits_rounded hf]
  have hs : neg64 (withSign (neg32 b) (roundedMag (mag32 b) d)) = neg32 b := (withSign_value l1).2.1
  refine ⟨if neg32 b then - halfEven (mag32 b * 10 ^ d) else halfEven (mag32 b * 10 ^ d), ?_, ?_, hs⟩
  · unfold value32
    split
    · have := nearestInt_neg hk
      rwa [← Rat.neg_mul] at this
    · exact hk
  · unfold roundedMag
    by_cases h0 : halfEven (mag32 b * 10 ^ d) = 0
    · rw [if_pos h0]
      have e : ((if neg32 b = true then -halfEven (mag32 b * 10 ^ d) else halfEven (mag32 b * 10 ^ d) : Int) : Rat) / 10 ^ d = 0 := by
        simp only [h0]
        have : (if neg32 b = true then -(0 : Int) else 0) = 0 := by split <;> rfl
        rw [this, Rat.div_def]
        exact Rat.zero_mul _
      rw [e]
      exact nearest_zero _
    · rw [if_neg h0]
      obtain ⟨b1, b2⟩ := kb h0
      have := nearest64_withSign (neg32 b) b1 b2
      have e : ((if neg32 b = true then -halfEven (mag32 b * 10 ^ d) else halfEven (mag32 b * 10 ^ d) : Int) : Rat) / 10 ^ d
          = if neg32 b = true then -((halfEven (mag32 b * 10 ^ d) : Rat) / 10 ^ d) else (halfEven (mag32 b * 10 ^ d) : Rat) / 10 ^ d := by
        split
        · rw [Rat.intCast_neg, Rat.div_def, Rat.div_def, Rat.neg_mul]
        · rfl
      rw [e]
      exact this

/-- What `round` leaves of a number that is not finite: the same infinity, or a NaN. -/
theorem C93_not_finite (b d : Nat) (hf : finite32 b = false) :
    (PyFloat.rounded b d).bits64 = (PyFloat.single b).bits64 ∧ finite64 (PyFloat.single b).bits64 = false ∧
    neg64 (PyFloat.single b).bits64 = neg32 b ∧ ((PyFloat.single b).bits64 % 2 ^ 52 = 0 ↔ b % 2 ^ 23 = 0) := by
  obtain ⟨w1, w2, w3, w4⟩ := widen_infinite hf
  refine ⟨?_, w2, w3, w4⟩
  show roundFloat (widen b) d = widen b
  unfold roundFloat
  rw [w2, if_neg (by simp)]

/-! ### Seven places -/

theorem value_rounded {b : Nat} (hf : finite32 b = true) :
    value64 (PyFloat.rounded b 7).bits64 =
      if neg32 b then - mag64 (roundedMag (mag32 b) 7) else mag64 (roundedMag (mag32 b) 7) := by
  obtain ⟨m0, m1⟩ := mag32_hyps hf
  rw [bits_rounded hf, value64_withSign (roundedMag_lt (by decide) m0 m1).1]

theorem mag64_zero : mag64 0 = 0 := by decide +kernel

/-- A large single has at most seven decimal places. -/
theorem large_exact {b : Nat} (hf : finite32 b = true) (h : (2 : Rat) ^ (16 : Int) ≤ mag32 b) :
    roundedMag (mag32 b) 7 = nearest64 (mag32 b) := by
  obtain ⟨n, e, h1, h2, h3, h4⟩ := mag32_form b hf
  rw [h1] at h ⊢
  have hl := form_lt (e := e) h2
  have := two_pow_lt (a := 16) (b := (24 : Nat) + e) (by grind)
  obtain ⟨j, hj⟩ : ∃ j : Nat, e = -7 + (j : Int) := ⟨(e + 7).toNat, by omega⟩
  have hint : (n : Rat) * 2 ^ e * 10 ^ 7 = (((n * 2 ^ j * 78125 : Nat) : Int) : Rat) := by
    subst hj
    rw [natCast_mul_two_pow]
    have : (((n * 2 ^ j * 78125 : Nat) : Int) : Rat) = ((n * 2 ^ j : Nat) : Rat) * 78125 := by
      have : (((n * 2 ^ j * 78125 : Nat) : Int) : Rat) = ((n * 2 ^ j * 78125 : Nat) : Rat) := rfl
      rw [this, Rat.natCast_mul]; rfl
    rw [this, Rat.mul_assoc]
    congr 1
    decide +kernel
  have ht : (10 : Rat) ^ 7 ≠ 0 := by decide
  unfold roundedMag
  rw [hint, halfEven_int, ← hint, Rat.mul_div_cancel ht]
  split
  · rename_i h0
    rw [h0] at hint
    exfalso
    have : (n : Rat) * 2 ^ e = 0 := by
      rw [← Rat.mul_div_cancel (a := (n : Rat) * 2 ^ e) ht, hint]; decide +kernel
    rw [this] at h
    exact absurd h (by decide +kernel)
  · rfl

/-- C93. From 65536 on, rounding to seven places changes nothing. -/
theorem C93_large (b : Nat) (hf : finite32 b = true) (h : 65536 ≤ (value32 b).abs) :
    (PyFloat.rounded b 7).bits64 = (PyFloat.single b).bits64 := by
  have hm : (value32 b).abs = mag32 b := by
    unfold value32
    split
    · rw [abs_neg, Rat.abs_of_nonneg (mag32_bounds hf).1]
    · rw [Rat.abs_of_nonneg (mag32_bounds hf).1]
  rw [hm] at h
  have h' : (2 : Rat) ^ (16 : Int) ≤ mag32 b := by
    have : (2 : Rat) ^ (16 : Int) = 65536 := by decide +kernel
    rw [this]; exact h
  rw [bits_rounded hf, large_exact hf h']
  show _ = widen b
  unfold widen
  rw [if_pos hf, if_neg]
  intro h0
  rw [h0] at h
  exact absurd h (by decide)

theorem small_near {M : Rat} (h0 : 0 ≤ M) (h : M < 2 ^ (16 : Int)) :
    (mag64 (roundedMag M 7) - halfEven (M * 10 ^ 7) / 10 ^ 7).abs ≤ 2 ^ (-36 : Int) / 2 := by
  have m1 : M < 2 ^ (128 : Int) := by have := two_pow_mono (a := 16) (b := 128) (by omega); grind
  obtain ⟨k0, kb⟩ := mag_bounds (d := 7) (by decide) h0 m1
  unfold roundedMag
  split
  · rename_i hz
    rw [hz, mag64_zero]
    decide +kernel
  · rename_i hne
    obtain ⟨b1, b2⟩ := kb hne
    refine nearest64_error b1 b2 ?_
    rw [Rat.div_lt_iff (ten_pow_pos 7)]
    have hn := (halfEven_near (M * 10 ^ 7)).1
    have e1 : (2 : Rat) ^ (-36 + 53 : Int) = 131072 := by decide +kernel
    have e2 : (2 : Rat) ^ (16 : Int) = 65536 := by decide +kernel
    rw [e2] at h
    rw [e1]
    generalize (halfEven (M * 10 ^ 7) : Rat) = k at *
    have a1 := Rat.mul_lt_mul_of_pos_right h (ten_pow_pos 7)
    have e3 : (10 : Rat) ^ 7 = 10000000 := by decide +kernel
    rw [e3] at *
    grind

/-- C93. Up to seven places the number stays: it moves by half a unit of the seventh place, up to the precision of a
double. -/
theorem C93_error (b : Nat) (hf : finite32 b = true) :
    (value64 (PyFloat.rounded b 7).bits64 - value32 b).abs ≤ 5001 / 10 ^ 11 := by
  obtain ⟨m0, m1⟩ := mag32_hyps hf
  have key : (mag64 (roundedMag (mag32 b) 7) - mag32 b).abs ≤ 5001 / 10 ^ 11 := by
    by_cases h : (2 : Rat) ^ (16 : Int) ≤ mag32 b
    · rw [large_exact hf h]
      obtain ⟨n, e, h1, h2, h3, h4⟩ := mag32_form b hf
      rw [h1] at h m1 ⊢
      have q1 : (2 : Rat) ^ (-1022 : Int) ≤ n * 2 ^ e := Rat.le_trans (two_pow_mono (b := 16) (by omega)) h
      have q2 : (n : Rat) * 2 ^ e < 2 ^ (1022 : Int) := by
        have := two_pow_mono (a := 128) (b := 1022) (by omega); grind
      rw [nearest64_exact (by omega) q1 q2, Rat.sub_self]
      decide +kernel
    · have hs := small_near m0 (Rat.not_le.1 h)
      obtain ⟨a1, a2⟩ := halfEven_near (mag32 b * 10 ^ 7)
      obtain ⟨c1, c2⟩ := abs_le_iff.1 hs
      have e3 : (10 : Rat) ^ 7 = 10000000 := by decide +kernel
      have e4 : (2 : Rat) ^ (-36 : Int) / 2 = 1 / 137438953472 := by decide +kernel
      have e5 : (5001 : Rat) / 10 ^ 11 = 5001 / 100000000000 := by decide +kernel
      rw [e3] at a1 a2 c1 c2
      rw [e4] at c1 c2
      rw [e5]
      have ec := Rat.div_mul_cancel (a := (halfEven (mag32 b * 10000000) : Rat)) (b := 10000000) (by decide)
      generalize (halfEven (mag32 b * 10000000) : Rat) / 10000000 = q at *
      rw [← ec] at a1 a2
      refine abs_le_iff.2 ⟨by grind, by grind⟩
  rw [value_rounded hf]
  unfold value32
  split
  · rw [← abs_neg]
    have : -(-mag64 (roundedMag (mag32 b) 7) - -mag32 b) = mag64 (roundedMag (mag32 b) 7) - mag32 b := by grind
    rw [this]; exact key
  · exact key

theorem nearest64_pos {y : Rat} (h1 : (2 : Rat) ^ (-1022 : Int) ≤ y) (h2 : y < 2 ^ (1022 : Int)) :
    0 < mag64 (nearest64 y) := by
  have hy : 0 < y := by have := two_pow_pos (-1022); grind
  rw [(nearest64_value h1 h2).2.2]
  have := (mantissa_bounds hy).1
  exact Rat.mul_pos (Rat.intCast_lt_intCast.2 (show (0 : Int) < _ by omega)) (two_pow_pos _)

theorem roundedMag_zero {M : Rat} (h0 : 0 ≤ M) (h1 : M < 2 ^ (128 : Int)) :
    0 ≤ mag64 (roundedMag M 7) ∧ (mag64 (roundedMag M 7) = 0 ↔ halfEven (M * 10 ^ 7) = 0) := by
  obtain ⟨k0, kb⟩ := mag_bounds (d := 7) (by decide) h0 h1
  unfold roundedMag
  by_cases hz : halfEven (M * 10 ^ 7) = 0
  · rw [if_pos hz, mag64_zero]; exact ⟨Rat.le_refl, by simp [hz]⟩
  · rw [if_neg hz]
    have := nearest64_pos (kb hz).1 (kb hz).2
    exact ⟨Rat.le_of_lt this, ⟨fun h => by rw [h] at this; exact absurd this Rat.lt_irrefl, fun h => absurd h hz⟩⟩

/-- C93. Defect: whatever is not larger than half a unit of the seventh place becomes zero, e.g. a resolution
(`digit`) of 0.00000005. -/
theorem C93_zero (b : Nat) (hf : finite32 b = true) :
    value64 (PyFloat.rounded b 7).bits64 = 0 ↔ (value32 b).abs ≤ 5 / 10 ^ 8 := by
  obtain ⟨m0, m1⟩ := mag32_hyps hf
  have hm : (value32 b).abs = mag32 b := by
    unfold value32
    split
    · rw [abs_neg, Rat.abs_of_nonneg m0]
    · rw [Rat.abs_of_nonneg m0]
  rw [hm, value_rounded hf]
  obtain ⟨z0, z1⟩ := roundedMag_zero m0 m1
  have : (if neg32 b then - mag64 (roundedMag (mag32 b) 7) else mag64 (roundedMag (mag32 b) 7)) = 0 ↔
      mag64 (roundedMag (mag32 b) 7) = 0 := by
    split
    · constructor <;> intro h <;> grind
    · exact Iff.rfl
  rw [this, z1]
  have e3 : (10 : Rat) ^ 7 = 10000000 := by decide +kernel
  have e5 : (5 : Rat) / 10 ^ 8 = 5 / 100000000 := by decide +kernel
  rw [e3, e5]
  obtain ⟨a1, a2⟩ := halfEven_near (mag32 b * 10000000)
  constructor
  · intro h
    rw [h] at a1 a2
    have : ((0 : Int) : Rat) = 0 := rfl
    rw [this] at a1 a2
    grind
  · intro h
    refine nearestInt_unique (halfEven_nearest _) ⟨?_, fun _ => rfl⟩
    have : ((0 : Int) : Rat) = 0 := rfl
    rw [this]
    refine abs_le_iff.2 ⟨by grind, by grind⟩

theorem roundedMag_mono {M N : Rat} (h0 : 0 ≤ M) (h : M ≤ N) (h1 : N < 2 ^ (128 : Int)) :
    mag64 (roundedMag M 7) ≤ mag64 (roundedMag N 7) := by
  have hN : 0 ≤ N := by grind
  have hM : M < 2 ^ (128 : Int) := by grind
  obtain ⟨k0, kb⟩ := mag_bounds (d := 7) (by decide) h0 hM
  obtain ⟨l0, lb⟩ := mag_bounds (d := 7) (by decide) hN h1
  have hmul := Rat.mul_le_mul_of_nonneg_right h (Rat.le_of_lt (ten_pow_pos 7))
  have hk := halfEven_mono hmul
  by_cases hz : halfEven (M * 10 ^ 7) = 0
  · rw [(roundedMag_zero h0 hM).2.2 hz]
    exact (roundedMag_zero hN h1).1
  · have hz' : halfEven (N * 10 ^ 7) ≠ 0 := by omega
    unfold roundedMag
    rw [if_neg hz, if_neg hz']
    refine nearest64_mono ?_ (kb hz).1 (lb hz').2
    rw [Rat.div_def, Rat.div_def]
    exact Rat.mul_le_mul_of_nonneg_right (Rat.intCast_le_intCast.2 hk) (by decide +kernel)

/-- C93. Rounding keeps the order. -/
theorem C93_monotone (a b : Nat) (ha : finite32 a = true) (hb : finite32 b = true) (h : value32 a ≤ value32 b) :
    value64 (PyFloat.rounded a 7).bits64 ≤ value64 (PyFloat.rounded b 7).bits64 := by
  obtain ⟨a0, a1⟩ := mag32_hyps ha
  obtain ⟨b0, b1⟩ := mag32_hyps hb
  rw [value_rounded ha, value_rounded hb]
  have za := (roundedMag_zero a0 a1).1
  have zb := (roundedMag_zero b0 b1).1
  unfold value32 at h
  cases ea : neg32 a <;> cases eb : neg32 b <;> rw [ea, eb] at h <;> simp only [if_true, Bool.false_eq_true, if_false] at h ⊢
  · exact roundedMag_mono a0 h b1
  · have e1 : mag32 a = 0 := by grind
    have e2 : mag32 b = 0 := by grind
    rw [e1, e2]; decide +kernel
  · grind
  · have := roundedMag_mono b0 (N := mag32 a) (by grind) a1
    grind

/-- C93. Rounding what is rounded changes nothing. -/
theorem C93_idempotent (b : Nat) (hf : finite32 b = true) :
    roundFloat (PyFloat.rounded b 7).bits64 7 = (PyFloat.rounded b 7).bits64 := by
  obtain ⟨m0, m1⟩ := mag32_hyps hf
  obtain ⟨l1, l2⟩ := roundedMag_lt (d := 7) (by decide) m0 m1
  rw [bits_rounded hf]
  obtain ⟨w1, w2, w3, w4⟩ := withSign_value (s := neg32 b) l1
  rw [roundFloat_eq (by rw [w4]; exact l2), w2, w3]
  congr 1
  by_cases h : (2 : Rat) ^ (16 : Int) ≤ mag32 b
  · have e := large_exact hf h
    obtain ⟨n, x, h1, h2, h3, h4⟩ := mag32_form b hf
    have q1 : (2 : Rat) ^ (-1022 : Int) ≤ n * 2 ^ x := by rw [← h1]; exact Rat.le_trans (two_pow_mono (b := 16) (by omega)) h
    have q2 : (n : Rat) * 2 ^ x < 2 ^ (1022 : Int) := by
      rw [← h1]
      have := two_pow_mono (a := 128) (b := 1022) (by omega); grind
    have : mag64 (nearest64 (mag32 b)) = mag32 b := by rw [h1]; exact nearest64_exact (by omega) q1 q2
    rw [e, this, e]
  · have hs := small_near m0 (Rat.not_le.1 h)
    have hk : halfEven (mag64 (roundedMag (mag32 b) 7) * 10 ^ 7) = halfEven (mag32 b * 10 ^ 7) := by
      have lt : (mag64 (roundedMag (mag32 b) 7) * 10 ^ 7 - halfEven (mag32 b * 10 ^ 7)).abs < 1 / 2 := by
        have hc := Rat.div_mul_cancel (a := (halfEven (mag32 b * 10 ^ 7) : Rat)) (b := 10 ^ 7) (by decide)
        have := Rat.mul_le_mul_of_nonneg_right hs (Rat.le_of_lt (ten_pow_pos 7))
        rw [← abs_mul_pos (ten_pow_pos 7)] at this
        rw [Rat.sub_eq_add_neg, Rat.add_mul, Rat.neg_mul, hc, ← Rat.sub_eq_add_neg] at this
        have small : (2 : Rat) ^ (-36 : Int) / 2 * 10 ^ 7 < 1 / 2 := by decide +kernel
        exact Rat.not_le.1 fun hh => Rat.not_le.2 small (Rat.le_trans hh this)
      refine nearestInt_unique (halfEven_nearest _) ⟨Rat.le_of_lt lt, fun hh => ?_⟩
      rw [hh] at lt; exact absurd lt Rat.lt_irrefl
    show roundedMag (mag64 (roundedMag (mag32 b) 7)) 7 = roundedMag (mag32 b) 7
    have unf : ∀ M : Rat, roundedMag M 7 =
        if halfEven (M * 10 ^ 7) = 0 then 0 else nearest64 (halfEven (M * 10 ^ 7) / 10 ^ 7) := fun _ => rfl
    rw [unf (mag64 _), hk]
    rfl

theorem finite32_iff (b : Nat) : b % 2 ^ 31 < 0x7F800000 ↔ finite32 b = true := by
  unfold finite32
  simp only [ne_eq, decide_not, Bool.not_eq_true', decide_eq_false_iff_not]
  omega

/-- C93. `math.isfinite` of the float object: rounding does not make a number infinite, nor an infinity finite. -/
theorem C93_finite (x : PyFloat) (hd : ∀ b d, x = .rounded b d → d ≤ 300) :
    finite64 x.bits64 = true ↔ Finite x := by
  cases x with
  | single b =>
    show _ ↔ b % 2 ^ 31 < 0x7F800000
    rw [finite32_iff]
    cases h : finite32 b with
    | true => simp [(C93_single b h).2.1]
    | false => simp [(C93_not_finite b 0 h).2.1]
  | double b =>
    show finite64 b = true ↔ b % 2 ^ 63 < 0x7FF0000000000000
    unfold finite64
    simp only [ne_eq, decide_not, Bool.not_eq_true', decide_eq_false_iff_not]
    omega
  | rounded b d =>
    show _ ↔ b % 2 ^ 31 < 0x7F800000
    rw [finite32_iff]
    cases h : finite32 b with
    | true =>
      obtain ⟨k, _, h2, _⟩ := C93_rounded b d h (hd b d rfl)
      simp [h2.2.1]
    | false =>
      obtain ⟨h1, h2, _⟩ := C93_not_finite b d h
      rw [h1]; simp [h2]

/-! ### The numbers of a parsed object -/

/-- Where rounding occurs. -/
def roundedOk (p : Attr × Loc) : Bool :=
  match p.2 with
  | .float32Rounded _ k => k = 7 && (p.1 = .digit || p.1 = .lower_limit_measuring_range)
  | .optional (.float32Rounded _ _) => false
  | .optional (.optional _) => false
  | _ => true

theorem layout_roundedOk {t : ObjType} {d : Bytes} {L : Layout} (hL : layout (classFor t) d = some L) :
    ∀ p ∈ L.fields, roundedOk p = true := by
  by_cases hw : t = .TIME_WINDOW
  · subst hw
    have : timeWindowLayout (d.getD 34 0).toNat = L := by injection hL
    subst this
    have h3 : (timeWindowLayout (d.getD 34 0).toNat).fields.all roundedOk = true := rfl
    exact List.all_eq_true.1 h3
  · rw [layout_eq t hw d] at hL
    have key : ∀ t ∈ ObjType.all, (match layoutOf (classFor t) with
        | some L => L.fields.all roundedOk
        | none => true) = true := by decide +kernel
    have := key t (objType_mem_all t)
    rw [hL] at this
    exact List.all_eq_true.1 this

/-- C93. Every number of a parsed object is a single or a double of the body; only `digit` and
`lower_limit_measuring_range` are rounded, to seven places. -/
theorem C93_parsed (t : ObjType) (ht : Parsable t) (d : Bytes) (o : PObj) (h : parameterFromBytes t d = .ok o)
    (a : Attr) (v : Val) (hv : (a, v) ∈ o.attrs) (x : PyFloat) (hx : x ∈ floatsOf v) :
    (∃ off, x = .single (leAt d off 4)) ∨ (∃ off, x = .double (leAt d off 8)) ∨
    ((a = .digit ∨ a = .lower_limit_measuring_range) ∧ ∃ off, x = .rounded (leAt d off 4) 7) := by
  obtain ⟨L, hL, _⟩ := C60_outcome t ht d
  rw [(C59_values t ht d L o hL h).2] at hv
  obtain ⟨⟨a', l⟩, hm, he⟩ := List.mem_map.1 hv
  have e1 : a' = a := congrArg Prod.fst he
  have e2 : l.read L.size d = v := congrArg Prod.snd he
  subst e1 e2
  have hok := layout_roundedOk hL _ hm
  have plainCase : ∀ l : Loc, (∀ off k, l ≠ .float32Rounded off k) → (∀ l', l ≠ .optional l') →
      x ∈ floatsOf (l.read L.size d) →
      (∃ off, x = .single (leAt d off 4)) ∨ (∃ off, x = .double (leAt d off 8)) := by
    intro l n1 n2 hx
    cases l with
    | float32 off => exact .inl ⟨off, by simpa [Loc.read, floatsOf] using hx⟩
    | float64 off => exact .inr ⟨off, by simpa [Loc.read, floatsOf] using hx⟩
    | float32Rounded off k => exact absurd rfl (n1 off k)
    | optional l' => exact absurd rfl (n2 l')
    | gas off =>
      simp only [Loc.read, floatsOf, List.map_map] at hx
      obtain ⟨q, _, hq⟩ := List.mem_map.1 hx
      exact .inl ⟨off + 4 * q.2, hq.symm⟩
    | _ => simp [Loc.read, floatsOf] at hx
  cases l with
  | float32Rounded off k =>
    simp only [roundedOk, Bool.and_eq_true, decide_eq_true_eq, Bool.or_eq_true] at hok
    obtain ⟨rfl, hh⟩ := hok
    exact .inr (.inr ⟨hh, off, by simpa [Loc.read, floatsOf] using hx⟩)
  | optional l' =>
    simp only [Loc.read] at hx
    split at hx
    · simp [floatsOf] at hx
    · rcases plainCase l' (fun off k e => by subst e; simp [roundedOk] at hok)
        (fun l'' e => by subst e; simp [roundedOk] at hok) hx with h | h
      · exact .inl h
      · exact .inr (.inl h)
  | _ =>
    rcases plainCase _ (fun off k e => by cases e) (fun l'' e => by cases e) hx with h | h
    · exact .inl h
    · exact .inr (.inl h)

/-- C93. From the bytes of the record to the number the user sees: an attribute transmitted as a double is that double, one
transmitted as a single is that number, and a rounded one is at most 0.00000005001 away from it. -/
theorem C93_attribute (t : ObjType) (ht : Parsable t) (d : Bytes) (L : Layout) (o : PObj)
    (hL : layout (classFor t) d = some L) (h : parameterFromBytes t d = .ok o) (a : Attr) (off : Nat) :
    ((a, .float64 off) ∈ L.fields →
      ∃ x, o.attrs.lookup a = some (.float x) ∧ x.bits64 = leAt d off 8) ∧
    ((a, .float32 off) ∈ L.fields → finite32 (leAt d off 4) = true →
      ∃ x, o.attrs.lookup a = some (.float x) ∧ value64 x.bits64 = value32 (leAt d off 4)) ∧
    (∀ k, (a, .float32Rounded off k) ∈ L.fields → finite32 (leAt d off 4) = true →
      ∃ x, o.attrs.lookup a = some (.float x) ∧
        (value64 x.bits64 - value32 (leAt d off 4)).abs ≤ 5001 / 10 ^ 11) := by
  refine ⟨fun hm => ⟨_, C59_attribute t ht d L o hL h a _ hm, rfl⟩,
    fun hm hf => ⟨_, C59_attribute t ht d L o hL h a _ hm, (C93_single _ hf).2.2.2⟩, fun k hm hf => ?_⟩
  have hok := layout_roundedOk hL _ hm
  simp only [roundedOk, Bool.and_eq_true, decide_eq_true_eq, Bool.or_eq_true] at hok
  obtain ⟨rfl, _⟩ := hok
  exact ⟨_, C59_attribute t ht d L o hL h a _ hm, C93_error _ hf⟩

/-! ### Examples -/

/-- 0.1 as a single is 0.100000001490116…; rounded it is the double 0.1. -/
example : (PyFloat.single 0x3DCCCCCD).bits64 = 0x3FB99999A0000000 ∧
    (PyFloat.rounded 0x3DCCCCCD 7).bits64 = 0x3FB999999999999A := by decide +kernel

/-- 1/256 = 0.00390625 has eight places and is half way between 0.0039062 and 0.0039063: the even one is taken. -/
example : (PyFloat.rounded 0x3B800000 7).bits64 = 0x3F6FFFE5280D6543 := by decide +kernel

/-- The largest and the smallest single; the smallest is rounded to zero, and so is 0.00000004. -/
example : finite32 0x7F7FFFFF = true ∧ (PyFloat.rounded 0xFF7FFFFF 7).bits64 = 0xC7EFFFFFE0000000 ∧
    (PyFloat.single 1).bits64 = 0x36A0000000000000 ∧ (PyFloat.rounded 0x80000001 7).bits64 = 0x8000000000000000 ∧
    (PyFloat.rounded 0x332BCC77 7).bits64 = 0 := by decide +kernel

/-- Infinity and NaN. -/
example : (PyFloat.rounded 0x7F800000 7).bits64 = 0x7FF0000000000000 ∧ finite64 (PyFloat.rounded 0x7FC00000 7).bits64 = false := by
  decide +kernel

/-- The record of an analog quantity whose `digit` is 0.1 and whose lower limit is −1.5. -/
def exAnalog : Bytes := List.replicate 40 0 ++ [0xCD, 0xCC, 0xCC, 0x3D, 0, 0, 0, 0, 0, 0, 0xC0, 0xBF] ++ List.replicate 19 0

example : ((parameterFromBytes .ANALOG_MEASURAND exAnalog).toOption.map fun o =>
    [o.attrs.lookup .digit, o.attrs.lookup .lower_limit_measuring_range]) =
      some [some (.float (.rounded 0x3DCCCCCD 7)), some (.float (.rounded 0xBFC00000 7))] := by decide +kernel

end Elgas
