import Verif.Lemmas.Bcd
import Verif.Spec.Time
/-! Properties C15 - C18: packed decimals and device timestamps (utils.py:182-245). -/
namespace Elgas
open Spec

/-! ### C15 -/

/-- C15. Encoding a non-negative number succeeds; the result consists of decimal nibbles, denotes the
number, and is the shortest such string (no leading zero byte, except for the single byte of a number
below 100). -/
theorem C15_to_bcd (n : Nat) :
    ∃ b, toBdc (n : Int) = .ok b ∧ (∀ x ∈ b, IsBcd x) ∧ bcdValue b = n ∧
      b ≠ [] ∧ (b.length = 1 ∨ b.head? ≠ some 0) := by
  refine ⟨_, toBdc_nat n, bcdEnc_isBcd n, bcdValue_bcdEnc n, bcdEnc_ne_nil n, ?_⟩
  by_cases h : n < 100
  · left; rw [bcdEnc_lt h]; rfl
  · right; exact bcdEnc_head n (by omega)

/-- C15. `from_bcd(to_bdc(n)) == n` for every non-negative `n`. -/
theorem C15_roundtrip (n : Nat) (b : Bytes) (h : toBdc (n : Int) = .ok b) : fromBcd b = .ok n := by
  rw [toBdc_nat] at h
  injection h with h
  rw [← h, fromBcd_eq, if_pos ⟨bcdEnc_ne_nil n, bcdEnc_isBcd n⟩, bcdValue_bcdEnc]

/-- C15. A negative number raises `ValueError`. -/
theorem C15_negative (n : Int) (h : n < 0) : toBdc n = .error .value := toBdc_neg h

/-- C15. Decoding raises `ValueError` exactly on empty input or a nibble above 9 and otherwise
returns the decimal value. -/
theorem C15_from_bcd (d : Bytes) :
    (fromBcd d = .error .value ↔ d = [] ∨ ∃ x ∈ d, x.toNat / 16 > 9 ∨ x.toNat % 16 > 9) ∧
    (∀ v, fromBcd d = .ok v → v = bcdValue d) ∧
    (∀ e, fromBcd d = .error e → e = .value) := by
  rw [fromBcd_eq]
  by_cases h : d ≠ [] ∧ ∀ x ∈ d, IsBcd x
  · rw [if_pos h]
    refine ⟨⟨by simp, ?_⟩, fun v hv => by simpa using hv.symm, by simp⟩
    rintro (h1 | ⟨x, hx, h2⟩)
    · exact absurd h1 h.1
    · have := h.2 x hx; unfold IsBcd at this; omega
  · rw [if_neg h]
    refine ⟨⟨fun _ => ?_, by simp⟩, by simp, fun e he => by simpa using he.symm⟩
    apply Classical.byContradiction
    intro hn
    apply h
    refine ⟨fun h1 => hn (.inl h1), fun x hx => ?_⟩
    unfold IsBcd
    constructor
    · have : ¬ x.toNat / 16 > 9 := fun h2 => hn (.inr ⟨x, hx, .inl h2⟩)
      omega
    · have : ¬ x.toNat % 16 > 9 := fun h2 => hn (.inr ⟨x, hx, .inr h2⟩)
      omega

/-- C15. Decoding is injective on inputs of equal length. -/
theorem C15_injective (a b : Bytes) (hl : a.length = b.length) (v : Nat)
    (ha : fromBcd a = .ok v) (hb : fromBcd b = .ok v) : a = b := by
  rw [fromBcd_eq] at ha hb
  split at ha <;> split at hb <;> simp at ha hb
  rename_i h1 h2
  exact bcdValue_inj hl h1.2 h2.2 (by rw [ha, hb])

example : toBdc 1234567 = .ok [0x01, 0x23, 0x45, 0x67] ∧ fromBcd [0x01, 0x23, 0x45, 0x67] = .ok 1234567 ∧
    toBdc (-5) = .error .value ∧ fromBcd [0x01, 0x2A] = .error .value := by decide +kernel

/-! ### C17: decoding timestamps -/

theorem hourByte_eq : ∀ i : Fin 256,
    toBytesLE 1 ((UInt8.ofNat i.val).toNat &&& 0b00111111 : Nat) =
      .ok [UInt8.ofNat i.val &&& 0x3F] := by decide +kernel

theorem hourByte (h : UInt8) :
    toBytesLE 1 ((h.toNat &&& 0b00111111 : Nat) : Int) = .ok [h &&& 0x3F] := by
  have := hourByte_eq ⟨h.toNat, h.toNat_lt⟩
  simpa using this

theorem hourFlags : ∀ i : Fin 256,
    decide ((UInt8.ofNat i.val).toNat &&& 0b10000000 ≠ 0) = (UInt8.ofNat i.val).toNat.testBit 7 ∧
    decide ((UInt8.ofNat i.val).toNat &&& 0b01000000 ≠ 0) = (UInt8.ofNat i.val).toNat.testBit 6 := by
  decide +kernel

theorem hourFlag7 (h : UInt8) : decide (h.toNat &&& 0b10000000 ≠ 0) = h.toNat.testBit 7 := by
  have := (hourFlags ⟨h.toNat, h.toNat_lt⟩).1
  simpa using this
theorem hourFlag6 (h : UInt8) : decide (h.toNat &&& 0b01000000 ≠ 0) = h.toNat.testBit 6 := by
  have := (hourFlags ⟨h.toNat, h.toNat_lt⟩).2
  simpa using this

theorem bytesToDatetime_six (s mi h da mo y : UInt8) :
    bytesToDatetime [s, mi, h, da, mo, y] =
      if IsBcd s ∧ IsBcd mi ∧ IsBcd (h &&& 0x3F) ∧ IsBcd da ∧ IsBcd mo ∧ IsBcd y ∧
        DateTime.Valid { year := 2000 + bcdByte y, month := bcdByte mo, day := bcdByte da,
                         hour := bcdByte (h &&& 0x3F), minute := bcdByte mi, second := bcdByte s }
      then .ok ({ year := 2000 + bcdByte y, month := bcdByte mo, day := bcdByte da,
                  hour := bcdByte (h &&& 0x3F), minute := bcdByte mi, second := bcdByte s },
                h.toNat.testBit 7, h.toNat.testBit 6)
      else .error .value := by
  unfold bytesToDatetime
  have e0 : slice [s, mi, h, da, mo, y] 0 1 = [s] := rfl
  have e1 : slice [s, mi, h, da, mo, y] 1 2 = [mi] := rfl
  have e2 : pyGet [s, mi, h, da, mo, y] 2 = .ok h := rfl
  have e3 : slice [s, mi, h, da, mo, y] 3 4 = [da] := rfl
  have e4 : slice [s, mi, h, da, mo, y] 4 5 = [mo] := rfl
  have e5 : sliceFrom [s, mi, h, da, mo, y] 5 = [y] := rfl
  rw [e0, e1, e2, e3, e4, e5]
  simp only [fromBcd_one, bind_ok, hourByte, hourFlag7, hourFlag6, mkDateTime, Nat.add_comm _ 2000]
  simp only [List.length_cons, List.length_nil, ne_eq, not_true_eq_false, if_false, pure_res, bind_ok]
  by_cases h1 : IsBcd s
  rotate_left
  · simp [h1]
  by_cases h2 : IsBcd mi
  rotate_left
  · simp [h1, h2]
  by_cases h3 : IsBcd (h &&& 0x3F)
  rotate_left
  · simp [h1, h2, h3]
  by_cases h4 : IsBcd da
  rotate_left
  · simp [h1, h2, h3, h4]
  by_cases h5 : IsBcd mo
  rotate_left
  · simp [h1, h2, h3, h4, h5]
  by_cases h6 : IsBcd y
  rotate_left
  · simp [h1, h2, h3, h4, h5, h6]
  simp only [h1, h2, h3, h4, h5, h6, if_true, bind_ok, true_and]
  split <;> rfl

theorem bytesToDatetime_short {d : Bytes} (h : d.length ≠ 6) : bytesToDatetime d = .error .value := by
  unfold bytesToDatetime; rw [if_pos h]; rfl

/-- C17. `bytes_to_datetime` returns exactly the date, time and flags the six bytes denote. -/
theorem C17_decode_iff (d : Bytes) (t : DateTime) (a b : Bool) :
    bytesToDatetime d = .ok (t, a, b) ↔ Denotes d t a b := by
  by_cases hl : d.length = 6
  · match d, hl with
    | [s, mi, h, da, mo, y], _ =>
      rw [bytesToDatetime_six]
      constructor
      · intro he
        split at he
        · rename_i hc
          obtain ⟨h1, h2, h3, h4, h5, h6, h7⟩ := hc
          simp only [Except.ok.injEq, Prod.mk.injEq] at he
          obtain ⟨rfl, rfl, rfl⟩ := he
          exact ⟨s, mi, h, da, mo, y, rfl, h1, h2, h3, h4, h5, h6, rfl, h7, rfl, rfl⟩
        · simp at he
      · rintro ⟨s', mi', h', da', mo', y', hd, h1, h2, h3, h4, h5, h6, rfl, h7, rfl, rfl⟩
        simp only [List.cons.injEq, and_true] at hd
        obtain ⟨rfl, rfl, rfl, rfl, rfl, rfl⟩ := hd
        rw [if_pos ⟨h1, h2, h3, h4, h5, h6, h7⟩]
  · rw [bytesToDatetime_short hl]
    constructor
    · intro h; simp at h
    · rintro ⟨s, mi, h, da, mo, y, rfl, _⟩
      simp at hl

/-- C17. Otherwise it raises `ValueError` and nothing else. -/
theorem C17_decode_errors (d : Bytes) :
    (∃ t a b, bytesToDatetime d = .ok (t, a, b)) ∨ bytesToDatetime d = .error .value := by
  by_cases hl : d.length = 6
  · match d, hl with
    | [s, mi, h, da, mo, y], _ =>
      rw [bytesToDatetime_six]
      split
      · exact .inl ⟨_, _, _, rfl⟩
      · exact .inr rfl
  · exact .inr (bytesToDatetime_short hl)

theorem datetimeToBytes_eq (t : DateTime) (hy : 2000 ≤ t.year) :
    datetimeToBytes t = .ok (bcdEnc t.second ++ bcdEnc t.minute ++ bcdEnc t.hour ++ bcdEnc t.day ++
      bcdEnc t.month ++ bcdEnc (t.year - 2000)) := by
  unfold datetimeToBytes
  rw [show ((t.year : Int) - 2000) = ((t.year - 2000 : Nat) : Int) by omega]
  simp only [toBdc_nat, bind_ok, pure_res]

theorem daysInMonth_le (y m : Nat) : daysInMonth y m ≤ 31 := by
  unfold daysInMonth
  split
  · split <;> omega
  · split <;> omega

theorem datetimeToBytes_valid (t : DateTime) (hv : t.Valid) (h0 : 2000 ≤ t.year)
    (h1 : t.year ≤ 2099) :
    datetimeToBytes t = .ok [bcdPack t.second, bcdPack t.minute, bcdPack t.hour, bcdPack t.day,
      bcdPack t.month, bcdPack (t.year - 2000)] := by
  obtain ⟨_, _, _, hm, _, hd, hh, hmi, hs, _⟩ := hv
  have := daysInMonth_le t.year t.month
  rw [datetimeToBytes_eq t h0, bcdEnc_lt (by omega), bcdEnc_lt (by omega), bcdEnc_lt (by omega),
    bcdEnc_lt (by omega), bcdEnc_lt (by omega), bcdEnc_lt (by omega)]
  rfl

theorem mask_hour : ∀ i : Fin 24, bcdPack i.val &&& 0x3F = bcdPack i.val ∧
    (bcdPack i.val).toNat.testBit 7 = false ∧ (bcdPack i.val).toNat.testBit 6 = false := by
  decide +kernel

/-- C17. Encoding a decoded timestamp gives back the six bytes with the two flag bits cleared; the
decoded date is valid and lies in 2000-2099. -/
theorem C17_reencode (s mi h da mo y : UInt8) (t : DateTime) (a b : Bool)
    (hd : bytesToDatetime [s, mi, h, da, mo, y] = .ok (t, a, b)) :
    t.Valid ∧ 2000 ≤ t.year ∧ t.year ≤ 2099 ∧
    datetimeToBytes t = .ok [s, mi, h &&& 0x3F, da, mo, y] := by
  rw [C17_decode_iff] at hd
  obtain ⟨s', mi', h', da', mo', y', he, h1, h2, h3, h4, h5, h6, rfl, h7, _, _⟩ := hd
  simp only [List.cons.injEq, and_true] at he
  obtain ⟨rfl, rfl, rfl, rfl, rfl, rfl⟩ := he
  have hy := bcdByte_lt h6
  refine ⟨h7, by simp, by simp; omega, ?_⟩
  rw [datetimeToBytes_valid _ h7 (by simp) (by simp; omega)]
  simp only [Nat.add_sub_cancel_left, bcdPack_bcdByte h1, bcdPack_bcdByte h2, bcdPack_bcdByte h3,
    bcdPack_bcdByte h4, bcdPack_bcdByte h5, bcdPack_bcdByte h6]

example : datetimeToBytes ⟨2024, 2, 29, 23, 59, 59, 0⟩ = .ok [0x59, 0x59, 0x23, 0x29, 0x02, 0x24] :=
  (C17_reencode 0x59 0x59 0xE3 0x29 0x02 0x24 _ true true (by decide +kernel)).2.2.2

/-! ### C16 -/

/-- C16. Every valid datetime of the years 2000-2099 is encoded in six bytes that decode to the same
datetime, truncated to the second, with both flags False. -/
theorem C16_roundtrip (t : DateTime) (hv : t.Valid) (h0 : 2000 ≤ t.year) (h1 : t.year ≤ 2099) :
    ∃ b, datetimeToBytes t = .ok b ∧ b.length = 6 ∧
      bytesToDatetime b = .ok ({ t with microsecond := 0 }, false, false) := by
  refine ⟨_, datetimeToBytes_valid t hv h0 h1, rfl, ?_⟩
  have hv' := hv
  obtain ⟨hy0, hy1, hm0, hm, hd0, hd, hh, hmi, hs, hus⟩ := hv'
  have hdm := daysInMonth_le t.year t.month
  have hm3 := mask_hour ⟨t.hour, by omega⟩
  have ht : (⟨2000 + bcdByte (bcdPack (t.year - 2000)), bcdByte (bcdPack t.month),
      bcdByte (bcdPack t.day), bcdByte (bcdPack t.hour), bcdByte (bcdPack t.minute),
      bcdByte (bcdPack t.second), 0⟩ : DateTime) = { t with microsecond := 0 } := by
    simp only [bcdByte_bcdPack, DateTime.mk.injEq]
    exact ⟨by omega, by omega, by omega, by omega, by omega, by omega, trivial⟩
  have hvalid : ({ t with microsecond := 0 } : DateTime).Valid :=
    ⟨hy0, hy1, hm0, hm, hd0, hd, hh, hmi, hs, by simp⟩
  rw [bytesToDatetime_six, hm3.1, ht, hm3.2.1, hm3.2.2]
  rw [if_pos ⟨bcdPack_isBcd _, bcdPack_isBcd _, bcdPack_isBcd _, bcdPack_isBcd _, bcdPack_isBcd _,
    bcdPack_isBcd _, hvalid⟩]

/-! ### C18 -/

/-- C18. A datetime before the year 2000 cannot be encoded: `ValueError`. -/
theorem C18_before_2000 (t : DateTime) (h : t.year < 2000) :
    datetimeToBytes t = .error .value := by
  unfold datetimeToBytes
  simp only [toBdc_nat, bind_ok]
  rw [toBdc_neg (by omega)]
  rfl

example : datetimeToBytes ⟨1999, 12, 31, 23, 59, 59, 0⟩ = .error .value := C18_before_2000 _ (by decide)

/-- C18. From the year 2100 on, a valid datetime is encoded in 7 bytes instead of 6, whose first five
are second, minute, hour, day and month. -/
theorem C18_from_2100 (t : DateTime) (hv : t.Valid) (h : 2100 ≤ t.year) :
    ∃ b, datetimeToBytes t = .ok b ∧ b.length = 7 ∧ bytesToDatetime b = .error .value := by
  obtain ⟨hy0, hy1, hm0, hm, hd0, hd, hh, hmi, hs, hus⟩ := hv
  have hdm := daysInMonth_le t.year t.month
  have hb := datetimeToBytes_eq t (by omega)
  rw [bcdEnc_lt (by omega : t.second < 100), bcdEnc_lt (by omega : t.minute < 100),
    bcdEnc_lt (by omega : t.hour < 100), bcdEnc_lt (by omega : t.day < 100),
    bcdEnc_lt (by omega : t.month < 100), bcdEnc_ge (by omega), bcdEnc_lt (by omega)] at hb
  exact ⟨_, hb, rfl, bytesToDatetime_short (by simp)⟩

/-! ### The hypotheses are met -/

example : (⟨2024, 2, 29, 23, 59, 59, 123456⟩ : DateTime).Valid := by decide
example : bytesToDatetime [0x59, 0x59, 0xE3, 0x29, 0x02, 0x24] =
    .ok (⟨2024, 2, 29, 23, 59, 59, 0⟩, true, true) := by decide +kernel
example : bytesToDatetime [0x59, 0x59, 0xE3, 0x29, 0x02, 0x23] = .error .value := by decide +kernel
example : (⟨2100, 2, 28, 0, 0, 0, 0⟩ : DateTime).Valid := by decide

end Elgas
