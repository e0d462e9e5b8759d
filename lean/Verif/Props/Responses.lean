import Verif.Props.Requests
import Verif.Props.Text
import Verif.Lemmas.Pop
/-! Properties C23 - C27: response bodies and call messages (application.py). -/
namespace Elgas
open Spec

/-! ### C23 -/

theorem sliceTo_neg_append {α} (x y : List α) (k : Nat) (hk : 0 < k) (h : y.length = k) :
    sliceTo (x ++ y) (-(k : Int)) = x := by
  simp only [sliceTo, clampIdx_neg _ _ hk, List.length_append, h, Nat.add_sub_cancel, List.take_left]

theorem sliceFrom_neg_append {α} (x y : List α) (k : Nat) (hk : 0 < k) (h : y.length = k) :
    sliceFrom (x ++ y) (-(k : Int)) = y := by
  simp only [sliceFrom, clampIdx_neg _ _ hk, List.length_append, h, Nat.add_sub_cancel, List.drop_left]

theorem riv_append (t data st ss crc : Bytes) (x : UInt8) (ht : t.length = 6) (h1 : st.length = 8)
    (h2 : ss.length = 8) (h3 : crc.length = 2) :
    ReadInstantaneousValuesResponse.fromBytes (t ++ ((((data ++ [x]) ++ st) ++ ss) ++ crc)) =
      (bytesToDatetime t >>= fun v =>
        .ok { currentTime := v.1, isDst := v.2.1, supportsDst := v.2.2, data := data,
              dataAccess := x, status := st, summaryStatus := ss, parameterCrc := crc }) := by
  unfold ReadInstantaneousValuesResponse.fromBytes
  have e1 : ∀ r : Bytes, sliceTo (t ++ r) 6 = t := by
    intro r
    have := List.take_left (l₁ := t) (l₂ := r)
    rw [ht] at this
    rw [sliceTo_ofNat]; exact this
  have e2 : ∀ r : Bytes, sliceFrom (t ++ r) 6 = r := by
    intro r
    have := List.drop_left (l₁ := t) (l₂ := r)
    rw [ht] at this
    rw [sliceFrom_ofNat]; exact this
  simp only [e1, e2]
  have a1 : ∀ r : Bytes, sliceTo (r ++ crc) (-2) = r := fun r => sliceTo_neg_append r crc 2 (by omega) h3
  have a2 : ∀ r : Bytes, sliceFrom (r ++ crc) (-2) = crc := fun r => sliceFrom_neg_append r crc 2 (by omega) h3
  have b1 : ∀ r : Bytes, sliceTo (r ++ ss) (-8) = r := fun r => sliceTo_neg_append r ss 8 (by omega) h2
  have b2 : ∀ r : Bytes, sliceFrom (r ++ ss) (-8) = ss := fun r => sliceFrom_neg_append r ss 8 (by omega) h2
  have c1 : ∀ r : Bytes, sliceTo (r ++ st) (-8) = r := fun r => sliceTo_neg_append r st 8 (by omega) h1
  have c2 : ∀ r : Bytes, sliceFrom (r ++ st) (-8) = st := fun r => sliceFrom_neg_append r st 8 (by omega) h1
  have d1 : sliceTo (data ++ [x]) (-1) = data := sliceTo_neg_append data [x] 1 (by omega) rfl
  have d2 : pyGet (data ++ [x]) (-1) = .ok x := by
    have h : pyGet (data ++ [x]) (-1) = _ := pyGet_neg_le (data ++ [x]) 1 (by omega) (by simp)
    rw [h]; simp
  simp only [a1, a2, b1, b2, c1, c2, d1, d2, bind_ok, pure_res]

theorem split_last (b : Bytes) (k : Nat) (h : k ≤ b.length) :
    ∃ x y, b = x ++ y ∧ y.length = k ∧ x.length = b.length - k :=
  ⟨b.take (b.length - k), b.drop (b.length - k), (List.take_append_drop _ _).symm, by simp; omega,
    by simp⟩

theorem riv_split (b : Bytes) (h : 25 ≤ b.length) :
    ∃ t data x st ss crc, b = t ++ ((((data ++ [x]) ++ st) ++ ss) ++ crc) ∧ t.length = 6 ∧
      st.length = 8 ∧ ss.length = 8 ∧ crc.length = 2 := by
  obtain ⟨b1, crc, rfl, hc, l1⟩ := split_last b 2 (by omega)
  obtain ⟨b2, ss, rfl, hs, l2⟩ := split_last b1 8 (by omega)
  obtain ⟨b3, st, rfl, hst, l3⟩ := split_last b2 8 (by omega)
  obtain ⟨b4, x, rfl, hx, l4⟩ := split_last b3 1 (by omega)
  simp only [List.length_append] at h
  match x, hx with
  | [x], _ =>
    refine ⟨b4.take 6, b4.drop 6, x, st, ss, crc, ?_, by simp; omega, hst, hs, hc⟩
    simp only [← List.append_assoc, List.take_append_drop]

theorem sliceTo_neg_len {α} (l : List α) (k : Nat) (hk : 0 < k) :
    (sliceTo l (-(k : Int))).length = l.length - k := by
  simp only [sliceTo, clampIdx_neg _ _ hk, List.length_take]; omega

theorem riv_short (b : Bytes) (h : b.length < 25) :
    ((∃ t a c, bytesToDatetime (b.take 6) = .ok (t, a, c)) ∧
      ReadInstantaneousValuesResponse.fromBytes b = .error .index) ∨
    (bytesToDatetime (b.take 6) = .error .value ∧
      ReadInstantaneousValuesResponse.fromBytes b = .error .value) := by
  unfold ReadInstantaneousValuesResponse.fromBytes
  dsimp only
  rw [sliceTo_ofNat]
  rcases C17_decode_errors (b.take 6) with ⟨t, a, c, ht⟩ | ht
  · left
    refine ⟨⟨_, _, _, ht⟩, ?_⟩
    rw [ht, bind_ok]
    have h6 : 6 ≤ b.length := by
      apply Classical.byContradiction
      intro hn
      rw [bytesToDatetime_short (by simp; omega)] at ht; simp at ht
    have hl : (sliceTo (sliceTo (sliceTo (sliceFrom b 6) (-2)) (-8)) (-8)).length = 0 := by
      have x1 : (sliceTo (sliceTo (sliceTo (sliceFrom b 6) (-2)) (-8)) (-8)).length = _ :=
        sliceTo_neg_len (sliceTo (sliceTo (sliceFrom b 6) (-2)) (-8)) 8 (by omega)
      have x2 : (sliceTo (sliceTo (sliceFrom b 6) (-2)) (-8)).length = _ :=
        sliceTo_neg_len (sliceTo (sliceFrom b 6) (-2)) 8 (by omega)
      have x3 : (sliceTo (sliceFrom b 6) (-2)).length = _ := sliceTo_neg_len (sliceFrom b 6) 2 (by omega)
      have x4 : (sliceFrom b 6).length = b.length - 6 := by rw [sliceFrom_ofNat]; simp
      omega
    dsimp only
    rw [List.length_eq_zero_iff.1 hl]
    rfl
  · right; refine ⟨ht, ?_⟩; rw [ht]; rfl

/-- C23. Decoding loses nothing: time bytes, data, access result, status, summary status and CRC,
concatenated in this order, are the body; the statuses have 8 bytes, the CRC 2. -/
theorem C23_lossless (b : Bytes) (r : ReadInstantaneousValuesResponse)
    (h : ReadInstantaneousValuesResponse.fromBytes b = .ok r) :
    b = b.take 6 ++ r.data ++ [r.dataAccess] ++ r.status ++ r.summaryStatus ++ r.parameterCrc ∧
    r.status.length = 8 ∧ r.summaryStatus.length = 8 ∧ r.parameterCrc.length = 2 ∧
    bytesToDatetime (b.take 6) = .ok (r.currentTime, r.isDst, r.supportsDst) := by
  by_cases hl : 25 ≤ b.length
  · obtain ⟨t, data, x, st, ss, crc, rfl, h0, h1, h2, h3⟩ := riv_split b hl
    rw [riv_append t data st ss crc x h0 h1 h2 h3, bind_eq_ok] at h
    obtain ⟨v, hv, h⟩ := h
    injection h with h
    subst h
    have ht : (t ++ ((((data ++ [x]) ++ st) ++ ss) ++ crc)).take 6 = t := by rw [← h0, List.take_left]
    rw [ht]
    exact ⟨by simp, h1, h2, h3, hv⟩
  · rcases riv_short b (by omega) with ⟨_, h'⟩ | ⟨_, h'⟩ <;> rw [h'] at h <;> simp at h

/-- C23. A body is accepted iff it has at least 25 bytes and starts with a valid timestamp. -/
theorem C23_accepts_iff (b : Bytes) :
    (∃ r, ReadInstantaneousValuesResponse.fromBytes b = .ok r) ↔
      25 ≤ b.length ∧ ∃ t d s, Denotes (b.take 6) t d s := by
  constructor
  · rintro ⟨r, h⟩
    obtain ⟨_, _, _, _, ht⟩ := C23_lossless b r h
    refine ⟨?_, _, _, _, (C17_decode_iff _ _ _ _).1 ht⟩
    apply Classical.byContradiction
    intro hl
    rcases riv_short b (by omega) with ⟨_, h'⟩ | ⟨_, h'⟩ <;> rw [h'] at h <;> simp at h
  · rintro ⟨hl, t0, d0, s0, hd⟩
    have hd := (C17_decode_iff _ _ _ _).2 hd
    obtain ⟨t, data, x, st, ss, crc, rfl, h0, h1, h2, h3⟩ := riv_split b hl
    have ht : (t ++ ((((data ++ [x]) ++ st) ++ ss) ++ crc)).take 6 = t := by rw [← h0, List.take_left]
    rw [ht] at hd
    exact ⟨_, by rw [riv_append t data st ss crc x h0 h1 h2 h3, hd, bind_ok]⟩

/-- C23. Other bodies raise `ValueError` when they do not start with a valid timestamp, and `IndexError`
when they do but are too short. -/
theorem C23_errors (b : Bytes) (e : PyErr) :
    ReadInstantaneousValuesResponse.fromBytes b = .error e ↔
      ((∀ t d s, ¬ Denotes (b.take 6) t d s) ∧ e = .value) ∨
      ((∃ t d s, Denotes (b.take 6) t d s) ∧ b.length < 25 ∧ e = .index) := by
  have hv : ∀ t a c, bytesToDatetime (b.take 6) = .ok (t, a, c) → (∃ t d s, Denotes (b.take 6) t d s) :=
    fun t a c h => ⟨t, a, c, (C17_decode_iff _ _ _ _).1 h⟩
  have hn : bytesToDatetime (b.take 6) = .error .value → ∀ t d s, ¬ Denotes (b.take 6) t d s := by
    intro h t d s hd
    rw [(C17_decode_iff _ _ _ _).2 hd] at h; cases h
  by_cases hl : 25 ≤ b.length
  · obtain ⟨t, data, x, st, ss, crc, hb, h0, h1, h2, h3⟩ := riv_split b hl
    have ht : b.take 6 = t := by rw [hb, ← h0, List.take_left]
    rw [ht] at hv hn ⊢
    have hr := riv_append t data st ss crc x h0 h1 h2 h3
    rw [← hb] at hr
    rw [hr]
    rcases C17_decode_errors t with ⟨t', a, c, ht⟩ | ht
    · rw [ht, bind_ok]
      constructor
      · intro h; cases h
      · rintro (⟨h, _⟩ | ⟨_, h, _⟩)
        · obtain ⟨t1, d1, s1, hh⟩ := hv _ _ _ ht
          exact absurd hh (h _ _ _)
        · omega
    · rw [ht]
      constructor
      · intro h; left; refine ⟨hn ht, ?_⟩; cases h; rfl
      · rintro (⟨_, rfl⟩ | ⟨_, h, _⟩)
        · rfl
        · omega
  · rcases riv_short b (by omega) with ⟨⟨t, a, c, ht⟩, h'⟩ | ⟨ht, h'⟩ <;> rw [h']
    · constructor
      · intro h; right; refine ⟨hv _ _ _ ht, by omega, ?_⟩; cases h; rfl
      · rintro (⟨h, _⟩ | ⟨_, _, rfl⟩)
        · obtain ⟨t1, d1, s1, hh⟩ := hv _ _ _ ht
          exact absurd hh (h _ _ _)
        · rfl
    · constructor
      · intro h; left; refine ⟨hn ht, ?_⟩; cases h; rfl
      · rintro (⟨_, rfl⟩ | ⟨⟨t1, d1, s1, hh⟩, _⟩)
        · rfl
        · exact absurd hh (hn ht _ _ _)

-- 27 bytes: a leap day with both flags set, two bytes of values, then the fixed tail
example : ReadInstantaneousValuesResponse.fromBytes ([0x59, 0x59, 0xE3, 0x29, 0x02, 0x24] ++ [0xAA, 0xBB] ++ [7] ++
      [1, 2, 3, 4, 5, 6, 7, 8] ++ [11, 12, 13, 14, 15, 16, 17, 18] ++ [0xCC, 0xDD]) =
    .ok ⟨⟨2024, 2, 29, 23, 59, 59, 0⟩, true, true, [0xAA, 0xBB], 7, [1, 2, 3, 4, 5, 6, 7, 8],
      [11, 12, 13, 14, 15, 16, 17, 18], [0xCC, 0xDD]⟩ := by decide +kernel
-- 24 bytes with a valid time, and 25 bytes with the 29th of February 2023
example : ReadInstantaneousValuesResponse.fromBytes ([0x59, 0x59, 0xE3, 0x29, 0x02, 0x24] ++ List.replicate 18 1) =
      .error .index ∧
    ReadInstantaneousValuesResponse.fromBytes ([0x59, 0x59, 0xE3, 0x29, 0x02, 0x23] ++ List.replicate 19 1) =
      .error .value := by decide +kernel

/-! ### C24 -/

/-- C24. Read-time responses: the time and flags of the first six bytes, byte 6 as the access result,
bytes 7 .. len-3 as extra data (the last two bytes are dropped unchecked). -/
theorem C24_read_time (b : Bytes) :
    (∀ t d s, Denotes (b.take 6) t d s → ReadTimeResponse.fromBytes b =
      .ok { time := t, isDst := d, deviceSupportsDst := s, dataAccessResult := bytesAt b 6 1,
            extraData := bytesAt b 7 (b.length - 9) }) ∧
    ((∀ t d s, ¬ Denotes (b.take 6) t d s) → ReadTimeResponse.fromBytes b = .error .value) := by
  unfold ReadTimeResponse.fromBytes
  simp only [sliceTo_ofNat, slice_ofNat, slice_ofNat_neg _ _ 2 (by omega)]
  constructor
  · intro t d s h
    rw [(C17_decode_iff _ _ _ _).2 h]
    simp only [bind_ok, pure_res, Except.ok.injEq, ReadTimeResponse.mk.injEq, true_and, bytesAt]
    constructor
    · rw [List.take_drop]
    · rw [List.take_drop]
      by_cases hl : 9 ≤ b.length
      · rw [show 7 + (b.length - 9) = b.length - 2 by omega]
      · rw [List.drop_of_length_le (by simp; omega), List.drop_of_length_le (by simp; omega)]
  · intro h
    rcases C17_decode_errors (b.take 6) with ⟨t, a, c, ht⟩ | ht
    · exact absurd ((C17_decode_iff _ _ _ _).1 ht) (h t a c)
    · rw [ht]; rfl

example : ReadTimeResponse.fromBytes [0x59, 0x59, 0xE3, 0x29, 0x02, 0x24, 9, 1, 2, 3, 4] =
    .ok ⟨⟨2024, 2, 29, 23, 59, 59, 0⟩, [9], true, true, [1, 2]⟩ := by
  rw [(C24_read_time _).1 _ _ _ ((C17_decode_iff _ ⟨2024, 2, 29, 23, 59, 59, 0⟩ true true).1 (by decide +kernel))]
  decide +kernel

/-! ### C25 -/

/-- C25. Read-parameters responses: two little-endian counters, the end flag, the remaining bytes;
`IndexError` below 5 bytes. -/
theorem C25_read_parameters (b : Bytes) :
    (5 ≤ b.length → ReadDeviceParametersResponse.fromBytes b =
      .ok { objectNumber := leAt b 0 2, objectAmount := leAt b 2 2, isEnd := leAt b 4 1 ≠ 0,
            data := b.drop 5 }) ∧
    (b.length < 5 → ReadDeviceParametersResponse.fromBytes b = .error .index) := by
  unfold ReadDeviceParametersResponse.fromBytes
  constructor
  · intro h
    have h4 : pyGet b 4 = .ok b[4] := pyGet_nat_lt b 4 (by omega)
    rw [h4]
    simp only [sliceTo_ofNat, slice_ofNat, sliceFrom_ofNat, fromLE_leAt, List.drop_zero, bind_ok,
      pure_res, Except.ok.injEq, ReadDeviceParametersResponse.mk.injEq, true_and, and_true]
    refine ⟨by rw [List.take_drop], ?_⟩
    have : (b.drop 4).take 1 = [b[4]] := by
      rw [List.drop_eq_getElem_cons (by omega)]; rfl
    rw [this]; by_cases h0 : b[4].toNat = 0 <;> simp [fromLE, h0]
  · intro h
    have h4 : pyGet b 4 = raise .index := pyGet_nat_ge b 4 (by omega)
    rw [h4]; rfl

example : ReadDeviceParametersResponse.fromBytes [0x34, 0x12, 2, 0, 1, 0xAA, 0xBB] =
      .ok { objectNumber := 0x1234, objectAmount := 2, isEnd := true, data := [0xAA, 0xBB] } ∧
    ReadDeviceParametersResponse.fromBytes [0x34, 0x12, 2, 0] = .error .index := by decide +kernel

/-! ### C26 -/

/-- The record id the device sent: four bytes at offset 1. -/
def sentRecordId (b : Bytes) : Nat := leAt b 1 4

theorem archive_ofValue_ok {n : Nat} {a : Archive} (h : Archive.ofValue n = .ok a) : a.value = n := by
  unfold Archive.ofValue at h
  split at h
  · rename_i s hs
    simp at h; subst h
    have := List.find?_some hs
    simpa using this
  · simp at h

theorem archive_ofValue_err {n : Nat} {e : PyErr} (h : Archive.ofValue n = .error e) :
    e = .value ∧ ∀ a : Archive, a.value ≠ n := by
  unfold Archive.ofValue at h
  split at h
  · simp at h
  · rename_i hn
    simp at h
    refine ⟨h.symm, fun a ha => ?_⟩
    have := List.find?_eq_none.1 hn a (by cases a <;> decide)
    simp [ha] at this

theorem id_mod (b : Bytes) (h : 5 ≤ b.length) : fromLE ((b.take 4).drop 1) = sentRecordId b % 2 ^ 24 := by
  unfold sentRecordId
  rw [fromLE_leAt]
  match b, h with
  | b0 :: b1 :: b2 :: b3 :: b4 :: t, _ =>
    simp only [List.take_succ_cons, List.drop_succ_cons, List.drop_zero, List.take_zero, fromLE]
    have := b1.toNat_lt; have := b2.toNat_lt; have := b3.toNat_lt
    omega

/-- C26. The returned record id is the id the device sent modulo 2^24: it is the sent id exactly when
that is below 2^24.  (Requests can carry ids up to 2^32-1, see C21.)  The archive is the first byte and
the data everything after the id.  The same for both archive responses. -/
theorem C26_record_id (b : Bytes) (hl : 5 ≤ b.length) :
    (∀ r, ReadArchiveResponse.fromBytes b = .ok r →
      r.archive.value = leAt b 0 1 ∧ r.data = b.drop 5 ∧
      r.oldestRecordId = sentRecordId b % 2 ^ 24 ∧
      (r.oldestRecordId = sentRecordId b ↔ sentRecordId b < 2 ^ 24)) ∧
    (∀ r, ReadArchiveByTimeResponse.fromBytes b = .ok r →
      r.archive.value = leAt b 0 1 ∧ r.data = b.drop 5 ∧
      r.oldestRecordId = sentRecordId b % 2 ^ 24 ∧
      (r.oldestRecordId = sentRecordId b ↔ sentRecordId b < 2 ^ 24)) := by
  have h0 : pyGet b 0 = .ok b[0] := pyGet_nat_lt b 0 (by omega)
  have hid := id_mod b hl
  have hb0 : leAt b 0 1 = b[0].toNat := by
    rw [fromLE_leAt, List.drop_zero]
    match b, hl with
    | b0 :: t, _ => simp [fromLE]
  constructor
  all_goals
    intro r h
    first
      | unfold ReadArchiveResponse.fromBytes at h
      | unfold ReadArchiveByTimeResponse.fromBytes at h
    rw [h0, bind_ok] at h
    simp only [slice_ofNat, sliceFrom_ofNat, bind_eq_ok, pure_res, Except.ok.injEq] at h
    obtain ⟨a, ha, rfl⟩ := h
    refine ⟨by rw [hb0]; exact archive_ofValue_ok ha, rfl, hid, ?_⟩
    dsimp only
    rw [hid]
    omega

/-- C26. Ids from 2^24 on are returned wrongly: a response with id 2^24 is decoded to id 0. -/
theorem C26_record_id_fails :
    ∃ b r, sentRecordId b = 2 ^ 24 ∧ ReadArchiveResponse.fromBytes b = .ok r ∧ r.oldestRecordId = 0 :=
  ⟨[1, 0, 0, 0, 1], ⟨.data, 0, []⟩, by decide, by decide, rfl⟩

/-- C26. Archive responses raise `IndexError` iff empty, `ValueError` iff the archive is unknown, and
nothing else; a body of 1 to 4 bytes is accepted although it contains no complete id. -/
theorem C26_accepts (b : Bytes) :
    (b = [] → ReadArchiveResponse.fromBytes b = .error .index ∧
      ReadArchiveByTimeResponse.fromBytes b = .error .index) ∧
    (∀ x t, b = x :: t → x.toNat ≤ 10 → (∃ r, ReadArchiveResponse.fromBytes b = .ok r) ∧
      (∃ r, ReadArchiveByTimeResponse.fromBytes b = .ok r)) ∧
    (∀ x t, b = x :: t → 10 < x.toNat → ReadArchiveResponse.fromBytes b = .error .value ∧
      ReadArchiveByTimeResponse.fromBytes b = .error .value) := by
  have hx : ∀ i : Fin 256, (i.val ≤ 10 → ∃ a ∈ Archive.all, Archive.ofValue i.val = .ok a) ∧
      (10 < i.val → Archive.ofValue i.val = .error .value) := by decide +kernel
  refine ⟨?_, ?_, ?_⟩
  · rintro rfl; exact ⟨rfl, rfl⟩
  · rintro x t rfl h
    obtain ⟨a, _, ha⟩ := (hx ⟨x.toNat, x.toNat_lt⟩).1 h
    dsimp only at ha
    have hg : pyGet (x :: t) 0 = .ok x := rfl
    constructor
    · exact ⟨_, by unfold ReadArchiveResponse.fromBytes; rw [hg, bind_ok, ha]; rfl⟩
    · exact ⟨_, by unfold ReadArchiveByTimeResponse.fromBytes; rw [hg, bind_ok, ha]; rfl⟩
  · rintro x t rfl h
    have ha := (hx ⟨x.toNat, x.toNat_lt⟩).2 h
    dsimp only at ha
    have hg : pyGet (x :: t) 0 = .ok x := rfl
    constructor
    · unfold ReadArchiveResponse.fromBytes; rw [hg, bind_ok, ha]; rfl
    · unfold ReadArchiveByTimeResponse.fromBytes; rw [hg, bind_ok, ha]; rfl

example : ReadArchiveResponse.fromBytes [1, 0x56, 0x34, 0x12, 0, 0xAA] = .ok ⟨.data, 0x123456, [0xAA]⟩ ∧
    sentRecordId [1, 0x56, 0x34, 0x12, 0, 0xAA] = 0x123456 ∧
    ReadArchiveByTimeResponse.fromBytes [11, 0, 0, 0, 0] = .error .value := by decide +kernel

/-! ### C27 -/

/-- `t` is the instant `s` seconds after 2000-01-01T00:00:00. -/
def IsInstant (t : DateTime) (s : Nat) : Prop :=
  t.Valid ∧ t.microsecond = 0 ∧ 2000 ≤ t.year ∧
  secondsSince2000 t.year t.month t.day t.hour t.minute t.second = s

theorem leAt_lt (b : Bytes) (o w : Nat) : leAt b o w < 256 ^ w := by
  rw [fromLE_leAt]
  refine Nat.lt_of_lt_of_le (fromLE_lt _) ?_
  exact Nat.pow_le_pow_right (by omega) (by simp; omega)

theorem isInstant_base (b : Bytes) (o : Nat) : IsInstant (base2000PlusSeconds (leAt b o 4)) (leAt b o 4) :=
  base2000PlusSeconds_spec _ (by have := leAt_lt b o 4; omega)

/-- The fixed layout of a call message (141 bytes). -/
structure CallLayout (b : Bytes) (c : CallRequest) : Prop where
  version : c.version = leAt b 2 1
  guid : c.guid = bytesAt b 3 16
  stationId : c.stationId = prettyText (bytesAt b 19 17)
  simCardId : c.simCardId = (toString (bcdValue (bytesAt b 36 10))).toList
  modemId : c.modemId = (toString (bcdValue (bytesAt b 46 8))).toList
  protocol : c.protocol.value = leAt b 54 1
  address1 : c.address1 = leAt b 55 2
  address2 : c.address2 = leAt b 57 1
  signalStrength : c.signalStrength = leAt b 58 1
  connections : c.connections = leAt b 59 4
  lastConnectionTime : IsInstant c.lastConnectionTime (leAt b 63 4)
  connectionErrors : c.connectionErrors = leAt b 67 4
  lastConnectionErrorTime : IsInstant c.lastConnectionErrorTime (leAt b 71 4)
  resets : c.resets = leAt b 75 4
  lastResetTime : IsInstant c.lastResetTime (leAt b 79 4)
  tcpData : c.tcpData = leAt b 83 4
  allData : c.allData = leAt b 87 4
  serialNumber : c.serialNumber = (toString (leAt b 91 4)).toList
  ipAddress : parseIpAddress (bytesAt b 95 4) = .ok c.ipAddress
  lastModemErrorTime : IsInstant c.lastModemErrorTime (leAt b 99 4)
  lastModemError : c.lastModemError = leAt b 103 1
  modemBatteryCapacity : c.modemBatteryCapacity = leAt b 104 2
  modemBatteryVoltage : c.modemBatteryVoltage = leAt b 106 2
  firmwareVersion : c.firmwareVersion = prettyText (bytesAt b 108 33)

theorem getD_leAt (b : Bytes) (k : Nat) : (b.getD k 0).toNat = leAt b k 1 := by
  rw [fromLE_leAt]
  rw [List.getD_eq_getElem?_getD]
  by_cases h : k < b.length
  · rw [List.getElem?_eq_getElem h, List.drop_eq_getElem_cons h, Option.getD_some,
      List.take_succ_cons, List.take_zero]
    simp only [fromLE]; omega
  · rw [List.getElem?_eq_none (by omega), List.drop_of_length_le (by omega)]
    rfl

theorem call_long (b : Bytes) (h : 141 ≤ b.length) :
    CallRequest.fromBytes b =
      (fromBcd (bytesAt b 36 10) >>= fun sim => fromBcd (bytesAt b 46 8) >>= fun modem =>
        Protocol.ofValue (leAt b 54 1) >>= fun proto => parseIpAddress (bytesAt b 95 4) >>= fun ip =>
        .ok {
          guid := bytesAt b 3 16
          stationId := prettyText (bytesAt b 19 17)
          simCardId := pyStrInt sim
          modemId := pyStrInt modem
          address1 := leAt b 55 2
          address2 := leAt b 57 1
          signalStrength := leAt b 58 1
          connections := leAt b 59 4
          lastConnectionTime := base2000PlusSeconds (leAt b 63 4)
          connectionErrors := leAt b 67 4
          lastConnectionErrorTime := base2000PlusSeconds (leAt b 71 4)
          resets := leAt b 75 4
          lastResetTime := base2000PlusSeconds (leAt b 79 4)
          tcpData := leAt b 83 4
          allData := leAt b 87 4
          serialNumber := pyStrInt (leAt b 91 4 : Nat)
          ipAddress := ip
          lastModemError := leAt b 103 1
          lastModemErrorTime := base2000PlusSeconds (leAt b 99 4)
          modemBatteryCapacity := leAt b 104 2
          modemBatteryVoltage := leAt b 106 2
          firmwareVersion := prettyText (bytesAt b 108 33)
          version := leAt b 2 1
          protocol := proto }) := by
  unfold CallRequest.fromBytes CallRequest.parser
  rw [run_drop]
  have pm := fun (n : Nat) (hn : 2 ≤ n) (f : Bytes → P CallRequest) (k : Nat) (hk : k + n ≤ 141) =>
    bind_popMany hn f b k (by omega)
  have pp := fun (f : UInt8 → P CallRequest) (k : Nat) (hk : k + 1 ≤ 141) =>
    bind_pop0 f b k (by omega)
  simp only [fromLE_leAt, bytesAt]
  rw [pm 2 (by omega) _ 0 (by omega), pp _ (0 + 2) (by omega), pm 16 (by omega) _ _ (by omega),
    pm 17 (by omega) _ _ (by omega), pm 10 (by omega) _ _ (by omega)]
  simp only [bind_plift]
  cases fromBcd ((b.drop 36).take 10) with
  | error e => rfl
  | ok sim =>
  simp only [bind_ok]
  rw [pm 8 (by omega) _ _ (by omega)]
  simp only [bind_plift]
  cases fromBcd ((b.drop 46).take 8) with
  | error e => rfl
  | ok modem =>
  simp only [bind_ok]
  rw [pp _ _ (by omega)]
  simp only [bind_plift]
  simp only [getD_leAt, fromLE_leAt, Nat.reduceAdd]
  cases Protocol.ofValue (fromLE ((b.drop 54).take 1)) with
  | error e => rfl
  | ok proto =>
  simp only [bind_ok]
  rw [pm 2 (by omega) _ _ (by omega), pp _ _ (by omega), pp _ _ (by omega)]
  rw [pm 4 (by omega) _ _ (by omega), pm 4 (by omega) _ _ (by omega), pm 4 (by omega) _ _ (by omega),
    pm 4 (by omega) _ _ (by omega), pm 4 (by omega) _ _ (by omega), pm 4 (by omega) _ _ (by omega),
    pm 4 (by omega) _ _ (by omega), pm 4 (by omega) _ _ (by omega), pm 4 (by omega) _ _ (by omega),
    pm 4 (by omega) _ _ (by omega)]
  simp only [bind_plift]
  cases parseIpAddress ((b.drop 95).take 4) with
  | error e => rfl
  | ok ip =>
  simp only [bind_ok]
  rw [pm 4 (by omega) _ _ (by omega), pp _ _ (by omega), pm 2 (by omega) _ _ (by omega),
    pm 2 (by omega) _ _ (by omega), pm 33 (by omega) _ _ (by omega), ppure_apply]
  simp only [map_ok, getD_leAt, fromLE_leAt, Nat.reduceAdd]

theorem protocol_ofValue : ∀ i : Fin 256,
    (i.val ≤ 3 → ∃ p ∈ Protocol.all, Protocol.ofValue i.val = .ok p ∧ p.value = i.val) ∧
    (3 < i.val → Protocol.ofValue i.val = .error .value) := by decide +kernel

/-- C27. A body of at least 141 bytes with decimal SIM and modem ids and a known protocol number is
decoded field by field; bytes after the 141st are ignored. -/
theorem C27_fields (b : Bytes) (h : 141 ≤ b.length) (hs : ∀ x ∈ bytesAt b 36 10, IsBcd x)
    (hm : ∀ x ∈ bytesAt b 46 8, IsBcd x) (hp : leAt b 54 1 ≤ 3) :
    ∃ c, CallRequest.fromBytes b = .ok c ∧ CallLayout b c := by
  rw [call_long b h]
  have l1 : (bytesAt b 36 10).length = 10 := by simp [bytesAt]; omega
  have l2 : (bytesAt b 46 8).length = 8 := by simp [bytesAt]; omega
  have l3 : (bytesAt b 95 4).length = 4 := by simp [bytesAt]; omega
  rw [fromBcd_eq, if_pos ⟨fun hh => by rw [hh] at l1; simp at l1, hs⟩, fromBcd_eq,
    if_pos ⟨fun hh => by rw [hh] at l2; simp at l2, hm⟩]
  have hlt := leAt_lt b 54 1
  obtain ⟨p, _, hp1, hp2⟩ := (protocol_ofValue ⟨leAt b 54 1, by omega⟩).1 hp
  dsimp only at hp1 hp2
  rw [hp1]
  obtain ⟨ip, hip⟩ : ∃ ip, parseIpAddress (bytesAt b 95 4) = .ok ip := by
    unfold parseIpAddress; rw [if_neg (by simp [l3])]; exact ⟨_, rfl⟩
  rw [hip]
  refine ⟨_, rfl, ?_⟩
  constructor <;> first
    | rfl
    | exact isInstant_base b _
    | exact hp2
    | exact hip
    | exact pyStrInt_toString _

/-- C27. The exact outcome of decoding a call message: `ValueError` when the SIM id, the modem id or the
protocol number has arrived and is not valid, otherwise `IndexError` for a body shorter than 141 bytes,
otherwise success (with the fields of `C27_fields`). -/
def callError (b : Bytes) : Option PyErr :=
  if 46 ≤ b.length ∧ ¬ ∀ x ∈ bytesAt b 36 10, IsBcd x then some .value
  else if 54 ≤ b.length ∧ ¬ ∀ x ∈ bytesAt b 46 8, IsBcd x then some .value
  else if 55 ≤ b.length ∧ 3 < leAt b 54 1 then some .value
  else if b.length < 141 then some .index
  else none

theorem bind_popMany_short {α : Type} {n : Nat} (hn : 2 ≤ n) (f : Bytes → P α) (d : Bytes) (k : Nat)
    (h : d.length < k + n) : (popMany n >>= f) (d.drop k) = .error .index := by
  rw [pbind_apply, popMany_apply hn, if_neg (by simp; omega)]; rfl

theorem bind_pop0_short {α : Type} (f : UInt8 → P α) (d : Bytes) (k : Nat) (h : d.length < k + 1) :
    (pop0 >>= f) (d.drop k) = .error .index := by
  rw [pbind_apply, pop0_apply, if_neg (by simp; omega)]; rfl

theorem call_error (b : Bytes) (e : PyErr) (hc : callError b = some e) : CallRequest.fromBytes b = .error e := by
  have pm := fun (n : Nat) (hn : 2 ≤ n) (f : Bytes → P CallRequest) (k : Nat) (hk : k + n ≤ b.length) =>
    bind_popMany hn f b k hk
  have pp := fun (f : UInt8 → P CallRequest) (k : Nat) (hk : k + 1 ≤ b.length) => bind_pop0 f b k hk
  have qm := fun (n : Nat) (hn : 2 ≤ n) (f : Bytes → P CallRequest) (k : Nat) (hk : b.length < k + n) =>
    bind_popMany_short hn f b k hk
  have qp := fun (f : UInt8 → P CallRequest) (k : Nat) (hk : b.length < k + 1) => bind_pop0_short f b k hk
  unfold CallRequest.fromBytes CallRequest.parser
  rw [run_drop]
  unfold callError at hc
  by_cases h46 : b.length < 46
  · rw [if_neg (by omega), if_neg (by omega), if_neg (by omega), if_pos (by omega)] at hc
    cases hc
    by_cases h2 : b.length < 2
    · rw [qm 2 (by omega) _ 0 (by omega)]; rfl
    rw [pm 2 (by omega) _ 0 (by omega)]
    by_cases h3 : b.length < 3
    · rw [qp _ (0 + 2) (by omega)]; rfl
    rw [pp _ (0 + 2) (by omega)]
    by_cases h19 : b.length < 19
    · rw [qm 16 (by omega) _ _ (by omega)]; rfl
    rw [pm 16 (by omega) _ _ (by omega)]
    by_cases h36 : b.length < 36
    · rw [qm 17 (by omega) _ _ (by omega)]; rfl
    rw [pm 17 (by omega) _ _ (by omega), qm 10 (by omega) _ _ (by omega)]; rfl
  rw [pm 2 (by omega) _ 0 (by omega), pp _ (0 + 2) (by omega), pm 16 (by omega) _ _ (by omega),
    pm 17 (by omega) _ _ (by omega), pm 10 (by omega) _ _ (by omega)]
  simp only [bind_plift, Nat.reduceAdd]
  have l1 : (bytesAt b 36 10).length = 10 := by simp [bytesAt]; omega
  have n1 : bytesAt b 36 10 ≠ [] := fun hh => by rw [hh] at l1; simp at l1
  have e1 : (b.drop 36).take 10 = bytesAt b 36 10 := rfl
  rw [e1]
  by_cases hs : ∀ x ∈ bytesAt b 36 10, IsBcd x
  rotate_left
  · rw [if_pos ⟨by omega, hs⟩] at hc
    cases hc
    rw [fromBcd_eq, if_neg fun h => hs h.2]; rfl
  rw [fromBcd_eq, if_pos ⟨n1, hs⟩]
  rw [if_neg fun h => h.2 hs] at hc
  simp only [bind_ok]
  by_cases h54 : b.length < 54
  · rw [if_neg (by omega), if_neg (by omega), if_pos (by omega)] at hc
    cases hc
    rw [qm 8 (by omega) _ _ (by omega)]; rfl
  rw [pm 8 (by omega) _ _ (by omega)]
  simp only [bind_plift, Nat.reduceAdd]
  have l2 : (bytesAt b 46 8).length = 8 := by simp [bytesAt]; omega
  have n2 : bytesAt b 46 8 ≠ [] := fun hh => by rw [hh] at l2; simp at l2
  have e2 : (b.drop 46).take 8 = bytesAt b 46 8 := rfl
  rw [e2]
  by_cases hm : ∀ x ∈ bytesAt b 46 8, IsBcd x
  rotate_left
  · rw [if_pos ⟨by omega, hm⟩] at hc
    cases hc
    rw [fromBcd_eq, if_neg fun h => hm h.2]; rfl
  rw [fromBcd_eq, if_pos ⟨n2, hm⟩]
  rw [if_neg fun h => h.2 hm] at hc
  simp only [bind_ok]
  by_cases h55 : b.length < 55
  · rw [if_neg (by omega), if_pos (by omega)] at hc
    cases hc
    rw [qp _ _ (by omega)]; rfl
  rw [pp _ _ (by omega)]
  simp only [bind_plift, Nat.reduceAdd, getD_leAt]
  have hlt := leAt_lt b 54 1
  by_cases hp : 3 < leAt b 54 1
  · rw [if_pos ⟨by omega, hp⟩] at hc
    cases hc
    rw [(protocol_ofValue ⟨leAt b 54 1, by omega⟩).2 hp]; rfl
  obtain ⟨p, _, hp1, hp2⟩ := (protocol_ofValue ⟨leAt b 54 1, by omega⟩).1 (by dsimp only; omega)
  dsimp only at hp1 hp2
  rw [hp1]
  simp only [bind_ok]
  rw [if_neg (by omega)] at hc
  split at hc
  rotate_left
  · cases hc
  next h141 =>
  cases hc
  have hip : ∀ x : Bytes, x.length = 4 → ∃ ip, parseIpAddress x = .ok ip := by
    intro x hx
    unfold parseIpAddress; rw [if_neg (by simp [hx])]; exact ⟨_, rfl⟩
  -- the remaining 86 bytes are read by pops only
  by_cases h : b.length < 57
  · rw [qm 2 (by omega) _ _ (by omega)]; rfl
  rw [pm 2 (by omega) _ _ (by omega)]; simp only [Nat.reduceAdd]
  by_cases h : b.length < 58
  · rw [qp _ _ (by omega)]; rfl
  rw [pp _ _ (by omega)]; simp only [Nat.reduceAdd]
  by_cases h : b.length < 59
  · rw [qp _ _ (by omega)]; rfl
  rw [pp _ _ (by omega)]; simp only [Nat.reduceAdd]
  by_cases h : b.length < 63
  · rw [qm 4 (by omega) _ _ (by omega)]; rfl
  rw [pm 4 (by omega) _ _ (by omega)]; simp only [Nat.reduceAdd]
  by_cases h : b.length < 67
  · rw [qm 4 (by omega) _ _ (by omega)]; rfl
  rw [pm 4 (by omega) _ _ (by omega)]; simp only [Nat.reduceAdd]
  by_cases h : b.length < 71
  · rw [qm 4 (by omega) _ _ (by omega)]; rfl
  rw [pm 4 (by omega) _ _ (by omega)]; simp only [Nat.reduceAdd]
  by_cases h : b.length < 75
  · rw [qm 4 (by omega) _ _ (by omega)]; rfl
  rw [pm 4 (by omega) _ _ (by omega)]; simp only [Nat.reduceAdd]
  by_cases h : b.length < 79
  · rw [qm 4 (by omega) _ _ (by omega)]; rfl
  rw [pm 4 (by omega) _ _ (by omega)]; simp only [Nat.reduceAdd]
  by_cases h : b.length < 83
  · rw [qm 4 (by omega) _ _ (by omega)]; rfl
  rw [pm 4 (by omega) _ _ (by omega)]; simp only [Nat.reduceAdd]
  by_cases h : b.length < 87
  · rw [qm 4 (by omega) _ _ (by omega)]; rfl
  rw [pm 4 (by omega) _ _ (by omega)]; simp only [Nat.reduceAdd]
  by_cases h : b.length < 91
  · rw [qm 4 (by omega) _ _ (by omega)]; rfl
  rw [pm 4 (by omega) _ _ (by omega)]; simp only [Nat.reduceAdd]
  by_cases h : b.length < 95
  · rw [qm 4 (by omega) _ _ (by omega)]; rfl
  rw [pm 4 (by omega) _ _ (by omega)]; simp only [Nat.reduceAdd]
  by_cases h : b.length < 99
  · rw [qm 4 (by omega) _ _ (by omega)]; rfl
  rw [pm 4 (by omega) _ _ (by omega)]; simp only [Nat.reduceAdd, bind_plift]
  obtain ⟨ip, hip'⟩ := hip ((b.drop 95).take 4) (by simp; omega)
  rw [hip']
  simp only [bind_ok]
  by_cases h : b.length < 103
  · rw [qm 4 (by omega) _ _ (by omega)]; rfl
  rw [pm 4 (by omega) _ _ (by omega)]; simp only [Nat.reduceAdd]
  by_cases h : b.length < 104
  · rw [qp _ _ (by omega)]; rfl
  rw [pp _ _ (by omega)]; simp only [Nat.reduceAdd]
  by_cases h : b.length < 106
  · rw [qm 2 (by omega) _ _ (by omega)]; rfl
  rw [pm 2 (by omega) _ _ (by omega)]; simp only [Nat.reduceAdd]
  by_cases h : b.length < 108
  · rw [qm 2 (by omega) _ _ (by omega)]; rfl
  rw [pm 2 (by omega) _ _ (by omega)]; simp only [Nat.reduceAdd]
  rw [qm 33 (by omega) _ _ (by omega)]; rfl

/-- C27. Which call messages are refused, and with which exception. -/
theorem C27_outcome (b : Bytes) :
    (∀ e, CallRequest.fromBytes b = .error e ↔ callError b = some e) ∧
    ((∃ c, CallRequest.fromBytes b = .ok c) ↔
      141 ≤ b.length ∧ (∀ x ∈ bytesAt b 36 10, IsBcd x) ∧ (∀ x ∈ bytesAt b 46 8, IsBcd x) ∧ leAt b 54 1 ≤ 3) := by
  cases hc : callError b with
  | some x =>
    have hx := call_error b x hc
    refine ⟨fun e => ?_, ?_⟩
    · rw [hx]; simp
    · rw [hx]
      refine ⟨fun h => (by obtain ⟨c, h⟩ := h; cases h), fun h => ?_⟩
      obtain ⟨h1, h2, h3, h4⟩ := h
      unfold callError at hc
      rw [if_neg fun h => h.2 h2, if_neg fun h => h.2 h3, if_neg (by omega), if_neg (by omega)] at hc
      cases hc
  | none =>
    have hcond : 141 ≤ b.length ∧ (∀ x ∈ bytesAt b 36 10, IsBcd x) ∧ (∀ x ∈ bytesAt b 46 8, IsBcd x) ∧
        leAt b 54 1 ≤ 3 := by
      unfold callError at hc
      split at hc
      · cases hc
      next g1 =>
      split at hc
      · cases hc
      next g2 =>
      split at hc
      · cases hc
      next g3 =>
      split at hc
      · cases hc
      next g4 =>
      exact ⟨by omega, Classical.byContradiction fun h => g1 ⟨by omega, h⟩,
        Classical.byContradiction fun h => g2 ⟨by omega, h⟩, by omega⟩
    obtain ⟨c, hok, _⟩ := C27_fields b hcond.1 hcond.2.1 hcond.2.2.1 hcond.2.2.2
    refine ⟨fun e => ?_, ?_⟩
    · rw [hok]; simp
    · exact ⟨fun _ => hcond, fun _ => ⟨c, hok⟩⟩

/-- 141 bytes that satisfy every condition of `C27_fields`: SIM id 3…, modem id 5…, protocol 2. -/
def exCall : Bytes := [2, 0x40] ++ List.replicate 34 0x30 ++ List.replicate 10 0x38 ++ List.replicate 8 0x15 ++ [2] ++
  (List.range 86).map UInt8.ofNat

example : (∃ c, CallRequest.fromBytes exCall = .ok c ∧ CallLayout exCall c) ∧
    CallRequest.fromBytes (exCall.take 140) = .error .index ∧
    CallRequest.fromBytes (exCall.set 54 4) = .error .value :=
  ⟨C27_fields _ (by decide +kernel) (by decide +kernel) (by decide +kernel) (by decide +kernel),
   by decide +kernel, by decide +kernel⟩

/-- C27. Bytes after the 141st have no influence. -/
theorem C27_trailing (b t : Bytes) (h : 141 ≤ b.length) :
    CallRequest.fromBytes (b ++ t) = CallRequest.fromBytes b := by
  rw [call_long _ (by simp; omega), call_long b h]
  have e : ∀ o w, o + w ≤ 141 → bytesAt (b ++ t) o w = bytesAt b o w := by
    intro o w how
    unfold bytesAt
    rw [List.drop_append_of_le_length (by omega), List.take_append_of_le_length (by simp; omega)]
  have e' : ∀ o w, o + w ≤ 141 → leAt (b ++ t) o w = leAt b o w := by
    intro o w how
    have := e o w how
    unfold bytesAt at this
    unfold leAt; rw [this]
  simp (disch := omega) only [e, e']

/-- C27. Leading zeros of the SIM id are lost: the two ids differ on the wire but decode to the same
string. -/
theorem C27_leading_zeros (d : Bytes) (n : Nat) (h : fromBcd d = .ok n) :
    fromBcd (0 :: d) = .ok n := by
  rw [fromBcd_eq] at h ⊢
  split at h
  · rename_i hc
    simp at h
    have h0 : IsBcd 0 := by decide
    rw [if_pos ⟨by simp, by simpa [h0] using hc.2⟩, ← h]
    simp [bcdValue, bcdByte]
  · simp at h

example : fromBcd [0x12] = .ok 12 ∧ fromBcd [0x00, 0x12] = .ok 12 :=
  ⟨by decide +kernel, C27_leading_zeros _ _ (by decide +kernel)⟩

/-! ### C64 -/

/-- C64. `pop_many(array, n)`: for n of at least 2 it takes exactly the first n bytes off the array and
raises `IndexError` when there are fewer; for n below 2 it raises `ValueError`. -/
theorem C64_pop_many (n : Nat) (array : Bytes) :
    (n < 2 → popMany n array = .error .value) ∧
    (2 ≤ n → n ≤ array.length → ∃ out rest, popMany n array = .ok (out, rest) ∧ out ++ rest = array ∧ out.length = n) ∧
    (2 ≤ n → array.length < n → popMany n array = .error .index) := by
  refine ⟨fun h => ?_, fun h hl => ?_, fun h hl => ?_⟩
  · unfold popMany; rw [if_pos h]; rfl
  · rw [popMany_apply h, if_pos hl]
    exact ⟨_, _, rfl, List.take_append_drop n array, by rw [List.length_take]; omega⟩
  · rw [popMany_apply h, if_neg (by omega)]

example : popMany 2 [1, 2, 3] = .ok ([1, 2], [3]) ∧ popMany 1 [1, 2, 3] = .error .value ∧
    popMany 4 [1, 2, 3] = .error .index := by decide +kernel

end Elgas
