import Verif.Props.Bcd
import Verif.Lemmas.Calendar
/-! Properties C21, C22, C28 (and the request part of C18): request bodies (application.py). -/
namespace Elgas
open Spec

/-- The two random padding characters come from the alphabet of utils.py:176. -/
def PadOk (r : PwRand) : Prop := r.1 ∈ possibleChars ∧ r.2 ∈ possibleChars

instance (r : PwRand) : Decidable (PadOk r) := by unfold PadOk; infer_instance

theorem possibleChars_latin1 : ∀ c ∈ possibleChars, c.toNat < 256 := by decide +kernel

theorem encodeLatin1_ok {s : PyStr} (h : IsLatin1 s) : encodeLatin1 s = .ok (latin1 s) := by
  induction s with
  | nil => rfl
  | cons c s ih =>
    simp only [encodeLatin1]
    rw [if_pos (h c (by simp)), ih (fun x hx => h x (by simp [hx]))]
    rfl

theorem encodeLatin1_err {s : PyStr} (h : ¬ IsLatin1 s) : encodeLatin1 s = .error .unicodeEncode := by
  induction s with
  | nil => exact absurd (fun c hc => by simp at hc) h
  | cons c s ih =>
    simp only [encodeLatin1]
    by_cases hc : c.toNat < 256
    · rw [if_pos hc, ih]
      · rfl
      · intro hs; apply h
        intro x hx
        simp only [List.mem_cons] at hx
        rcases hx with rfl | hx
        · exact hc
        · exact hs x hx
    · rw [if_neg hc]; rfl

/-! ### C22: the password block -/

/-- The padded password on the wire: the password, '!', 0x03 and two padding characters. -/
def pwBytes (password : PyStr) (r : PwRand) : Bytes :=
  latin1 password ++ [0x21, 0x03] ++ latin1 [r.1, r.2]

theorem pwBytes_length (pw : PyStr) (r : PwRand) : (pwBytes pw r).length = pw.length + 4 := by
  simp [pwBytes, latin1]

theorem passwordBlock_ok {pw : PyStr} {r : PwRand} (hr : PadOk r) (h : IsLatin1 pw) :
    passwordBlock pw r = .ok (pwBytes pw r) := by
  unfold passwordBlock padPassword
  rw [encodeLatin1_ok]
  · simp [pwBytes, latin1]
  · intro c hc
    simp only [List.mem_append, List.mem_cons, List.not_mem_nil, or_false] at hc
    rcases hc with (hc | rfl | rfl) | rfl | rfl
    · exact h c hc
    · decide
    · decide
    · exact possibleChars_latin1 _ hr.1
    · exact possibleChars_latin1 _ hr.2

/-- C22. With an encodable password the block is password, '!', 0x03, two padding characters: its
length is the password length plus four. -/
theorem C22_block (pw : PyStr) (r : PwRand) (hr : PadOk r) (h : IsLatin1 pw) :
    passwordBlock pw r = .ok (latin1 pw ++ [0x21, 0x03] ++ latin1 [r.1, r.2]) ∧
    (latin1 pw ++ [0x21, 0x03] ++ latin1 [r.1, r.2]).length = pw.length + 4 :=
  ⟨passwordBlock_ok hr h, pwBytes_length pw r⟩

/-- C22. A password character above U+00FF makes the encoding raise `UnicodeEncodeError`, and that is
the only way it can fail. -/
theorem C22_unencodable (pw : PyStr) (r : PwRand) (hr : PadOk r) (e : PyErr) :
    passwordBlock pw r = .error e ↔ (∃ c ∈ pw, c.toNat ≥ 256) ∧ e = .unicodeEncode := by
  by_cases h : IsLatin1 pw
  · rw [passwordBlock_ok hr h]
    constructor
    · intro h; simp at h
    · rintro ⟨⟨c, hc, hn⟩, _⟩
      have := h c hc; omega
  · have hbad : passwordBlock pw r = .error .unicodeEncode := by
      unfold passwordBlock
      apply encodeLatin1_err
      intro hl; apply h
      intro c hc
      exact hl c (by simp [padPassword, hc])
    rw [hbad]
    constructor
    · intro he
      refine ⟨?_, by simpa using he.symm⟩
      apply Classical.byContradiction
      intro hn
      apply h
      intro c hc
      apply Classical.byContradiction
      intro hlt
      exact hn ⟨c, hc, by omega⟩
    · rintro ⟨_, rfl⟩; rfl

/-- C22. The block has the documented 10 bytes exactly for 6-character passwords. -/
theorem C22_ten_bytes_iff (pw : PyStr) (r : PwRand) (hr : PadOk r) (b : Bytes)
    (h : passwordBlock pw r = .ok b) : b.length = 10 ↔ pw.length = 6 := by
  by_cases hl : IsLatin1 pw
  · rw [passwordBlock_ok hr hl] at h
    injection h with h
    rw [← h, pwBytes_length]; omega
  · have : passwordBlock pw r = .error .unicodeEncode := by
      rw [C22_unencodable pw r hr]
      refine ⟨?_, rfl⟩
      apply Classical.byContradiction
      intro hn
      exact hl fun c hc => Classical.byContradiction fun hlt => hn ⟨c, hc, by omega⟩
    rw [this] at h; simp at h

theorem passwordBlock_cases (pw : PyStr) (r : PwRand) (hr : PadOk r) :
    (IsLatin1 pw ∧ passwordBlock pw r = .ok (pwBytes pw r)) ∨
    (¬ IsLatin1 pw ∧ passwordBlock pw r = .error .unicodeEncode) := by
  by_cases h : IsLatin1 pw
  · exact .inl ⟨h, passwordBlock_ok hr h⟩
  · refine .inr ⟨h, ?_⟩
    rw [C22_unencodable pw r hr]
    refine ⟨?_, rfl⟩
    apply Classical.byContradiction
    intro hn
    exact h fun c hc => Classical.byContradiction fun hlt => hn ⟨c, hc, by omega⟩

/-- C22. The padding characters are drawn from the ASCII letters and digits without `w` and `W`. -/
theorem C22_alphabet (c : Char) :
    c ∈ possibleChars ↔ c.isAlphanum = true ∧ c ≠ 'w' ∧ c ≠ 'W' := by
  have small : ∀ n : Fin 128, (Char.ofNat n.val ∈ possibleChars ↔
      (Char.ofNat n.val).isAlphanum = true ∧ Char.ofNat n.val ≠ 'w' ∧ Char.ofNat n.val ≠ 'W') := by
    decide +kernel
  by_cases h : c.toNat < 128
  · have := small ⟨c.toNat, h⟩
    rwa [Char.ofNat_toNat] at this
  · have h2 : ∀ x ∈ possibleChars, x.toNat < 128 := by decide +kernel
    constructor
    · intro hc; exact absurd (h2 c hc) h
    · rintro ⟨ha, _⟩
      exfalso
      simp only [Char.isAlphanum, Char.isAlpha, Char.isUpper, Char.isLower, Char.isDigit, Bool.or_eq_true,
        Bool.and_eq_true, decide_eq_true_eq, UInt32.le_iff_toNat_le] at ha
      simp at ha
      omega

/-- C22. The block determines the password (whatever the padding drawn): the receiver can recover it. -/
theorem C22_injective (pw pw' : PyStr) (r r' : PwRand) (hr : PadOk r) (hr' : PadOk r') (b : Bytes)
    (h : passwordBlock pw r = .ok b) (h' : passwordBlock pw' r' = .ok b) : pw = pw' := by
  rcases passwordBlock_cases pw r hr with ⟨hl, he⟩ | ⟨_, he⟩
  rotate_left
  · rw [he] at h; cases h
  rcases passwordBlock_cases pw' r' hr' with ⟨hl', he'⟩ | ⟨_, he'⟩
  rotate_left
  · rw [he'] at h'; cases h'
  rw [he] at h; rw [he'] at h'
  injection h with h; injection h' with h'
  rw [← h'] at h
  have hlen : (latin1 pw).length = (latin1 pw').length := by
    have := congrArg List.length h
    rw [pwBytes_length, pwBytes_length] at this
    simp [latin1]; omega
  unfold pwBytes at h
  rw [List.append_assoc, List.append_assoc] at h
  have h1 : latin1 pw = latin1 pw' := (List.append_inj h hlen).1
  have back : ∀ s : List Char, IsLatin1 s → (latin1 s).map (fun b => Char.ofNat b.toNat) = s := by
    intro s hs
    induction s with
    | nil => rfl
    | cons c s ih =>
      have hc : c.toNat < 256 := hs c (by simp)
      have ih' := ih fun x hx => hs x (by simp [hx])
      simp only [latin1, List.map_cons, List.cons.injEq] at ih' ⊢
      refine ⟨?_, ih'⟩
      rw [UInt8.toNat_ofNat_of_lt' (by simpa using hc), Char.ofNat_toNat]
  rw [← back pw hl, h1, back pw' hl']

example : passwordBlock "abc123".toList ('q', '7') = .ok [0x61, 0x62, 0x63, 0x31, 0x32, 0x33, 0x21, 0x03, 0x71, 0x37] := by
  decide

/-! ### C21: layouts -/

theorem leBytes_leOf (w n : Nat) : leBytes w n = leOf n w := by
  induction w generalizing n with
  | zero => rfl
  | succ w ih => simp [leBytes, leOf, ih]

theorem leOf_length (n w : Nat) : (leOf n w).length = w := by
  rw [← leBytes_leOf, leBytes_length]

theorem fromLE_leAt (b : Bytes) (o w : Nat) : leAt b o w = fromLE ((b.drop o).take w) := by
  unfold leAt
  generalize (b.drop o).take w = l
  induction l with
  | nil => rfl
  | cons x l ih => simp [fromLE, ih]

theorem leAt_leOf (pre post : Bytes) (n o w : Nat) (ho : o = pre.length) (hn : n < 256 ^ w) :
    leAt (pre ++ leOf n w ++ post) o w = n := by
  subst ho
  rw [fromLE_leAt, List.append_assoc, List.drop_left]
  have : (leOf n w ++ post).take w = leOf n w := by
    have := List.take_left (l₁ := leOf n w) (l₂ := post)
    rwa [leOf_length] at this
  rw [this, ← leBytes_leOf, fromLE_leBytes w n hn]

theorem toBytesLE_cases (w : Nat) (x : Int) :
    (0 ≤ x ∧ x < 256 ^ w ∧ toBytesLE w x = .ok (leOf x.toNat w)) ∨
    (¬ (0 ≤ x ∧ x < 256 ^ w) ∧ toBytesLE w x = .error .overflow) := by
  by_cases h : 0 ≤ x ∧ x < 256 ^ w
  · exact .inl ⟨h.1, h.2, by rw [toBytesLE_ok h.1 h.2, leBytes_leOf]⟩
  · exact .inr ⟨h, by unfold toBytesLE; rw [if_neg h]; rfl⟩

theorem toByte_cases (x : Int) :
    (0 ≤ x ∧ x < 256 ∧ toByte x = .ok (UInt8.ofNat x.toNat)) ∨
    (¬ (0 ≤ x ∧ x < 256) ∧ toByte x = .error .value) := by
  by_cases h : 0 ≤ x ∧ x < 256
  · exact .inl ⟨h.1, h.2, toByte_ok h.1 h.2⟩
  · exact .inr ⟨h, by unfold toByte; rw [if_neg h]; rfl⟩

/-- C21. Read-instantaneous-values body: the password block. -/
theorem C21_read_values (q : ReadInstantaneousValuesRequest) (r : PwRand) (hr : PadOk r) (b : Bytes) :
    q.toBytes r = .ok b ↔ IsLatin1 q.password ∧ b = pwBytes q.password r := by
  unfold ReadInstantaneousValuesRequest.toBytes
  rcases passwordBlock_cases q.password r hr with ⟨h, he⟩ | ⟨h, he⟩ <;> rw [he]
  · simp [h]; exact ⟨fun h => h.symm, fun h => h.symm⟩
  · simp [h]

/-- C21. Read-time body: empty. -/
theorem C21_read_time (q : ReadTimeRequest) : q.toBytes = .ok [] := rfl

/-- C21. Read-parameters body: password block, object count, buffer length. -/
theorem C21_read_parameters (q : ReadDeviceParametersRequest) (r : PwRand) (hr : PadOk r)
    (b : Bytes) :
    q.toBytes r = .ok b ↔ IsLatin1 q.password ∧ (0 ≤ q.objectCount ∧ q.objectCount ≤ 65535) ∧
      (0 ≤ q.bufferLength ∧ q.bufferLength ≤ 65535) ∧
      b = pwBytes q.password r ++ leOf q.objectCount.toNat 2 ++ leOf q.bufferLength.toNat 2 := by
  unfold ReadDeviceParametersRequest.toBytes
  rcases passwordBlock_cases q.password r hr with ⟨h, he⟩ | ⟨h, he⟩ <;> rw [he]
  rotate_left
  · simp [h]
  rcases toBytesLE_cases 2 q.objectCount with ⟨h1, h2, he⟩ | ⟨h1, he⟩ <;> rw [he]
  rotate_left
  · simp only [bind_ok, bind_error]
    exact ⟨fun h => by simp at h, fun ⟨_, h3, _⟩ => absurd ⟨h3.1, by omega⟩ h1⟩
  rcases toBytesLE_cases 2 q.bufferLength with ⟨h3, h4, he⟩ | ⟨h3, he⟩ <;> rw [he]
  rotate_left
  · simp only [bind_ok, bind_error]
    exact ⟨fun h => by simp at h, fun ⟨_, _, h5, _⟩ => absurd ⟨h5.1, by omega⟩ h3⟩
  simp only [bind_ok, pure_res, Except.ok.injEq]
  exact ⟨fun hb => ⟨h, ⟨h1, by omega⟩, ⟨h3, by omega⟩, hb.symm⟩, fun ⟨_, _, _, hb⟩ => hb.symm⟩

/-- C21. Read-archive body: password block, archive, record id, amount. -/
theorem C21_read_archive (q : ReadArchiveRequest) (r : PwRand) (hr : PadOk r) (b : Bytes) :
    q.toBytes r = .ok b ↔ IsLatin1 q.password ∧ (0 ≤ q.archive ∧ q.archive ≤ 255) ∧
      (0 ≤ q.oldestRecordId ∧ q.oldestRecordId < 2 ^ 32) ∧ (0 ≤ q.amount ∧ q.amount ≤ 65535) ∧
      b = pwBytes q.password r ++ [UInt8.ofNat q.archive.toNat] ++ leOf q.oldestRecordId.toNat 4 ++
        leOf q.amount.toNat 2 := by
  unfold ReadArchiveRequest.toBytes
  rcases passwordBlock_cases q.password r hr with ⟨h, he⟩ | ⟨h, he⟩ <;> rw [he]
  rotate_left
  · simp [h]
  rcases toByte_cases q.archive with ⟨h1, h2, he⟩ | ⟨h1, he⟩ <;> rw [he]
  rotate_left
  · simp only [bind_ok, bind_error]
    exact ⟨fun h => by simp at h, fun ⟨_, h3, _⟩ => absurd ⟨h3.1, by omega⟩ h1⟩
  rcases toBytesLE_cases 4 q.oldestRecordId with ⟨h3, h4, he⟩ | ⟨h3, he⟩ <;> rw [he]
  rotate_left
  · simp only [bind_ok, bind_error]
    exact ⟨fun h => by simp at h, fun ⟨_, _, h5, _⟩ => absurd ⟨h5.1, by omega⟩ h3⟩
  rcases toBytesLE_cases 2 q.amount with ⟨h5, h6, he⟩ | ⟨h5, he⟩ <;> rw [he]
  rotate_left
  · simp only [bind_ok, bind_error]
    exact ⟨fun h => by simp at h, fun ⟨_, _, _, h7, _⟩ => absurd ⟨h7.1, by omega⟩ h5⟩
  simp only [bind_ok, pure_res, Except.ok.injEq]
  exact ⟨fun hb => ⟨h, ⟨h1, by omega⟩, ⟨h3, by omega⟩, ⟨h5, by omega⟩, hb.symm⟩,
    fun ⟨_, _, _, _, hb⟩ => hb.symm⟩

/-- C21. Read-archive-by-time body: password block, archive, amount, BCD time. -/
theorem C21_read_archive_by_time (q : ReadArchiveByTimeRequest) (r : PwRand) (hr : PadOk r)
    (b : Bytes) :
    q.toBytes r = .ok b ↔ IsLatin1 q.password ∧ (0 ≤ q.archive ∧ q.archive ≤ 255) ∧
      (0 ≤ q.amount ∧ q.amount ≤ 65535) ∧
      ∃ t, datetimeToBytes q.oldestTimestamp = .ok t ∧
      b = pwBytes q.password r ++ [UInt8.ofNat q.archive.toNat] ++ leOf q.amount.toNat 2 ++ t := by
  unfold ReadArchiveByTimeRequest.toBytes
  rcases passwordBlock_cases q.password r hr with ⟨h, he⟩ | ⟨h, he⟩ <;> rw [he]
  rotate_left
  · simp [h]
  rcases toByte_cases q.archive with ⟨h1, h2, he⟩ | ⟨h1, he⟩ <;> rw [he]
  rotate_left
  · simp only [bind_ok, bind_error]
    exact ⟨fun h => by simp at h, fun ⟨_, h3, _⟩ => absurd ⟨h3.1, by omega⟩ h1⟩
  rcases toBytesLE_cases 2 q.amount with ⟨h5, h6, he⟩ | ⟨h5, he⟩ <;> rw [he]
  rotate_left
  · simp only [bind_ok, bind_error]
    exact ⟨fun h => by simp at h, fun ⟨_, _, h7, _⟩ => absurd ⟨h7.1, by omega⟩ h5⟩
  simp only [bind_ok, bind_eq_ok, pure_res, Except.ok.injEq]
  constructor
  · rintro ⟨t, ht, hb⟩
    exact ⟨h, ⟨h1, by omega⟩, ⟨h5, by omega⟩, t, ht, hb.symm⟩
  · rintro ⟨_, _, _, t, ht, hb⟩
    exact ⟨t, ht, hb.symm⟩

/-- C21. Write-time body: password block, BCD time, flags 0x04. -/
theorem C21_write_time (q : WriteTimeRequest) (r : PwRand) (hr : PadOk r) (b : Bytes) :
    q.toBytes r = .ok b ↔ IsLatin1 q.password ∧
      ∃ t, datetimeToBytes q.deviceTime = .ok t ∧ b = pwBytes q.password r ++ t ++ [0x04] := by
  unfold WriteTimeRequest.toBytes
  have h4 : toByte ((0b00000100 &&& 0xff : Nat) : Int) = .ok 0x04 := by decide
  rcases passwordBlock_cases q.password r hr with ⟨h, he⟩ | ⟨h, he⟩ <;> rw [he]
  rotate_left
  · simp [h]
  simp only [bind_ok, bind_eq_ok, h4, pure_res, Except.ok.injEq]
  constructor
  · rintro ⟨t, ht, hb⟩; exact ⟨h, t, ht, hb.symm⟩
  · rintro ⟨_, t, ht, hb⟩; exact ⟨t, ht, hb.symm⟩

/-! Which exception is raised: that of the first field that cannot be written, in the order of the body. -/

instance (s : List Char) : Decidable (IsLatin1 s) := by unfold IsLatin1; infer_instance

/-- C21. The exception of a read-instantaneous-values body. -/
theorem C21_read_values_error (q : ReadInstantaneousValuesRequest) (r : PwRand) (hr : PadOk r) (e : PyErr) :
    q.toBytes r = .error e ↔ (if ¬ IsLatin1 q.password then some .unicodeEncode else none) = some e := by
  unfold ReadInstantaneousValuesRequest.toBytes
  rcases passwordBlock_cases q.password r hr with ⟨h, he⟩ | ⟨h, he⟩ <;> rw [he] <;> simp [h]

/-- C21. The exception of a read-parameters body. -/
theorem C21_read_parameters_error (q : ReadDeviceParametersRequest) (r : PwRand) (hr : PadOk r) (e : PyErr) :
    q.toBytes r = .error e ↔
      (if ¬ IsLatin1 q.password then some .unicodeEncode
       else if q.objectCount < 0 ∨ 65535 < q.objectCount then some .overflow
       else if q.bufferLength < 0 ∨ 65535 < q.bufferLength then some .overflow
       else none) = some e := by
  unfold ReadDeviceParametersRequest.toBytes
  rcases passwordBlock_cases q.password r hr with ⟨h, he⟩ | ⟨h, he⟩ <;> rw [he]
  rotate_left
  · simp [h]
  rw [if_neg (by simp [h])]
  rcases toBytesLE_cases 2 q.objectCount with ⟨h1, h2, he⟩ | ⟨h1, he⟩ <;> rw [he]
  rotate_left
  · rw [if_pos (by omega)]; simp
  rw [if_neg (by omega)]
  rcases toBytesLE_cases 2 q.bufferLength with ⟨h3, h4, he⟩ | ⟨h3, he⟩ <;> rw [he]
  rotate_left
  · rw [if_pos (by omega)]; simp
  rw [if_neg (by omega)]; simp [bind_ok, pure_res]

/-- C21. The exception of a read-archive body: the archive number is appended as a byte (`ValueError`). -/
theorem C21_read_archive_error (q : ReadArchiveRequest) (r : PwRand) (hr : PadOk r) (e : PyErr) :
    q.toBytes r = .error e ↔
      (if ¬ IsLatin1 q.password then some .unicodeEncode
       else if q.archive < 0 ∨ 255 < q.archive then some .value
       else if q.oldestRecordId < 0 ∨ 2 ^ 32 ≤ q.oldestRecordId then some .overflow
       else if q.amount < 0 ∨ 65535 < q.amount then some .overflow
       else none) = some e := by
  unfold ReadArchiveRequest.toBytes
  rcases passwordBlock_cases q.password r hr with ⟨h, he⟩ | ⟨h, he⟩ <;> rw [he]
  rotate_left
  · simp [h]
  rw [if_neg (by simp [h])]
  rcases toByte_cases q.archive with ⟨h1, h2, he⟩ | ⟨h1, he⟩ <;> rw [he]
  rotate_left
  · rw [if_pos (by omega)]; simp
  rw [if_neg (by omega)]
  rcases toBytesLE_cases 4 q.oldestRecordId with ⟨h3, h4, he⟩ | ⟨h3, he⟩ <;> rw [he]
  rotate_left
  · rw [if_pos (by omega)]; simp
  rw [if_neg (by omega)]
  rcases toBytesLE_cases 2 q.amount with ⟨h3, h4, he⟩ | ⟨h3, he⟩ <;> rw [he]
  rotate_left
  · rw [if_pos (by omega)]; simp
  rw [if_neg (by omega)]; simp [bind_ok, pure_res]

/-- C21. The exception of a read-archive-by-time body; dates before 2000 raise `ValueError`. -/
theorem C21_read_archive_by_time_error (q : ReadArchiveByTimeRequest) (r : PwRand) (hr : PadOk r) (e : PyErr) :
    q.toBytes r = .error e ↔
      (if ¬ IsLatin1 q.password then some .unicodeEncode
       else if q.archive < 0 ∨ 255 < q.archive then some .value
       else if q.amount < 0 ∨ 65535 < q.amount then some .overflow
       else if q.oldestTimestamp.year < 2000 then some .value
       else none) = some e := by
  unfold ReadArchiveByTimeRequest.toBytes
  rcases passwordBlock_cases q.password r hr with ⟨h, he⟩ | ⟨h, he⟩ <;> rw [he]
  rotate_left
  · simp [h]
  rw [if_neg (by simp [h])]
  rcases toByte_cases q.archive with ⟨h1, h2, he⟩ | ⟨h1, he⟩ <;> rw [he]
  rotate_left
  · rw [if_pos (by omega)]; simp
  rw [if_neg (by omega)]
  rcases toBytesLE_cases 2 q.amount with ⟨h3, h4, he⟩ | ⟨h3, he⟩ <;> rw [he]
  rotate_left
  · rw [if_pos (by omega)]; simp
  rw [if_neg (by omega)]
  by_cases hy : 2000 ≤ q.oldestTimestamp.year
  · rw [datetimeToBytes_eq _ hy, if_neg (by omega)]; simp [bind_ok, pure_res]
  · rw [C18_before_2000 _ (by omega), if_pos (by omega)]; simp

/-- C21. The exception of a write-time body. -/
theorem C21_write_time_error (q : WriteTimeRequest) (r : PwRand) (hr : PadOk r) (e : PyErr) :
    q.toBytes r = .error e ↔
      (if ¬ IsLatin1 q.password then some .unicodeEncode
       else if q.deviceTime.year < 2000 then some .value
       else none) = some e := by
  unfold WriteTimeRequest.toBytes
  have h4 : toByte ((0b00000100 &&& 0xff : Nat) : Int) = .ok 0x04 := by decide
  rcases passwordBlock_cases q.password r hr with ⟨h, he⟩ | ⟨h, he⟩ <;> rw [he]
  rotate_left
  · simp [h]
  rw [if_neg (by simp [h])]
  by_cases hy : 2000 ≤ q.deviceTime.year
  · rw [datetimeToBytes_eq _ hy, if_neg (by omega)]; simp only [bind_ok, h4, pure_res]; simp
  · rw [C18_before_2000 _ (by omega), if_pos (by omega)]; simp

/-! Documented offsets for 6-character passwords: an independent decoder recovers the fields. -/

/-- C21. Decoding a read-parameters body at the documented offsets. -/
theorem C21_read_parameters_decoded (q : ReadDeviceParametersRequest) (r : PwRand) (hr : PadOk r)
    (b : Bytes) (h6 : q.password.length = 6) (h : q.toBytes r = .ok b) :
    b.length = 14 ∧ bytesAt b 0 6 = latin1 q.password ∧ leAt b 10 2 = q.objectCount ∧
    leAt b 12 2 = q.bufferLength := by
  rw [C21_read_parameters q r hr] at h
  obtain ⟨_, ⟨h1, h2⟩, ⟨h3, h4⟩, rfl⟩ := h
  have hp := pwBytes_length q.password r
  refine ⟨by simp [hp, leOf_length, h6], ?_, ?_, ?_⟩
  · have hl : (latin1 q.password).length = 6 := by simp [latin1, h6]
    simp only [bytesAt, pwBytes, List.drop_zero, List.append_assoc]
    rw [← hl, List.take_left]
  · rw [leAt_leOf _ _ _ _ _ (by omega) (by omega)]; omega
  · have := leAt_leOf (pwBytes q.password r ++ leOf q.objectCount.toNat 2) [] q.bufferLength.toNat
      12 2 (by simp [hp, leOf_length, h6]) (by omega)
    rw [List.append_nil] at this
    rw [this]; omega

/-- C21. Decoding a read-archive body at the documented offsets. -/
theorem C21_read_archive_decoded (q : ReadArchiveRequest) (r : PwRand) (hr : PadOk r)
    (b : Bytes) (h6 : q.password.length = 6) (h : q.toBytes r = .ok b) :
    b.length = 17 ∧ bytesAt b 0 6 = latin1 q.password ∧ leAt b 10 1 = q.archive ∧
    leAt b 11 4 = q.oldestRecordId ∧ leAt b 15 2 = q.amount := by
  rw [C21_read_archive q r hr] at h
  obtain ⟨_, ⟨h1, h2⟩, ⟨h3, h4⟩, ⟨h5, h7⟩, rfl⟩ := h
  have hp := pwBytes_length q.password r
  have ha : [UInt8.ofNat q.archive.toNat] = leOf q.archive.toNat 1 := by
    simp only [leOf]; rw [Nat.mod_eq_of_lt (by omega)]
  refine ⟨by simp [hp, leOf_length, h6], ?_, ?_, ?_, ?_⟩
  · have hl : (latin1 q.password).length = 6 := by simp [latin1, h6]
    simp only [bytesAt, pwBytes, List.drop_zero, List.append_assoc]
    rw [← hl, List.take_left]
  · rw [ha, List.append_assoc, leAt_leOf _ _ _ _ _ (by omega) (by omega)]; omega
  · rw [leAt_leOf _ _ _ _ _ (by simp [hp, h6]) (by omega)]; omega
  · have := leAt_leOf (pwBytes q.password r ++ [UInt8.ofNat q.archive.toNat] ++
      leOf q.oldestRecordId.toNat 4) [] q.amount.toNat
      15 2 (by simp [hp, leOf_length, h6]) (by omega)
    rw [List.append_nil] at this
    rw [this]; omega

/-- C21. Decoding a read-archive-by-time body at the documented offsets (years 2000-2099). -/
theorem C21_read_archive_by_time_decoded (q : ReadArchiveByTimeRequest) (r : PwRand) (hr : PadOk r)
    (b : Bytes) (h6 : q.password.length = 6) (hv : q.oldestTimestamp.Valid)
    (hy : q.oldestTimestamp.year ≤ 2099) (h : q.toBytes r = .ok b) :
    b.length = 19 ∧ bytesAt b 0 6 = latin1 q.password ∧ leAt b 10 1 = q.archive ∧
    leAt b 11 2 = q.amount ∧
    bytesToDatetime (bytesAt b 13 6) = .ok ({ q.oldestTimestamp with microsecond := 0 }, false, false) := by
  rw [C21_read_archive_by_time q r hr] at h
  obtain ⟨_, ⟨h1, h2⟩, ⟨h5, h7⟩, t, ht, rfl⟩ := h
  have hy0 : 2000 ≤ q.oldestTimestamp.year := by
    apply Classical.byContradiction
    intro hn
    rw [C18_before_2000 _ (by omega)] at ht; simp at ht
  obtain ⟨t', ht', htl, hdec⟩ := C16_roundtrip q.oldestTimestamp hv hy0 hy
  rw [ht] at ht'; injection ht' with ht'; subst ht'
  have hp := pwBytes_length q.password r
  have ha : [UInt8.ofNat q.archive.toNat] = leOf q.archive.toNat 1 := by
    simp only [leOf]; rw [Nat.mod_eq_of_lt (by omega)]
  refine ⟨by simp [hp, leOf_length, h6, htl], ?_, ?_, ?_, ?_⟩
  · have hl : (latin1 q.password).length = 6 := by simp [latin1, h6]
    simp only [bytesAt, pwBytes, List.drop_zero, List.append_assoc]
    rw [← hl, List.take_left]
  · rw [ha, List.append_assoc, leAt_leOf _ _ _ _ _ (by omega) (by omega)]; omega
  · rw [leAt_leOf _ _ _ _ _ (by simp [hp, h6]) (by omega)]; omega
  · have hl : (pwBytes q.password r ++ [UInt8.ofNat q.archive.toNat] ++ leOf q.amount.toNat 2).length
        = 13 := by simp [hp, h6, leOf_length]
    have : bytesAt (pwBytes q.password r ++ [UInt8.ofNat q.archive.toNat] ++ leOf q.amount.toNat 2 ++ t)
        13 6 = t := by
      unfold bytesAt
      rw [← hl, List.drop_left, List.take_of_length_le (by omega)]
    rw [this, hdec]

/-- C21. Decoding a write-time body at the documented offsets (years 2000-2099). -/
theorem C21_write_time_decoded (q : WriteTimeRequest) (r : PwRand) (hr : PadOk r)
    (b : Bytes) (h6 : q.password.length = 6) (hv : q.deviceTime.Valid)
    (hy : q.deviceTime.year ≤ 2099) (h : q.toBytes r = .ok b) :
    b.length = 17 ∧ bytesAt b 0 6 = latin1 q.password ∧
    bytesToDatetime (bytesAt b 10 6) = .ok ({ q.deviceTime with microsecond := 0 }, false, false) ∧
    leAt b 16 1 = 4 := by
  rw [C21_write_time q r hr] at h
  obtain ⟨_, t, ht, rfl⟩ := h
  have hy0 : 2000 ≤ q.deviceTime.year := by
    apply Classical.byContradiction
    intro hn
    rw [C18_before_2000 _ (by omega)] at ht; simp at ht
  obtain ⟨t', ht', htl, hdec⟩ := C16_roundtrip q.deviceTime hv hy0 hy
  rw [ht] at ht'; injection ht' with ht'; subst ht'
  have hp := pwBytes_length q.password r
  refine ⟨by simp [hp, h6, htl], ?_, ?_, ?_⟩
  · have hl : (latin1 q.password).length = 6 := by simp [latin1, h6]
    simp only [bytesAt, pwBytes, List.drop_zero, List.append_assoc]
    rw [← hl, List.take_left]
  · have hl : (pwBytes q.password r).length = 10 := by omega
    have : bytesAt (pwBytes q.password r ++ t ++ [0x04]) 10 6 = t := by
      unfold bytesAt
      rw [List.append_assoc, ← hl, List.drop_left]
      rw [← htl, List.take_left]
    rw [this, hdec]
  · have := leAt_leOf (pwBytes q.password r ++ t) [] 4 16 1 (by simp [hp, h6, htl]) (by omega)
    rw [List.append_nil] at this
    exact this

/-! ### C28, C18 -/

/-- C28. The flags byte, the last byte of a write-time body, is 0x04 whatever the password, the time
and the cryout argument; the cryout argument has no effect at all on the body. -/
theorem C28_sync_only (q : WriteTimeRequest) (r : PwRand) :
    (∀ b, q.toBytes r = .ok b → b.getLast? = some 0x04) ∧
    (∀ c, ({ q with cryout := c } : WriteTimeRequest).toBytes r = q.toBytes r) := by
  refine ⟨fun b h => ?_, fun c => rfl⟩
  have h4 : toByte ((0b00000100 &&& 0xff : Nat) : Int) = .ok 0x04 := by decide
  unfold WriteTimeRequest.toBytes at h
  simp only [bind_eq_ok, h4, pure_res, Except.ok.injEq] at h
  obtain ⟨_, _, _, _, fl, rfl, rfl⟩ := h
  simp

/-- C18. Request bodies with a date of the year 2100 or later are one byte longer than with a date of
the years 2000-2099: the flags byte of a write-time request is shifted by one. -/
theorem C18_shifted_body (q : WriteTimeRequest) (r : PwRand) (hr : PadOk r) (b : Bytes)
    (hv : q.deviceTime.Valid) (h : q.toBytes r = .ok b) :
    b.length = q.password.length + 11 + (if 2100 ≤ q.deviceTime.year then 1 else 0) := by
  rw [C21_write_time q r hr] at h
  obtain ⟨_, t, ht, rfl⟩ := h
  have hp := pwBytes_length q.password r
  by_cases h0 : q.deviceTime.year < 2000
  · rw [C18_before_2000 _ h0] at ht; simp at ht
  · by_cases h1 : 2100 ≤ q.deviceTime.year
    · obtain ⟨t', ht', hl, _⟩ := C18_from_2100 _ hv h1
      rw [ht] at ht'; injection ht' with ht'; subst ht'
      simp [hp, hl, h1]
    · obtain ⟨t', ht', hl, _⟩ := C16_roundtrip _ hv (by omega) (by omega)
      rw [ht] at ht'; injection ht' with ht'; subst ht'
      simp [hp, hl, h1]

/-! ### The hypotheses are met -/

example : PadOk ('q', '7') := by decide
example : ∃ b, (⟨"abc123".toList, 1, 20, 0xFFFFFFFF⟩ : ReadArchiveRequest).toBytes ('q', '7') = .ok b ∧
    b.length = 17 := ⟨_, by rw [C21_read_archive _ _ (by decide)]; refine ⟨?_, by decide, by decide, by decide, rfl⟩; unfold IsLatin1; decide, by decide⟩
example : ∃ b, (⟨"abc123".toList, ⟨2024, 2, 29, 1, 2, 3, 0⟩, true⟩ : WriteTimeRequest).toBytes ('q', '7') = .ok b :=
  ⟨_, by rw [C21_write_time _ _ (by decide)]; refine ⟨?_, _, datetimeToBytes_valid _ (by decide) (by decide) (by decide), rfl⟩; unfold IsLatin1; decide⟩

end Elgas
