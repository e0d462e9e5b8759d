import Verif.Lemmas.Frames
/-! Properties C19, C20 and C62: text fields, IP addresses, secrets (utils.py:7-57, 257-276). -/
namespace Elgas
open Spec

/-! ### C19 -/

/-- A byte that is dropped at the ends of a text field: NUL or ASCII white space. -/
def Blank (b : UInt8) : Prop := b = 0 ∨ b = 0x20 ∨ (0x09 ≤ b ∧ b ≤ 0x0D)

instance (b : UInt8) : Decidable (Blank b) := by unfold Blank; infer_instance

/-- The character a text byte is shown as: NUL becomes a space, everything else its latin-1 char. -/
def shownChar (b : UInt8) : Char := if b = 0 then ' ' else Char.ofNat b.toNat

theorem isPySpace_blank (b : UInt8) : isPySpace (if b = 0 then 0x20 else b) = true ↔ Blank b := by
  revert b; apply u8_forall; decide +kernel

theorem rindexNul_none {d : Bytes} (h : (0 : UInt8) ∉ d) : rindexNul d = none := by
  induction d with
  | nil => rfl
  | cons b d ih =>
    simp only [List.mem_cons, not_or] at h
    simp only [rindexNul, ih h.2]
    rw [if_neg (fun hb => h.1 hb.symm)]

theorem rindexNul_split (p s : Bytes) (h : (0 : UInt8) ∉ s) :
    rindexNul (p ++ 0 :: s) = some p.length := by
  induction p with
  | nil => simp [rindexNul, rindexNul_none h]
  | cons b p ih => simp [rindexNul, ih]

theorem sliceTo_ofNat' {α} (l : List α) (n : Nat) : sliceTo l (n : Int) = l.take n := by
  unfold sliceTo clampIdx
  rw [if_neg (by omega), Int.toNat_natCast]
  by_cases h : n ≤ l.length
  · rw [Nat.min_eq_left h]
  · rw [Nat.min_eq_right (by omega), List.take_of_length_le (Nat.le_refl _),
      List.take_of_length_le (by omega)]

theorem replaceNul (d : Bytes) : replaceByte d 0x00 [0x20] = d.map fun b => if b = 0 then 0x20 else b := by
  induction d with
  | nil => rfl
  | cons b d ih =>
    simp only [replaceByte, List.flatMap_cons, List.map_cons] at *
    rw [ih]; split <;> rfl

/-- The text after the cut at the last NUL. -/
def cleanText (d : Bytes) : PyStr := decodeLatin1 (rstrip (lstrip (replaceByte d 0x00 [0x20])))

/-- C19. Everything from the last NUL on is ignored. -/
theorem C19_cut_at_last_nul (p s s' : Bytes) (h : (0 : UInt8) ∉ s) (h' : (0 : UInt8) ∉ s') :
    prettyText (p ++ 0 :: s) = prettyText (p ++ 0 :: s') := by
  unfold prettyText
  rw [rindexNul_split p s h, rindexNul_split p s' h']
  simp only [sliceTo_ofNat', List.take_left]

example : prettyText ([0x41, 0, 0x42] ++ 0 :: [0x43, 0x44]) = prettyText ([0x41, 0, 0x42] ++ 0 :: []) ∧
    prettyText ([0x41, 0, 0x42] ++ 0 :: []) = "A B".toList :=
  ⟨C19_cut_at_last_nul _ _ _ (by decide) (by decide), by decide +kernel⟩

theorem prettyText_split (p s : Bytes) (h : (0 : UInt8) ∉ s) :
    prettyText (p ++ 0 :: s) = cleanText p := by
  unfold prettyText cleanText
  rw [rindexNul_split p s h]
  simp only [sliceTo_ofNat', List.take_left]

theorem prettyText_none (d : Bytes) (h : (0 : UInt8) ∉ d) : prettyText d = cleanText d := by
  unfold prettyText cleanText
  rw [rindexNul_none h]

theorem dropWhile_split (p : UInt8 → Bool) (l : Bytes) :
    ∃ a b, l = a ++ b ∧ (∀ x ∈ a, p x = true) ∧ l.dropWhile p = b ∧
      (∀ x, b.head? = some x → p x = false) := by
  induction l with
  | nil => exact ⟨[], [], rfl, by simp, rfl, by simp⟩
  | cons y l ih =>
    obtain ⟨a, b, hl, ha, hb, hh⟩ := ih
    by_cases hy : p y = true
    · exact ⟨y :: a, b, by simp [hl], by simpa [hy] using ha, by rw [List.dropWhile_cons_of_pos hy, hb], hh⟩
    · refine ⟨[], y :: l, rfl, by simp, ?_, ?_⟩
      · rw [List.dropWhile_cons_of_neg hy]
      · intro x hx; simp at hx; subst hx; simpa using hy

/-- Stripping: the string is blanks, the kept part, blanks; the kept part neither starts nor ends with
white space. -/
theorem strip_split (l : Bytes) :
    ∃ a m b, l = a ++ m ++ b ∧ (∀ x ∈ a, isPySpace x = true) ∧ (∀ x ∈ b, isPySpace x = true) ∧
      rstrip (lstrip l) = m ∧ (∀ x, m.head? = some x → isPySpace x = false) ∧
      (∀ x, m.getLast? = some x → isPySpace x = false) := by
  obtain ⟨a, r, hl, ha, hr, hh⟩ := dropWhile_split isPySpace l
  obtain ⟨b', m', hl', hb', hm', hh'⟩ := dropWhile_split isPySpace r.reverse
  have hr2 : r = m'.reverse ++ b'.reverse := by
    have := congrArg List.reverse hl'
    simpa using this
  refine ⟨a, m'.reverse, b'.reverse, ?_, ha, by simpa using hb', ?_, ?_, ?_⟩
  · rw [hl, hr2]; simp
  · unfold rstrip lstrip; rw [hr, hm']
  · intro x hx
    cases hm : m'.reverse with
    | nil => rw [hm] at hx; simp at hx
    | cons y t =>
      apply hh
      rw [hr2, hm]
      rw [hm] at hx
      simpa using hx
  · intro x hx
    rw [List.getLast?_reverse] at hx
    exact hh' x hx

theorem map_decode (d : Bytes) :
    decodeLatin1 (d.map fun b => if b = 0 then 0x20 else b) = d.map shownChar := by
  unfold decodeLatin1
  rw [List.map_map]
  apply List.map_congr_left
  intro b _
  simp only [Function.comp, shownChar]
  split <;> rfl

theorem cleanText_shape (d : Bytes) :
    ∃ pre mid post, d = pre ++ mid ++ post ∧ (∀ b ∈ pre, Blank b) ∧ (∀ b ∈ post, Blank b) ∧
      (∀ b, mid.head? = some b → ¬ Blank b) ∧ (∀ b, mid.getLast? = some b → ¬ Blank b) ∧
      cleanText d = mid.map shownChar := by
  unfold cleanText
  rw [replaceNul]
  obtain ⟨a, m, b, hl, ha, hb, hs, hh, ht⟩ := strip_split (d.map fun b => if b = 0 then 0x20 else b)
  rw [List.map_eq_append_iff] at hl
  obtain ⟨am, b0, hd, ham, hb0⟩ := hl
  rw [List.map_eq_append_iff] at ham
  obtain ⟨a0, m0, ham', ha0, hm0⟩ := ham
  refine ⟨a0, m0, b0, by rw [hd, ham'], ?_, ?_, ?_, ?_, ?_⟩
  · intro x hx
    exact (isPySpace_blank x).1 (ha _ (by rw [← ha0]; exact List.mem_map_of_mem hx))
  · intro x hx
    exact (isPySpace_blank x).1 (hb _ (by rw [← hb0]; exact List.mem_map_of_mem hx))
  · intro x hx hbl
    have := hh (if x = 0 then 0x20 else x) (by rw [← hm0, List.head?_map, hx]; rfl)
    rw [(isPySpace_blank x).2 hbl] at this; simp at this
  · intro x hx hbl
    have := ht (if x = 0 then 0x20 else x) (by rw [← hm0, List.getLast?_map, hx]; rfl)
    rw [(isPySpace_blank x).2 hbl] at this; simp at this
  · rw [hs, ← hm0, map_decode]

/-- C19. The text consists of what precedes the last NUL (everything, if there is none), without the
blanks at both ends, each byte shown as its latin-1 character and inner NULs as spaces. -/
theorem C19_shape (d : Bytes) :
    ∃ kept pre mid post,
      ((0 : UInt8) ∉ d ∧ kept = d ∨ ∃ s, (0 : UInt8) ∉ s ∧ d = kept ++ 0 :: s) ∧
      kept = pre ++ mid ++ post ∧ (∀ b ∈ pre, Blank b) ∧ (∀ b ∈ post, Blank b) ∧
      (∀ b, mid.head? = some b → ¬ Blank b) ∧ (∀ b, mid.getLast? = some b → ¬ Blank b) ∧
      prettyText d = mid.map shownChar := by
  by_cases h : (0 : UInt8) ∈ d
  · obtain ⟨p, s, hd, hs⟩ : ∃ p s, d = p ++ 0 :: s ∧ (0 : UInt8) ∉ s := by
      induction d with
      | nil => simp at h
      | cons x d ih =>
        by_cases hx : (0 : UInt8) ∈ d
        · obtain ⟨p, s, hd, hs⟩ := ih hx
          exact ⟨x :: p, s, by rw [hd]; rfl, hs⟩
        · simp only [List.mem_cons] at h
          rcases h with rfl | h
          · exact ⟨[], d, rfl, hx⟩
          · exact absurd h hx
    obtain ⟨a, m, b, h1, h2, h3, h4, h5, h6⟩ := cleanText_shape p
    exact ⟨p, a, m, b, .inr ⟨s, hs, hd⟩, h1, h2, h3, h4, h5, by rw [hd, prettyText_split p s hs, h6]⟩
  · obtain ⟨a, m, b, h1, h2, h3, h4, h5, h6⟩ := cleanText_shape d
    exact ⟨d, a, m, b, .inl ⟨h, rfl⟩, h1, h2, h3, h4, h5, by rw [prettyText_none d h, h6]⟩

theorem shownChar_toNat : ∀ i : Fin 256, (shownChar (UInt8.ofNat i.val)).toNat =
    (if (UInt8.ofNat i.val) = 0 then 0x20 else (UInt8.ofNat i.val)).toNat := by decide +kernel

theorem shownChar_toNat' (b : UInt8) : (shownChar b).toNat = (if b = 0 then (0x20 : UInt8) else b).toNat := by
  have := shownChar_toNat ⟨b.toNat, b.toNat_lt⟩
  simpa using this

/-- ASCII white space characters. -/
def AsciiSpace (c : Char) : Prop := c = ' ' ∨ (0x09 ≤ c.toNat ∧ c.toNat ≤ 0x0D)

theorem shownChar_space (b : UInt8) (h : ¬ Blank b) : ¬ AsciiSpace (shownChar b) ∧ shownChar b ≠ '\x00' := by
  revert h; revert b
  apply u8_forall
  unfold AsciiSpace
  decide +kernel

theorem shownChar_ne_nul (b : UInt8) : shownChar b ≠ '\x00' := by
  revert b; apply u8_forall; decide +kernel

/-- C19. The result contains no NUL and neither starts nor ends with ASCII white space. -/
theorem C19_result_clean (d : Bytes) :
    '\x00' ∉ prettyText d ∧ (∀ c, (prettyText d).head? = some c → ¬ AsciiSpace c) ∧
    (∀ c, (prettyText d).getLast? = some c → ¬ AsciiSpace c) := by
  obtain ⟨k, a, m, b, _, _, _, _, h4, h5, h6⟩ := C19_shape d
  rw [h6]
  refine ⟨?_, ?_, ?_⟩
  · intro h
    obtain ⟨x, _, hx⟩ := List.mem_map.1 h
    exact shownChar_ne_nul x hx
  · intro c hc
    rw [List.head?_map] at hc
    cases hm : m.head? with
    | none => rw [hm] at hc; simp at hc
    | some x =>
      rw [hm] at hc; simp at hc; subst hc
      exact (shownChar_space x (h4 x hm)).1
  · intro c hc
    rw [List.getLast?_map] at hc
    cases hm : m.getLast? with
    | none => rw [hm] at hc; simp at hc
    | some x =>
      rw [hm] at hc; simp at hc; subst hc
      exact (shownChar_space x (h5 x hm)).1

theorem encodeLatin1_shown (m : Bytes) :
    encodeLatin1 (m.map shownChar) = .ok (m.map fun b => if b = 0 then 0x20 else b) := by
  induction m with
  | nil => rfl
  | cons b m ih =>
    have hb := shownChar_toNat' b
    have hlt : (shownChar b).toNat < 256 := by rw [hb]; exact UInt8.toNat_lt _
    simp only [List.map_cons, encodeLatin1]
    rw [if_pos hlt, ih, hb]
    simp

theorem dropWhile_head (p : UInt8 → Bool) (l : Bytes) (h : ∀ x, l.head? = some x → p x = false) :
    l.dropWhile p = l := by
  cases l with
  | nil => rfl
  | cons x l => rw [List.dropWhile_cons_of_neg (by simp [h x rfl])]

/-- C19. Cleaning is idempotent: the latin-1 encoding of the result is cleaned to the same text. -/
theorem C19_idempotent (d : Bytes) :
    ∃ e, encodeLatin1 (prettyText d) = .ok e ∧ prettyText e = prettyText d := by
  obtain ⟨k, a, m, b, _, _, _, _, h4, h5, h6⟩ := C19_shape d
  rw [h6]
  refine ⟨_, encodeLatin1_shown m, ?_⟩
  have hn : (0 : UInt8) ∉ m.map fun b => if b = 0 then (0x20 : UInt8) else b := by
    intro h
    obtain ⟨x, _, hx⟩ := List.mem_map.1 h
    split at hx
    · simp at hx
    · contradiction
  rw [prettyText_none _ hn]
  unfold cleanText
  have hrep : replaceByte (m.map fun b => if b = 0 then (0x20 : UInt8) else b) 0x00 [0x20] =
      m.map fun b => if b = 0 then 0x20 else b := by
    rw [replaceNul, List.map_map]
    apply List.map_congr_left
    intro b _
    simp only [Function.comp]
    split
    · simp
    · rfl
  have hsp : ∀ x, ¬ Blank x → isPySpace (if x = 0 then 0x20 else x) = false := by
    intro x hx
    have := mt (isPySpace_blank x).1 hx
    simpa using this
  rw [hrep]
  unfold lstrip rstrip
  rw [dropWhile_head isPySpace (m.map _), dropWhile_head, List.reverse_reverse, map_decode]
  · intro x hx
    rw [List.head?_reverse, List.getLast?_map] at hx
    cases hm : m.getLast? with
    | none => rw [hm] at hx; simp at hx
    | some y =>
      rw [hm, Option.map_some, Option.some.injEq] at hx; subst hx
      exact hsp y (h5 y hm)
  · intro x hx
    rw [List.head?_map] at hx
    cases hm : m.head? with
    | none => rw [hm] at hx; simp at hx
    | some y =>
      rw [hm, Option.map_some, Option.some.injEq] at hx; subst hx
      exact hsp y (h4 y hm)

example : prettyText [0x20, 0x41, 0x00, 0x42, 0x20, 0x00, 0x43] = "A B".toList := by decide +kernel

/-! ### C20 -/

theorem pyStrInt_toString (n : Nat) : pyStrInt (n : Int) = (toString n).toList := by
  unfold pyStrInt
  rw [if_neg (by omega)]
  simp [← Nat.toList_repr, ToString.toString]

/-- C20. Four bytes are rendered as dotted decimal; any other length raises `ValueError`. -/
theorem C20_dotted_decimal (d : Bytes) :
    (∀ a b c e, d = [a, b, c, e] → parseIpAddress d =
      .ok s!"{a.toNat}.{b.toNat}.{c.toNat}.{e.toNat}".toList) ∧
    (d.length ≠ 4 → parseIpAddress d = .error .value) := by
  constructor
  · rintro a b c e rfl
    unfold parseIpAddress
    have hdot : (toString ".").toList = ['.'] := rfl
    simp [joinDot, pyStrInt_toString, String.toList_append, hdot]
  · intro h; unfold parseIpAddress; rw [if_pos h]; rfl

theorem dot_not_in (n : Nat) : '.' ∉ pyStrInt (n : Int) := by
  unfold pyStrInt
  rw [if_neg (by omega)]
  intro h
  have := Nat.isDigit_of_mem_toDigits (b := 10) (by omega) (by omega) h
  simp at this

theorem split_at {a a' r r' : PyStr} {x : Char} (h : x ∉ a) (h' : x ∉ a')
    (he : a ++ x :: r = a' ++ x :: r') : a = a' ∧ r = r' := by
  induction a generalizing a' with
  | nil =>
    cases a' with
    | nil => simpa using he
    | cons y a' =>
      simp only [List.nil_append, List.cons_append, List.cons.injEq] at he
      exact absurd (by simp [he.1]) h'
  | cons y a ih =>
    cases a' with
    | nil =>
      simp only [List.nil_append, List.cons_append, List.cons.injEq] at he
      exact absurd (by simp [he.1]) h
    | cons z a' =>
      simp only [List.cons_append, List.cons.injEq] at he
      obtain ⟨h1, h2⟩ := ih (by simp_all) (by simp_all) he.2
      exact ⟨by rw [he.1, h1], h2⟩

theorem pyStrInt_inj {m n : Nat} (h : pyStrInt (m : Int) = pyStrInt (n : Int)) : m = n := by
  unfold pyStrInt at h
  rw [if_neg (by omega), if_neg (by omega)] at h
  have := congrArg (fun l => Nat.ofDigitChars 10 l 0) h
  simpa [Nat.ofDigitChars_ten_toDigits] using this

/-- C20. Different addresses give different strings. -/
theorem C20_injective (d d' : Bytes) (s : PyStr) (h : parseIpAddress d = .ok s)
    (h' : parseIpAddress d' = .ok s) : d = d' := by
  unfold parseIpAddress at h h'
  split at h
  · simp at h
  split at h'
  · simp at h'
  rename_i hl hl'
  match d, d', Classical.not_not.1 hl, Classical.not_not.1 hl' with
  | [a, b, c, e], [a', b', c', e'], _, _ =>
    have hh := h.trans h'.symm
    simp only [List.map_cons, List.map_nil, joinDot, Except.ok.injEq] at hh
    obtain ⟨h1, hh⟩ := split_at (dot_not_in _) (dot_not_in _) hh
    obtain ⟨h2, hh⟩ := split_at (dot_not_in _) (dot_not_in _) hh
    obtain ⟨h3, h4⟩ := split_at (dot_not_in _) (dot_not_in _) hh
    rw [UInt8.toNat_inj.1 (pyStrInt_inj h1), UInt8.toNat_inj.1 (pyStrInt_inj h2),
      UInt8.toNat_inj.1 (pyStrInt_inj h3), UInt8.toNat_inj.1 (pyStrInt_inj h4)]

example : parseIpAddress [10, 71, 0, 255] = .ok "10.71.0.255".toList ∧
    parseIpAddress [10, 71, 0] = .error .value := by decide +kernel

/-! ### C62 -/

/-- C62. The censored form is returned iff some calling frame, at any depth, is a `__repr__`
function; otherwise the plain representation is. -/
theorem C62_censored (stack : List String) (plain : String) :
    ("__repr__" ∈ stack → secretRepr stack plain = "<SECRET>") ∧
    ("__repr__" ∉ stack → secretRepr stack plain = plain) := by
  have key : secretWalk stack = if "__repr__" ∈ stack then some "<SECRET>" else none := by
    induction stack with
    | nil => rfl
    | cons f r ih =>
      unfold secretWalk
      by_cases h : f = "__repr__"
      · simp [h]
      · rw [if_neg h, ih]
        simp [Ne.symm h]
  unfold secretRepr
  rw [key]
  constructor <;> intro h <;> simp [h]

/-- C62. `to_secret_byte` of missing or empty data is `None`, and keeps any other data. -/
theorem C62_to_secret_byte (d : Bytes) :
    toSecretByte none = none ∧ toSecretByte (some []) = none ∧ (d ≠ [] → toSecretByte (some d) = some d) := by
  refine ⟨rfl, rfl, fun h => ?_⟩
  cases d with
  | nil => exact absurd rfl h
  | cons => rfl

-- `repr` of an object that holds a secret: the frames of the call stack, innermost first
example : secretRepr ["__repr__", "__repr__", "<module>"] "b'0123456789ABCDEF'" = "<SECRET>" ∧
    secretRepr ["encrypt", "<module>"] "b'0123456789ABCDEF'" = "b'0123456789ABCDEF'" ∧
    toSecretByte (some [0x30, 0x31]) = some [0x30, 0x31] :=
  ⟨(C62_censored _ _).1 (by decide), (C62_censored _ _).2 (by decide), (C62_to_secret_byte _).2.2 (by decide)⟩

end Elgas
