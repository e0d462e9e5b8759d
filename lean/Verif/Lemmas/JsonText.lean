import Verif.Spec.JsonText
/-!
Reading back what `json.dumps` writes (for C96).
-/
namespace Elgas
open Spec

/-! ### Strings -/

theorem hexVal_hex : ∀ d, d < 16 → hexVal (Nat.digitChar d) = some d := by decide

theorem readHex4_hex4 {n : Nat} (h : n < 65536) (s : PyStr) : readHex4 (hex4 n ++ s) = some (n, s) := by
  simp only [hex4, List.cons_append, List.nil_append, readHex4]
  rw [hexVal_hex _ (by omega), hexVal_hex _ (by omega), hexVal_hex _ (by omega), hexVal_hex _ (by omega)]
  dsimp only
  congr 2
  omega

theorem ofNat_eq {c : Char} {n : Nat} (h : n = c.toNat) : Char.ofNat n = c := by rw [h, Char.ofNat_toNat]

theorem char_valid (c : Char) : c.toNat < 0xD800 ∨ (0xDFFF < c.toNat ∧ c.toNat < 0x110000) := c.valid

theorem readEscape_low {c : Char} (h : c.toNat < 0x10000) (s : PyStr) :
    readEscape (hex4 c.toNat ++ s) = some (c, s) := by
  unfold readEscape
  rw [readHex4_hex4 (by omega)]
  dsimp only
  have := char_valid c
  rw [if_neg (by omega), if_neg (by omega), Char.ofNat_toNat]

theorem readEscape_pair {n m : Nat} (h1 : 0xD800 ≤ n ∧ n < 0xDC00) (h2 : 0xDC00 ≤ m ∧ m < 0xE000) (s : PyStr) :
    readEscape (hex4 n ++ ('\\' :: 'u' :: (hex4 m ++ s))) =
      some (Char.ofNat (0x10000 + (n - 0xD800) * 0x400 + (m - 0xDC00)), s) := by
  have e1 := readHex4_hex4 (n := n) (by omega) ('\\' :: 'u' :: (hex4 m ++ s))
  have e2 := readHex4_hex4 (n := m) (by omega) s
  simp only [readEscape, e1, if_pos h1, e2, if_pos h2]

theorem readEscape_high {c : Char} (h : 0x10000 ≤ c.toNat) (s : PyStr) :
    readEscape (hex4 (0xD800 + (c.toNat - 0x10000) / 0x400) ++
      ('\\' :: 'u' :: (hex4 (0xDC00 + (c.toNat - 0x10000) % 0x400) ++ s))) = some (c, s) := by
  have := char_valid c
  rw [readEscape_pair (by omega) (by omega), ofNat_eq (c := c) (by omega)]

theorem readJsonChar_json (c : Char) (s : PyStr) : readJsonChar (jsonChar c ++ s) = some (c, s) := by
  unfold jsonChar
  split
  · rename_i h; subst h; rfl
  split
  · rename_i h; subst h; rfl
  split
  · rename_i h; subst h; rfl
  split
  · rename_i h; subst h; rfl
  split
  · rename_i h; subst h; rfl
  split
  · rename_i h
    have : Char.ofNat 0x0C = c := ofNat_eq (by omega)
    subst this; rfl
  split
  · rename_i h
    have : Char.ofNat 0x08 = c := ofNat_eq (by omega)
    subst this; rfl
  split
  · rename_i h1 h2 h3 h4 h5 h6 h7 h
    simp only [List.cons_append, List.nil_append, readJsonChar, if_neg h2]
    rw [if_neg (by omega)]
  split
  · rename_i h
    have := readEscape_low h s
    simp [readJsonChar, this]
  · rename_i h
    have := readEscape_high (c := c) (by omega) s
    simp [readJsonChar, this]

theorem jsonChar_head (c : Char) : ∃ d l, jsonChar c = d :: l ∧ d ≠ '"' := by
  unfold jsonChar
  split
  · exact ⟨_, _, rfl, by decide⟩
  · rename_i h
    repeat' split
    all_goals first | exact ⟨_, _, rfl, by decide⟩ | exact ⟨_, _, rfl, h⟩

theorem readJsonStr_chars (s r : PyStr) :
    ∀ n, s.length ≤ n → readJsonStr n (s.flatMap jsonChar ++ '"' :: r) = some (s, r) := by
  induction s with
  | nil => intro n _; cases n <;> simp [readJsonStr]
  | cons c s ih =>
    intro n hn
    cases n with
    | zero => simp at hn
    | succ n =>
      obtain ⟨d, l, h2, h3⟩ := jsonChar_head c
      have h1 := readJsonChar_json c (s.flatMap jsonChar ++ '"' :: r)
      have := ih n (by simpa using hn)
      rw [List.flatMap_cons, List.append_assoc]
      rw [h2] at h1 ⊢
      simp only [List.cons_append] at h1 ⊢
      unfold readJsonStr
      rw [if_neg h3, h1]
      dsimp only
      rw [this]
      rfl

theorem jsonChars_length (s : PyStr) : s.length ≤ (s.flatMap jsonChar).length := by
  induction s with
  | nil => simp
  | cons c s ih =>
    obtain ⟨d, l, h, _⟩ := jsonChar_head c
    rw [List.flatMap_cons, h]
    simp only [List.length_cons, List.length_append]
    omega

theorem readJsonStr_text (s r : PyStr) :
    readJsonStr (s.flatMap jsonChar ++ '"' :: r).length (s.flatMap jsonChar ++ '"' :: r) = some (s, r) := by
  refine readJsonStr_chars s r _ ?_
  have := jsonChars_length s
  simp only [List.length_append]
  omega

/-! ### Numbers -/

/-- What follows a value in a text: nothing, or the end of a list or dictionary, or a comma. -/
def Delim (r : PyStr) : Prop := r = [] ∨ ∃ c l, r = c :: l ∧ (c = ',' ∨ c = ']' ∨ c = '}')

theorem takeWhile_app {l r : PyStr} (hl : ∀ c ∈ l, c.isDigit = true) (hr : ∀ c ∈ r.head?, c.isDigit = false) :
    (l ++ r).takeWhile Char.isDigit = l ∧ (l ++ r).dropWhile Char.isDigit = r := by
  induction l with
  | nil =>
    cases r with
    | nil => exact ⟨rfl, rfl⟩
    | cons c r =>
      have := hr c rfl
      simp [this]
  | cons c l ih =>
    have h := ih (fun c h => hl c (List.mem_cons_of_mem _ h))
    have := hl c List.mem_cons_self
    simp [this, h]

theorem someDigits_app {l r : PyStr} (hl : Digits l) (hr : ∀ c ∈ r.head?, c.isDigit = false) :
    someDigits (l ++ r) = some (l, r) := by
  unfold someDigits
  obtain ⟨h1, h2⟩ := takeWhile_app hl.2 hr
  rw [h1, h2, if_neg hl.1]

theorem wholeOf_app {l r : PyStr} (hl : l = ['0'] ∨ Digits l ∧ l.head? ≠ some '0')
    (hr : ∀ c ∈ r.head?, c.isDigit = false) : wholeOf (l ++ r) = some (l, r) := by
  rcases hl with rfl | ⟨h1, h2⟩
  · rfl
  · unfold wholeOf
    split
    · rename_i s h
      exfalso
      cases l with
      | nil => exact h1.1 rfl
      | cons c l =>
        rw [List.cons_append] at h
        exact h2 (by rw [(List.cons.inj h).1]; rfl)
    · exact someDigits_app h1 hr

/-- A text that does not begin with a digit, a point or an exponent. -/
def NoMore (r : PyStr) : Prop := ∀ c ∈ r.head?, c.isDigit = false ∧ c ≠ '.' ∧ c ≠ 'e' ∧ c ≠ 'E'

theorem Delim.noMore {r : PyStr} (h : Delim r) : NoMore r := by
  rcases h with rfl | ⟨c, l, rfl, h⟩
  · intro c hc; cases hc
  · intro d hd
    cases hd
    rcases h with rfl | rfl | rfl <;> decide

theorem fractionOf_app {f r : PyStr} (hf : f = [] ∨ ∃ d, Digits d ∧ f = '.' :: d)
    (hr : ∀ c ∈ r.head?, c.isDigit = false ∧ c ≠ '.') : fractionOf (f ++ r) = (f, r) := by
  rcases hf with rfl | ⟨d, hd, rfl⟩
  · rw [List.nil_append]
    unfold fractionOf
    split
    · exact absurd rfl (hr '.' rfl).2
    · rfl
  · simp only [List.cons_append, fractionOf]
    rw [someDigits_app hd (fun c hc => (hr c hc).1)]

theorem powerOf_app {e r : PyStr}
    (he : e = [] ∨ ∃ d, Digits d ∧ (e = 'e' :: d ∨ e = 'e' :: '+' :: d ∨ e = 'e' :: '-' :: d)) (hr : NoMore r) :
    powerOf (e ++ r) = (e, r) := by
  rcases he with rfl | ⟨d, hd, h⟩
  · rw [List.nil_append]
    cases r with
    | nil => rfl
    | cons c r =>
      have := hr c rfl
      simp [powerOf, this.2.2.1, this.2.2.2]
  · have hs := someDigits_app hd (fun c hc => (hr c hc).1)
    rcases h with rfl | rfl | rfl
    · cases d with
      | nil => exact absurd rfl hd.1
      | cons c d =>
        have hc := hd.2 c List.mem_cons_self
        have : ¬ (c = '+' ∨ c = '-') := by rintro (rfl | rfl) <;> (revert hc; decide)
        rw [List.cons_append] at hs
        simp [powerOf, this, hs]
    · simp [powerOf, hs]
    · simp [powerOf, hs]

theorem digits_noSign {l : PyStr} (hl : l = ['0'] ∨ Digits l ∧ l.head? ≠ some '0') (r : PyStr) :
    (l ++ r).head? ≠ some '-' := by
  have : ∃ c m, l = c :: m ∧ c.isDigit = true := by
    rcases hl with rfl | ⟨h1, _⟩
    · exact ⟨_, _, rfl, by decide⟩
    · cases l with
      | nil => exact absurd rfl h1.1
      | cons c m => exact ⟨c, m, rfl, h1.2 c List.mem_cons_self⟩
  obtain ⟨c, m, rfl, h⟩ := this
  rw [List.cons_append, List.head?_cons]
  intro e
  injection e with e
  subst e
  revert h; decide

theorem head_append_of {P : Char → Prop} {l r : PyStr} (hl : ∀ c ∈ l.head?, P c) (hr : ∀ c ∈ r.head?, P c) :
    ∀ c ∈ (l ++ r).head?, P c := by
  cases l with
  | nil => exact hr
  | cons c l => exact hl

theorem readNumber_parts (F : FloatText) {sign whole frac exp r : PyStr} (h1 : sign = [] ∨ sign = ['-'])
    (h2 : whole = ['0'] ∨ Digits whole ∧ whole.head? ≠ some '0') (h3 : frac = [] ∨ ∃ d, Digits d ∧ frac = '.' :: d)
    (h4 : exp = [] ∨ ∃ d, Digits d ∧ (exp = 'e' :: d ∨ exp = 'e' :: '+' :: d ∨ exp = 'e' :: '-' :: d))
    (hr : NoMore r) :
    readNumber F (sign ++ whole ++ frac ++ exp ++ r) =
      if frac = [] ∧ exp = [] then
        some (.int (if sign = [] then (digitsValue whole : Int) else -(digitsValue whole : Int)), r)
      else (F.read (sign ++ whole ++ frac ++ exp)).map fun b => (.num (.double b), r) := by
  have he : ∀ c ∈ (exp ++ r).head?, c.isDigit = false ∧ c ≠ '.' := by
    refine head_append_of ?_ (fun c hc => ⟨(hr c hc).1, (hr c hc).2.1⟩)
    rcases h4 with rfl | ⟨d, _, rfl | rfl | rfl⟩ <;> intro c hc <;> cases hc <;> decide
  have hf : ∀ c ∈ (frac ++ (exp ++ r)).head?, c.isDigit = false := by
    refine head_append_of ?_ (fun c hc => (he c hc).1)
    rcases h3 with rfl | ⟨d, _, rfl⟩ <;> intro c hc <;> cases hc <;> decide
  have hw := wholeOf_app h2 hf
  have h3' := fractionOf_app h3 he
  have h4' := powerOf_app h4 hr
  unfold readNumber
  rcases h1 with rfl | rfl
  · have hn : (whole ++ (frac ++ (exp ++ r))).head? ≠ some '-' := digits_noSign h2 _
    simp only [List.nil_append, List.append_assoc, hn, if_false, hw, h3', h4', if_true]
  · simp [hw, h3', h4']

theorem digits_head (n : Nat) : Nat.toDigits 10 n = ['0'] ∨
    Digits (Nat.toDigits 10 n) ∧ (Nat.toDigits 10 n).head? ≠ some '0' := by
  have hd : Digits (Nat.toDigits 10 n) :=
    ⟨Nat.toDigits_ne_nil, fun c h => Nat.isDigit_of_mem_toDigits (by omega) (by omega) h⟩
  by_cases h0 : n = 0
  · subst h0; exact .inl (by decide)
  · refine .inr ⟨hd, ?_⟩
    clear hd
    induction n using Nat.strongRecOn with
    | _ n ih =>
      by_cases h : n < 10
      · rw [Nat.toDigits_of_lt_base h]
        have : ∀ k, k < 10 → k ≠ 0 → [Nat.digitChar k].head? ≠ some '0' := by decide
        exact this n h h0
      · rw [Nat.toDigits_of_base_le (by omega) (by omega)]
        have := ih (n / 10) (by omega) (by omega)
        cases hx : Nat.toDigits 10 (n / 10) with
        | nil => exact absurd hx Nat.toDigits_ne_nil
        | cons c l => rw [hx] at this; exact this

theorem readNumber_int (F : FloatText) (n : Int) {r : PyStr} (hr : NoMore r) :
    readNumber F (pyStrInt n ++ r) = some (.int n, r) := by
  have hd := digits_head n.natAbs
  unfold pyStrInt
  split
  · have := readNumber_parts F (sign := ['-']) (whole := Nat.toDigits 10 n.natAbs) (frac := []) (exp := [])
      (.inr rfl) hd (.inl rfl) (.inl rfl) hr
    simp only [List.append_nil, List.cons_append, List.nil_append] at this
    simp only [List.cons_append, this, and_self, if_true, digitsValue, Nat.ofDigitChars_ten_toDigits]
    simp only [List.cons_ne_nil, if_false]
    congr 3; omega
  · have := readNumber_parts F (sign := []) (whole := Nat.toDigits 10 n.natAbs) (frac := []) (exp := [])
      (.inl rfl) hd (.inl rfl) (.inl rfl) hr
    simp only [List.append_nil, List.nil_append] at this
    simp only [this, and_self, if_true, digitsValue, Nat.ofDigitChars_ten_toDigits]
    congr 3; omega

theorem readNumber_float {F : FloatText} (hF : FloatTextOk F) {b : Nat} (hb : b < 2 ^ 64) (hf : finite64 b = true)
    {r : PyStr} (hr : NoMore r) : readNumber F (F.text b ++ r) = some (.num (.double b), r) := by
  obtain ⟨sign, whole, frac, exp, h, h1, h2, h3, h4, h5⟩ := hF.decimal b hb hf
  have := readNumber_parts F h1 h2 h3 h4 hr
  rw [← h] at this
  rw [this, if_neg (by rintro ⟨e1, e2⟩; exact h5.elim (· e1) (· e2)), hF.back b hb hf]
  rfl

/-! ### Values -/

theorem afterWord_append (word : String) (r : PyStr) : afterWord word (word.toList ++ r) = some r := by
  unfold afterWord
  rw [← String.length_toList, List.take_left, List.drop_left, if_pos rfl]

theorem afterWord_head {word : String} {c : Char} {s : PyStr} (h : word.toList.head? ≠ some c) (hw : 0 < word.length) :
    afterWord word (c :: s) = none := by
  unfold afterWord
  rw [if_neg]
  intro e
  apply h
  rw [← e]
  obtain ⟨n, hn⟩ : ∃ n, word.length = n + 1 := ⟨word.length - 1, by omega⟩
  rw [hn]; rfl

theorem readAtom_number (F : FloatText) {s : PyStr} {x : Json × PyStr} {c : Char} (hs : s.head? = some c)
    (hc : c.isDigit = true ∨ c = '-') (h : readNumber F s = some x) : readAtom F s = some x := by
  cases s with
  | nil => cases hs
  | cons d s =>
    injection hs with hs
    subst hs
    have n1 : d ≠ 'n' ∧ d ≠ 't' ∧ d ≠ 'f' := by
      refine ⟨?_, ?_, ?_⟩ <;> rintro rfl <;> revert hc <;> decide
    unfold readAtom
    rw [afterWord_head (by intro e; injection e with e; exact n1.1 e.symm) (by decide),
      afterWord_head (by intro e; injection e with e; exact n1.2.1 e.symm) (by decide),
      afterWord_head (by intro e; injection e with e; exact n1.2.2 e.symm) (by decide), h]

theorem readNumber_none (F : FloatText) {c : Char} {s : PyStr} (h : c.isDigit = false) (hc : c ≠ '-') :
    readNumber F (c :: s) = none := by
  have h0 : c ≠ '0' := by rintro rfl; revert h; decide
  have hw : wholeOf (c :: s) = none := by
    unfold wholeOf
    split
    · rename_i e; exact absurd (List.cons.inj e).1 h0
    · unfold someDigits
      rw [if_pos (by simp [h])]
  unfold readNumber
  have : ¬ ((c :: s).head? = some '-') := by simpa using hc
  simp only [this, if_false, hw]

theorem readAtom_words (F : FloatText) (r : PyStr) :
    readAtom F ("null".toList ++ r) = some (.none, r) ∧
    readAtom F ("true".toList ++ r) = some (.bool true, r) ∧
    readAtom F ("false".toList ++ r) = some (.bool false, r) ∧
    readAtom F ("NaN".toList ++ r) = some (.num (.double 0x7FF8000000000000), r) ∧
    readAtom F ("Infinity".toList ++ r) = some (.num (.double (2047 * 2 ^ 52)), r) ∧
    readAtom F ("-Infinity".toList ++ r) = some (.num (.double (2 ^ 63 + 2047 * 2 ^ 52)), r) := by
  refine ⟨?_, ?_, ?_, ?_, ?_, ?_⟩
  · unfold readAtom; rw [afterWord_append]
  · unfold readAtom
    rw [afterWord_append, show "true".toList ++ r = 't' :: ("rue".toList ++ r) from rfl,
      afterWord_head (by decide) (by decide)]
  · unfold readAtom
    rw [afterWord_append, show "false".toList ++ r = 'f' :: ("alse".toList ++ r) from rfl,
      afterWord_head (by decide) (by decide), afterWord_head (by decide) (by decide)]
  · unfold readAtom
    rw [afterWord_append, show "NaN".toList ++ r = 'N' :: ("aN".toList ++ r) from rfl,
      afterWord_head (by decide) (by decide), afterWord_head (by decide) (by decide),
      afterWord_head (by decide) (by decide), readNumber_none F (by decide) (by decide)]
  · unfold readAtom
    rw [afterWord_append, show "Infinity".toList ++ r = 'I' :: ("nfinity".toList ++ r) from rfl,
      afterWord_head (by decide) (by decide), afterWord_head (by decide) (by decide),
      afterWord_head (by decide) (by decide), readNumber_none F (by decide) (by decide),
      afterWord_head (by decide) (by decide)]
  · have hn : readNumber F ('-' :: ("Infinity".toList ++ r)) = none := by
      rw [show "Infinity".toList ++ r = 'I' :: ("nfinity".toList ++ r) from rfl]
      generalize "nfinity".toList ++ r = z
      have hw : wholeOf ('I' :: z) = none := rfl
      unfold readNumber
      simp only [List.head?_cons, List.tail_cons, if_true, hw]
    unfold readAtom
    rw [afterWord_append, show "-Infinity".toList ++ r = '-' :: ("Infinity".toList ++ r) from rfl,
      afterWord_head (by decide) (by decide), afterWord_head (by decide) (by decide),
      afterWord_head (by decide) (by decide), hn,
      afterWord_head (by decide) (by decide), afterWord_head (by decide) (by decide)]

/-- An atom is neither a string, a list nor a dictionary. -/
theorem readValue_atom (F : FloatText) {n : Nat} {s : PyStr} (h : ∀ c ∈ s.head?, c ≠ '"' ∧ c ≠ '[' ∧ c ≠ '{') :
    readValue F (n + 1) s = readAtom F s := by
  unfold readValue
  split
  · exact absurd rfl (h '"' rfl).1
  · exact absurd rfl (h '[' rfl).2.1
  · exact absurd rfl (h '{' rfl).2.2
  · rfl

theorem pyStrInt_start (n : Int) : ∃ c l, pyStrInt n = c :: l ∧ (c.isDigit = true ∨ c = '-') := by
  unfold pyStrInt
  split
  · exact ⟨_, _, rfl, .inr rfl⟩
  · cases h : Nat.toDigits 10 n.natAbs with
    | nil => exact absurd h Nat.toDigits_ne_nil
    | cons d l =>
      exact ⟨_, _, rfl, .inl (Nat.isDigit_of_mem_toDigits (b := 10) (n := n.natAbs) (by omega) (by omega)
        (by rw [h]; exact List.mem_cons_self))⟩

theorem decimal_start {s : PyStr} (h : IsDecimal s) : ∃ c l, s = c :: l ∧ (c.isDigit = true ∨ c = '-') := by
  obtain ⟨sign, whole, frac, exp, rfl, h1, h2, _⟩ := h
  have : ∃ c m, whole = c :: m ∧ c.isDigit = true := by
    rcases h2 with rfl | ⟨h1, _⟩
    · exact ⟨_, _, rfl, by decide⟩
    · cases whole with
      | nil => exact absurd rfl h1.1
      | cons c m => exact ⟨c, m, rfl, h1.2 c List.mem_cons_self⟩
  obtain ⟨c, m, rfl, hc⟩ := this
  rcases h1 with rfl | rfl
  · exact ⟨c, m ++ frac ++ exp, by simp, .inl hc⟩
  · exact ⟨'-', c :: m ++ frac ++ exp, by simp, .inr rfl⟩

theorem start_atom {c : Char} (hc : c.isDigit = true ∨ c = '-') : c ≠ '"' ∧ c ≠ '[' ∧ c ≠ '{' := by
  refine ⟨?_, ?_, ?_⟩ <;> rintro rfl <;> revert hc <;> decide

theorem readValue_number (F : FloatText) {n : Nat} {s r : PyStr} {j : Json}
    (hs : ∃ c l, s = c :: l ∧ (c.isDigit = true ∨ c = '-')) (h : readNumber F (s ++ r) = some (j, r)) :
    readValue F (n + 1) (s ++ r) = some (j, r) := by
  obtain ⟨c, l, rfl, hc⟩ := hs
  rw [readValue_atom F (by intro d hd; cases hd; exact start_atom hc)]
  exact readAtom_number F rfl hc h

theorem readValue_float {F : FloatText} (hF : FloatTextOk F) {n : Nat} {b : Nat} (hb : b < 2 ^ 64) {r : PyStr}
    (hr : Delim r) :
    readValue F (n + 1) (F.json b ++ r) =
      some (.num (.double (if nan64 b then 0x7FF8000000000000 else b)), r) := by
  obtain ⟨_, _, _, w1, w2, w3⟩ := readAtom_words F r
  unfold FloatText.json
  split
  · rename_i hf
    have : nan64 b = false := by simp [nan64, hf]
    rw [this, if_neg (by decide)]
    exact readValue_number F (decimal_start (hF.decimal b hb hf)) (readNumber_float hF hb hf hr.noMore)
  · rename_i hf
    have hexp : b / 2 ^ 52 % 2 ^ 11 = 2047 := by
      simp only [finite64, decide_eq_true_eq, ne_eq, Decidable.not_not] at hf; exact hf
    split
    · rename_i hn
      rw [readValue_atom F (by intro d hd; cases hd; decide), w1]
    · rename_i hn
      have hm : b % 2 ^ 52 = 0 := by
        simp only [nan64, hf, Bool.not_false, Bool.true_and, decide_eq_true_eq, ne_eq, Decidable.not_not] at hn
        simpa using hn
      split
      · rename_i hs
        have : b / 2 ^ 63 % 2 = 1 := by simpa [neg64] using hs
        rw [readValue_atom F (by intro d hd; cases hd; decide), w3]
        congr 4; omega
      · rename_i hs
        have : ¬ b / 2 ^ 63 % 2 = 1 := by simpa [neg64] using hs
        rw [readValue_atom F (by intro d hd; cases hd; decide), w2]
        congr 4; omega

/-! ### Documents -/

/-- A text that begins like a value. -/
def Starts (s : PyStr) : Prop := ∃ c l, s = c :: l ∧ c ≠ ' ' ∧ c ≠ '\t' ∧ c ≠ '\n' ∧ c ≠ '\r' ∧ c ≠ ']' ∧ c ≠ '}'

theorem starts_number {s : PyStr} (hs : ∃ c l, s = c :: l ∧ (c.isDigit = true ∨ c = '-')) : Starts s := by
  obtain ⟨c, l, rfl, hc⟩ := hs
  refine ⟨c, l, rfl, ?_, ?_, ?_, ?_, ?_, ?_⟩ <;> rintro rfl <;> revert hc <;> decide

theorem starts_float {F : FloatText} (hF : FloatTextOk F) {b : Nat} (hb : b < 2 ^ 64) : Starts (F.json b) := by
  unfold FloatText.json
  split
  · rename_i h; exact starts_number (decimal_start (hF.decimal b hb h))
  · repeat' split
    all_goals exact ⟨_, _, rfl, by decide⟩

theorem starts_text {F : FloatText} (hF : FloatTextOk F) {j : Json} (h : Document j) : Starts (j.text F) := by
  cases h with
  | none => exact ⟨'n', "ull".toList, by simp [Json.text], by decide⟩
  | bool b => cases b <;> exact ⟨_, _, by simp [Json.text]; exact ⟨rfl, rfl⟩, by decide⟩
  | int n => simp only [Json.text]; exact starts_number (pyStrInt_start n)
  | str s => simp only [Json.text, jsonStr, List.cons_append, List.nil_append]; exact ⟨_, _, rfl, by decide⟩
  | num x hx => simp only [Json.text]; exact starts_float hF hx
  | numText x hx => simp only [Json.text, jsonStr, List.cons_append, List.nil_append]; exact ⟨_, _, rfl, by decide⟩
  | list l _ => simp only [Json.text, List.cons_append, List.nil_append]; exact ⟨_, _, rfl, by decide⟩
  | dict l _ _ => simp only [Json.text, List.cons_append, List.nil_append]; exact ⟨_, _, rfl, by decide⟩

theorem Starts.append {s : PyStr} (h : Starts s) (r : PyStr) : Starts (s ++ r) := by
  obtain ⟨c, l, rfl, h⟩ := h
  exact ⟨c, l ++ r, rfl, h⟩

theorem skipSpace_starts {s : PyStr} (h : Starts s) : skipSpace s = s := by
  obtain ⟨c, l, rfl, h⟩ := h
  simp [skipSpace, h.1, h.2.1, h.2.2.1, h.2.2.2.1]

theorem skipSpace_cons {c : Char} {l : PyStr} (h : c ≠ ' ' ∧ c ≠ '\t' ∧ c ≠ '\n' ∧ c ≠ '\r') :
    skipSpace (c :: l) = c :: l := by
  simp [skipSpace, h.1, h.2.1, h.2.2.1, h.2.2.2]

theorem skipSpace_space (l : PyStr) : skipSpace (' ' :: l) = skipSpace l := by simp [skipSpace]

/-- The text of `j` is read to what it should be, whatever follows. -/
def ReadsBack (F : FloatText) (j : Json) : Prop :=
  ∀ n r, Delim r → 2 * (j.text F ++ r).length ≤ n → readValue F n (j.text F ++ r) = some (asRead F j, r)

theorem readElements_text {F : FloatText} (hF : FloatTextOk F) (l : List Json) (hd : ∀ j ∈ l, Document j)
    (hb : ∀ j ∈ l, ReadsBack F j) (hl : l ≠ []) (r : PyStr) :
    ∀ n, 2 * (Json.elements F l ++ ']' :: r).length + 1 ≤ n →
      readElements F n (Json.elements F l ++ ']' :: r) = some (asReadList F l, r) := by
  induction l with
  | nil => exact absurd rfl hl
  | cons j l ih =>
    intro n hn
    obtain ⟨m, rfl⟩ : ∃ m, n = m + 1 := ⟨n - 1, by omega⟩
    cases l with
    | nil =>
      simp only [Json.elements] at hn ⊢
      have := hb j List.mem_cons_self m (']' :: r) (.inr ⟨_, _, rfl, by decide⟩) (by omega)
      unfold readElements
      rw [this]
      simp only [skipSpace_cons (c := ']') (l := r) (by decide), asReadList]
    | cons k l =>
      simp only [Json.elements, List.append_assoc, List.cons_append, List.nil_append] at hn ⊢
      have h1 := hb j List.mem_cons_self m (',' :: ' ' :: (Json.elements F (k :: l) ++ ']' :: r))
        (.inr ⟨_, _, rfl, by decide⟩) (by omega)
      have hs : Starts (Json.elements F (k :: l) ++ ']' :: r) := by
        refine Starts.append ?_ _
        have := starts_text hF (hd k (by simp))
        cases l with
        | nil => simpa only [Json.elements] using this
        | cons k' l => simp only [Json.elements, List.append_assoc]; exact this.append _
      have h2 := ih (fun j h => hd j (List.mem_cons_of_mem _ h)) (fun j h => hb j (List.mem_cons_of_mem _ h)) (by simp)
        m (by simp only [List.length_append, List.length_cons] at hn ⊢; omega)
      unfold readElements
      rw [h1]
      simp only [skipSpace_cons (c := ',') (by decide), skipSpace_space, skipSpace_starts hs, h2]
      rfl

theorem readItems_text {F : FloatText} (hF : FloatTextOk F) (l : List (String × Json)) (hd : ∀ p ∈ l, Document p.2)
    (hb : ∀ p ∈ l, ReadsBack F p.2) (hl : l ≠ []) (r : PyStr) :
    ∀ n, 2 * (Json.items F l ++ '}' :: r).length + 1 ≤ n →
      readItems F n (Json.items F l ++ '}' :: r) = some (asReadItems F l, r) := by
  induction l with
  | nil => exact absurd rfl hl
  | cons p l ih =>
    intro n hn
    obtain ⟨m, rfl⟩ : ∃ m, n = m + 1 := ⟨n - 1, by omega⟩
    have hp := starts_text hF (hd p List.mem_cons_self)
    cases l with
    | nil =>
      simp only [Json.items, jsonStr, List.append_assoc, List.cons_append, List.nil_append] at hn ⊢
      have h0 := readJsonStr_text p.1.toList (':' :: ' ' :: (p.2.text F ++ '}' :: r))
      have := hb p List.mem_cons_self m ('}' :: r) (.inr ⟨_, _, rfl, by decide⟩)
        (by simp only [List.length_append, List.length_cons] at hn ⊢; omega)
      unfold readItems
      simp only [h0, skipSpace_cons (c := ':') (by decide), skipSpace_space, skipSpace_starts (hp.append ('}' :: r)), this,
        skipSpace_cons (c := '}') (by decide), String.ofList_toList, asReadItems]
    | cons q l =>
      simp only [Json.items, jsonStr, List.append_assoc, List.cons_append, List.nil_append] at hn ⊢
      have h0 := readJsonStr_text p.1.toList (':' :: ' ' :: (p.2.text F ++ (',' :: ' ' :: (Json.items F (q :: l) ++ '}' :: r))))
      have h1 := hb p List.mem_cons_self m (',' :: ' ' :: (Json.items F (q :: l) ++ '}' :: r))
        (.inr ⟨_, _, rfl, by decide⟩) (by simp only [List.length_append, List.length_cons] at hn ⊢; omega)
      have hs : Starts (Json.items F (q :: l) ++ '}' :: r) := by
        refine Starts.append ?_ _
        cases l <;>
        simp only [Json.items, jsonStr, List.append_assoc, List.cons_append, List.nil_append] <;>
        exact ⟨_, _, rfl, by decide⟩
      have h2 := ih (fun j h => hd j (List.mem_cons_of_mem _ h)) (fun j h => hb j (List.mem_cons_of_mem _ h)) (by simp)
        m (by simp only [List.length_append, List.length_cons] at hn ⊢; omega)
      unfold readItems
      simp only [h0, skipSpace_cons (c := ':') (by decide), skipSpace_space,
        skipSpace_starts (hp.append (',' :: ' ' :: (Json.items F (q :: l) ++ '}' :: r))), h1,
        skipSpace_cons (c := ',') (by decide), skipSpace_starts hs, h2, String.ofList_toList]
      rfl

theorem dictOf_nodup : ∀ l : List (String × Json), (l.map (·.1)).Nodup → dictOf l = l
  | [], _ => rfl
  | p :: l, h => by
    rw [List.map_cons, List.nodup_cons] at h
    have hn : l.lookup p.1 = none := by
      rw [List.lookup_eq_none_iff]
      intro q hq
      simp only [bne_iff_ne, ne_eq]
      intro e
      exact h.1 (List.mem_map.2 ⟨q, hq, e.symm⟩)
    simp only [dictOf, dictOf_nodup l h.2, hn]

theorem asReadItems_keys (F : FloatText) : ∀ l : List (String × Json), (asReadItems F l).map (·.1) = l.map (·.1)
  | [] => rfl
  | p :: l => by simp [asReadItems, asReadItems_keys F l]

theorem reads_back {F : FloatText} (hF : FloatTextOk F) {j : Json} (h : Document j) : ReadsBack F j := by
  induction h with
  | none =>
    intro n r hr hn
    obtain ⟨m, rfl⟩ : ∃ m, n = m + 1 := ⟨n - 1, by simp [Json.text] at hn; omega⟩
    rw [show Json.text F .none = "null".toList by simp [Json.text],
      readValue_atom F (by intro d hd; cases hd; decide), (readAtom_words F r).1]
    simp [asRead]
  | bool b =>
    intro n r hr hn
    obtain ⟨m, rfl⟩ : ∃ m, n = m + 1 := ⟨n - 1, by cases b <;> simp [Json.text] at hn <;> omega⟩
    cases b
    · rw [show Json.text F (.bool false) = "false".toList by simp [Json.text],
        readValue_atom F (by intro d hd; cases hd; decide), (readAtom_words F r).2.2.1]
      simp [asRead]
    · rw [show Json.text F (.bool true) = "true".toList by simp [Json.text],
        readValue_atom F (by intro d hd; cases hd; decide), (readAtom_words F r).2.1]
      simp [asRead]
  | int k =>
    intro n r hr hn
    obtain ⟨c, l, e, _⟩ := pyStrInt_start k
    simp only [Json.text, asRead] at hn ⊢
    obtain ⟨m, rfl⟩ : ∃ m, n = m + 1 := ⟨n - 1, by rw [e] at hn; simp at hn; omega⟩
    exact readValue_number F (pyStrInt_start k) (readNumber_int F k hr.noMore)
  | str s =>
    intro n r hr hn
    simp only [Json.text, asRead, jsonStr, List.append_assoc, List.cons_append, List.nil_append] at hn ⊢
    obtain ⟨m, rfl⟩ : ∃ m, n = m + 1 := ⟨n - 1, by simp at hn; omega⟩
    unfold readValue
    simp only [readJsonStr_text s r]
    rfl
  | num x hx =>
    intro n r hr hn
    simp only [Json.text, asRead] at hn ⊢
    obtain ⟨c, l, e, _⟩ := starts_float hF hx
    obtain ⟨m, rfl⟩ : ∃ m, n = m + 1 := ⟨n - 1, by rw [e] at hn; simp at hn; omega⟩
    exact readValue_float hF hx hr
  | numText x hx =>
    intro n r hr hn
    simp only [Json.text, asRead, jsonStr, List.append_assoc, List.cons_append, List.nil_append] at hn ⊢
    obtain ⟨m, rfl⟩ : ∃ m, n = m + 1 := ⟨n - 1, by simp at hn; omega⟩
    unfold readValue
    simp only [readJsonStr_text _ r]
    rfl
  | list l hd ih =>
    intro n r hr hn
    simp only [Json.text, asRead, List.append_assoc, List.cons_append, List.nil_append] at hn ⊢
    obtain ⟨m, rfl⟩ : ∃ m, n = m + 1 := ⟨n - 1, by simp at hn; omega⟩
    cases l with
    | nil =>
      simp only [Json.elements, List.nil_append, asReadList]
      unfold readValue
      simp only [skipSpace_cons (c := ']') (by decide)]
    | cons j l =>
      have hs : Starts (Json.elements F (j :: l) ++ ']' :: r) := by
        refine Starts.append ?_ _
        have := starts_text hF (hd j (by simp))
        cases l with
        | nil => simpa only [Json.elements] using this
        | cons k' l => simp only [Json.elements, List.append_assoc]; exact this.append _
      have := readElements_text hF (j :: l) hd ih (by simp) r m (by simp only [List.length_cons] at hn; omega)
      unfold readValue
      simp only [skipSpace_starts hs]
      obtain ⟨c, t, e, _, _, _, _, h5, _⟩ := hs
      split
      · rename_i s' e'
        rw [e] at e'
        exact absurd (List.cons.inj e').1 h5
      · rw [this]; rfl
  | dict l hk hd ih =>
    intro n r hr hn
    simp only [Json.text, asRead, List.append_assoc, List.cons_append, List.nil_append] at hn ⊢
    obtain ⟨m, rfl⟩ : ∃ m, n = m + 1 := ⟨n - 1, by simp at hn; omega⟩
    cases l with
    | nil =>
      simp only [Json.items, List.nil_append, asReadItems]
      unfold readValue
      simp only [skipSpace_cons (c := '}') (by decide)]
    | cons p l =>
      have hs : Starts (Json.items F (p :: l) ++ '}' :: r) := by
        refine Starts.append ?_ _
        cases l <;>
        simp only [Json.items, jsonStr, List.append_assoc, List.cons_append, List.nil_append] <;>
        exact ⟨_, _, rfl, by decide⟩
      have := readItems_text hF (p :: l) hd ih (by simp) r m (by simp only [List.length_cons] at hn; omega)
      unfold readValue
      simp only [skipSpace_starts hs]
      obtain ⟨c, t, e, _, _, _, _, _, h6⟩ := hs
      split
      · rename_i s' e'
        rw [e] at e'
        exact absurd (List.cons.inj e').1 h6
      · rw [this]
        simp only [Option.map_some]
        rw [dictOf_nodup _ (by rw [asReadItems_keys]; exact hk)]

end Elgas
