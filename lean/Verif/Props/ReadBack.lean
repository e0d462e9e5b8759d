import Verif.Props.ProgramLog
import Verif.Spec.ReadBack
/-!
C95: what the log prints can be read back.
-/
namespace Elgas
open Spec

/-! ### Numbers -/

theorem afterText_append (start : String) (r : PyStr) : afterText start (start.toList ++ r) = some r := by
  unfold afterText
  rw [← String.length_toList, List.take_left, List.drop_left, if_pos rfl]

theorem foldl_digits (l : PyStr) : ∀ n, l.foldl (fun n c => 10 * n + (c.toNat - '0'.toNat)) n = Nat.ofDigitChars 10 l n := by
  intro n; rfl

theorem takeWhile_digits {l r : PyStr} (hl : ∀ c ∈ l, c.isDigit = true) (hr : NoDigit r) :
    (l ++ r).takeWhile Char.isDigit = l ∧ (l ++ r).dropWhile Char.isDigit = r := by
  induction l with
  | nil =>
    cases r with
    | nil => exact ⟨rfl, rfl⟩
    | cons c r =>
      have := hr c rfl
      simp [this]
  | cons c l ih =>
    have h := ih (fun c h => hl c (List.mem_cons_of_mem _ h))
    have := hl c List.mem_cons_self
    simp [this, h]

theorem readNat_digits {l r : PyStr} (hl : ∀ c ∈ l, c.isDigit = true) (hr : NoDigit r) :
    readNat (l ++ r) = (Nat.ofDigitChars 10 l 0, r) := by
  unfold readNat
  rw [(takeWhile_digits hl hr).1, (takeWhile_digits hl hr).2, foldl_digits]

theorem digits_mem {n : Nat} : ∀ c ∈ Nat.toDigits 10 n, c.isDigit = true :=
  fun _ h => Nat.isDigit_of_mem_toDigits (by omega) (by omega) h

theorem readNat_toDigits (n : Nat) {r : PyStr} (hr : NoDigit r) : readNat (Nat.toDigits 10 n ++ r) = (n, r) := by
  rw [readNat_digits digits_mem hr, Nat.ofDigitChars_ten_toDigits]

/-- C95. A printed whole number can be read back. -/
theorem C95_int (n : Int) (r : PyStr) (hr : NoDigit r) : readInt (pyStrInt n ++ r) = (n, r) := by
  unfold pyStrInt
  split
  · have := readNat_toDigits n.natAbs hr
    simp only [List.cons_append, readInt, this]
    congr 1; omega
  · have := readNat_toDigits n.natAbs hr
    cases h : Nat.toDigits 10 n.natAbs with
    | nil => exact absurd h Nat.toDigits_ne_nil
    | cons d l =>
      have hd : d.isDigit = true := digits_mem d (by rw [h]; exact List.mem_cons_self)
      rw [h] at this
      have hne : d ≠ '-' := by rintro rfl; revert hd; decide
      simp only [List.cons_append] at this ⊢
      unfold readInt
      split
      · rename_i h'; exact absurd (List.cons.inj h').1 hne
      · rw [this]; congr 1; dsimp only; omega

/-! ### Literals -/

theorem hexVal_digit : ∀ d, d < 16 → hexVal (Nat.digitChar d) = some d := by decide

theorem readHex_digits (w : Nat) : ∀ (n : Nat) (r : PyStr), n < 16 ^ w → readHex w (hexDigits w n ++ r) = some (n, r) := by
  induction w with
  | zero => intro n r h; simp at h; subst h; rfl
  | succ w ih =>
    intro n r h
    unfold hexDigits readHex
    rw [List.append_assoc, ih (n / 16) _ (by rw [Nat.pow_succ] at h; omega)]
    simp only [List.cons_append, List.nil_append]
    rw [hexVal_digit _ (by omega)]
    simp only [Option.map_some]
    congr 2; omega

theorem char_lt (c : Char) : c.toNat < 16 ^ 8 := by
  have := c.val.toNat_lt
  have h : c.toNat = c.val.toNat := rfl
  omega

/-- The quotes of a literal. -/
def IsQuote (q : Char) : Prop := q = '\'' ∨ q = '"'

theorem quoteOf_isQuote (s : PyStr) : IsQuote (quoteOf s) := by
  unfold quoteOf IsQuote
  split <;> simp

theorem readChar_slash (c : Char) (r : PyStr) (h : c ∉ ['t', 'n', 'r', 'x', 'u', 'U']) :
    readChar ('\\' :: c :: r) = some (c, r) := by
  simp only [List.mem_cons, List.not_mem_nil, or_false, not_or] at h
  obtain ⟨h1, h2, h3, h4, h5, h6⟩ := h
  simp [readChar, h1, h2, h3, h4, h5, h6]

theorem readChar_str (p : Printing) {q : Char} (hq : IsQuote q) (c : Char) (r : PyStr) :
    readChar (strChar p q c ++ r) = some (c, r) := by
  unfold strChar
  split
  · rename_i h
    refine readChar_slash c r ?_
    rcases h with rfl | rfl
    · rcases hq with rfl | rfl <;> decide
    · decide
  · rename_i h
    have hs : c ≠ '\\' := fun h' => h (.inr h')
    have plain : readChar ([c] ++ r) = some (c, r) := by simp [readChar, hs]
    split
    · rename_i h; subst h; rfl
    split
    · rename_i h; subst h; rfl
    split
    · rename_i h; subst h; rfl
    split
    · rename_i h
      have := readHex_digits 2 c.toNat r (by omega)
      simp [readChar, this, Char.ofNat_toNat]
    split
    · exact plain
    split
    · exact plain
    split
    · rename_i h
      have := readHex_digits 2 c.toNat r (by omega)
      simp [readChar, this, Char.ofNat_toNat]
    split
    · rename_i h
      have := readHex_digits 4 c.toNat r (by omega)
      simp [readChar, this, Char.ofNat_toNat]
    · have := readHex_digits 8 c.toNat r (char_lt c)
      simp [readChar, this, Char.ofNat_toNat]

theorem strChar_head (p : Printing) {q : Char} (hq : IsQuote q) (c : Char) :
    ∃ d l, strChar p q c = d :: l ∧ d ≠ q := by
  have hs : '\\' ≠ q := by rcases hq with rfl | rfl <;> decide
  unfold strChar
  split
  · exact ⟨_, _, rfl, hs⟩
  · rename_i h
    have hc : c ≠ q := fun h' => h (.inl h')
    repeat' split
    all_goals first | exact ⟨_, _, rfl, hs⟩ | exact ⟨_, _, rfl, hc⟩

/-- A text in which every character is written so that it can be read back, and none begins like the closing quote. -/
theorem readUntil_chars {α : Type} {q : Char} (f : α → PyStr) (g : α → Char) (s : List α)
    (hf : ∀ c ∈ s, (∀ r, readChar (f c ++ r) = some (g c, r)) ∧ ∃ d l, f c = d :: l ∧ d ≠ q) (r : PyStr) :
    ∀ n, s.length ≤ n → readUntil q n (s.flatMap f ++ q :: r) = some (s.map g, r) := by
  induction s with
  | nil => intro n _; cases n <;> simp [readUntil]
  | cons c s ih =>
    intro n hn
    cases n with
    | zero => simp at hn
    | succ n =>
      obtain ⟨h1, d, l, h2, h3⟩ := hf c List.mem_cons_self
      have h1 := h1 (s.flatMap f ++ q :: r)
      have := ih (fun c h => hf c (List.mem_cons_of_mem _ h)) n (by simpa using hn)
      rw [List.flatMap_cons, List.append_assoc]
      rw [h2] at h1 ⊢
      simp only [List.cons_append] at h1 ⊢
      unfold readUntil
      rw [if_neg h3, h1]
      dsimp only
      rw [this]
      rfl

theorem flatMap_length_le {α : Type} {q : Char} (f : α → PyStr) (s : List α)
    (hf : ∀ c ∈ s, ∃ d l, f c = d :: l ∧ d ≠ q) : s.length ≤ (s.flatMap f).length := by
  induction s with
  | nil => simp
  | cons c s ih =>
    obtain ⟨d, l, h, _⟩ := hf c List.mem_cons_self
    have := ih (fun c h => hf c (List.mem_cons_of_mem _ h))
    rw [List.flatMap_cons, h]
    simp only [List.length_cons, List.length_append]
    omega

theorem readStr_chars {α : Type} {q : Char} (f : α → PyStr) (g : α → Char) (s : List α)
    (hf : ∀ c ∈ s, (∀ r, readChar (f c ++ r) = some (g c, r)) ∧ ∃ d l, f c = d :: l ∧ d ≠ q) (r : PyStr) :
    readStr (q :: (s.flatMap f ++ q :: r)) = some (s.map g, r) := by
  unfold readStr
  refine readUntil_chars f g s hf r _ ?_
  have := flatMap_length_le (q := q) f s (fun c h => (hf c h).2)
  simp only [List.length_append]
  omega

/-- C95. A printed string can be read back, whatever follows it. -/
theorem C95_str (p : Printing) (s r : PyStr) : readStr (strRepr p s ++ r) = some (s, r) := by
  have := readStr_chars (q := quoteOf s) (strChar p (quoteOf s)) id s
    (fun c _ => ⟨readChar_str p (quoteOf_isQuote s) c, strChar_head p (quoteOf_isQuote s) c⟩) r
  simpa [strRepr] using this

theorem readChar_byte {q : Char} (hq : IsQuote q) (b : UInt8) (r : PyStr) :
    readChar (byteChar q b ++ r) = some (Char.ofNat b.toNat, r) := by
  have hb : b.toNat < 256 := b.toNat_lt
  unfold byteChar
  dsimp only
  generalize hc : Char.ofNat b.toNat = c
  split
  · rename_i h
    refine readChar_slash c r ?_
    rcases h with rfl | rfl
    · rcases hq with h | h <;> rw [h] <;> decide
    · decide
  · rename_i h
    have hs : c ≠ '\\' := fun h' => h (.inr h')
    split
    · rename_i h; rw [h]; rfl
    split
    · rename_i h; rw [h]; rfl
    split
    · rename_i h; rw [h]; rfl
    split
    · have := readHex_digits 2 b.toNat r (by omega)
      simp [readChar, this, hc]
    · simp [readChar, hs]

theorem byteChar_head {q : Char} (b : UInt8) {q' : Char} (hq' : IsQuote q')
    (hb : Char.ofNat b.toNat = q' → q = q') : ∃ d l, byteChar q b = d :: l ∧ d ≠ q' := by
  have hs : '\\' ≠ q' := by rcases hq' with rfl | rfl <;> decide
  unfold byteChar
  dsimp only
  split
  · exact ⟨_, _, rfl, hs⟩
  · rename_i h
    have hc : Char.ofNat b.toNat ≠ q' := fun h' => h (.inl (h'.trans (hb h').symm))
    repeat' split
    all_goals first | exact ⟨_, _, rfl, hs⟩ | exact ⟨_, _, rfl, hc⟩

theorem ofNat_toNat_byte (b : UInt8) : UInt8.ofNat (Char.ofNat b.toNat).toNat = b := by
  have : ∀ n, n < 256 → (Char.ofNat n).toNat = n := by decide +kernel
  rw [this _ b.toNat_lt]
  simp

theorem map_back (b : Bytes) : (b.map fun x => Char.ofNat x.toNat).map (fun c => UInt8.ofNat c.toNat) = b := by
  rw [List.map_map]
  have : ((fun c : Char => UInt8.ofNat c.toNat) ∘ fun x : UInt8 => Char.ofNat x.toNat) = id :=
    funext fun x => ofNat_toNat_byte x
  rw [this, List.map_id]

/-- C95. Printed bytes can be read back, whatever follows them. -/
theorem C95_bytes (b : Bytes) (r : PyStr) : readBytes (bytesRepr b ++ r) = some (b, r) := by
  have hq := quoteOf_isQuote (decodeLatin1 b)
  have := readStr_chars (q := quoteOf (decodeLatin1 b)) (byteChar (quoteOf (decodeLatin1 b)))
    (fun x => Char.ofNat x.toNat) b
    (fun c _ => ⟨readChar_byte hq c, byteChar_head c hq (fun _ => rfl)⟩) r
  simp only [bytesRepr, List.cons_append, List.nil_append, List.append_assoc, readBytes, this, Option.map_some, map_back]

/-- C95. A printed bytearray can be read back, whatever follows it. -/
theorem C95_bytearray (b : Bytes) (r : PyStr) : readBytearray (bytearrayRepr b ++ r) = some (b, r) := by
  have hq := quoteOf_isQuote (decodeLatin1 b)
  have := readStr_chars (q := quoteOf (decodeLatin1 b)) (byteChar '\'') (fun x => Char.ofNat x.toNat) b
    (fun c hc => ⟨readChar_byte (.inl rfl) c, byteChar_head c hq (fun h => ?_)⟩) (')' :: r)
  · have h2 := afterText_append "bytearray("
      ('b' :: quoteOf (decodeLatin1 b) :: (b.flatMap (byteChar '\'') ++ quoteOf (decodeLatin1 b) :: ')' :: r))
    have h3 : bytearrayRepr b ++ r = "bytearray(".toList ++
        ('b' :: quoteOf (decodeLatin1 b) :: (b.flatMap (byteChar '\'') ++ quoteOf (decodeLatin1 b) :: ')' :: r)) := by
      have h : "bytearray(b".toList = "bytearray(".toList ++ ['b'] := by decide +kernel
      unfold bytearrayRepr
      rw [h]
      generalize "bytearray(".toList = z
      simp only [List.append_assoc, List.cons_append, List.nil_append]
    unfold readBytearray
    rw [h3, h2]
    simp only [Option.bind_some, readBytes, this, Option.map_some, map_back]
  · unfold quoteOf at h ⊢
    split
    · rename_i h'
      rw [if_pos h'] at h
      exact absurd (List.mem_map.2 ⟨c, hc, h⟩) h'.2
    · rfl


/-! ### Times -/

theorem decDigits_mem {w n : Nat} : ∀ c ∈ decDigits w n, c.isDigit = true := by
  intro c h
  rcases List.mem_append.1 h with h | h
  · rw [List.eq_of_mem_replicate h]; decide
  · exact digits_mem c h

theorem decDigits_length {w n : Nat} (hw : 0 < w) (h : n < 10 ^ w) : (decDigits w n).length = w := by
  have := (Nat.length_toDigits_le_iff (b := 10) (n := n) (k := w) (by omega) hw).2 h
  simp only [decDigits, List.length_append, List.length_replicate]
  omega

theorem ofDigitChars_zeros (k : Nat) (l : PyStr) :
    Nat.ofDigitChars 10 (List.replicate k '0' ++ l) 0 = Nat.ofDigitChars 10 l 0 := by
  induction k with
  | zero => rfl
  | succ k ih => rw [List.replicate_succ, List.cons_append]; exact ih

theorem readNat_dec (w n : Nat) {r : PyStr} (hr : NoDigit r) : readNat (decDigits w n ++ r) = (n, r) := by
  rw [readNat_digits decDigits_mem hr, decDigits, ofDigitChars_zeros, Nat.ofDigitChars_ten_toDigits]

theorem drop_dec {w n k : Nat} (hw : 0 < w) (h : n < 10 ^ w) (c : Char) (r : PyStr) :
    (decDigits w n ++ c :: r).drop (w + 1 + k) = r.drop k := by
  rw [List.drop_append, decDigits_length hw h, List.drop_eq_nil_of_le (by rw [decDigits_length hw h]; omega)]
  rw [show w + 1 + k - w = k + 1 by omega]
  rfl

/-- C95. A time that the log prints can be read back, to the microsecond. -/
theorem C95_time (t : DateTime) (ht : t.Valid) : readIso (isoformat t) = t := by
  obtain ⟨y1, y2, m1, m2, d1, d2, h1, i1, s1, u1⟩ := ht
  have hd : t.day < 100 := by
    have : daysInMonth t.year t.month ≤ 31 := by unfold daysInMonth; (repeat' split) <;> omega
    omega
  have hy : t.year < 10 ^ 4 := by omega
  have hm : t.month < 10 ^ 2 := by omega
  have hd : t.day < 10 ^ 2 := by omega
  have hh : t.hour < 10 ^ 2 := by omega
  have hi : t.minute < 10 ^ 2 := by omega
  have hs : t.second < 10 ^ 2 := by omega
  have nd : ∀ (c : Char) (r : PyStr), c.isDigit = false → NoDigit (c :: r) := by
    intro c r h d hd; simp at hd; subst hd; exact h
  unfold readIso isoformat
  simp only [List.append_assoc, List.cons_append, List.nil_append]
  generalize hz : (if t.microsecond ≠ 0 then '.' :: decDigits 6 t.microsecond else []) = z
  have hz' : NoDigit z ∧ (readNat (z.drop 1)).1 = t.microsecond := by
    subst hz
    split
    · have := readNat_dec 6 t.microsecond (r := []) (by intro c h; cases h)
      rw [List.append_nil] at this
      exact ⟨nd _ _ rfl, by rw [List.drop_one, List.tail_cons, this]⟩
    · rename_i h
      refine ⟨fun c h => (by cases h), ?_⟩
      rw [show t.microsecond = 0 by omega]; rfl
  have e1 : ∀ k, List.drop (5 + k) (decDigits 4 t.year ++ '-' :: (decDigits 2 t.month ++ '-' :: (decDigits 2 t.day ++
      'T' :: (decDigits 2 t.hour ++ ':' :: (decDigits 2 t.minute ++ ':' :: (decDigits 2 t.second ++ z)))))) =
      List.drop k (decDigits 2 t.month ++ '-' :: (decDigits 2 t.day ++ 'T' :: (decDigits 2 t.hour ++ ':' ::
        (decDigits 2 t.minute ++ ':' :: (decDigits 2 t.second ++ z))))) :=
    fun k => drop_dec (w := 4) (by omega) hy _ _
  have e2 : ∀ k, List.drop (3 + k) (decDigits 2 t.month ++ '-' :: (decDigits 2 t.day ++
      'T' :: (decDigits 2 t.hour ++ ':' :: (decDigits 2 t.minute ++ ':' :: (decDigits 2 t.second ++ z))))) =
      List.drop k (decDigits 2 t.day ++ 'T' :: (decDigits 2 t.hour ++ ':' ::
        (decDigits 2 t.minute ++ ':' :: (decDigits 2 t.second ++ z)))) :=
    fun k => drop_dec (w := 2) (by omega) hm _ _
  have e3 : ∀ k, List.drop (3 + k) (decDigits 2 t.day ++
      'T' :: (decDigits 2 t.hour ++ ':' :: (decDigits 2 t.minute ++ ':' :: (decDigits 2 t.second ++ z)))) =
      List.drop k (decDigits 2 t.hour ++ ':' :: (decDigits 2 t.minute ++ ':' :: (decDigits 2 t.second ++ z))) :=
    fun k => drop_dec (w := 2) (by omega) hd _ _
  have e4 : ∀ k, List.drop (3 + k) (decDigits 2 t.hour ++ ':' :: (decDigits 2 t.minute ++ ':' ::
      (decDigits 2 t.second ++ z))) =
      List.drop k (decDigits 2 t.minute ++ ':' :: (decDigits 2 t.second ++ z)) :=
    fun k => drop_dec (w := 2) (by omega) hh _ _
  have e5 : ∀ k, List.drop (3 + k) (decDigits 2 t.minute ++ ':' :: (decDigits 2 t.second ++ z)) =
      List.drop k (decDigits 2 t.second ++ z) :=
    fun k => drop_dec (w := 2) (by omega) hi _ _
  have e6 : List.drop 3 (decDigits 2 t.second ++ z) = z.drop 1 := by
    have hl := decDigits_length (w := 2) (by omega) hs
    rw [List.drop_append, hl, List.drop_eq_nil_of_le (by omega)]
    rfl
  rw [readNat_dec 4 _ (nd '-' _ rfl), e1 0, e1 3, e1 6, e1 9, e1 12, e1 15, e2 0, e2 3, e2 6, e2 9, e2 12, e3 0, e3 3,
    e3 6, e3 9, e4 0, e4 3, e4 6, e5 0, e5 3, e6]
  simp only [List.drop_zero]
  rw [readNat_dec 2 _ (nd '-' _ rfl), readNat_dec 2 _ (nd 'T' _ rfl), readNat_dec 2 _ (nd ':' _ rfl),
    readNat_dec 2 _ (nd ':' _ rfl), readNat_dec 2 _ hz'.1, hz'.2]

/-! ### Transports -/

theorem strRepr_peel {p : Printing} {s s' r r' : PyStr} (h : strRepr p s ++ r = strRepr p s' ++ r') : s = s' ∧ r = r' := by
  have h1 := C95_str p s r
  rw [h, C95_str p s' r'] at h1
  simp only [Option.some.injEq, Prod.mk.injEq] at h1
  exact ⟨h1.1.symm, h1.2.symm⟩

theorem int_peel {n n' : Int} {r r' : PyStr} (hr : NoDigit r) (hr' : NoDigit r')
    (h : pyStrInt n ++ r = pyStrInt n' ++ r') : n = n' ∧ r = r' := by
  have h1 := C95_int n r hr
  rw [h, C95_int n' r' hr'] at h1
  simp only [Prod.mk.injEq] at h1
  exact ⟨h1.1.symm, h1.2.symm⟩

theorem pyStrInt_head (n : Int) : ∃ d l, pyStrInt n = d :: l ∧ d ≠ 'N' := by
  unfold pyStrInt
  split
  · exact ⟨_, _, rfl, by decide⟩
  · cases h : Nat.toDigits 10 n.natAbs with
    | nil => exact absurd h Nat.toDigits_ne_nil
    | cons d l =>
      refine ⟨_, _, rfl, ?_⟩
      rintro rfl
      have := digits_mem (n := n.natAbs) 'N' (by rw [h]; exact List.mem_cons_self)
      revert this; decide

theorem comma_noDigit (r : PyStr) : NoDigit (',' :: r) := by
  intro d hd; simp at hd; subst hd; rfl

theorem optInt_peel {p : Printing} {stack : List String} {n n' : Option Int} {r r' : PyStr}
    (h : (optVal .int n).repr p stack ++ ',' :: r = (optVal .int n').repr p stack ++ ',' :: r') : n = n' ∧ r = r' := by
  cases n with
  | none =>
    cases n' with
    | none =>
      refine ⟨rfl, ?_⟩
      have := List.append_cancel_left h
      exact (List.cons.inj this).2
    | some n' =>
      obtain ⟨d, l, h1, h2⟩ := pyStrInt_head n'
      simp only [optVal, PyVal.repr] at h
      rw [h1] at h
      exact absurd (List.cons.inj h).1.symm h2
  | some n =>
    cases n' with
    | none =>
      obtain ⟨d, l, h1, h2⟩ := pyStrInt_head n
      simp only [optVal, PyVal.repr] at h
      rw [h1] at h
      exact absurd (List.cons.inj h).1 h2
    | some n' =>
      obtain ⟨h1, h2⟩ := int_peel (comma_noDigit _) (comma_noDigit _) h
      exact ⟨by rw [h1], (List.cons.inj h2).2⟩

/-- C95. The transport that a record of data sent or received prints identifies the arguments it was made with, its
timeout and its handle, as far as the `repr` of handles (of other libraries) distinguishes them. -/
theorem C95_transport (p : Printing) (stack : List String) (look look' : Look) (timeout timeout' : Option Int)
    (h h' : Handle) :
    (look.val ⟨look.place.kind, timeout, some h⟩).repr p stack =
        (look'.val ⟨look'.place.kind, timeout', some h'⟩).repr p stack ↔
      look.place = look'.place ∧ timeout = timeout' ∧ look.handle h = look'.handle h' := by
  constructor
  · intro he
    unfold Look.val at he
    dsimp only at he
    cases hl : look.place with
    | tcp host port =>
      cases hl' : look'.place with
      | serial port' baud' =>
        rw [hl, hl'] at he
        exact absurd (List.cons.inj he).1 (by decide)
      | tcp host' port' =>
        rw [hl, hl'] at he
        simp only [PyVal.repr, Attrs.repr, Attrs.of, List.append_assoc] at he
        have he := List.append_cancel_left (List.append_cancel_left (List.append_cancel_left (List.append_cancel_left he)))
        obtain ⟨e1, he⟩ := strRepr_peel he
        have he := List.append_cancel_left (List.append_cancel_left (List.append_cancel_left he))
        obtain ⟨e2, he⟩ := int_peel (comma_noDigit _) (comma_noDigit _) he
        have he := List.append_cancel_left (List.append_cancel_left (List.append_cancel_left (as := [',', ' ']) he))
        obtain ⟨e3, he⟩ := optInt_peel he
        have he := List.append_cancel_left (List.append_cancel_left (List.append_cancel_left (as := [' ']) he))
        exact ⟨by rw [e1, e2], e3, List.append_cancel_right he⟩
    | serial port baud =>
      cases hl' : look'.place with
      | tcp port' baud' =>
        rw [hl, hl'] at he
        exact absurd (List.cons.inj he).1 (by decide)
      | serial port' baud' =>
        rw [hl, hl'] at he
        simp only [PyVal.repr, Attrs.repr, Attrs.of, List.append_assoc] at he
        have he := List.append_cancel_left (List.append_cancel_left (List.append_cancel_left (List.append_cancel_left he)))
        obtain ⟨e1, he⟩ := strRepr_peel he
        have he := List.append_cancel_left (List.append_cancel_left (List.append_cancel_left he))
        obtain ⟨e2, he⟩ := int_peel (comma_noDigit _) (comma_noDigit _) he
        have he := List.append_cancel_left (List.append_cancel_left (List.append_cancel_left (as := [',', ' ']) he))
        obtain ⟨e3, he⟩ := optInt_peel he
        have he := List.append_cancel_left (List.append_cancel_left (List.append_cancel_left (as := [' ']) he))
        exact ⟨by rw [e1, e2], e3, List.append_cancel_right he⟩
  · rintro ⟨h1, rfl, h3⟩
    unfold Look.val
    dsimp only
    rw [h1, h3]

/-! ### Programs -/

theorem dataIn_records (p : Printing) (stack : List String) (event : String) (log : List Record)
    (got : List (Handle × Bytes)) (tr : Handle → PyVal)
    (h : recordsOf event log = got.map fun x => debug event [("data", .bytes x.2), ("transport", tr x.1)]) :
    dataIn event (log.map fun r => r.texts p stack) = got.map fun x => some x.2 := by
  have hsome : ∀ r : Record, (r.texts p stack).head? = some event.toList ↔ r.event = event := by
    intro r
    simp only [Record.texts, List.head?_cons, Option.some.injEq]
    exact ⟨fun h => String.toList_inj.1 h, fun h => by rw [h]⟩
  have h1 : dataIn event (log.map fun r => r.texts p stack) =
      dataIn event ((recordsOf event log).map fun r => r.texts p stack) := by
    clear h
    unfold dataIn recordsOf
    induction log with
    | nil => rfl
    | cons r log ih =>
      simp only [List.map_cons, List.filterMap_cons, List.filter_cons, hsome]
      by_cases hr : r.event = event
      · simp only [hr, if_true, decide_true, List.map_cons, List.filterMap_cons, hsome, ih]
      · simp only [hr, if_false, decide_false, ih, Bool.false_eq_true]
  rw [h1, h]
  clear h h1
  unfold dataIn
  induction got with
  | nil => rfl
  | cons x got ih =>
    simp only [List.map_cons, List.filterMap_cons] at ih ⊢
    rw [if_pos ((hsome _).2 rfl)]
    dsimp only
    rw [ih]
    have h2 := afterText_append "data=" (bytesRepr x.2)
    have h3 := C95_bytes x.2 []
    rw [List.append_nil] at h3
    have h4 : (Record.texts p stack (debug event [("data", .bytes x.2), ("transport", tr x.1)]))[1]? =
        some ("data=".toList ++ bytesRepr x.2) := by
      have : "data=".toList = "data".toList ++ ['='] := by decide +kernel
      rw [this]
      rfl
    rw [h4]
    simp only [Option.bind_some, h2, h3, Option.map_some]

/-- C95. The traffic of a program from its printed log: the data read from the printed records "Sent data" is, in
order, exactly what was written to the device. -/
theorem C95_sent (p : Printing) (stack : List String) (look : Look) (C : BlockCipher) (timeout : Option Int)
    (a : ClientArgs) (env : OsEnv) (w : World) (hm : mkWorld look.place.kind timeout a env = .ok w) (as : List Action) :
    dataIn "Sent data" ((logOf p look C w as).map fun r => r.texts p stack) =
      (sentTo (acts C w as).2.os env.writes).map fun x => some x.2 :=
  dataIn_records p stack _ _ _ (fun h => look.val ⟨look.place.kind, timeout, some h⟩)
    (C91_sent p look C timeout a env w hm as)

/-- C95. The data read from the printed records "Received data" is, in order, what was read from the device. -/
theorem C95_received (p : Printing) (stack : List String) (look : Look) (C : BlockCipher) (timeout : Option Int)
    (a : ClientArgs) (env : OsEnv) (w : World) (hm : mkWorld look.place.kind timeout a env = .ok w) (as : List Action) :
    ∃ got : List (Handle × Bytes),
      dataIn "Received data" ((logOf p look C w as).map fun r => r.texts p stack) = (got.map fun x => some x.2) ∧
      ∀ h, Took (content (env.inbox h)) (onHandle h got) (content ((acts C w as).2.inbox h)) := by
  obtain ⟨got, h1, h2⟩ := C91_received p look C timeout a env w hm as
  exact ⟨got, dataIn_records p stack _ _ _ (fun h => look.val ⟨look.place.kind, timeout, some h⟩) h1, h2⟩

theorem logOf_texts (p : Printing) (look : Look) (C : BlockCipher) (as : List Action) : ∀ w : World,
    ∀ r ∈ logOf p look C w as,
      IsEventText r.event ∨ r.event = connectedText p look ∨ r.event = closedText p look := by
  induction as with
  | nil => intro w r hr; cases hr
  | cons a as ih =>
    intro w r hr
    rcases List.mem_append.1 hr with hr | hr
    · by_cases h1 : a = .connect
      · subst h1
        exact .inr (.inl (by rw [connectL_texts p look w r hr]; rfl))
      · by_cases h2 : a = .disconnect
        · subst h2
          exact .inr (.inr (by rw [disconnectL_texts p look w r hr]; rfl))
        · exact .inl (actL_texts p look C w h1 h2 r hr)
    · exact ih _ r hr

theorem take_start {s : String} {l : PyStr} (h : l.take s.length = s.toList) (hn : 7 ≤ s.length)
    (hs : s.toList.take 7 = "Connect".toList) : l.take 7 = "Connect".toList := by
  rw [← hs, ← h, List.take_take, Nat.min_eq_left hn]

theorem lifeIn_other {ev : String} (h : IsEventText ev) : lifeIn ev.toList = none := by
  have h0 := eventText_start h
  unfold lifeIn afterText
  have h1 : ¬ (ev.toList.take "Connected to ".length = "Connected to ".toList) :=
    fun h => h0 (take_start h (by decide) (by decide))
  have h2 : ¬ (ev.toList.take "Connection to ".length = "Connection to ".toList) :=
    fun h => h0 (take_start h (by decide) (by decide))
  rw [if_neg h1, if_neg h2]

theorem lifeIn_connected (p : Printing) (look : Look) :
    lifeIn (connectedText p look).toList = some (true, (look.address p).toList) := by
  unfold lifeIn connectedText
  rw [String.toList_append, afterText_append]

theorem lifeIn_closed (p : Printing) (look : Look) :
    lifeIn (closedText p look).toList = some (false, (look.address p).toList) := by
  unfold lifeIn closedText
  rw [String.toList_append, String.toList_append, List.append_assoc, afterText_append]
  have h1 : afterText "Connected to " ("Connection to ".toList ++ ((look.address p).toList ++ " is closed".toList)) =
      none := by
    unfold afterText
    rw [if_neg]
    rw [List.take_append_of_le_length (by decide)]
    decide
  rw [h1]
  dsimp only
  have h2 : ((look.address p).toList ++ " is closed".toList).length - 10 = (look.address p).toList.length := by
    rw [List.length_append, show " is closed".toList.length = 10 by decide]
    omega
  rw [h2, List.drop_left, List.take_left, if_pos rfl]

theorem livesIn_filter (p : Printing) (stack : List String) (look : Look) (log : List Record)
    (h : ∀ r ∈ log, IsEventText r.event ∨ r.event = connectedText p look ∨ r.event = closedText p look) :
    livesIn (log.map fun r => r.texts p stack) =
      livesIn ((log.filter fun r => r.event = connectedText p look ∨ r.event = closedText p look).map
        fun r => r.texts p stack) := by
  unfold livesIn
  induction log with
  | nil => rfl
  | cons r log ih =>
    have ih := ih (fun r hr => h r (List.mem_cons_of_mem _ hr))
    rw [List.filter_cons]
    by_cases hr : r.event = connectedText p look ∨ r.event = closedText p look
    · simp only [hr, decide_true, if_true, List.map_cons, List.filterMap_cons, ih]
    · have h' : IsEventText r.event := (h r List.mem_cons_self).resolve_right hr
      simp only [hr, decide_false, Bool.false_eq_true, if_false, List.map_cons, List.filterMap_cons, Record.texts,
        List.head?_cons, Option.bind_some, lifeIn_other h']
      exact ih

theorem livesIn_lifecycle (p : Printing) (stack : List String) (look : Look)
    (steps : List (Action × Outcome3 Value)) : ∀ now : Bool,
    livesIn ((lifecycle p look now steps).map fun r => r.texts p stack) =
      (lives now steps).map fun b => (b, (look.address p).toList) := by
  induction steps with
  | nil => intro now; cases now <;> rfl
  | cons s steps ih =>
    intro now
    have c1 : ∀ l, livesIn (Record.texts p stack (info (connectedText p look)) :: l) =
        (true, (look.address p).toList) :: livesIn l := by
      intro l
      simp only [livesIn, List.filterMap_cons, Record.texts, List.head?_cons, Option.bind_some, info,
        lifeIn_connected]
    have c2 : ∀ l, livesIn (Record.texts p stack (info (closedText p look)) :: l) =
        (false, (look.address p).toList) :: livesIn l := by
      intro l
      simp only [livesIn, List.filterMap_cons, Record.texts, List.head?_cons, Option.bind_some, info,
        lifeIn_closed]
    obtain ⟨a, o⟩ := s
    cases a <;> cases o <;> cases now <;> simp only [lifecycle, lives, c1, c2, ih, List.map_cons]

/-- C95. When a program was connected, and to what, from its printed log: if the operating system fails with `OSError`
only, then the connections made and closed that the printed log tells of are, in order, those of the `connect` that
returned and those of the `disconnect` that returned while the program was connected, each with the address. -/
theorem C95_lives (p : Printing) (stack : List String) (look : Look) (C : BlockCipher) (timeout : Option Int)
    (a : ClientArgs) (env : OsEnv) (w : World) (hm : mkWorld look.place.kind timeout a env = .ok w)
    (he : OnlyOsErrors env) (as : List Action) :
    livesIn ((logOf p look C w as).map fun r => r.texts p stack) =
      (lives false (as.zip (acts C w as).1)).map fun b => (b, (look.address p).toList) := by
  rw [livesIn_filter p stack look _ (logOf_texts p look C as w), C91_life_cycle p look C timeout a env w hm he as,
    livesIn_lifecycle]

/-- C95. The address of a TCP transport that the log prints can be read back as host and port; that of a serial
transport is the name of the port. -/
theorem C95_address (p : Printing) (look : Look) :
    match look.place with
    | .tcp host port => readAddress (look.address p).toList = some (host, port)
    | .serial port _ => (look.address p).toList = port := by
  unfold Look.address
  cases look.place with
  | serial port baud => exact String.toList_ofList
  | tcp host port =>
    dsimp only
    rw [String.toList_ofList]
    have h1 := afterText_append "(" (strRepr p host ++ ',' :: ' ' :: (pyStrInt port ++ [')']))
    have h2 : "(".toList = ['('] := by decide
    have h3 : ['('] ++ strRepr p host ++ [',', ' '] ++ pyStrInt port ++ [')'] =
        "(".toList ++ (strRepr p host ++ ',' :: ' ' :: (pyStrInt port ++ [')'])) := by
      rw [h2]; simp only [List.append_assoc, List.cons_append, List.nil_append]
    have h4 := C95_int port [')'] (by intro c hc; simp at hc; subst hc; rfl)
    unfold readAddress
    rw [h3, h1]
    simp only [Option.bind_some, C95_str, h4, if_true]

/-! Examples -/

-- C95_str, C95_bytes, C95_bytearray: quotes, escapes, and what follows
example : readStr (strRepr exPrint "it's \"a\\b\"\n\x00é€".toList ++ ", x".toList) =
    some ("it's \"a\\b\"\n\x00é€".toList, ", x".toList) := by decide +kernel
example : readBytes "b\"\\x02'\\r\", transport=...".toList = some ([0x02, 0x27, 0x0D], ", transport=...".toList) := by
  decide +kernel
example : readBytearray "bytearray(b\"it\\'s\")!".toList = some ([0x69, 0x74, 0x27, 0x73], ['!']) := by
  decide +kernel
example : bytearrayRepr [0x69, 0x74, 0x27, 0x73] = "bytearray(b\"it\\'s\")".toList := by decide +kernel
-- C95_int: what follows a number in the log
example : NoDigit ", timeout".toList ∧ NoDigit [] ∧ readInt (pyStrInt (-40) ++ ", timeout".toList) = (-40, ", timeout".toList) :=
  ⟨(by intro c h; cases h; rfl), (by intro c h; cases h), by decide +kernel⟩
-- C95_time
example : isoformat ⟨2020, 2, 29, 23, 59, 59, 250⟩ = "2020-02-29T23:59:59.000250".toList ∧
    readIso "2020-02-29T23:59:59.000250".toList = ⟨2020, 2, 29, 23, 59, 59, 250⟩ ∧
    (⟨2020, 2, 29, 23, 59, 59, 250⟩ : DateTime).Valid := by decide +kernel
-- C95_sent, C95_lives: two sessions of a program, from its printed log
example : dataIn "Sent data" ((exLog exPortLook none exArgs exEnv exProgram).map fun r => r.texts exPrint []) =
    [some exAsk, some exAsk] := by decide +kernel
example : livesIn ((exLog exTcpLook none exArgs exEnv exProgram).map fun r => r.texts exPrint []) =
    [(true, "('10.0.0.2', 4000)".toList), (false, "('10.0.0.2', 4000)".toList), (true, "('10.0.0.2', 4000)".toList)] ∧
    readAddress "('10.0.0.2', 4000)".toList = some ("10.0.0.2".toList, 4000) ∧
    lives false (exProgram.zip ((mkWorld .tcp none exArgs exEnv).toOption.map fun w => (acts idCipher w exProgram).1).get!)
      = [true, false, true] := by
  decide +kernel

end Elgas
