import Verif.Spec.JsonGrammar
import Verif.Lemmas.JsonText
/-!
Lemmas: the reader of JSON text and the grammar.
-/
namespace Elgas
open Spec

/-! ### Characters -/

theorem hexDigit_iff (c : Char) (v : Nat) : HexDigit c v ↔ hexVal c = some v := by
  constructor
  · intro h
    by_cases hv : v < 16
    · have key : ∀ v, v < 16 → ∀ c ∈ ["0123456789abcdef".toList[v]?, "0123456789ABCDEF".toList[v]?],
          c.map hexVal = some (some v) := by decide
      rcases h with h | h
      · have := key v hv _ (List.mem_cons_self)
        rw [h] at this; exact Option.some.inj this
      · have := key v hv _ (List.mem_cons_of_mem _ List.mem_cons_self)
        rw [h] at this; exact Option.some.inj this
    · have h1 : "0123456789abcdef".toList[v]? = none := by
        rw [List.getElem?_eq_none_iff]; show 16 ≤ v; omega
      have h2 : "0123456789ABCDEF".toList[v]? = none := by
        rw [List.getElem?_eq_none_iff]; show 16 ≤ v; omega
      rcases h with h | h
      · rw [h1] at h; cases h
      · rw [h2] at h; cases h
  · intro h
    have hc : c = Char.ofNat c.toNat := (Char.ofNat_toNat c).symm
    have k0 : ∀ n, n < 58 → 48 ≤ n → "0123456789abcdef".toList[n - 48]? = some (Char.ofNat n) := by decide
    have k1 : ∀ n, n < 103 → 97 ≤ n → "0123456789abcdef".toList[n - 97 + 10]? = some (Char.ofNat n) := by decide
    have k2 : ∀ n, n < 71 → 65 ≤ n → "0123456789ABCDEF".toList[n - 65 + 10]? = some (Char.ofNat n) := by decide
    unfold hexVal at h
    rw [show '0'.toNat = 48 from rfl, show '9'.toNat = 57 from rfl, show 'a'.toNat = 97 from rfl, show 'f'.toNat = 102 from rfl,
      show 'A'.toNat = 65 from rfl, show 'F'.toNat = 70 from rfl] at h
    split at h
    · cases h; rw [hc]; simp only [Char.ofNat_toNat]; rename_i g
      exact .inl (by rw [k0 _ (by omega) g.1, Char.ofNat_toNat])
    · split at h
      · cases h; rename_i g; exact .inl (by rw [k1 _ (by omega) g.1, Char.ofNat_toNat])
      · split at h
        · cases h; rename_i g; exact .inr (by rw [k2 _ (by omega) g.1, Char.ofNat_toNat])
        · cases h

theorem readHex4_hex {d : PyStr} {n : Nat} (h : Hex4 d n) (s : PyStr) : readHex4 (d ++ s) = some (n, s) := by
  obtain ⟨a, b, c, e, va, vb, vc, ve, rfl, ha, hb, hc, he, rfl⟩ := h
  rw [hexDigit_iff] at ha hb hc he
  simp only [List.cons_append, List.nil_append, readHex4, ha, hb, hc, he]
  congr 2; omega

theorem readHex4_sound {s r : PyStr} {n : Nat} (h : readHex4 s = some (n, r)) : ∃ d, s = d ++ r ∧ Hex4 d n := by
  unfold readHex4 at h
  split at h
  · rename_i a b c d s
    split at h
    · rename_i va vb vc vd ha hb hc hd
      cases h
      refine ⟨[a, b, c, d], rfl, a, b, c, d, va, vb, vc, vd, rfl, ?_, ?_, ?_, ?_, by omega⟩ <;> rw [hexDigit_iff] <;> assumption
    · cases h
  · cases h

theorem toNat_ofNat {n : Nat} (h : n < 0xD800 ∨ (0xDFFF < n ∧ n < 0x110000)) : (Char.ofNat n).toNat = n := by
  have hv : n.isValidChar := h
  simp only [Char.ofNat, hv, dif_pos, Char.ofNatAux, Char.toNat]
  rfl

theorem readJsonChar_text {t : PyStr} {c : Char} (h : CharText t c) (s : PyStr) : readJsonChar (t ++ s) = some (c, s) := by
  cases h with
  | plain c hq hb h => simp [readJsonChar, hb, Nat.not_lt.2 h]
  | quote => rfl
  | backslash => rfl
  | slash => rfl
  | backspace c h => simp [readJsonChar]; exact ofNat_eq h.symm
  | formFeed c h => simp [readJsonChar]; exact ofNat_eq h.symm
  | newline => rfl
  | «return» => rfl
  | tab => rfl
  | unicode d n c hd h =>
    have hn := char_valid c
    have : readEscape (d ++ s) = some (c, s) := by
      unfold readEscape
      rw [readHex4_hex hd]
      dsimp only
      rw [if_neg (by omega), if_neg (by omega), ofNat_eq h.symm]
    simp [readJsonChar, this]
  | pair d d' n m c hd hd' hn hm h =>
    have : readEscape (d ++ ('\\' :: 'u' :: (d' ++ s))) = some (c, s) := by
      unfold readEscape
      rw [readHex4_hex hd]
      dsimp only
      rw [if_pos hn]
      simp only [readHex4_hex hd']
      rw [if_pos hm, ofNat_eq h.symm]
    simp [readJsonChar, this]

theorem charText_head {t : PyStr} {c : Char} (h : CharText t c) : ∃ d l, t = d :: l ∧ d ≠ '"' := by
  cases h with
  | plain c hq hb h => exact ⟨_, _, rfl, hq⟩
  | _ => exact ⟨_, _, rfl, by decide⟩

theorem readEscape_sound {s r : PyStr} {c : Char} (h : readEscape s = some (c, r)) :
    ∃ t, '\\' :: 'u' :: s = t ++ r ∧ CharText t c := by
  unfold readEscape at h
  cases h1 : readHex4 s with
  | none => rw [h1] at h; cases h
  | some x =>
    obtain ⟨n, s1⟩ := x
    obtain ⟨d, rfl, hd⟩ := readHex4_sound h1
    rw [h1] at h
    dsimp only at h
    have hlt : n < 65536 := by
      obtain ⟨a, b, c, e, va, vb, vc, ve, rfl, ha, hb, hc, he, rfl⟩ := hd
      have bound : ∀ c v, HexDigit c v → v < 16 := by
        intro c v h
        rcases h with h | h
        · obtain ⟨h, _⟩ := List.getElem?_eq_some_iff.1 h; exact h
        · obtain ⟨h, _⟩ := List.getElem?_eq_some_iff.1 h; exact h
      have := bound _ _ ha; have := bound _ _ hb; have := bound _ _ hc; have := bound _ _ he
      omega
    split at h
    · rename_i hn
      split at h
      · rename_i s2
        cases h2 : readHex4 s2 with
        | none => rw [h2] at h; cases h
        | some y =>
          obtain ⟨m, s3⟩ := y
          obtain ⟨d', rfl, hd'⟩ := readHex4_sound h2
          rw [h2] at h
          dsimp only at h
          split at h
          · rename_i hm
            obtain ⟨e1, e2⟩ := Prod.mk.inj (Option.some.inj h)
            rw [← e1, ← e2]
            exact ⟨'\\' :: 'u' :: d ++ ('\\' :: 'u' :: d'), by simp, .pair d d' n m _ hd hd' hn hm (toNat_ofNat (by omega))⟩
          · cases h
      · cases h
    · split at h
      · cases h
      · obtain ⟨e1, e2⟩ := Prod.mk.inj (Option.some.inj h)
        rw [← e1, ← e2]
        exact ⟨'\\' :: 'u' :: d, by simp, .unicode d n _ hd (toNat_ofNat (by omega))⟩

theorem readJsonChar_sound {s r : PyStr} {c : Char} (hq : s.head? ≠ some '"') (h : readJsonChar s = some (c, r)) :
    ∃ t, s = t ++ r ∧ CharText t c := by
  unfold readJsonChar at h
  cases s with
  | nil => cases h
  | cons a s =>
    dsimp only at h
    split at h
    · rename_i ha
      subst ha
      cases s with
      | nil => cases h
      | cons k s =>
        dsimp only at h
        split at h
        · rename_i hk
          cases h
          rcases hk with rfl | rfl | rfl
          · exact ⟨_, rfl, .quote⟩
          · exact ⟨_, rfl, .backslash⟩
          · exact ⟨_, rfl, .slash⟩
        split at h
        · rename_i hk; cases h; subst hk; exact ⟨['\\', 'b'], rfl, .backspace _ (by decide)⟩
        split at h
        · rename_i hk; cases h; subst hk; exact ⟨['\\', 'f'], rfl, .formFeed _ (by decide)⟩
        split at h
        · rename_i hk; cases h; subst hk; exact ⟨['\\', 'n'], rfl, .newline⟩
        split at h
        · rename_i hk; cases h; subst hk; exact ⟨['\\', 'r'], rfl, .return⟩
        split at h
        · rename_i hk; cases h; subst hk; exact ⟨['\\', 't'], rfl, .tab⟩
        split at h
        · rename_i hk; subst hk; exact readEscape_sound h
        · cases h
    · rename_i ha
      split at h
      · cases h
      · rename_i hl
        cases h
        exact ⟨[_], rfl, .plain _ (fun e => hq (by rw [e]; rfl)) ha (Nat.not_lt.1 hl)⟩

/-! ### Strings -/

theorem strText_length {t s : PyStr} (h : StrText t s) : s.length ≤ t.length := by
  induction h with
  | nil => exact Nat.le_refl _
  | cons t c ts s h hs ih =>
    obtain ⟨d, l, rfl, _⟩ := charText_head h
    simp only [List.length_cons, List.length_append]; omega

theorem readJsonStr_spelt {t s : PyStr} (h : StrText t s) (r : PyStr) :
    ∀ n, s.length ≤ n → readJsonStr n (t ++ '"' :: r) = some (s, r) := by
  induction h with
  | nil => intro n _; cases n <;> simp [readJsonStr]
  | cons t c ts s h hs ih =>
    intro n hn
    obtain ⟨m, rfl⟩ : ∃ m, n = m + 1 := ⟨n - 1, by simp at hn; omega⟩
    have hr := readJsonChar_text h (ts ++ '"' :: r)
    obtain ⟨d, l, rfl, hd⟩ := charText_head h
    simp only [List.cons_append, List.append_assoc] at hr ⊢
    unfold readJsonStr
    rw [if_neg hd, hr]
    dsimp only
    rw [ih m (by simpa using hn)]
    rfl

theorem readJsonStr_sound : ∀ (n : Nat) {s x r : PyStr}, readJsonStr n s = some (x, r) →
    ∃ t, s = t ++ '"' :: r ∧ StrText t x
  | n, [], x, r, h => by cases n <;> simp [readJsonStr] at h
  | 0, c :: s, x, r, h => by
    unfold readJsonStr at h
    split at h
    · rename_i hc; cases h; subst hc; exact ⟨[], rfl, .nil⟩
    · cases h
  | n + 1, c :: s, x, r, h => by
    unfold readJsonStr at h
    split at h
    · rename_i hc; cases h; subst hc; exact ⟨[], rfl, .nil⟩
    · rename_i hc
      cases h1 : readJsonChar (c :: s) with
      | none => rw [h1] at h; cases h
      | some y =>
        obtain ⟨a, s1⟩ := y
        rw [h1] at h
        dsimp only at h
        cases h2 : readJsonStr n s1 with
        | none => rw [h2] at h; cases h
        | some z =>
          obtain ⟨x', r'⟩ := z
          rw [h2] at h
          cases h
          obtain ⟨t, e, ht⟩ := readJsonChar_sound (by intro e; injection e with e; exact hc e) h1
          obtain ⟨ts, rfl, hts⟩ := readJsonStr_sound n h2
          exact ⟨t ++ ts, by rw [e, List.append_assoc], .cons t a ts x' ht hts⟩

/-! ### Numbers -/

theorem powerOf_exp {e r : PyStr} (he : Exponent e) (hr : NoMore r) : powerOf (e ++ r) = (e, r) := by
  rcases he with rfl | ⟨c, g, d, hc, hg, hd, rfl⟩
  · exact powerOf_app (.inl rfl) hr
  · have hs := someDigits_app hd (fun c hc => (hr c hc).1)
    rcases hg with rfl | rfl | rfl
    · cases d with
      | nil => exact absurd rfl hd.1
      | cons a d =>
        have ha := hd.2 a List.mem_cons_self
        have : ¬ (a = '+' ∨ a = '-') := by rintro (rfl | rfl) <;> (revert ha; decide)
        rw [List.cons_append] at hs
        simp [powerOf, hc, this, hs]
    · simp [powerOf, hc, hs]
    · simp [powerOf, hc, hs]

theorem readNumber_spelt (F : FloatText) {sign whole frac exp r : PyStr} (h1 : sign = [] ∨ sign = ['-'])
    (h2 : Whole whole) (h3 : Fraction frac) (h4 : Exponent exp) (hr : NoMore r) :
    readNumber F (sign ++ whole ++ frac ++ exp ++ r) =
      if frac = [] ∧ exp = [] then
        some (.int (if sign = [] then (digitsValue whole : Int) else -(digitsValue whole : Int)), r)
      else (F.read (sign ++ whole ++ frac ++ exp)).map fun b => (.num (.double b), r) := by
  have he : ∀ c ∈ (exp ++ r).head?, c.isDigit = false ∧ c ≠ '.' := by
    refine head_append_of ?_ (fun c hc => ⟨(hr c hc).1, (hr c hc).2.1⟩)
    rcases h4 with rfl | ⟨c, g, d, rfl | rfl, _, _, rfl⟩ <;> intro c hc <;> cases hc <;> decide
  have hf : ∀ c ∈ (frac ++ (exp ++ r)).head?, c.isDigit = false := by
    refine head_append_of ?_ (fun c hc => (he c hc).1)
    rcases h3 with rfl | ⟨d, _, rfl⟩ <;> intro c hc <;> cases hc <;> decide
  have hw := wholeOf_app h2 hf
  have h3' := fractionOf_app h3 he
  have h4' := powerOf_exp h4 hr
  unfold readNumber
  rcases h1 with rfl | rfl
  · have hn : (whole ++ (frac ++ (exp ++ r))).head? ≠ some '-' := digits_noSign h2 _
    simp only [List.nil_append, List.append_assoc, hn, if_false, hw, h3', h4', if_true]
  · simp [hw, h3', h4']

theorem someDigits_sound {s d r : PyStr} (h : someDigits s = some (d, r)) : s = d ++ r ∧ Digits d := by
  unfold someDigits at h
  split at h
  · cases h
  · rename_i hne
    cases h
    exact ⟨List.takeWhile_append_dropWhile.symm, hne, fun c hc => by
      have := List.all_takeWhile (p := Char.isDigit) (l := s)
      exact List.all_eq_true.1 this c hc⟩

theorem wholeOf_sound {s w r : PyStr} (h : wholeOf s = some (w, r)) : s = w ++ r ∧ Whole w := by
  unfold wholeOf at h
  split at h
  · cases h; exact ⟨rfl, .inl rfl⟩
  · rename_i hs
    obtain ⟨rfl, hd⟩ := someDigits_sound h
    refine ⟨rfl, .inr ⟨hd, ?_⟩⟩
    intro e
    cases w with
    | nil => cases e
    | cons c w => injection e with e; subst e; exact hs _ rfl

theorem fractionOf_sound {s f r : PyStr} (h : fractionOf s = (f, r)) : s = f ++ r ∧ Fraction f := by
  unfold fractionOf at h
  split at h
  · rename_i s
    cases hd : someDigits s with
    | none => rw [hd] at h; cases h; exact ⟨rfl, .inl rfl⟩
    | some x =>
      obtain ⟨d, s'⟩ := x
      rw [hd] at h
      cases h
      obtain ⟨rfl, hdig⟩ := someDigits_sound hd
      exact ⟨rfl, .inr ⟨d, hdig, rfl⟩⟩
  · cases h; exact ⟨rfl, .inl rfl⟩

theorem powerOf_sound {s e r : PyStr} (h : powerOf s = (e, r)) : s = e ++ r ∧ Exponent e := by
  unfold powerOf at h
  split at h
  · rename_i c s
    split at h
    · rename_i hc
      cases s with
      | nil => cases h; exact ⟨rfl, .inl rfl⟩
      | cons g s =>
        dsimp only at h
        split at h
        · rename_i hg
          cases hd : someDigits s with
          | none => rw [hd] at h; cases h; exact ⟨rfl, .inl rfl⟩
          | some x =>
            obtain ⟨d, s'⟩ := x
            rw [hd] at h
            cases h
            obtain ⟨rfl, hdig⟩ := someDigits_sound hd
            exact ⟨rfl, .inr ⟨c, [g], d, hc, by rcases hg with rfl | rfl <;> simp, hdig, rfl⟩⟩
        · cases hd : someDigits (g :: s) with
          | none => rw [hd] at h; cases h; exact ⟨rfl, .inl rfl⟩
          | some x =>
            obtain ⟨d, s'⟩ := x
            rw [hd] at h
            cases h
            obtain ⟨e, hd⟩ := someDigits_sound hd
            exact ⟨by rw [e]; rfl, .inr ⟨c, [], d, hc, .inl rfl, hd, rfl⟩⟩
    · cases h; exact ⟨rfl, .inl rfl⟩
  · cases h; exact ⟨rfl, .inl rfl⟩

theorem readNumber_sound {F : FloatText} {s r : PyStr} {j : Json} (h : readNumber F s = some (j, r)) :
    ∃ t, s = t ++ r ∧ JsonMeans F t j := by
  have main : ∀ sign u : PyStr, (sign = [] ∨ sign = ['-']) → s = sign ++ u →
      (match wholeOf u with
        | none => none
        | some (whole, s) =>
          if (fractionOf s).1 = [] ∧ (powerOf (fractionOf s).2).1 = [] then
            some (Json.int (if sign = ['-'] then -(digitsValue whole : Int) else digitsValue whole), (powerOf (fractionOf s).2).2)
          else (F.read (sign ++ whole ++ (fractionOf s).1 ++ (powerOf (fractionOf s).2).1)).map fun b =>
            (.num (.double b), (powerOf (fractionOf s).2).2)) = some (j, r) → ∃ t, s = t ++ r ∧ JsonMeans F t j := by
    intro sign u hsign hs h
    cases hw : wholeOf u with
    | none => rw [hw] at h; cases h
    | some x =>
      obtain ⟨whole, s1⟩ := x
      rw [hw] at h
      dsimp only at h
      obtain ⟨rfl, hwh⟩ := wholeOf_sound hw
      obtain ⟨e1, hfr⟩ := fractionOf_sound (show fractionOf s1 = ((fractionOf s1).1, (fractionOf s1).2) from rfl)
      obtain ⟨e2, hex⟩ := powerOf_sound (show powerOf (fractionOf s1).2 = ((powerOf (fractionOf s1).2).1, (powerOf (fractionOf s1).2).2) from rfl)
      generalize (fractionOf s1).1 = frac at *
      generalize hexp : (powerOf (fractionOf s1).2).1 = exp at *
      generalize (powerOf (fractionOf s1).2).2 = rest at *
      split at h
      · rename_i hn
        obtain ⟨rfl, rfl⟩ := hn
        cases h
        rw [List.nil_append] at e2 e1
        rw [hs, e1, e2]
        rcases hsign with rfl | rfl
        · exact ⟨whole, rfl, .int whole hwh⟩
        · exact ⟨'-' :: whole, rfl, .negative whole hwh⟩
      · rename_i hn
        cases hb : F.read (sign ++ whole ++ frac ++ exp) with
        | none => rw [hb] at h; cases h
        | some b =>
          rw [hb] at h
          cases h
          refine ⟨sign ++ whole ++ frac ++ exp, by rw [hs, e1, e2]; simp, .float sign whole frac exp b hsign hwh hfr hex ?_ hb⟩
          by_cases hf : frac = []
          · exact .inr fun he => hn ⟨hf, he⟩
          · exact .inl hf
  unfold readNumber at h
  by_cases hneg : s.head? = some '-'
  · cases s with
    | nil => cases hneg
    | cons c s =>
      injection hneg with hneg
      subst hneg
      refine main ['-'] s (.inr rfl) rfl ?_
      simp only [List.head?_cons, List.tail_cons, if_true] at h ⊢
      exact h
  · refine main [] s (.inl rfl) rfl ?_
    simp only [hneg, if_false, List.nil_append] at h ⊢
    exact h

/-! ### White space -/

theorem skipSpace_blank {a : PyStr} (ha : WhiteSpace a) (s : PyStr) : skipSpace (a ++ s) = skipSpace s := by
  induction a with
  | nil => rfl
  | cons c a ih =>
    have hc := ha c List.mem_cons_self
    rw [List.cons_append, ← ih fun d hd => ha d (List.mem_cons_of_mem _ hd)]
    simp [skipSpace, hc]

theorem blank_nil : WhiteSpace [] := fun _ hc => by cases hc

theorem skipSpace_split (s : PyStr) : ∃ a, s = a ++ skipSpace s ∧ WhiteSpace a := by
  refine ⟨s.takeWhile fun c => c = ' ' ∨ c = '\t' ∨ c = '\n' ∨ c = '\r', List.takeWhile_append_dropWhile.symm, fun c hc => ?_⟩
  have := List.all_eq_true.1 (List.all_takeWhile (p := fun c : Char => decide (c = ' ' ∨ c = '\t' ∨ c = '\n' ∨ c = '\r')) (l := s)) c hc
  exact of_decide_eq_true this

theorem skipSpace_all {a : PyStr} (ha : WhiteSpace a) : skipSpace a = [] := by
  have := skipSpace_blank ha []
  rw [List.append_nil] at this
  exact this

/-! ### Dictionaries -/

theorem dictOf_keys : ∀ l : List (String × Json), (dictOf l).map (·.1) = (l.map (·.1)).eraseDups
  | [] => rfl
  | p :: l => by
    have ih := dictOf_keys l
    have comm : ∀ (l : List String) (k : String), (l.filter fun b => !b == k).eraseDups = l.eraseDups.filter fun b => !b == k := by
      intro l k
      generalize hn : l.length = n
      induction n using Nat.strongRecOn generalizing l k with
      | _ n ihn =>
        cases l with
        | nil => rfl
        | cons a l =>
          rw [List.eraseDups_cons]
          by_cases ha : a = k
          · subst ha
            have h0 : (!a == a) = false := by simp
            rw [List.filter_cons_of_neg (by simp), List.filter_cons_of_neg (by simp)]
            rw [ihn l.length (by rw [← hn]; simp) l a rfl, List.filter_filter]
            simp
          · rw [List.filter_cons_of_pos (by simp [ha]), List.filter_cons_of_pos (by simp [ha]), List.eraseDups_cons]
            rw [← ihn (l.filter fun b => !b == a).length (by
                rw [← hn]; exact Nat.lt_succ_of_le (List.length_filter_le _ _)) _ k rfl, List.filter_filter, List.filter_filter]
            congr 3
            funext b; exact Bool.and_comm _ _
    rw [List.map_cons, List.eraseDups_cons, comm, ← ih]
    have e : dictOf (p :: l) = match (dictOf l).lookup p.1 with
      | none => p :: dictOf l
      | some v => (p.1, v) :: (dictOf l).filter fun q => q.1 ≠ p.1 := by rw [dictOf]; rfl
    cases hl : (dictOf l).lookup p.1 with
    | none =>
      rw [e, hl]
      dsimp only
      rw [List.map_cons]
      congr 1
      symm
      rw [List.filter_eq_self]
      intro k hk
      obtain ⟨q, hq, rfl⟩ := List.mem_map.1 hk
      have := List.lookup_eq_none_iff.1 hl q hq
      simp only [bne_iff_ne, ne_eq] at this
      simpa using fun e : q.1 = p.1 => this e.symm
    | some v =>
      rw [e, hl]
      dsimp only
      rw [List.map_cons, List.filter_map]
      congr 2
      refine List.filter_congr fun q _ => ?_
      by_cases hq : q.1 = p.1 <;> simp [hq]

theorem lookup_filter_ne (l : List (String × Json)) (k k' : String) (h : k ≠ k') :
    (l.filter fun q => q.1 ≠ k').lookup k = l.lookup k := by
  induction l with
  | nil => rfl
  | cons q l ih =>
    by_cases hq : q.1 = k'
    · rw [List.filter_cons_of_neg (by simp [hq]), ih, List.lookup_cons]
      have : (k == q.1) = false := by rw [hq]; simpa using h
      rw [this]
    · rw [List.filter_cons_of_pos (by simp [hq]), List.lookup_cons, List.lookup_cons, ih]

theorem lookup_snoc (l : List (String × Json)) (q : String × Json) (k : String) :
    (l ++ [q]).lookup k = match l.lookup k with
      | some v => some v
      | none => if k = q.1 then some q.2 else none := by
  induction l with
  | nil =>
    rw [List.nil_append, List.lookup_cons]
    by_cases h : k = q.1
    · subst h; simp
    · have : (k == q.1) = false := by simpa using h
      rw [this]; simp [h]
  | cons p l ih =>
    rw [List.cons_append, List.lookup_cons, List.lookup_cons, ih]
    cases (k == p.1) <;> rfl

theorem dictOf_lookup (k : String) : ∀ l : List (String × Json), (dictOf l).lookup k = l.reverse.lookup k
  | [] => rfl
  | p :: l => by
    have ih := dictOf_lookup k l
    rw [List.reverse_cons, lookup_snoc, ← ih]
    rw [dictOf]
    by_cases hk : k = p.1
    · subst hk
      obtain ⟨a, x⟩ := p
      cases hl : (dictOf l).lookup a with
      | none => simp
      | some v => simp
    · have hb : (k == p.1) = false := by simpa using hk
      obtain ⟨a, x⟩ := p
      cases hl : (dictOf l).lookup a with
      | none =>
        simp only [if_neg hk]
        rw [List.lookup_cons, hb]
        cases (dictOf l).lookup k <;> rfl
      | some v =>
        simp only [if_neg hk]
        rw [List.lookup_cons, hb]
        dsimp only
        rw [lookup_filter_ne _ _ _ hk]
        cases (dictOf l).lookup k <;> rfl

theorem dictOf_spec (l : List (String × Json)) : DictOf l (dictOf l) := ⟨dictOf_keys l, fun k => dictOf_lookup k l⟩

theorem lookup_head (p : String × Json) (l : List (String × Json)) (k : String) :
    (p :: l).lookup k = if k = p.1 then some p.2 else l.lookup k := by
  obtain ⟨a, v⟩ := p
  rw [List.lookup_cons]
  by_cases h : k = a
  · subst h; simp
  · have : (k == a) = false := by simpa using h
    simp [this, h]

theorem items_ext : ∀ (l m : List (String × Json)), (l.map (·.1)).Nodup → l.map (·.1) = m.map (·.1) →
    (∀ k, l.lookup k = m.lookup k) → l = m
  | [], [], _, _, _ => rfl
  | [], q :: m, _, h, _ => by cases h
  | p :: l, [], _, h, _ => by cases h
  | p :: l, q :: m, hn, h, hk => by
    rw [List.map_cons, List.map_cons] at h
    obtain ⟨h1, h2⟩ := List.cons.inj h
    have hp : p = q := by
      have := hk p.1
      rw [lookup_head, lookup_head, if_pos rfl, if_pos h1] at this
      exact Prod.ext h1 (Option.some.inj this)
    subst hp
    rw [List.map_cons, List.nodup_cons] at hn
    rw [items_ext l m hn.2 h2]
    intro k
    by_cases e : k = p.1
    · have a : l.lookup k = none := by
        rw [List.lookup_eq_none_iff]
        intro x hx
        simp only [bne_iff_ne, ne_eq]
        intro e'
        exact hn.1 (List.mem_map.2 ⟨x, hx, by rw [← e', e]⟩)
      have b : m.lookup k = none := by
        rw [List.lookup_eq_none_iff]
        intro x hx
        simp only [bne_iff_ne, ne_eq]
        intro e'
        exact hn.1 (h2 ▸ List.mem_map.2 ⟨x, hx, by rw [← e', e]⟩)
      rw [a, b]
    · have := hk k
      rw [lookup_head, lookup_head, if_neg e, if_neg e] at this
      exact this

theorem eraseDups_nodup (l : List String) : l.eraseDups.Nodup := by
  generalize hn : l.length = n
  induction n using Nat.strongRecOn generalizing l with
  | _ n ih =>
    cases l with
    | nil => exact List.nodup_nil
    | cons a l =>
      rw [List.eraseDups_cons, List.nodup_cons]
      refine ⟨?_, ih _ (by rw [← hn]; exact Nat.lt_succ_of_le (List.length_filter_le _ _)) _ rfl⟩
      intro h
      have := List.mem_eraseDups.1 h
      simp at this

theorem dictOf_unique {l d : List (String × Json)} (h : DictOf l d) : d = dictOf l := by
  refine items_ext d (dictOf l) (by rw [h.1]; exact eraseDups_nodup _) (by rw [h.1, dictOf_keys]) fun k => ?_
  rw [h.2, dictOf_lookup]

/-! ### Everything the grammar derives is read -/

theorem blank_noMore {a r : PyStr} (ha : WhiteSpace a) (hr : NoMore r) : NoMore (a ++ r) := by
  cases a with
  | nil => exact hr
  | cons c a =>
    intro d hd
    cases hd
    rcases ha c List.mem_cons_self with rfl | rfl | rfl | rfl <;> decide

theorem whole_start {w : PyStr} (h : Whole w) : ∃ c l, w = c :: l ∧ c.isDigit = true := by
  rcases h with rfl | ⟨h1, _⟩
  · exact ⟨_, _, rfl, by decide⟩
  · cases w with
    | nil => exact absurd rfl h1.1
    | cons c m => exact ⟨c, m, rfl, h1.2 c List.mem_cons_self⟩

theorem means_starts {F : FloatText} {t : PyStr} {j : Json} (h : JsonMeans F t j) : Starts t := by
  cases h with
  | int whole h =>
    obtain ⟨c, l, e, hc⟩ := whole_start h
    exact starts_number ⟨c, l, e, .inl hc⟩
  | float sign whole frac exp b hs hw hf he hx hb =>
    obtain ⟨c, l, rfl, hc⟩ := whole_start hw
    rcases hs with rfl | rfl
    · exact starts_number ⟨c, l ++ frac ++ exp, by simp, .inl hc⟩
    · exact starts_number ⟨'-', c :: l ++ frac ++ exp, by simp, .inr rfl⟩
  | _ => exact ⟨_, _, rfl, by decide⟩

/-- The text is read to its meaning, whatever follows. -/
def ReadTo (F : FloatText) (t : PyStr) (j : Json) : Prop :=
  ∀ n r, NoMore r → 2 * t.length ≤ n → readValue F n (t ++ r) = some (j, r)

theorem readElements_cells {F : FloatText} (l : List Cell) (hl : l ≠ []) (hb : ∀ x ∈ l, WhiteSpace x.before ∧ WhiteSpace x.after)
    (hm : ∀ x ∈ l, JsonMeans F x.text x.value) (ih : ∀ x ∈ l, ReadTo F x.text x.value) (r : PyStr) :
    ∀ n, 2 * (commas (l.map Cell.all)).length + 1 ≤ n →
      readElements F n (skipSpace (commas (l.map Cell.all) ++ ']' :: r)) = some (l.map Cell.value, r) := by
  induction l with
  | nil => exact absurd rfl hl
  | cons x l ihl =>
    intro n hn
    obtain ⟨m, rfl⟩ : ∃ m, n = m + 1 := ⟨n - 1, by omega⟩
    obtain ⟨h1, h2⟩ := hb x List.mem_cons_self
    have hs := means_starts (hm x List.mem_cons_self)
    cases l with
    | nil =>
      simp only [List.map_cons, List.map_nil, commas, Cell.all, List.append_assoc] at hn ⊢
      rw [skipSpace_blank h1, skipSpace_starts (hs.append _)]
      have := ih x List.mem_cons_self m (x.after ++ ']' :: r)
        (blank_noMore h2 (by intro c hc; cases hc; decide)) (by simp only [List.length_append] at hn; omega)
      unfold readElements
      rw [this]
      simp only [skipSpace_blank h2, skipSpace_cons (c := ']') (l := r) (by decide)]
    | cons y l =>
      have e : commas ((x :: y :: l).map Cell.all) = x.all ++ ',' :: commas ((y :: l).map Cell.all) := rfl
      rw [e] at hn ⊢
      simp only [Cell.all, List.append_assoc, List.cons_append] at hn ⊢
      rw [skipSpace_blank h1, skipSpace_starts (hs.append _)]
      have := ih x List.mem_cons_self m (x.after ++ ',' :: (commas ((y :: l).map Cell.all) ++ ']' :: r))
        (blank_noMore h2 (by intro c hc; cases hc; decide)) (by simp only [List.length_append] at hn; omega)
      have h3 := ihl (by simp) (fun z hz => hb z (List.mem_cons_of_mem _ hz)) (fun z hz => hm z (List.mem_cons_of_mem _ hz))
        (fun z hz => ih z (List.mem_cons_of_mem _ hz)) m
        (by simp only [List.length_append, List.length_cons] at hn ⊢; omega)
      unfold readElements
      rw [this]
      simp only [skipSpace_blank h2, skipSpace_cons (c := ',') (by decide), h3]
      rfl

theorem readItems_entries {F : FloatText} (l : List Entry) (hl : l ≠ [])
    (hb : ∀ x ∈ l, WhiteSpace x.first ∧ WhiteSpace x.between ∧ WhiteSpace x.before ∧ WhiteSpace x.after)
    (hk : ∀ x ∈ l, StrText x.spelling x.key)
    (hm : ∀ x ∈ l, JsonMeans F x.text x.value) (ih : ∀ x ∈ l, ReadTo F x.text x.value) (r : PyStr) :
    ∀ n, 2 * (commas (l.map Entry.all)).length + 1 ≤ n →
      readItems F n (skipSpace (commas (l.map Entry.all) ++ '}' :: r)) =
        some (l.map fun x => (String.ofList x.key, x.value), r) := by
  induction l with
  | nil => exact absurd rfl hl
  | cons x l ihl =>
    intro n hn
    obtain ⟨m, rfl⟩ : ∃ m, n = m + 1 := ⟨n - 1, by omega⟩
    obtain ⟨h1, h2, h3, h4⟩ := hb x List.mem_cons_self
    have hs := means_starts (hm x List.mem_cons_self)
    have key : ∀ s, readJsonStr (x.spelling ++ '"' :: s).length (x.spelling ++ '"' :: s) = some (x.key, s) := fun s =>
      readJsonStr_spelt (hk x List.mem_cons_self) s _ (by
        have := strText_length (hk x List.mem_cons_self); rw [List.length_append]; omega)
    cases l with
    | nil =>
      simp only [List.map_cons, List.map_nil, commas, Entry.all, Cell.all, List.append_assoc, List.cons_append] at hn ⊢
      rw [skipSpace_blank h1, skipSpace_cons (by decide)]
      have := ih x List.mem_cons_self m (x.after ++ '}' :: r)
        (blank_noMore h4 (by intro c hc; cases hc; decide))
        (by simp only [List.length_append, List.length_cons] at hn; omega)
      unfold readItems
      simp only [key, skipSpace_blank h2, skipSpace_cons (c := ':') (by decide), skipSpace_blank h3,
        skipSpace_starts (hs.append (x.after ++ '}' :: r)), this, skipSpace_blank h4, skipSpace_cons (c := '}') (by decide)]
    | cons y l =>
      have e : commas ((x :: y :: l).map Entry.all) = x.all ++ ',' :: commas ((y :: l).map Entry.all) := rfl
      rw [e] at hn ⊢
      simp only [Entry.all, Cell.all, List.append_assoc, List.cons_append] at hn ⊢
      rw [skipSpace_blank h1, skipSpace_cons (by decide)]
      have := ih x List.mem_cons_self m (x.after ++ ',' :: (commas ((y :: l).map Entry.all) ++ '}' :: r))
        (blank_noMore h4 (by intro c hc; cases hc; decide))
        (by simp only [List.length_append, List.length_cons] at hn; omega)
      have h5 := ihl (by simp) (fun z hz => hb z (List.mem_cons_of_mem _ hz)) (fun z hz => hk z (List.mem_cons_of_mem _ hz))
        (fun z hz => hm z (List.mem_cons_of_mem _ hz)) (fun z hz => ih z (List.mem_cons_of_mem _ hz)) m
        (by simp only [List.length_append, List.length_cons] at hn ⊢; omega)
      unfold readItems
      simp only [key, skipSpace_blank h2, skipSpace_cons (c := ':') (by decide), skipSpace_blank h3,
        skipSpace_starts (hs.append (x.after ++ ',' :: (commas ((y :: l).map Entry.all) ++ '}' :: r))), this,
        skipSpace_blank h4, skipSpace_cons (c := ',') (by decide), h5]
      rfl

theorem readValue_means {F : FloatText} {t : PyStr} {j : Json} (h : JsonMeans F t j) : ReadTo F t j := by
  have pos : ∀ {t : PyStr} {n : Nat}, Starts t → 2 * t.length ≤ n → ∃ m, n = m + 1 := by
    intro t n hs hn
    obtain ⟨c, l, rfl, _⟩ := hs
    exact ⟨n - 1, by simp only [List.length_cons] at hn; omega⟩
  induction h with
  | null =>
    intro n r hr hn
    obtain ⟨m, rfl⟩ := pos (means_starts (F := F) .null) hn
    rw [readValue_atom F (by intro d hd; cases hd; decide), (readAtom_words F r).1]
  | true =>
    intro n r hr hn
    obtain ⟨m, rfl⟩ := pos (means_starts (F := F) .true) hn
    rw [readValue_atom F (by intro d hd; cases hd; decide), (readAtom_words F r).2.1]
  | false =>
    intro n r hr hn
    obtain ⟨m, rfl⟩ := pos (means_starts (F := F) .false) hn
    rw [readValue_atom F (by intro d hd; cases hd; decide), (readAtom_words F r).2.2.1]
  | nan =>
    intro n r hr hn
    obtain ⟨m, rfl⟩ := pos (means_starts (F := F) .nan) hn
    rw [readValue_atom F (by intro d hd; cases hd; decide), (readAtom_words F r).2.2.2.1]
  | infinity =>
    intro n r hr hn
    obtain ⟨m, rfl⟩ := pos (means_starts (F := F) .infinity) hn
    rw [readValue_atom F (by intro d hd; cases hd; decide), (readAtom_words F r).2.2.2.2.1]
  | minusInfinity =>
    intro n r hr hn
    obtain ⟨m, rfl⟩ := pos (means_starts (F := F) .minusInfinity) hn
    rw [readValue_atom F (by intro d hd; cases hd; decide), (readAtom_words F r).2.2.2.2.2]
  | int whole hw =>
    intro n r hr hn
    obtain ⟨m, rfl⟩ := pos (means_starts (F := F) (.int whole hw)) hn
    obtain ⟨c, l, e, hc⟩ := whole_start hw
    refine readValue_number F ⟨c, l, e, .inl hc⟩ ?_
    have := readNumber_spelt F (sign := []) (frac := []) (exp := []) (.inl rfl) hw (.inl rfl) (.inl rfl) hr
    simpa [digitsValue] using this
  | negative whole hw =>
    intro n r hr hn
    obtain ⟨m, rfl⟩ := pos (means_starts (F := F) (.negative whole hw)) hn
    refine readValue_number F ⟨'-', whole, rfl, .inr rfl⟩ ?_
    have := readNumber_spelt F (sign := ['-']) (frac := []) (exp := []) (.inr rfl) hw (.inl rfl) (.inl rfl) hr
    simpa [digitsValue] using this
  | float sign whole frac exp b hs hw hf he hx hb =>
    intro n r hr hn
    obtain ⟨m, rfl⟩ := pos (means_starts (F := F) (.float sign whole frac exp b hs hw hf he hx hb)) hn
    have hst : ∃ c l, sign ++ whole ++ frac ++ exp = c :: l ∧ (c.isDigit = true ∨ c = '-') := by
      obtain ⟨c, l, rfl, hc⟩ := whole_start hw
      rcases hs with rfl | rfl
      · exact ⟨c, l ++ frac ++ exp, by simp, .inl hc⟩
      · exact ⟨'-', c :: l ++ frac ++ exp, by simp, .inr rfl⟩
    refine readValue_number F hst ?_
    rw [readNumber_spelt F hs hw hf he hr, if_neg (by rintro ⟨e1, e2⟩; exact hx.elim (· e1) (· e2)), hb]
    rfl
  | str t s h =>
    intro n r hr hn
    obtain ⟨m, rfl⟩ := pos (means_starts (F := F) (.str t s h)) hn
    simp only [List.cons_append, List.append_assoc, List.nil_append]
    have := readJsonStr_spelt h r (t ++ '"' :: r).length (by have := strText_length h; rw [List.length_append]; omega)
    unfold readValue
    simp only [this]
    rfl
  | empty sp h =>
    intro n r hr hn
    obtain ⟨m, rfl⟩ := pos (means_starts (F := F) (.empty sp h)) hn
    simp only [List.cons_append, List.append_assoc, List.nil_append]
    unfold readValue
    simp only [skipSpace_blank h, skipSpace_cons (c := ']') (by decide)]
  | emptyDict sp h =>
    intro n r hr hn
    obtain ⟨m, rfl⟩ := pos (means_starts (F := F) (.emptyDict sp h)) hn
    simp only [List.cons_append, List.append_assoc, List.nil_append]
    unfold readValue
    simp only [skipSpace_blank h, skipSpace_cons (c := '}') (by decide)]
  | list l hl hb h ih =>
    intro n r hr hn
    obtain ⟨m, rfl⟩ := pos (means_starts (F := F) (.list l hl hb h)) hn
    have := readElements_cells l hl hb h ih r m
      (by simp only [List.length_cons, List.length_append, List.length_nil] at hn; omega)
    simp only [List.cons_append, List.append_assoc, List.nil_append]
    have hne : ∀ s, skipSpace (commas (l.map Cell.all) ++ ']' :: r) ≠ ']' :: s := by
      cases l with
      | nil => exact absurd rfl hl
      | cons x l =>
        obtain ⟨h1, h2⟩ := hb x List.mem_cons_self
        obtain ⟨rest, e⟩ : ∃ rest, commas ((x :: l).map Cell.all) ++ ']' :: r = x.before ++ (x.text ++ rest) := by
          cases l with
          | nil => exact ⟨x.after ++ ']' :: r, by simp [commas, Cell.all]⟩
          | cons y l => exact ⟨x.after ++ ',' :: (commas ((y :: l).map Cell.all) ++ ']' :: r), by simp [commas, Cell.all]⟩
        have hs := (means_starts (h x List.mem_cons_self)).append rest
        rw [e, skipSpace_blank h1, skipSpace_starts hs]
        obtain ⟨c, t, e', _, _, _, _, h5, _⟩ := hs
        intro s he
        rw [e'] at he
        exact h5 (List.cons.inj he).1
    unfold readValue
    simp only []
    rw [this]; rfl
  | dict l d hl hb hk h hd ih =>
    intro n r hr hn
    obtain ⟨m, rfl⟩ := pos (means_starts (F := F) (.dict l d hl hb hk h hd)) hn
    have := readItems_entries l hl hb hk h ih r m
      (by simp only [List.length_cons, List.length_append, List.length_nil] at hn; omega)
    simp only [List.cons_append, List.append_assoc, List.nil_append]
    have hne : ∀ s, skipSpace (commas (l.map Entry.all) ++ '}' :: r) ≠ '}' :: s := by
      cases l with
      | nil => exact absurd rfl hl
      | cons x l =>
        obtain ⟨h1, h2⟩ := hb x List.mem_cons_self
        obtain ⟨rest, e⟩ : ∃ rest, commas ((x :: l).map Entry.all) ++ '}' :: r = x.first ++ ('"' :: rest) := by
          cases l with
          | nil => exact ⟨x.spelling ++ '"' :: (x.between ++ ':' :: x.toCell.all) ++ '}' :: r, by simp [commas, Entry.all]⟩
          | cons y l => exact ⟨x.spelling ++ '"' :: (x.between ++ ':' :: x.toCell.all) ++
              ',' :: (commas ((y :: l).map Entry.all) ++ '}' :: r), by simp [commas, Entry.all]⟩
        rw [e, skipSpace_blank h1, skipSpace_cons (by decide)]
        intro s he
        exact absurd (List.cons.inj he).1 (by decide)
    unfold readValue
    simp only []
    rw [this, dictOf_unique hd]; rfl

/-! ### Everything that is read is in the grammar -/

theorem afterWord_sound {word : String} {s r : PyStr} (h : afterWord word s = some r) : s = word.toList ++ r := by
  unfold afterWord at h
  split at h
  · rename_i e; cases h; rw [← e, List.take_append_drop]
  · cases h

theorem readAtom_sound {F : FloatText} {s r : PyStr} {j : Json} (h : readAtom F s = some (j, r)) :
    ∃ t, s = t ++ r ∧ JsonMeans F t j := by
  unfold readAtom at h
  split at h
  · rename_i e; cases h; exact ⟨_, afterWord_sound e, .null⟩
  split at h
  · rename_i e; cases h; exact ⟨_, afterWord_sound e, .true⟩
  split at h
  · rename_i e; cases h; exact ⟨_, afterWord_sound e, .false⟩
  split at h
  · rename_i e; cases h; exact readNumber_sound e
  split at h
  · rename_i e; cases h; exact ⟨_, afterWord_sound e, .nan⟩
  split at h
  · rename_i e; cases h; exact ⟨_, afterWord_sound e, .infinity⟩
  split at h
  · rename_i e; cases h; exact ⟨_, afterWord_sound e, .minusInfinity⟩
  · cases h

/-- What `readElements` and `readItems` return. -/
def CellsOf (F : FloatText) (s : PyStr) (js : List Json) (r : PyStr) : Prop :=
  ∃ l : List Cell, l ≠ [] ∧ (∀ x ∈ l, WhiteSpace x.before ∧ WhiteSpace x.after) ∧ (∀ x ∈ l, JsonMeans F x.text x.value) ∧
    l.map Cell.value = js ∧ s = commas (l.map Cell.all) ++ ']' :: r

/-- What `readItems` returns. -/
def EntriesOf (F : FloatText) (s : PyStr) (ps : List (String × Json)) (r : PyStr) : Prop :=
  ∃ l : List Entry, l ≠ [] ∧ (∀ x ∈ l, WhiteSpace x.first ∧ WhiteSpace x.between ∧ WhiteSpace x.before ∧ WhiteSpace x.after) ∧
    (∀ x ∈ l, StrText x.spelling x.key) ∧ (∀ x ∈ l, JsonMeans F x.text x.value) ∧
    l.map (fun x => (String.ofList x.key, x.value)) = ps ∧ s = commas (l.map Entry.all) ++ '}' :: r

theorem cellsOf_blank {F : FloatText} {a s r : PyStr} {js : List Json} (ha : WhiteSpace a) (h : CellsOf F s js r) :
    CellsOf F (a ++ s) js r := by
  obtain ⟨l, hl, hb, hm, hv, rfl⟩ := h
  cases l with
  | nil => exact absurd rfl hl
  | cons x l =>
    refine ⟨{ x with before := a ++ x.before } :: l, by simp, ?_, ?_, ?_, ?_⟩
    · intro y hy
      rcases List.mem_cons.1 hy with rfl | hy
      · refine ⟨fun c hc => ?_, (hb x List.mem_cons_self).2⟩
        rcases List.mem_append.1 hc with hc | hc
        · exact ha c hc
        · exact (hb x List.mem_cons_self).1 c hc
      · exact hb y (List.mem_cons_of_mem _ hy)
    · intro y hy
      rcases List.mem_cons.1 hy with rfl | hy
      · exact hm x List.mem_cons_self
      · exact hm y (List.mem_cons_of_mem _ hy)
    · rw [← hv]; rfl
    · cases l with
      | nil => simp [commas, Cell.all]
      | cons y l => simp [commas, Cell.all]

theorem entriesOf_blank {F : FloatText} {a s r : PyStr} {ps : List (String × Json)} (ha : WhiteSpace a) (h : EntriesOf F s ps r) :
    EntriesOf F (a ++ s) ps r := by
  obtain ⟨l, hl, hb, hk, hm, hv, rfl⟩ := h
  cases l with
  | nil => exact absurd rfl hl
  | cons x l =>
    refine ⟨{ x with first := a ++ x.first } :: l, by simp, ?_, ?_, ?_, ?_, ?_⟩
    · intro y hy
      rcases List.mem_cons.1 hy with rfl | hy
      · refine ⟨fun c hc => ?_, (hb x List.mem_cons_self).2⟩
        rcases List.mem_append.1 hc with hc | hc
        · exact ha c hc
        · exact (hb x List.mem_cons_self).1 c hc
      · exact hb y (List.mem_cons_of_mem _ hy)
    · intro y hy
      rcases List.mem_cons.1 hy with rfl | hy
      · exact hk x List.mem_cons_self
      · exact hk y (List.mem_cons_of_mem _ hy)
    · intro y hy
      rcases List.mem_cons.1 hy with rfl | hy
      · exact hm x List.mem_cons_self
      · exact hm y (List.mem_cons_of_mem _ hy)
    · rw [← hv]; rfl
    · cases l with
      | nil => simp [commas, Entry.all]
      | cons y l => simp [commas, Entry.all]

theorem read_sound (F : FloatText) : ∀ n : Nat,
    (∀ s j r, readValue F n s = some (j, r) → ∃ t, s = t ++ r ∧ JsonMeans F t j) ∧
    (∀ s js r, readElements F n s = some (js, r) → CellsOf F s js r) ∧
    (∀ s ps r, readItems F n s = some (ps, r) → EntriesOf F s ps r)
  | 0 => by
    refine ⟨?_, ?_, ?_⟩ <;> intro s j r h
    · unfold readValue at h; cases h
    · unfold readElements at h; cases h
    · unfold readItems at h; cases h
  | n + 1 => by
    obtain ⟨ihv, ihe, ihi⟩ := read_sound F n
    refine ⟨?_, ?_, ?_⟩
    · intro s j r h
      unfold readValue at h
      split at h
      · rename_i s
        cases hs : readJsonStr s.length s with
        | none => rw [hs] at h; cases h
        | some x =>
          obtain ⟨x, r'⟩ := x
          rw [hs] at h
          cases h
          obtain ⟨t, rfl, ht⟩ := readJsonStr_sound _ hs
          exact ⟨'"' :: (t ++ ['"']), by simp, .str t x ht⟩
      · rename_i s
        obtain ⟨a, e, ha⟩ := skipSpace_split s
        split at h
        · rename_i s' e'
          cases h
          rw [e'] at e
          exact ⟨'[' :: (a ++ [']']), by rw [e]; simp, .empty a ha⟩
        · cases hs : readElements F n (skipSpace s) with
          | none => rw [hs] at h; cases h
          | some x =>
            obtain ⟨js, r'⟩ := x
            rw [hs] at h
            cases h
            have := cellsOf_blank ha (ihe _ _ _ hs)
            rw [← e] at this
            obtain ⟨l, hl, hb, hm, rfl, rfl⟩ := this
            exact ⟨'[' :: (commas (l.map Cell.all) ++ [']']), by simp, .list l hl hb hm⟩
      · rename_i s
        obtain ⟨a, e, ha⟩ := skipSpace_split s
        split at h
        · rename_i s' e'
          cases h
          rw [e'] at e
          exact ⟨'{' :: (a ++ ['}']), by rw [e]; simp, .emptyDict a ha⟩
        · cases hs : readItems F n (skipSpace s) with
          | none => rw [hs] at h; cases h
          | some x =>
            obtain ⟨ps, r'⟩ := x
            rw [hs] at h
            cases h
            have := entriesOf_blank ha (ihi _ _ _ hs)
            rw [← e] at this
            obtain ⟨l, hl, hb, hk, hm, rfl, rfl⟩ := this
            exact ⟨'{' :: (commas (l.map Entry.all) ++ ['}']), by simp, .dict l _ hl hb hk hm (dictOf_spec _)⟩
      · exact readAtom_sound h
    · intro s js r h
      unfold readElements at h
      cases hv : readValue F n s with
      | none => rw [hv] at h; cases h
      | some x =>
        obtain ⟨j, s1⟩ := x
        rw [hv] at h
        dsimp only at h
        obtain ⟨t, rfl, ht⟩ := ihv _ _ _ hv
        obtain ⟨b, eb, hb⟩ := skipSpace_split s1
        split at h
        · rename_i s2 e2
          cases h
          rw [e2] at eb
          refine ⟨[⟨[], t, b, j⟩], by simp, ?_, ?_, rfl, by rw [eb]; simp [commas, Cell.all]⟩
          · intro x hx; rw [List.mem_singleton] at hx; subst hx; exact ⟨blank_nil, hb⟩
          · intro x hx; rw [List.mem_singleton] at hx; subst hx; exact ht
        · rename_i s2 e2
          rw [e2] at eb
          cases hs : readElements F n (skipSpace s2) with
          | none => rw [hs] at h; cases h
          | some x =>
            obtain ⟨js', r'⟩ := x
            rw [hs] at h
            cases h
            obtain ⟨a, ea, ha⟩ := skipSpace_split s2
            have := cellsOf_blank ha (ihe _ _ _ hs)
            rw [← ea] at this
            obtain ⟨l, hl, hbl, hm, rfl, e3⟩ := this
            refine ⟨⟨[], t, b, j⟩ :: l, by simp, ?_, ?_, rfl, ?_⟩
            · intro x hx
              rcases List.mem_cons.1 hx with rfl | hx
              · exact ⟨blank_nil, hb⟩
              · exact hbl x hx
            · intro x hx
              rcases List.mem_cons.1 hx with rfl | hx
              · exact ht
              · exact hm x hx
            · rw [eb, e3]
              cases l with
              | nil => exact absurd rfl hl
              | cons y l => simp [commas, Cell.all]
        · cases h
    · intro s ps r h
      unfold readItems at h
      split at h
      · rename_i s
        cases hk : readJsonStr s.length s with
        | none => rw [hk] at h; cases h
        | some x =>
          obtain ⟨k, s1⟩ := x
          rw [hk] at h
          dsimp only at h
          obtain ⟨sp, rfl, hsp⟩ := readJsonStr_sound _ hk
          obtain ⟨b, eb, hb⟩ := skipSpace_split s1
          split at h
          · rename_i s2 e2
            rw [e2] at eb
            obtain ⟨c, ec, hc⟩ := skipSpace_split s2
            cases hv : readValue F n (skipSpace s2) with
            | none => rw [hv] at h; cases h
            | some x =>
              obtain ⟨j, s3⟩ := x
              rw [hv] at h
              dsimp only at h
              obtain ⟨t, et, ht⟩ := ihv _ _ _ hv
              rw [et] at ec
              obtain ⟨d, ed, hd⟩ := skipSpace_split s3
              split at h
              · rename_i s4 e4
                cases h
                rw [e4] at ed
                refine ⟨[{ before := c, text := t, after := d, value := j, first := [], spelling := sp, key := k, between := b }],
                  by simp, ?_, ?_, ?_, rfl, by rw [eb, ec, ed]; simp [commas, Entry.all, Cell.all]⟩
                · intro x hx; rw [List.mem_singleton] at hx; subst hx; exact ⟨blank_nil, hb, hc, hd⟩
                · intro x hx; rw [List.mem_singleton] at hx; subst hx; exact hsp
                · intro x hx; rw [List.mem_singleton] at hx; subst hx; exact ht
              · rename_i s4 e4
                rw [e4] at ed
                cases hs : readItems F n (skipSpace s4) with
                | none => rw [hs] at h; cases h
                | some x =>
                  obtain ⟨ps', r'⟩ := x
                  rw [hs] at h
                  cases h
                  obtain ⟨a, ea, ha⟩ := skipSpace_split s4
                  have := entriesOf_blank ha (ihi _ _ _ hs)
                  rw [← ea] at this
                  obtain ⟨l, hl, hbl, hkl, hm, rfl, e5⟩ := this
                  refine ⟨{ before := c, text := t, after := d, value := j, first := [], spelling := sp, key := k, between := b } :: l,
                    by simp, ?_, ?_, ?_, rfl, ?_⟩
                  · intro x hx
                    rcases List.mem_cons.1 hx with rfl | hx
                    · exact ⟨blank_nil, hb, hc, hd⟩
                    · exact hbl x hx
                  · intro x hx
                    rcases List.mem_cons.1 hx with rfl | hx
                    · exact hsp
                    · exact hkl x hx
                  · intro x hx
                    rcases List.mem_cons.1 hx with rfl | hx
                    · exact ht
                    · exact hm x hx
                  · rw [eb, ec, ed, e5]
                    cases l with
                    | nil => exact absurd rfl hl
                    | cons y l => simp [commas, Entry.all, Cell.all]
              · cases h
          · cases h
      · cases h

end Elgas
