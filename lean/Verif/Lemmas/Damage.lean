import Verif.Props.Frames
import Verif.Props.Escape
import Verif.Lemmas.Connection
import Verif.Spec.Damage
/-!
What one changed, lost or added byte of an escaped frame can do to the frame that is decoded, and
why the result is not accepted unless it is the frame itself. Used by `Verif.Props.Damage`.
-/
namespace Elgas
open Spec

/-- Two codes whose roles are exchanged when the escape pairs are read one byte late. -/
def Shift (p q : UInt8) : Prop := (p = 0x0D ∧ q = 0x0E) ∨ (p = 0x8D ∧ q = 0x0F)

/-- An escape byte in front of escaped bytes: the pairs are read one byte late, up to the first
byte that is not an escape byte. -/
theorem misread (B : Bytes) :
    ∃ out, returnCharacters (0x1B :: (escBytes B ++ [0x0D])) = .ok (out ++ [0x0D]) ∧
      (out = 0x1B :: B ∨ ∃ M p q B', (∀ m ∈ M, m = 0x1B) ∧ B = M ++ p :: B' ∧
        ((Shift q p ∧ out = M ++ q :: B') ∨ (Shift p q ∧ out = 0x1B :: (M ++ q :: B')))) := by
  induction B with
  | nil => exact ⟨[0x1B], by decide, .inl rfl⟩
  | cons b B ih =>
    have hend : returnCharacters (escBytes B ++ [0x0D]) = .ok (B ++ [0x0D]) :=
      returnCharacters_escBytes B [0x0D] [0x0D] (by decide)
    rw [escBytes_cons]
    by_cases h1 : b = 0x0D
    · subst h1
      refine ⟨0x1B :: 0x0E :: B, ?_, .inr ⟨[], 0x0D, 0x0E, B, by simp, rfl, .inr ⟨.inl ⟨rfl, rfl⟩, rfl⟩⟩⟩
      simp [escByte, returnCharacters, returnCharacters_cons_ne 0x0E _ (by decide), hend]
    by_cases h2 : b = 0x8D
    · subst h2
      refine ⟨0x1B :: 0x0F :: B, ?_, .inr ⟨[], 0x8D, 0x0F, B, by simp, rfl, .inr ⟨.inr ⟨rfl, rfl⟩, rfl⟩⟩⟩
      simp [escByte, returnCharacters, returnCharacters_cons_ne 0x0F _ (by decide), hend]
    by_cases h3 : b = 0x1B
    · subst h3
      obtain ⟨out, ho, hc⟩ := ih
      refine ⟨0x1B :: out, ?_, ?_⟩
      · simp [escByte, returnCharacters, ho]
      · rcases hc with rfl | ⟨M, p, q, B', hM, rfl, hc⟩
        · exact .inl rfl
        · refine .inr ⟨0x1B :: M, p, q, B', by simpa using hM, rfl, ?_⟩
          rcases hc with ⟨hs, rfl⟩ | ⟨hs, rfl⟩
          · exact .inl ⟨hs, rfl⟩
          · exact .inr ⟨hs, rfl⟩
    have he : escByte b = [b] := by simp [escByte, h1, h2, h3]
    rw [he]
    by_cases h4 : b = 0x0E
    · subst h4
      refine ⟨0x0D :: B, ?_, .inr ⟨[], 0x0E, 0x0D, B, by simp, rfl, .inl ⟨.inl ⟨rfl, rfl⟩, rfl⟩⟩⟩
      simp [returnCharacters, hend]
    by_cases h5 : b = 0x0F
    · subst h5
      refine ⟨0x8D :: B, ?_, .inr ⟨[], 0x0F, 0x8D, B, by simp, rfl, .inl ⟨.inr ⟨rfl, rfl⟩, rfl⟩⟩⟩
      simp [returnCharacters, hend]
    refine ⟨0x1B :: b :: B, ?_, .inl rfl⟩
    simp [returnCharacters, h3, h4, h5, hend]

/-- The second byte of an escape pair. -/
def Pair (X x : UInt8) : Prop := (X = 0x0D ∧ x = 0x0E) ∨ (X = 0x1B ∧ x = 0x1B) ∨ (X = 0x8D ∧ x = 0x0F)

theorem escByte_cases (X : UInt8) :
    (escByte X = [X] ∧ X ≠ 0x0D ∧ X ≠ 0x1B ∧ X ≠ 0x8D) ∨ ∃ x, Pair X x ∧ escByte X = [0x1B, x] := by
  unfold escByte Pair
  by_cases h1 : X = 0x0D
  · exact .inr ⟨0x0E, .inl ⟨h1, rfl⟩, by simp [h1]⟩
  by_cases h2 : X = 0x1B
  · exact .inr ⟨0x1B, .inr (.inl ⟨h2, rfl⟩), by simp [h2]⟩
  by_cases h3 : X = 0x8D
  · exact .inr ⟨0x0F, .inr (.inr ⟨h3, rfl⟩), by simp [h3]⟩
  exact .inl ⟨by simp [h1, h2, h3], h1, h2, h3⟩

/-- A place in an escaped frame: between two coded bytes, inside a pair, or behind the end. -/
theorem wire_split (G p q : Bytes) (h : p ++ q = escBytes G ++ [0x0D]) :
    (∃ A B, G = A ++ B ∧ p = escBytes A ∧ q = escBytes B ++ [0x0D]) ∨
    (∃ A X x B, G = A ++ X :: B ∧ Pair X x ∧ p = escBytes A ++ [0x1B] ∧
      q = x :: (escBytes B ++ [0x0D])) ∨
    (q = [] ∧ p = escBytes G ++ [0x0D]) := by
  induction G generalizing p with
  | nil =>
    cases p with
    | nil => exact .inl ⟨[], [], rfl, rfl, by simpa using h⟩
    | cons a p =>
      have : p = [] ∧ q = [] := by
        have := congrArg List.length h
        simp only [List.length_append, List.length_cons, List.length_nil,
          show escBytes [] = [] from rfl] at this
        exact ⟨List.length_eq_zero_iff.1 (by omega), List.length_eq_zero_iff.1 (by omega)⟩
      obtain ⟨rfl, rfl⟩ := this
      exact .inr (.inr ⟨rfl, by simpa using h⟩)
  | cons X G ih =>
    cases p with
    | nil => exact .inl ⟨[], X :: G, rfl, rfl, by simpa using h⟩
    | cons a p =>
      rw [escBytes_cons] at h
      rcases escByte_cases X with ⟨he, _⟩ | ⟨x, hx, he⟩
      · rw [he] at h
        simp only [List.cons_append, List.nil_append, List.cons.injEq] at h
        obtain ⟨rfl, h⟩ := h
        rcases ih p h with ⟨A, B, rfl, rfl, rfl⟩ | ⟨A, Y, y, B, rfl, hy, rfl, rfl⟩ | ⟨rfl, rfl⟩
        · exact .inl ⟨a :: A, B, rfl, by rw [escBytes_cons, he]; rfl, rfl⟩
        · exact .inr (.inl ⟨a :: A, Y, y, B, rfl, hy, by rw [escBytes_cons, he]; rfl, rfl⟩)
        · exact .inr (.inr ⟨rfl, by rw [escBytes_cons, he]; rfl⟩)
      · rw [he] at h
        simp only [List.cons_append, List.nil_append, List.cons.injEq] at h
        obtain ⟨rfl, h⟩ := h
        cases p with
        | nil =>
          exact .inr (.inl ⟨[], X, x, G, rfl, hx, by simp [escBytes], by simpa using h⟩)
        | cons c p =>
          simp only [List.cons_append, List.cons.injEq] at h
          obtain ⟨rfl, h⟩ := h
          rcases ih p h with ⟨A, B, rfl, rfl, rfl⟩ | ⟨A, Y, y, B, rfl, hy, rfl, rfl⟩ | ⟨rfl, rfl⟩
          · exact .inl ⟨X :: A, B, rfl, by rw [escBytes_cons, he]; rfl, rfl⟩
          · exact .inr (.inl ⟨X :: A, Y, y, B, rfl, hy, by rw [escBytes_cons, he]; rfl, rfl⟩)
          · exact .inr (.inr ⟨rfl, by rw [escBytes_cons, he]; rfl⟩)

/-- What a damaged line decodes to (`H`), against the frame that was sent (`G`), both without the
end character. -/
inductive Turned : Bytes → Bytes → Prop
  | same (G) : Turned G G
  | cut (A X B) : Turned (A ++ X :: B) A
  | cutEsc (A X B) : Turned (A ++ X :: B) (A ++ [0x1B])
  | sub (A a a' B) : Turned (A ++ a :: B) (A ++ a' :: B)
  | sub2 (A a a' M p q B) : (a' = 0x1B ∧ Shift p q ∨ a = 0x1B ∧ Shift q p) →
      Turned (A ++ a :: (M ++ p :: B)) (A ++ a' :: (M ++ q :: B))
  | ins (A v M p q B) : (∀ m ∈ M, m = 0x1B) → (p = q ∨ Shift p q) →
      Turned (A ++ (M ++ p :: B)) (A ++ v :: (M ++ q :: B))
  | insEnd (A v) : Turned A (A ++ [v])
  | del (A X M p q B) : (∀ m ∈ M, m = 0x1B) → (p = q ∨ Shift q p) →
      Turned (A ++ X :: (M ++ p :: B)) (A ++ (M ++ q :: B))
  | grow (A X x B V) : Pair X x → (V.length = B.length + 1 ∨ V.length = B.length + 2) →
      Turned (A ++ X :: B) (A ++ 0x1B :: V)

theorem turned_ins (A : Bytes) (v : UInt8) (B : Bytes) : Turned (A ++ B) (A ++ v :: B) := by
  cases B with
  | nil => simpa using Turned.insEnd A v
  | cons b B => exact .ins A v [] b b B (by simp) (.inl rfl)

theorem decode_append (A rest out : Bytes) (h : returnCharacters rest = .ok out) :
    returnCharacters (escBytes A ++ rest) = .ok (A ++ out) := returnCharacters_escBytes A rest out h

theorem decode_end (B : Bytes) : returnCharacters (escBytes B ++ [0x0D]) = .ok (B ++ [0x0D]) :=
  returnCharacters_escBytes B [0x0D] [0x0D] (by decide)

theorem decode_plain {b : UInt8} {rest out : Bytes} (hb : b ≠ 0x1B) (h : returnCharacters rest = .ok out) :
    returnCharacters (b :: rest) = .ok (b :: out) := by
  rw [returnCharacters_cons_ne b rest hb, h]; rfl

theorem decode_pair (n : UInt8) {rest out : Bytes} (h : returnCharacters rest = .ok out) :
    returnCharacters (0x1B :: n :: rest) = .ok (unescPair n ++ out) := by
  unfold unescPair
  by_cases h1 : n = 0x0E
  · subst h1; simp [returnCharacters, h]
  by_cases h2 : n = 0x1B
  · subst h2; simp [returnCharacters, h]
  by_cases h3 : n = 0x0F
  · subst h3; simp [returnCharacters, h]
  simp [returnCharacters, h, h1, h2, h3]

/-- An extra escape byte between two coded bytes. -/
theorem turned_extra (A B : Bytes) : ∃ out,
    returnCharacters (0x1B :: (escBytes B ++ [0x0D])) = .ok (out ++ [0x0D]) ∧ Turned (A ++ B) (A ++ out) := by
  obtain ⟨out, ho, hc⟩ := misread B
  refine ⟨out, ho, ?_⟩
  rcases hc with rfl | ⟨M, p, q, B', hM, rfl, ⟨hs, rfl⟩ | ⟨hs, rfl⟩⟩
  · exact turned_ins A _ B
  · have := Turned.sub (A ++ M) p q B'
    simpa using this
  · exact .ins A _ M p q B' hM (.inr hs)

/-- A byte replaced by an escape byte that takes the next one with it. -/
theorem turned_instead (A : Bytes) (X : UInt8) (B : Bytes) : ∃ out,
    returnCharacters (0x1B :: (escBytes B ++ [0x0D])) = .ok (out ++ [0x0D]) ∧
      Turned (A ++ X :: B) (A ++ out) := by
  obtain ⟨out, ho, hc⟩ := misread B
  refine ⟨out, ho, ?_⟩
  rcases hc with rfl | ⟨M, p, q, B', hM, rfl, ⟨hs, rfl⟩ | ⟨hs, rfl⟩⟩
  · exact .sub A X _ B
  · exact .del A X M p q B' hM (.inr hs)
  · exact .sub2 A X _ M p q B' (.inl ⟨rfl, hs⟩)

/-- A byte in place of the first half of the pair `0x1B 0x1B`. -/
theorem turned_half (A : Bytes) (v : UInt8) (B : Bytes) : ∃ out,
    returnCharacters (0x1B :: (escBytes B ++ [0x0D])) = .ok (out ++ [0x0D]) ∧
      (out.length = B.length ∨ out.length = B.length + 1) ∧
      Turned (A ++ 0x1B :: B) (A ++ v :: out) := by
  obtain ⟨out, ho, hc⟩ := misread B
  refine ⟨out, ho, ?_⟩
  rcases hc with rfl | ⟨M, p, q, B', hM, rfl, ⟨hs, rfl⟩ | ⟨hs, rfl⟩⟩
  · exact ⟨.inr rfl, turned_ins A v (0x1B :: B)⟩
  · exact ⟨.inl (by simp), .sub2 A _ v M p q B' (.inr ⟨rfl, hs⟩)⟩
  · exact ⟨.inr (by simp), .ins A v (0x1B :: M) p q B' (by simpa using hM) (.inr hs)⟩

/-- The first line of `line'`, decoded, is what the frame `G` turned into; if it is `G`, no more than two bytes
follow. -/
def FirstLine (G line' : Bytes) : Prop :=
  0x0D ∉ line' ∨ ∃ w rest H, line' = w ++ 0x0D :: rest ∧ 0x0D ∉ w ∧
    returnCharacters (w ++ [0x0D]) = .ok (H ++ [0x0D]) ∧ Turned G H ∧ (rest.length ≤ 2 ∨ H ≠ G)

theorem FirstLine.mk' {G : Bytes} (A T rest K : Bytes) (hT : 0x0D ∉ T)
    (hd : returnCharacters (T ++ [0x0D]) = .ok (K ++ [0x0D])) (ht : Turned G (A ++ K))
    (hr : rest.length ≤ 2 ∨ A ++ K ≠ G := by first | (left; simp; done) | (right; simp; done)) :
    FirstLine G (escBytes A ++ (T ++ 0x0D :: rest)) := by
  refine .inr ⟨escBytes A ++ T, rest, A ++ K, by simp, ?_, ?_, ht, hr⟩
  · simp only [List.mem_append, not_or]; exact ⟨(escBytes_no_end A).1, hT⟩
  · rw [List.append_assoc, decode_append A _ _ hd, List.append_assoc]

theorem short_rest (A : Bytes) (X : UInt8) (B rest : Bytes) (h : B = [] → rest.length ≤ 2) :
    rest.length ≤ 2 ∨ A ++ [0x1B] ≠ A ++ X :: B := by
  cases B with
  | nil => exact .inl (h rfl)
  | cons b B => exact .inr (by simp)

theorem no_end (B : Bytes) : 0x0D ∉ escBytes B := (escBytes_no_end B).1

/-- What one damaged byte makes of an escaped frame. -/
theorem damaged_firstLine {G line' : Bytes} (h : Damaged (escBytes G ++ [0x0D]) line') :
    FirstLine G line' := by
  generalize hl : escBytes G ++ [0x0D] = line at h
  cases h with
  | changed before b v after hv =>
    rcases wire_split G before (b :: after) hl.symm with
      ⟨A, B, rfl, rfl, hq⟩ | ⟨A, X, x, B, rfl, hx, rfl, hq⟩ | ⟨hq, _⟩
    · cases B with
      | nil =>
        simp only [show escBytes [] = [] from rfl, List.nil_append, List.cons.injEq] at hq
        obtain ⟨rfl, rfl⟩ := hq
        left; simp [no_end A, Ne.symm hv]
      | cons X B =>
        rw [escBytes_cons] at hq
        rcases escByte_cases X with ⟨he, h1, h2, h3⟩ | ⟨x, hx, he⟩
        · rw [he] at hq
          simp only [List.cons_append, List.nil_append, List.cons.injEq] at hq
          obtain ⟨rfl, rfl⟩ := hq
          by_cases v1 : v = 0x0D
          · subst v1
            exact .mk' A [] _ [] (by simp) (by decide) (by simpa using Turned.cut A b B)
          by_cases v2 : v = 0x1B
          · subst v2
            obtain ⟨out, ho, ht⟩ := turned_instead A b B
            exact .mk' A (0x1B :: escBytes B) [] out (by simp [no_end B]) (by simpa using ho) ht
          · exact .mk' A (v :: escBytes B) [] (v :: B) (by simp [no_end B, Ne.symm v1])
              (decode_plain v2 (decode_end B)) (.sub A b v B)
        · rw [he] at hq
          simp only [List.cons_append, List.nil_append, List.cons.injEq] at hq
          obtain ⟨rfl, rfl⟩ := hq
          by_cases v1 : v = 0x0D
          · subst v1
            exact .mk' A [] _ [] (by simp) (by decide) (by simpa using Turned.cut A X B)
          rcases hx with ⟨rfl, rfl⟩ | ⟨rfl, rfl⟩ | ⟨rfl, rfl⟩
          · exact .mk' A (v :: 0x0E :: escBytes B) [] (v :: 0x0E :: B) (by simp [no_end B, Ne.symm v1])
              (decode_plain hv (decode_plain (by decide) (decode_end B)))
              (.ins A v [] 0x0D 0x0E B (by simp) (.inr (.inl ⟨rfl, rfl⟩)))
          · obtain ⟨out, ho, _, ht⟩ := turned_half A v B
            exact .mk' A (v :: 0x1B :: escBytes B) [] (v :: out) (by simp [no_end B, Ne.symm v1])
              (decode_plain hv (by simpa using ho)) ht
          · exact .mk' A (v :: 0x0F :: escBytes B) [] (v :: 0x0F :: B) (by simp [no_end B, Ne.symm v1])
              (decode_plain hv (decode_plain (by decide) (decode_end B)))
              (.ins A v [] 0x8D 0x0F B (by simp) (.inr (.inr ⟨rfl, rfl⟩)))
    · simp only [List.cons.injEq] at hq
      obtain ⟨rfl, rfl⟩ := hq
      simp only [List.append_assoc, List.singleton_append]
      by_cases v1 : v = 0x0D
      · subst v1
        exact .mk' A [0x1B] _ [0x1B] (by decide) (by decide) (Turned.cutEsc A X B) (short_rest A X B _ (by rintro rfl; simp [show escBytes [] = [] from rfl]))
      have hd := decode_pair v (decode_end B)
      unfold unescPair at hd
      by_cases v2 : v = 0x0E
      · subst v2
        exact .mk' A (0x1B :: 0x0E :: escBytes B) [] (0x0D :: B) (by simp [no_end B])
          (by simpa using hd) (.sub A X _ B)
      by_cases v3 : v = 0x1B
      · subst v3
        exact .mk' A (0x1B :: 0x1B :: escBytes B) [] (0x1B :: B) (by simp [no_end B])
          (by simpa using hd) (.sub A X _ B)
      by_cases v4 : v = 0x0F
      · subst v4
        exact .mk' A (0x1B :: 0x0F :: escBytes B) [] (0x8D :: B) (by simp [no_end B])
          (by simpa using hd) (.sub A X _ B)
      · rw [if_neg v2, if_neg v3, if_neg v4] at hd
        exact .mk' A (0x1B :: v :: escBytes B) [] (0x1B :: v :: B) (by simp [no_end B, Ne.symm v1])
          hd (.grow A X b B (v :: B) hx (.inl rfl))
    · simp at hq
  | lost before b after =>
    rcases wire_split G before (b :: after) hl.symm with
      ⟨A, B, rfl, rfl, hq⟩ | ⟨A, X, x, B, rfl, hx, rfl, hq⟩ | ⟨hq, _⟩
    · cases B with
      | nil =>
        simp only [show escBytes [] = [] from rfl, List.nil_append, List.cons.injEq] at hq
        obtain ⟨rfl, rfl⟩ := hq
        left; simp [no_end A]
      | cons X B =>
        rw [escBytes_cons] at hq
        rcases escByte_cases X with ⟨he, h1, h2, h3⟩ | ⟨x, hx, he⟩
        · rw [he] at hq
          simp only [List.cons_append, List.nil_append, List.cons.injEq] at hq
          obtain ⟨rfl, rfl⟩ := hq
          refine .mk' A (escBytes B) [] B (no_end B) (decode_end B) ?_
          cases B with
          | nil => simpa using Turned.cut A b []
          | cons p B => exact .del A b [] p p B (by simp) (.inl rfl)
        · rw [he] at hq
          simp only [List.cons_append, List.nil_append, List.cons.injEq] at hq
          obtain ⟨rfl, rfl⟩ := hq
          rcases hx with ⟨rfl, rfl⟩ | ⟨rfl, rfl⟩ | ⟨rfl, rfl⟩
          · exact .mk' A (0x0E :: escBytes B) [] (0x0E :: B) (by simp [no_end B])
              (decode_plain (by decide) (decode_end B)) (.sub A _ _ B)
          · obtain ⟨out, ho, ht⟩ := turned_instead A 0x1B B
            exact .mk' A (0x1B :: escBytes B) [] out (by simp [no_end B]) (by simpa using ho) ht
          · exact .mk' A (0x0F :: escBytes B) [] (0x0F :: B) (by simp [no_end B])
              (decode_plain (by decide) (decode_end B)) (.sub A _ _ B)
    · simp only [List.cons.injEq] at hq
      obtain ⟨rfl, rfl⟩ := hq
      simp only [List.append_assoc, List.singleton_append]
      obtain ⟨out, ho, ht⟩ := turned_instead A X B
      exact .mk' A (0x1B :: escBytes B) [] out (by simp [no_end B]) (by simpa using ho) ht
    · simp at hq
  | added before v after =>
    rcases wire_split G before after hl.symm with
      ⟨A, B, rfl, rfl, rfl⟩ | ⟨A, X, x, B, rfl, hx, rfl, rfl⟩ | ⟨rfl, rfl⟩
    · by_cases v1 : v = 0x0D
      · subst v1
        cases B with
        | nil => exact .mk' A [] _ [] (by simp) (by decide) (by simpa using Turned.same A) (.inl (by simp [show escBytes [] = [] from rfl]))
        | cons b B => exact .mk' A [] _ [] (by simp) (by decide) (by simpa using Turned.cut A b B)
      by_cases v2 : v = 0x1B
      · subst v2
        obtain ⟨out, ho, ht⟩ := turned_extra A B
        exact .mk' A (0x1B :: escBytes B) [] out (by simp [no_end B]) (by simpa using ho) ht
      · exact .mk' A (v :: escBytes B) [] (v :: B) (by simp [no_end B, Ne.symm v1])
          (decode_plain v2 (decode_end B)) (turned_ins A v B)
    · simp only [List.append_assoc, List.singleton_append]
      by_cases v1 : v = 0x0D
      · subst v1
        exact .mk' A [0x1B] _ [0x1B] (by decide) (by decide) (Turned.cutEsc A X B) (short_rest A X B _ (by rintro rfl; simp [show escBytes [] = [] from rfl]))
      -- the pair `0x1B v`, then the byte that was the second half
      have hx1 : x ≠ 0x0D := by rcases hx with ⟨_, rfl⟩ | ⟨_, rfl⟩ | ⟨_, rfl⟩ <;> decide
      have hn : (0x0D : UInt8) ∉ (0x1B :: v :: x :: escBytes B : Bytes) := by
        simp [no_end B, Ne.symm v1, Ne.symm hx1]
      by_cases hu : v = 0x0E ∨ v = 0x0F ∨ v = 0x1B
      · obtain ⟨u, hu⟩ : ∃ u, unescPair v = [u] := by
          rcases hu with rfl | rfl | rfl <;> exact ⟨_, rfl⟩
        rcases hx with ⟨rfl, rfl⟩ | ⟨rfl, rfl⟩ | ⟨rfl, rfl⟩
        · refine .mk' A (0x1B :: v :: 0x0E :: escBytes B) [] (u :: 0x0E :: B) hn ?_
            (.ins A u [] 0x0D 0x0E B (by simp) (.inr (.inl ⟨rfl, rfl⟩)))
          have := decode_pair v (decode_plain (b := 0x0E) (by decide) (decode_end B))
          rw [hu] at this; exact this
        · obtain ⟨out, ho, _, ht⟩ := turned_half A u B
          refine .mk' A (0x1B :: v :: 0x1B :: escBytes B) [] (u :: out) hn ?_ ht
          have := decode_pair v ho
          rw [hu] at this; exact this
        · refine .mk' A (0x1B :: v :: 0x0F :: escBytes B) [] (u :: 0x0F :: B) hn ?_
            (.ins A u [] 0x8D 0x0F B (by simp) (.inr (.inr ⟨rfl, rfl⟩)))
          have := decode_pair v (decode_plain (b := 0x0F) (by decide) (decode_end B))
          rw [hu] at this; exact this
      · simp only [not_or] at hu
        have hu : unescPair v = [0x1B, v] := by simp [unescPair, hu]
        by_cases hx2 : x = 0x1B
        · subst hx2
          obtain ⟨out, ho, hlen, _⟩ := turned_half A v B
          refine .mk' A (0x1B :: v :: 0x1B :: escBytes B) [] (0x1B :: v :: out) hn ?_
            (.grow A X 0x1B B _ hx ?_)
          · have := decode_pair v ho
            rw [hu] at this; exact this
          · simp only [List.length_cons]; omega
        · refine .mk' A (0x1B :: v :: x :: escBytes B) [] (0x1B :: v :: x :: B) hn ?_
            (.grow A X x B _ hx (.inr rfl))
          have := decode_pair v (decode_plain hx2 (decode_end B))
          rw [hu] at this; exact this
    · exact .inr ⟨escBytes G, [v], G, by simp, no_end G, decode_end G, .same G, .inl (by simp)⟩


/-! ### Two accepted frames -/

/-- What is known of a frame that is accepted: its header and its redundancy bytes. -/
def GoodFrame (F : Bytes) : Prop :=
  (∃ ty svc l0 l1 tl, F = 0x02 :: 0xFE :: ty :: svc :: l0 :: l1 :: tl ∧ ty ∈ [(0x84 : UInt8), 0x85, 0x86, 0x87] ∧
    svc.toNat ∈ services ∧ l0.toNat + 256 * l1.toNat + 1 = F.length ∧ 9 ≤ F.length) ∧
  ∃ body l c r, F = 0x02 :: (body ++ [l, c, r, 0x0D]) ∧ l = xorAll body ∧ c.toNat = sumMod body ∧
    r = rotXor body

theorem good_accepted {ty : UInt8} (hty : ty ∈ [(0x84 : UInt8), 0x85, 0x86, 0x87]) {F : Bytes} {f : Frame}
    (ha : Accepted ty F f) : GoodFrame F := by
  have h9 : 9 ≤ F.length := by
    refine C12_min_length ty ?_ F f (frameFromBytes_iff.2 ha)
    simpa [requestType, encryptedRequestType, responseType, encryptedResponseType] using hty
  refine ⟨?_, accepted_decomp ha⟩
  match F, h9 with
  | x0 :: x1 :: x2 :: x3 :: x4 :: x5 :: tl, h9 =>
    obtain ⟨t, ht⟩ := startsWith_iff.1 ha.prefix_ok
    simp only [List.cons_append, List.nil_append, List.cons.injEq] at ht
    obtain ⟨rfl, rfl, rfl, _⟩ := ht
    have hs := service_ofValue_ok ha.service_ok
    have hl := ha.length_ok
    simp only [List.take_succ_cons, List.drop_succ_cons, List.take_zero, List.drop_zero, fromLE] at hs hl
    refine ⟨_, x3, x4, x5, tl, rfl, hty, ?_, by simpa using hl, h9⟩
    have : x3.toNat = f.service.value := by omega
    rw [this]
    cases f.service <;> decide

theorem good_of_accepted {F : Bytes} {e : Bool} {f : Frame} (h : responseFactory F = .ok (e, f)) :
    GoodFrame F := by
  refine good_accepted ?_ (factory_accepted h)
  cases e <;> simp [responseType, encryptedResponseType]

/-- A frame as the specification has it. -/
theorem good_frame {ty svc : UInt8} {address data : Bytes} (hty : ty ∈ [(0x84 : UInt8), 0x85, 0x86, 0x87])
    (hsvc : svc.toNat ∈ services) (ha : address.length = 6) (hl : data.length ≤ 65520) :
    GoodFrame (frame ty svc address data) := by
  obtain ⟨s, hs⟩ : ∃ s, ServiceNumber.ofValue svc.toNat = .ok s := (service_ofValue_mem _).2 hsvc
  match address, ha with
  | [a0, a1, a2, a3, a4, a5], _ => exact good_accepted hty (accepted_frame ty svc a0 a1 a2 a3 a4 a5 data s hs hl)

theorem good_head {F A B : Bytes} {b : UInt8} (h : GoodFrame F) (hF : F = A ++ b :: B) (hA : A.length ≤ 3) :
    b ≠ 0 ∧ b ≠ 3 ∧ b ≠ 0x82 ∧ b ≠ 0x1B := by
  obtain ⟨⟨ty, svc, l0, l1, tl, h1, h2, h3, _, _⟩, _⟩ := h
  rw [hF] at h1
  have hsvc : svc ≠ 0 ∧ svc ≠ 3 ∧ svc ≠ 0x82 ∧ svc ≠ 0x1B := by
    refine ⟨?_, ?_, ?_, ?_⟩ <;> (rintro rfl; exact absurd h3 (by decide))
  match A, hA with
  | [], _ =>
    simp only [List.nil_append, List.cons.injEq] at h1
    rw [h1.1]; decide
  | [_], _ =>
    simp only [List.cons_append, List.nil_append, List.cons.injEq] at h1
    rw [h1.2.1]; decide
  | [_, _], _ =>
    simp only [List.cons_append, List.nil_append, List.cons.injEq] at h1
    rw [h1.2.2.1]; simp only [List.mem_cons, List.not_mem_nil, or_false] at h2
    rcases h2 with rfl | rfl | rfl | rfl <;> decide
  | [_, _, _], _ =>
    simp only [List.cons_append, List.nil_append, List.cons.injEq] at h1
    rw [h1.2.2.2.1]; exact hsvc

/-- Frames that agree in their first six bytes have the same length. -/
theorem good_same {A B B' : Bytes} (h : GoodFrame (A ++ B)) (h' : GoodFrame (A ++ B')) (hA : 6 ≤ A.length) :
    B.length = B'.length := by
  obtain ⟨⟨ty, svc, l0, l1, tl, h1, _, _, h4, _⟩, _⟩ := h
  obtain ⟨⟨ty', svc', l0', l1', tl', h1', _, _, h4', _⟩, _⟩ := h'
  match A, hA with
  | _ :: _ :: _ :: _ :: _ :: _ :: A, _ =>
    simp only [List.cons_append, List.cons.injEq] at h1 h1'
    obtain ⟨_, _, _, _, rfl, rfl, _⟩ := h1
    obtain ⟨_, _, _, _, rfl, rfl, _⟩ := h1'
    simp only [List.cons_append, List.length_cons, List.length_append] at h4 h4'
    omega

theorem good_five {A B B' : Bytes} {b b' : UInt8} (h : GoodFrame (A ++ b :: B)) (h' : GoodFrame (A ++ b' :: B'))
    (hA : A.length = 5) : B.length % 256 = B'.length % 256 := by
  obtain ⟨⟨ty, svc, l0, l1, tl, h1, _, _, h4, _⟩, _⟩ := h
  obtain ⟨⟨ty', svc', l0', l1', tl', h1', _, _, h4', _⟩, _⟩ := h'
  match A, hA with
  | [_, _, _, _, _], _ =>
    simp only [List.cons_append, List.cons.injEq] at h1 h1'
    obtain ⟨_, _, _, _, rfl, _⟩ := h1
    obtain ⟨_, _, _, _, rfl, _⟩ := h1'
    simp only [List.cons_append, List.nil_append, List.length_cons] at h4 h4'
    omega

theorem good_four {A B B' : Bytes} {b b' : UInt8} (h : GoodFrame (A ++ b :: B)) (h' : GoodFrame (A ++ b' :: B'))
    (hA : A.length = 4) : (b'.toNat + B.length) % 256 = (b.toNat + B'.length) % 256 := by
  obtain ⟨⟨ty, svc, l0, l1, tl, h1, _, _, h4, _⟩, _⟩ := h
  obtain ⟨⟨ty', svc', l0', l1', tl', h1', _, _, h4', _⟩, _⟩ := h'
  match A, hA with
  | [_, _, _, _], _ =>
    simp only [List.cons_append, List.nil_append, List.cons.injEq] at h1 h1'
    obtain ⟨_, _, _, _, rfl, _⟩ := h1
    obtain ⟨_, _, _, _, rfl, _⟩ := h1'
    simp only [List.cons_append, List.nil_append, List.length_cons] at h4 h4'
    omega

/-- The longitudinal redundancy byte, with STX counted. -/
theorem good_lrc {P T : Bytes} (h : GoodFrame (P ++ T)) (hT : T.length = 4) :
    T[0]? = some (0x02 ^^^ xorAll P) := by
  obtain ⟨_, body, l, c, r, h1, h2, _, _⟩ := h
  have h1' : P ++ T = (0x02 :: body) ++ [l, c, r, 0x0D] := by rw [h1]; rfl
  have hl := congrArg List.length h1'
  simp only [List.length_append, List.length_cons, List.length_nil] at hl
  obtain ⟨rfl, rfl⟩ := List.append_inj h1' (by simp only [List.length_cons]; omega)
  simp [h2, ← UInt8.xor_assoc]

theorem xor_alg1 (a m v : UInt8) : v = 2 ^^^ (a ^^^ m) ^^^ (2 ^^^ (a ^^^ (v ^^^ m))) := by
  rw [show 2 ^^^ (a ^^^ m) ^^^ (2 ^^^ (a ^^^ (v ^^^ m))) = v ^^^ ((2 ^^^ 2) ^^^ ((a ^^^ a) ^^^ (m ^^^ m))) by
    ac_rfl]
  simp only [UInt8.xor_self, UInt8.xor_zero]

theorem xor_alg2 {m p b v q : UInt8} (h : m ^^^ (p ^^^ b) = v ^^^ (m ^^^ (q ^^^ b))) : v = p ^^^ q := by
  have h2 : (m ^^^ (p ^^^ b)) ^^^ (m ^^^ (q ^^^ b)) = (v ^^^ (m ^^^ (q ^^^ b))) ^^^ (m ^^^ (q ^^^ b)) := by
    rw [h]
  rw [show (m ^^^ (p ^^^ b)) ^^^ (m ^^^ (q ^^^ b)) = (p ^^^ q) ^^^ ((m ^^^ m) ^^^ (b ^^^ b)) by ac_rfl,
    UInt8.xor_assoc v] at h2
  simpa only [UInt8.xor_self, UInt8.xor_zero, eq_comm] using h2

theorem xor_alg3 {m p b a a' q : UInt8} (h : a ^^^ (m ^^^ (p ^^^ b)) = a' ^^^ (m ^^^ (q ^^^ b))) :
    a = a' ^^^ (p ^^^ q) := by
  have h2 : (a ^^^ (m ^^^ (p ^^^ b))) ^^^ (m ^^^ (p ^^^ b)) =
      (a' ^^^ (m ^^^ (q ^^^ b))) ^^^ (m ^^^ (p ^^^ b)) := by rw [h]
  rw [show (a' ^^^ (m ^^^ (q ^^^ b))) ^^^ (m ^^^ (p ^^^ b)) =
    (a' ^^^ (p ^^^ q)) ^^^ ((m ^^^ m) ^^^ (b ^^^ b)) by ac_rfl, UInt8.xor_assoc a] at h2
  simpa only [UInt8.xor_self, UInt8.xor_zero] using h2

/-- Frames that differ by one byte more and perhaps a change further on. -/
theorem one_more_xor {A M B : Bytes} {v p q : UInt8} (hs : GoodFrame (A ++ (M ++ p :: B)))
    (hl : GoodFrame (A ++ v :: (M ++ q :: B))) (hlen : 15 ≤ (A ++ (M ++ p :: B)).length) (hA : A.length ≤ 5) :
    v = 0 ∨ v = p ^^^ q := by
  simp only [List.length_append, List.length_cons] at hlen
  rcases Nat.lt_or_ge B.length 4 with hB | hB
  · rcases Nat.lt_or_ge B.length 3 with hB3 | hB3
    · -- the changed byte is behind the longitudinal redundancy byte
      left
      have hM : M = M.take (M.length - (3 - B.length)) ++ M.drop (M.length - (3 - B.length)) :=
        (List.take_append_drop _ _).symm
      have hM1 : (M.drop (M.length - (3 - B.length))).length = 3 - B.length := by simp; omega
      generalize M.take (M.length - (3 - B.length)) = M0 at *
      generalize M.drop (M.length - (3 - B.length)) = M1 at *
      subst hM
      cases M1 with
      | nil => simp at hM1; omega
      | cons m M1 =>
        simp only [List.length_cons] at hM1
        have e1 := good_lrc (P := A ++ M0) (T := m :: (M1 ++ p :: B)) (by simpa using hs)
          (by simp; omega)
        have e2 := good_lrc (P := A ++ v :: M0) (T := m :: (M1 ++ q :: B)) (by simpa using hl)
          (by simp; omega)
        simp only [List.getElem?_cons_zero, Option.some.injEq, xorAll_append, xorAll_cons] at e1 e2
        rw [e1] at e2
        have e3 := u8_xor_left_cancel.1 (u8_xor_left_cancel.1 e2)
        have : (0 : UInt8) ^^^ xorAll M0 = v ^^^ xorAll M0 := by rw [UInt8.zero_xor]; exact e3
        exact (u8_xor_right_cancel.1 this).symm
    · right
      have e1 := good_lrc (P := A ++ M) (T := p :: B) (by simpa using hs) (by simp; omega)
      have e2 := good_lrc (P := A ++ v :: M) (T := q :: B) (by simpa using hl) (by simp; omega)
      simp only [List.getElem?_cons_zero, Option.some.injEq, xorAll_append, xorAll_cons] at e1 e2
      rw [e1, e2]
      exact xor_alg1 _ _ _
  · right
    have hB' : B = B.take (B.length - 4) ++ B.drop (B.length - 4) := (List.take_append_drop _ _).symm
    have hB1 : (B.drop (B.length - 4)).length = 4 := by simp; omega
    generalize B.take (B.length - 4) = B0 at *
    generalize B.drop (B.length - 4) = T at *
    subst hB'
    have e1 := good_lrc (P := A ++ (M ++ p :: B0)) (T := T) (by simpa using hs) hB1
    have e2 := good_lrc (P := A ++ v :: (M ++ q :: B0)) (T := T) (by simpa using hl) hB1
    rw [e1] at e2
    simp only [Option.some.injEq, xorAll_append, xorAll_cons] at e2
    have e3 := u8_xor_left_cancel.1 (u8_xor_left_cancel.1 e2)
    exact xor_alg2 e3

theorem rot_prefix : ∀ ty ∈ [(0x84 : UInt8), 0x85, 0x86, 0x87], ∀ n ∈ services,
    rotl8 (rotXor [0xFE, ty, UInt8.ofNat n]) 1 ≠ rotXor [0xFE, ty, UInt8.ofNat n] := by decide

/-- A zero byte behind the service number changes the diagonal redundancy byte. -/
theorem zero_more {A B : Bytes} (hs : GoodFrame (A ++ B)) (hl : GoodFrame (A ++ 0 :: B)) (hA : A.length = 4)
    (hB : 4 ≤ B.length) : False := by
  obtain ⟨⟨ty, svc, l0, l1, tl, h1, h2, h3, _, _⟩, body, l, c, r, k1, _, _, k4⟩ := hs
  obtain ⟨_, body', l', c', r', k1', _, _, k4'⟩ := hl
  match A, hA with
  | [x0, x1, x2, x3], _ =>
    simp only [List.cons_append, List.nil_append, List.cons.injEq] at h1 k1 k1'
    obtain ⟨rfl, rfl, rfl, rfl, rfl⟩ := h1
    have hB' : (l0 :: l1 :: tl : Bytes) = (l0 :: l1 :: tl).take ((l0 :: l1 :: tl).length - 4) ++
      (l0 :: l1 :: tl).drop ((l0 :: l1 :: tl).length - 4) := (List.take_append_drop _ _).symm
    have hB1 : ((l0 :: l1 :: tl).drop ((l0 :: l1 :: tl).length - 4)).length = 4 := by
      rw [List.length_drop]; omega
    generalize (l0 :: l1 :: tl).take ((l0 :: l1 :: tl).length - 4) = B0 at *
    generalize (l0 :: l1 :: tl).drop ((l0 :: l1 :: tl).length - 4) = T at *
    generalize (l0 :: l1 :: tl : Bytes) = B at *
    subst hB'
    have e1 : [0xFE, x2, x3] ++ B0 ++ T = body ++ [l, c, r, 0x0D] := by simpa using k1.2
    have e2 : [0xFE, x2, x3] ++ 0 :: B0 ++ T = body' ++ [l', c', r', 0x0D] := by simpa using k1'.2
    obtain ⟨rfl, rfl⟩ := List.append_inj' e1 (by simpa using hB1)
    obtain ⟨rfl, e3⟩ := List.append_inj' e2 (by simp)
    simp only [List.cons.injEq, and_true] at e3
    rw [rotXor_append] at k4 k4'
    rw [k4'] at e3
    have e4 := e3.2.2
    rw [k4, rotXor_cons 0 B0, rotl8_zero_left, UInt8.zero_xor, u8_xor_right_cancel, List.length_cons,
      Nat.add_comm, ← rotl8_rotl8] at e4
    have := rotl8_injective _ e4
    refine rot_prefix x2 h2 x3.toNat h3 ?_
    simpa using this.symm

/-- Accepted frames do not differ by one byte more and a shifted code. -/
theorem one_more {A M B : Bytes} {v p q : UInt8} (hs : GoodFrame (A ++ (M ++ p :: B)))
    (hl : GoodFrame (A ++ v :: (M ++ q :: B))) (hlen : 15 ≤ (A ++ (M ++ p :: B)).length)
    (hM : ∀ m ∈ M, m = 0x1B) (hpq : p = q ∨ Shift p q ∨ Shift q p) : False := by
  rcases Nat.lt_or_ge A.length 6 with hA | hA
  · have hx := one_more_xor hs hl hlen (by omega)
    have hv : v = 0 ∨ (p ≠ q ∧ (v = 3 ∨ v = 0x82)) := by
      rcases hx with hx | hx
      · exact .inl hx
      · rcases hpq with rfl | (⟨rfl, rfl⟩ | ⟨rfl, rfl⟩) | (⟨rfl, rfl⟩ | ⟨rfl, rfl⟩)
        · left; rw [hx, UInt8.xor_self]
        · right; rw [hx]; decide
        · right; rw [hx]; decide
        · right; rw [hx]; decide
        · right; rw [hx]; decide
    rcases Nat.lt_or_ge A.length 4 with hA3 | hA4
    · obtain ⟨h0, h3, h82, _⟩ := good_head hl rfl (by omega)
      rcases hv with h | ⟨_, h | h⟩
      · exact h0 h
      · exact h3 h
      · exact h82 h
    · have hfirst : ∃ s0 S, M ++ p :: B = s0 :: S ∧ (s0 = 0x1B ∨ s0 = p) := by
        cases M with
        | nil => exact ⟨p, B, rfl, .inr rfl⟩
        | cons m M => exact ⟨m, M ++ p :: B, rfl, .inl (hM m (by simp))⟩
      obtain ⟨s0, S, hS, hs0⟩ := hfirst
      have hSl : (M ++ q :: B).length = S.length + 1 := by
        have := congrArg List.length hS
        simp only [List.length_append, List.length_cons] at this ⊢
        omega
      rcases Nat.lt_or_ge A.length 5 with hA5 | hA5
      · rcases hpq with rfl | hpq
        · have hv0 : v = 0 := by
            rcases hv with h | ⟨h, _⟩
            · exact h
            · exact absurd rfl h
          subst hv0
          refine zero_more hs hl (by omega) ?_
          rw [List.length_append] at hlen; omega
        · rw [hS] at hs
          have := good_four hs hl (by omega)
          rw [hSl] at this
          have hs2 : s0 = 0x1B ∨ s0 = 0x0D ∨ s0 = 0x8D ∨ s0 = 0x0E ∨ s0 = 0x0F := by
            rcases hs0 with h | rfl
            · exact .inl h
            · rcases hpq with (⟨rfl, _⟩ | ⟨rfl, _⟩) | (⟨_, rfl⟩ | ⟨_, rfl⟩) <;> simp
          have hv2 : v.toNat = 0 ∨ v.toNat = 3 ∨ v.toNat = 0x82 := by
            rcases hv with rfl | ⟨_, rfl | rfl⟩ <;> simp
          have hs3 : s0.toNat = 0x1B ∨ s0.toNat = 0x0D ∨ s0.toNat = 0x8D ∨ s0.toNat = 0x0E ∨
              s0.toNat = 0x0F := by
            rcases hs2 with rfl | rfl | rfl | rfl | rfl <;> simp
          omega
      · rw [hS] at hs
        have := good_five hs hl (by omega)
        rw [hSl] at this
        omega
  · have := good_same hs hl hA
    simp only [List.length_append, List.length_cons] at this
    omega

/-! ### Frames of the same length -/

/-- In how many places two strings differ. -/
def diffs : Bytes → Bytes → Nat
  | a :: A, b :: B => (if a = b then 0 else 1) + diffs A B
  | _, _ => 0

theorem diffs_self (A : Bytes) : diffs A A = 0 := by
  induction A with
  | nil => rfl
  | cons a A ih => simp [diffs, ih]

theorem diffs_append {A A' : Bytes} (h : A.length = A'.length) (B B' : Bytes) :
    diffs (A ++ B) (A' ++ B') = diffs A A' + diffs B B' := by
  induction A generalizing A' with
  | nil => cases A' with
    | nil => simp [diffs]
    | cons a' A' => simp at h
  | cons a A ih => cases A' with
    | nil => simp at h
    | cons a' A' =>
      simp only [List.cons_append, diffs, ih (by simpa using h)]
      omega

theorem diffs_zero {A A' : Bytes} (h : A.length = A'.length) (h0 : diffs A A' = 0) : A = A' := by
  induction A generalizing A' with
  | nil => cases A' with
    | nil => rfl
    | cons a' A' => simp at h
  | cons a A ih => cases A' with
    | nil => simp at h
    | cons a' A' =>
      simp only [diffs] at h0
      by_cases ha : a = a'
      · subst ha
        rw [ih (by simpa using h) (by omega)]
      · rw [if_neg ha] at h0; omega

theorem diffs_one {A A' : Bytes} (h : A.length = A'.length) (h1 : diffs A A' = 1) :
    xorAll A ≠ xorAll A' ∧ sumMod A ≠ sumMod A' := by
  induction A generalizing A' with
  | nil => cases A' with
    | nil => simp [diffs] at h1
    | cons a' A' => simp at h
  | cons a A ih => cases A' with
    | nil => simp at h
    | cons a' A' =>
      simp only [diffs] at h1
      have hl : A.length = A'.length := by simpa using h
      rw [xorAll_cons, xorAll_cons, sumMod_cons, sumMod_cons]
      by_cases ha : a = a'
      · subst ha
        obtain ⟨i1, i2⟩ := ih hl (by simpa using h1)
        refine ⟨fun he => i1 (u8_xor_left_cancel.1 he), fun he => i2 ?_⟩
        have b1 : sumMod A < 256 := Nat.mod_lt _ (by omega)
        have b2 : sumMod A' < 256 := Nat.mod_lt _ (by omega)
        omega
      · rw [if_neg ha] at h1
        have := diffs_zero hl (by omega)
        subst this
        refine ⟨fun he => ha (u8_xor_right_cancel.1 he), fun he => ha ?_⟩
        apply UInt8.toNat_inj.1
        have := a.toNat_lt; have := a'.toNat_lt
        omega

/-- Two accepted frames of the same length that differ in one or two places have the same XOR and
the same sum. -/
theorem few_diffs {F F' : Bytes} (h : GoodFrame F) (h' : GoodFrame F') (hlen : F.length = F'.length)
    (hd : diffs F F' ≤ 2) : xorAll F = xorAll F' ∧ sumMod F = sumMod F' := by
  obtain ⟨_, body, l, c, r, rfl, h2, h3, h4⟩ := h
  obtain ⟨_, body', l', c', r', rfl, h2', h3', h4'⟩ := h'
  have hb : body.length = body'.length := by simpa using hlen
  have hd' : diffs body body' + ((if l = l' then 0 else 1) + ((if c = c' then 0 else 1) +
      (if r = r' then 0 else 1))) ≤ 2 := by
    simpa [diffs, diffs_append hb] using hd
  rcases Nat.lt_or_ge (diffs body body') 1 with h0 | h0
  · have := diffs_zero hb (by omega)
    subst this
    have hcc : c = c' := UInt8.toNat_inj.1 (by rw [h3, h3'])
    rw [h2, h2', h4, h4', hcc]
    exact ⟨rfl, rfl⟩
  · rcases Nat.lt_or_ge (diffs body body') 2 with h1 | h1
    · obtain ⟨x1, x2⟩ := diffs_one hb (by omega)
      rw [if_neg (by rw [h2, h2']; exact x1),
        if_neg (fun he => x2 (by rw [← h3, ← h3', he]))] at hd'
      omega
    · have hl : l = l' := by
        apply Classical.byContradiction; intro hne; rw [if_neg hne] at hd'; omega
      have hcc : c = c' := by
        apply Classical.byContradiction; intro hne
        rw [if_neg hne] at hd'; omega
      have hrr : r = r' := by
        apply Classical.byContradiction; intro hne
        rw [if_neg hne] at hd'; omega
      have hx : xorAll body = xorAll body' := by rw [← h2, ← h2', hl]
      have hs : sumMod body = sumMod body' := by rw [← h3, ← h3', hcc]
      subst hl hcc hrr
      constructor
      · rw [xorAll_cons, xorAll_cons, xorAll_append, xorAll_append, hx]
      · rw [sumMod_cons, sumMod_cons, sumMod_append, sumMod_append, hs]

/-- One accepted frame does not turn into another. -/
theorem turned_rejected {G H : Bytes} (ht : Turned G H) (h : GoodFrame (G ++ [0x0D]))
    (h' : GoodFrame (H ++ [0x0D])) (hlen : 16 ≤ (G ++ [0x0D]).length) : H = G := by
  have h9 : 9 ≤ (H ++ [0x0D]).length := by obtain ⟨⟨_, _, _, _, _, _, _, _, _, h9⟩, _⟩ := h'; exact h9
  have sub : ∀ A a a' B, GoodFrame ((A ++ a :: B) ++ [0x0D]) → GoodFrame ((A ++ a' :: B) ++ [0x0D]) → a = a' := by
    intro A a a' B g g'
    have hx := (few_diffs g g' (by simp) (by
      rw [List.append_assoc, List.append_assoc, diffs_append rfl, diffs_self, List.cons_append,
        List.cons_append]
      simp only [diffs, diffs_self]
      split <;> omega)).1
    simpa only [xorAll_append, xorAll_cons, u8_xor_left_cancel, u8_xor_right_cancel] using hx
  cases ht with
  | same => rfl
  | cut A X B =>
    have := good_same (A := H) (B := [0x0D]) (B' := X :: B ++ [0x0D]) h' (by simpa using h)
      (by simp at h9; omega)
    simp at this
  | cutEsc A X B =>
    have := good_same (A := A) (B := [0x1B, 0x0D]) (B' := X :: B ++ [0x0D]) (by simpa using h')
      (by simpa using h) (by simp at h9; omega)
    simp only [List.cons_append, List.length_cons, List.length_append, List.length_nil] at this
    have hB : B = [] := List.length_eq_zero_iff.1 (by omega)
    subst hB
    rw [sub A X 0x1B [] h h']
  | sub A a a' B => rw [sub A a a' B h h']
  | sub2 A a a' M p q B hc =>
    exfalso
    obtain ⟨hx, hs⟩ := few_diffs h h' (by simp) (by
      rw [List.append_assoc, List.append_assoc, diffs_append rfl, diffs_self, List.cons_append,
        List.cons_append, List.append_assoc, List.append_assoc]
      simp only [diffs, diffs_append (rfl : M.length = M.length), diffs_self, List.cons_append]
      split <;> split <;> omega)
    simp only [xorAll_append, xorAll_cons, u8_xor_left_cancel, u8_xor_right_cancel] at hx
    simp only [sumMod_append, sumMod_cons] at hs
    have hx2 : a = a' ^^^ (p ^^^ q) := xor_alg3 hx
    rcases hc with ⟨rfl, ⟨rfl, rfl⟩ | ⟨rfl, rfl⟩⟩ | ⟨rfl, hc⟩
    · subst hx2
      rw [show (0x1B ^^^ (0x0D ^^^ 0x0E) : UInt8).toNat = 0x18 from by decide] at hs
      simp only [UInt8.reduceToNat] at hs
      omega
    · subst hx2
      rw [show (0x1B ^^^ (0x8D ^^^ 0x0F) : UInt8).toNat = 0x99 from by decide] at hs
      simp only [UInt8.reduceToNat] at hs
      omega
    · have hx3 : a' = 0x1B ^^^ (p ^^^ q) := by
        rw [hx2, UInt8.xor_assoc, UInt8.xor_self, UInt8.xor_zero]
      subst hx3
      rcases hc with ⟨rfl, rfl⟩ | ⟨rfl, rfl⟩
      · rw [show (0x1B ^^^ (0x0E ^^^ 0x0D) : UInt8).toNat = 0x18 from by decide] at hs
        simp only [UInt8.reduceToNat] at hs
        omega
      · rw [show (0x1B ^^^ (0x0F ^^^ 0x8D) : UInt8).toNat = 0x99 from by decide] at hs
        simp only [UInt8.reduceToNat] at hs
        omega
  | ins A v M p q B hM hpq =>
    exfalso
    refine one_more (A := A) (M := M) (B := B ++ [0x0D]) (v := v) (p := p) (q := q) (by simpa using h)
      (by simpa using h') (by simp at hlen ⊢; omega) hM ?_
    rcases hpq with h | h
    · exact .inl h
    · exact .inr (.inl h)
  | insEnd A v =>
    have := good_same (A := G) (B := [0x0D]) (B' := [v, 0x0D]) h (by simpa using h')
      (by simp at hlen; omega)
    simp at this
  | del A X M p q B hM hpq =>
    exfalso
    refine one_more (A := A) (M := M) (B := B ++ [0x0D]) (v := X) (p := q) (q := p) (by simpa using h')
      (by simpa using h) (by simp at hlen ⊢; omega) hM ?_
    rcases hpq with h | h
    · exact .inl h.symm
    · exact .inr (.inl h)
  | grow A X x B V hx hV =>
    exfalso
    have g : GoodFrame (A ++ X :: (B ++ [0x0D])) := by simpa using h
    have g' : GoodFrame (A ++ 0x1B :: (V ++ [0x0D])) := by simpa using h'
    rcases Nat.lt_or_ge A.length 4 with hA | hA
    · exact (good_head g' rfl (by omega)).2.2.2 rfl
    rcases Nat.lt_or_ge A.length 5 with hA5 | hA5
    · have := good_four g g' (by omega)
      simp only [List.length_append, List.length_cons, List.length_nil] at this
      have hX : X.toNat = 0x0D ∨ X.toNat = 0x1B ∨ X.toNat = 0x8D := by
        rcases hx with ⟨rfl, _⟩ | ⟨rfl, _⟩ | ⟨rfl, _⟩ <;> simp
      have : (0x1B : UInt8).toNat = 0x1B := rfl
      omega
    rcases Nat.lt_or_ge A.length 6 with hA6 | hA6
    · have := good_five g g' (by omega)
      simp only [List.length_append, List.length_cons, List.length_nil] at this
      omega
    · have := good_same g g' hA6
      simp only [List.length_append, List.length_cons, List.length_nil] at this
      omega

end Elgas
