import Verif.Model.Utils
import Verif.Spec.Escape
import Verif.Lemmas.List
namespace Elgas

theorem replace3_eq (d : Bytes) :
    replaceByte (replaceByte (replaceByte d 0x1B [0x1B, 0x1B]) 0x0D [0x1B, 0x0E]) 0x8D [0x1B, 0x0F]
      = Spec.escBytes d := by
  induction d with
  | nil => rfl
  | cons b d ih =>
    have h : ∀ (x : UInt8) (l : Bytes) (p : UInt8) (n : Bytes),
        replaceByte (x :: l) p n = (if x = p then n else [x]) ++ replaceByte l p n := by
      intros; simp [replaceByte]
    have happ : ∀ (l l' : Bytes) (p : UInt8) (n : Bytes),
        replaceByte (l ++ l') p n = replaceByte l p n ++ replaceByte l' p n := by
      intros; simp [replaceByte]
    rw [h, happ, happ, ih]
    simp only [Spec.escBytes, List.flatMap_cons, List.append_cancel_right_eq]
    by_cases h1 : b = 0x1B
    · subst h1; decide
    by_cases h2 : b = 0x0D
    · subst h2; decide
    by_cases h3 : b = 0x8D
    · subst h3; decide
    simp [h1, h2, h3, Spec.escByte, replaceByte]

/-- Closed form of `escapeCharacters`. -/
theorem escapeCharacters_append (d : Bytes) :
    escapeCharacters (d ++ [0x0D]) = .ok (Spec.escBytes d ++ [0x0D]) := by
  simp [escapeCharacters, replace3_eq]

theorem escapeCharacters_eq_ok {d e : Bytes} (h : escapeCharacters d = .ok e) :
    ∃ d', d = d' ++ [0x0D] ∧ e = Spec.escBytes d' ++ [0x0D] := by
  by_cases hd : endsWith d [0x0D] = true
  · obtain ⟨d', rfl⟩ := endsWith_singleton.1 hd
    rw [escapeCharacters_append] at h
    exact ⟨d', rfl, by injection h with h; exact h.symm⟩
  · simp [escapeCharacters, hd] at h

theorem escBytes_cons (b : UInt8) (d : Bytes) :
    Spec.escBytes (b :: d) = Spec.escByte b ++ Spec.escBytes d := by
  simp [Spec.escBytes]

theorem returnCharacters_cons_ne (b : UInt8) (rest : Bytes) (hb : b ≠ 0x1B) :
    returnCharacters (b :: rest) = (do let out ← returnCharacters rest; return b :: out) := by
  cases rest <;> simp [returnCharacters, hb]

theorem returnCharacters_escByte (b : UInt8) (rest out : Bytes)
    (h : returnCharacters rest = .ok out) :
    returnCharacters (Spec.escByte b ++ rest) = .ok (b :: out) := by
  unfold Spec.escByte
  split
  · next hb => subst hb; simp [returnCharacters, h]
  · split
    · next hb => subst hb; simp [returnCharacters, h]
    · split
      · next hb => subst hb; simp [returnCharacters, h]
      · next h1 h2 h3 => simp [returnCharacters_cons_ne _ _ h2, h]

theorem returnCharacters_escBytes (d rest out : Bytes) (h : returnCharacters rest = .ok out) :
    returnCharacters (Spec.escBytes d ++ rest) = .ok (d ++ out) := by
  induction d with
  | nil => simpa [Spec.escBytes] using h
  | cons b d ih =>
    rw [escBytes_cons, List.append_assoc, List.cons_append]
    exact returnCharacters_escByte b _ _ ih

theorem escByte_ne_end (b x : UInt8) (h : x ∈ Spec.escByte b) : x ≠ 0x0D ∧ x ≠ 0x8D := by
  unfold Spec.escByte at h
  split at h
  · simp at h; rcases h with rfl | rfl <;> decide
  · split at h
    · simp at h; subst h; decide
    · split at h
      · simp at h; rcases h with rfl | rfl <;> decide
      · simp at h; subst h; exact ⟨by assumption, by assumption⟩

theorem escBytes_no_end (d : Bytes) : 0x0D ∉ Spec.escBytes d ∧ 0x8D ∉ Spec.escBytes d := by
  constructor <;>
  · intro h
    simp only [Spec.escBytes, List.mem_flatMap] at h
    obtain ⟨b, _, hb⟩ := h
    have := escByte_ne_end b _ hb
    simp at this

theorem cutLines_append (w : Bytes) (hw : 0x0D ∉ w) (acc rest : Bytes) :
    Spec.cutLines acc (w ++ 0x0D :: rest) = (acc ++ w ++ [0x0D]) :: Spec.cutLines [] rest := by
  induction w generalizing acc with
  | nil => simp [Spec.cutLines]
  | cons b w ih =>
    have hb : b ≠ 0x0D := by intro h; subst h; simp at hw
    have hw' : 0x0D ∉ w := by intro h; exact hw (List.mem_cons_of_mem _ h)
    simp [Spec.cutLines, hb, ih hw', List.append_assoc]

theorem returnCharacters_units (d out : Bytes) (h : returnCharacters d = .ok out) :
    Spec.Units d out := by
  fun_induction returnCharacters d generalizing out with
  | case1 => simp at h; subst h; exact .nil
  | case2 => simp at h
  | case3 n rest' ih =>
    rw [bind_eq_ok] at h
    obtain ⟨o, ho, h⟩ := h
    have hp := Spec.Units.pair n rest' o (ih o ho)
    have : out = Spec.unescPair n ++ o := by
      unfold Spec.unescPair
      by_cases h1 : n = 0x0E
      · simp [h1] at h ⊢; exact h.symm
      by_cases h2 : n = 0x1B
      · simp [h2] at h ⊢; exact h.symm
      by_cases h3 : n = 0x0F
      · simp [h3] at h ⊢; exact h.symm
      simp [h1, h2, h3] at h ⊢; exact h.symm
    rw [this]; exact hp
  | case4 b rest hb ih =>
    rw [bind_eq_ok] at h
    obtain ⟨o, ho, h⟩ := h
    simp at h; subst h
    exact .plain b rest o hb (ih o ho)

theorem returnCharacters_of_units (d out : Bytes) (h : Spec.Units d out) :
    returnCharacters d = .ok out := by
  induction h with
  | nil => rfl
  | plain b d out hb _ ih => simp [returnCharacters_cons_ne _ _ hb, ih]
  | pair n d out _ ih =>
    simp only [returnCharacters, ih, bind_ok, if_true]
    unfold Spec.unescPair
    by_cases h1 : n = 0x0E
    · simp [h1]
    by_cases h2 : n = 0x1B
    · simp [h2]
    by_cases h3 : n = 0x0F
    · simp [h3]
    simp [h1, h2, h3]

theorem returnCharacters_dangling (d : Bytes) :
    (Spec.dangling d = true ∧ returnCharacters d = .error .index) ∨
    (Spec.dangling d = false ∧ ∃ out, returnCharacters d = .ok out) := by
  fun_induction returnCharacters d with
  | case1 => right; exact ⟨rfl, _, rfl⟩
  | case2 => left; exact ⟨rfl, rfl⟩
  | case3 n rest' ih =>
    rcases ih with ⟨h1, h2⟩ | ⟨h1, o, h2⟩
    · left; simp [Spec.dangling, h1, h2]
    · right
      refine ⟨by simp [Spec.dangling, h1], ?_⟩
      by_cases h1 : n = 0x0E
      · simp [h1, h2]
      by_cases h2' : n = 0x1B
      · simp [h2', h2]
      by_cases h3 : n = 0x0F
      · simp [h3, h2]
      simp [h1, h2', h3, h2]
  | case4 b rest hb ih =>
    have hd : Spec.dangling (b :: rest) = Spec.dangling rest := by
      cases rest <;> simp [Spec.dangling, hb]
    rcases ih with ⟨h1, h2⟩ | ⟨h1, o, h2⟩
    · left; exact ⟨by rw [hd, h1], by simp [h2]⟩
    · right; exact ⟨by rw [hd, h1], by simp [h2]⟩

theorem units_length {d out : Bytes} (h : Spec.Units d out) : out.length ≤ d.length := by
  induction h with
  | nil => simp
  | plain b d out _ _ ih => simp; exact ih
  | pair n d out _ ih =>
    have : (Spec.unescPair n).length ≤ 2 := by unfold Spec.unescPair; split <;> (try split) <;> (try split) <;> simp
    simp; omega

theorem dangling_append_ne (w : Bytes) (x : UInt8) (hx : x ≠ 0x1B) :
    Spec.dangling (w ++ [x]) = false := by
  generalize hn : w.length = n
  induction n using Nat.strongRecOn generalizing w with
  | ind n ih =>
    match w with
    | [] => simp [Spec.dangling, hx]
    | [b] => simp [Spec.dangling, hx]
    | b :: c :: w =>
      simp only [List.cons_append, Spec.dangling]
      split
      · exact ih w.length (by simp at hn; omega) w rfl
      · exact ih (c :: w).length (by simp at hn ⊢; omega) (c :: w) rfl

theorem escByte_length_le (b : UInt8) :
    1 ≤ (Spec.escByte b).length ∧ (Spec.escByte b).length ≤ 2 := by
  unfold Spec.escByte
  split
  · simp
  · split
    · simp
    · split <;> simp

theorem escBytes_length_le (d : Bytes) :
    d.length ≤ (Spec.escBytes d).length ∧ (Spec.escBytes d).length ≤ 2 * d.length := by
  induction d with
  | nil => simp [Spec.escBytes]
  | cons b d ih =>
    rw [escBytes_cons]
    have := escByte_length_le b
    simp; omega

end Elgas
