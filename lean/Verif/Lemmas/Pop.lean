import Verif.Lemmas.Frames
/-! Lemmas on the parser monad (`bytearray.pop(0)` / `pop_many`). -/
namespace Elgas

theorem pbind_apply {α β : Type} (p : P α) (f : α → P β) (s : Bytes) :
    (p >>= f) s = (p s >>= fun x => f x.1 x.2) := by
  rfl

theorem ppure_apply {α : Type} (a : α) (s : Bytes) : (pure a : P α) s = .ok (a, s) := rfl

theorem plift_apply {α : Type} (x : Res α) (s : Bytes) :
    (liftM x : P α) s = (x >>= fun a => .ok (a, s)) := rfl

theorem plift_apply' {α : Type} (x : Res α) (s : Bytes) :
    (monadLift x : P α) s = (x >>= fun a => .ok (a, s)) := rfl

theorem popLoop_apply (n : Nat) (s : Bytes) :
    popLoop n s = if n ≤ s.length then .ok (s.take n, s.drop n) else .error .index := by
  induction n generalizing s with
  | zero => simp [popLoop, ppure_apply]
  | succ n ih =>
    unfold popLoop
    rw [pbind_apply]
    cases s with
    | nil => simp [pop0]
    | cons b s =>
      simp only [pop0, bind_ok]
      rw [pbind_apply, ih]
      by_cases h : n ≤ s.length
      · rw [if_pos h, if_pos (by simpa using h)]
        simp [ppure_apply]
      · rw [if_neg h, if_neg (by simpa using h)]
        simp

theorem popMany_apply {n : Nat} (hn : 2 ≤ n) (s : Bytes) :
    popMany n s = if n ≤ s.length then .ok (s.take n, s.drop n) else .error .index := by
  unfold popMany
  rw [if_neg (by omega), popLoop_apply]

theorem pop0_apply (s : Bytes) :
    pop0 s = if 1 ≤ s.length then .ok (s.headD 0, s.drop 1) else .error .index := by
  cases s <;> simp [pop0]

theorem bind_popMany {α : Type} {n : Nat} (hn : 2 ≤ n) (f : Bytes → P α) (d : Bytes) (k : Nat)
    (h : k + n ≤ d.length) :
    (popMany n >>= f) (d.drop k) = f ((d.drop k).take n) (d.drop (k + n)) := by
  rw [pbind_apply, popMany_apply hn, if_pos (by simp; omega)]
  simp

theorem bind_pop0 {α : Type} (f : UInt8 → P α) (d : Bytes) (k : Nat) (h : k + 1 ≤ d.length) :
    (pop0 >>= f) (d.drop k) = f (d.getD k 0) (d.drop (k + 1)) := by
  rw [pbind_apply, pop0_apply, if_pos (by simp; omega)]
  have : (d.drop k).headD 0 = d.getD k 0 := by
    rw [List.headD_eq_head?_getD, List.head?_drop, List.getD_eq_getElem?_getD]
  rw [bind_ok, this]
  simp

theorem bind_plift {α β : Type} (x : Res α) (f : α → P β) (s : Bytes) :
    ((liftM x : P α) >>= f) s = (x >>= fun a => f a s) := by
  rw [pbind_apply, plift_apply]
  cases x <;> rfl

/-! ### Shape of a parser -/

/-- The parser reads exactly `n` bytes and cannot fail on `n` or more bytes; on fewer it raises
`IndexError`. -/
def Fixed {α : Type} (p : P α) (n : Nat) : Prop :=
  ∀ s : Bytes, (n ≤ s.length → ∃ a, p s = .ok (a, s.drop n)) ∧ (s.length < n → p s = .error .index)

theorem fixed_pure {α : Type} (a : α) : Fixed (pure a : P α) 0 := by
  intro s; exact ⟨fun _ => ⟨a, rfl⟩, fun h => by omega⟩

theorem fixed_pop0 : Fixed pop0 1 := by
  intro s
  rw [pop0_apply]
  exact ⟨fun h => ⟨_, by rw [if_pos h]⟩, fun h => by rw [if_neg (by omega)]⟩

theorem fixed_popMany {n : Nat} (hn : 2 ≤ n) : Fixed (popMany n) n := by
  intro s
  rw [popMany_apply hn]
  exact ⟨fun h => ⟨_, by rw [if_pos h]⟩, fun h => by rw [if_neg (by omega)]⟩

theorem fixed_bind {α β : Type} {p : P α} {f : α → P β} {m n : Nat} (hp : Fixed p m)
    (hf : ∀ a, Fixed (f a) n) : Fixed (p >>= f) (m + n) := by
  intro s
  rw [pbind_apply]
  constructor
  · intro h
    obtain ⟨a, ha⟩ := (hp s).1 (by omega)
    rw [ha]
    obtain ⟨b, hb⟩ := (hf a (s.drop m)).1 (by simp; omega)
    exact ⟨b, by simp [hb]⟩
  · intro h
    by_cases hm : s.length < m
    · rw [(hp s).2 hm]; rfl
    · obtain ⟨a, ha⟩ := (hp s).1 (by omega)
      rw [ha]
      exact (hf a (s.drop m)).2 (by simp; omega)

/-- A successful run consumes exactly `n` bytes. -/
def Consumes {α : Type} (p : P α) (n : Nat) : Prop :=
  ∀ s a s', p s = .ok (a, s') → n ≤ s.length ∧ s' = s.drop n

/-- The exceptions the parser can raise. -/
def RaisesOnly {α : Type} (p : P α) (S : PyErr → Prop) : Prop :=
  ∀ s e, p s = .error e → S e

theorem Fixed.consumes {α : Type} {p : P α} {n : Nat} (h : Fixed p n) : Consumes p n := by
  intro s a s' hs
  by_cases hl : n ≤ s.length
  · obtain ⟨b, hb⟩ := (h s).1 hl
    rw [hb] at hs; simp at hs
    exact ⟨hl, hs.2.symm⟩
  · rw [(h s).2 (by omega)] at hs; simp at hs

theorem Fixed.raises {α : Type} {p : P α} {n : Nat} (h : Fixed p n) : RaisesOnly p (· = .index) := by
  intro s e hs
  by_cases hl : n ≤ s.length
  · obtain ⟨b, hb⟩ := (h s).1 hl
    rw [hb] at hs; simp at hs
  · rw [(h s).2 (by omega)] at hs; simp at hs; exact hs.symm

theorem consumes_bind {α β : Type} {p : P α} {f : α → P β} {m n : Nat} (hp : Consumes p m)
    (hf : ∀ a, Consumes (f a) n) : Consumes (p >>= f) (m + n) := by
  intro s a s' h
  rw [pbind_apply, bind_eq_ok] at h
  obtain ⟨⟨x, t⟩, hx, h2⟩ := h
  obtain ⟨h3, rfl⟩ := hp s x t hx
  obtain ⟨h4, rfl⟩ := hf x _ a s' h2
  simp at h4
  exact ⟨by omega, by simp⟩

theorem consumes_lift {α : Type} (x : Res α) : Consumes (liftM x : P α) 0 := by
  intro s a s' h
  rw [plift_apply, bind_eq_ok] at h
  obtain ⟨_, _, h2⟩ := h
  simp at h2
  exact ⟨by omega, by simp [h2.2]⟩

theorem raises_bind {α β : Type} {p : P α} {f : α → P β} {S : PyErr → Prop} (hp : RaisesOnly p S)
    (hf : ∀ a, RaisesOnly (f a) S) : RaisesOnly (p >>= f) S := by
  intro s e h
  rw [pbind_apply, bind_eq_error] at h
  rcases h with h | ⟨⟨x, t⟩, _, h2⟩
  · exact hp s e h
  · exact hf x t e h2

theorem raises_lift {α : Type} {x : Res α} {S : PyErr → Prop} (h : ∀ e, x = .error e → S e) :
    RaisesOnly (liftM x : P α) S := by
  intro s e hs
  rw [plift_apply, bind_eq_error] at hs
  rcases hs with hs | ⟨_, _, h2⟩
  · exact h e hs
  · simp at h2

theorem raises_mono {α : Type} {p : P α} {S T : PyErr → Prop} (h : RaisesOnly p S)
    (hst : ∀ e, S e → T e) : RaisesOnly p T := fun s e hs => hst e (h s e hs)

theorem raises_pure {α : Type} (a : α) (S : PyErr → Prop) : RaisesOnly (pure a : P α) S := by
  intro s e h; simp [ppure_apply] at h

theorem run_eq {α : Type} (p : P α) (d : Bytes) : P.run p d = ((·.1) <$> p d) := rfl

theorem run_drop {α : Type} (p : P α) (d : Bytes) : P.run p d = ((·.1) <$> p (d.drop 0)) := rfl

end Elgas
