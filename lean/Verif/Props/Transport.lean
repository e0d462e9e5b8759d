import Verif.Spec.Transport
/-!
C47–C51: the transports.
-/
namespace Elgas
open Spec

/-! ### `Timeout` -/

/-- A timeout with a finite positive duration. -/
def Finite (t : Timeout) (d : Int) : Prop :=
  t.isInfinite = false ∧ t.isNonBlocking = false ∧ t.duration = some d ∧ t.targetTime.isSome

theorem timeLeft_finite {t : Timeout} {d : Int} (h : Finite t d) (c : Clock) :
    ∃ target, t.targetTime = some target ∧
    t.timeLeft c =
      if target - c.readings c.next > d then
        (({ t with targetTime := some (c.readings (c.next + 1) + d) }, ⟨c.readings, c.next + 2⟩), .ok (some d))
      else ((t, ⟨c.readings, c.next + 1⟩), .ok (some (max 0 (target - c.readings c.next)))) := by
  obtain ⟨h1, h2, h3, h4⟩ := h
  obtain ⟨target, ht⟩ := Option.isSome_iff_exists.1 h4
  refine ⟨target, ht, ?_⟩
  unfold Timeout.timeLeft
  simp only [h1, h2, Bool.false_eq_true, if_false, ht, h3, Clock.read]

theorem expired_finite {t : Timeout} {d : Int} (h : Finite t d) (c : Clock) :
    ∃ target, t.targetTime = some target ∧
    t.expired c =
      if target - c.readings c.next > d then
        (({ t with targetTime := some (c.readings (c.next + 1) + d) }, ⟨c.readings, c.next + 2⟩),
          .ok (decide (d ≤ 0)))
      else ((t, ⟨c.readings, c.next + 1⟩), .ok (decide (target ≤ c.readings c.next))) := by
  obtain ⟨target, ht, heq⟩ := timeLeft_finite h c
  refine ⟨target, ht, ?_⟩
  unfold Timeout.expired
  rw [ht, heq]
  by_cases hj : target - c.readings c.next > d
  · rw [if_pos hj, if_pos hj]
  · rw [if_neg hj, if_neg hj]
    simp only [Prod.mk.injEq, Except.ok.injEq, decide_eq_decide, true_and]
    omega

theorem finite_mk (c : Clock) (d : Int) (hd : 0 < d) : Finite (mkTimeout c (some d)).1 d := by
  refine ⟨rfl, ?_, rfl, rfl⟩
  simp [mkTimeout, Clock.read]; omega

/-- One use of a timeout object. -/
inductive TimeoutOp | timeLeft | expired

/-- The object and clock after a sequence of uses. -/
def useTimeout (t : Timeout) (c : Clock) : List TimeoutOp → Timeout × Clock
  | [] => (t, c)
  | .timeLeft :: ops => useTimeout (t.timeLeft c).1.1 (t.timeLeft c).1.2 ops
  | .expired :: ops => useTimeout (t.expired c).1.1 (t.expired c).1.2 ops

theorem finite_use {t : Timeout} {d : Int} (h : Finite t d) (c : Clock) (ops : List TimeoutOp) :
    Finite (useTimeout t c ops).1 d := by
  induction ops generalizing t c with
  | nil => exact h
  | cons op ops ih =>
    cases op with
    | timeLeft =>
      obtain ⟨target, _, heq⟩ := timeLeft_finite h c
      apply ih
      rw [heq]
      split
      · exact ⟨h.1, h.2.1, h.2.2.1, rfl⟩
      · exact h
    | expired =>
      obtain ⟨target, _, heq⟩ := expired_finite h c
      apply ih
      rw [heq]
      split
      · exact ⟨h.1, h.2.1, h.2.2.1, rfl⟩
      · exact h

/-- C51. For every positive duration, every clock (also one that jumps) and after any uses,
`time_left` returns a number between 0 and the duration and `expired` does not raise. -/
theorem C51_bounds (c : Clock) (d : Int) (hd : 0 < d) (ops : List TimeoutOp) :
    let s := useTimeout (mkTimeout c (some d)).1 (mkTimeout c (some d)).2 ops
    (∃ x, (s.1.timeLeft s.2).2 = .ok (some x) ∧ 0 ≤ x ∧ x ≤ d) ∧
    ∃ b, (s.1.expired s.2).2 = .ok b := by
  intro s
  have hf : Finite s.1 d := finite_use (finite_mk c d hd) _ _
  constructor
  · obtain ⟨target, _, heq⟩ := timeLeft_finite hf s.2
    rw [heq]
    split
    · exact ⟨d, rfl, by omega, by omega⟩
    · exact ⟨_, rfl, by omega, by omega⟩
  · obtain ⟨target, _, heq⟩ := expired_finite hf s.2
    rw [heq]
    split <;> exact ⟨_, rfl⟩

/-- The results of `n` consecutive calls of `expired`. -/
def checks (t : Timeout) (c : Clock) : Nat → List (Res Bool)
  | 0 => []
  | n + 1 => (t.expired c).2 :: checks (t.expired c).1.1 (t.expired c).1.2 n

theorem checks_eq (n : Nat) (t : Timeout) (c : Clock) (d start : Int) (h : Finite t d)
    (ht : t.targetTime = some (start + d))
    (hc : ∀ j, j < n → start ≤ c.readings (c.next + j)) :
    checks t c n = (List.range n).map fun j => .ok (decide (start + d ≤ c.readings (c.next + j))) := by
  induction n generalizing c with
  | zero => rfl
  | succ n ih =>
    obtain ⟨target, ht', heq⟩ := expired_finite h c
    rw [ht] at ht'
    have h0 := hc 0 (by omega)
    rw [if_neg (by simp at ht' h0; omega)] at heq
    simp only [checks, heq]
    rw [ih ⟨c.readings, c.next + 1⟩ ?_, List.range_succ_eq_map]
    · simp only [List.map_cons, List.map_map, Nat.add_zero]
      congr 1
      · simp at ht'; rw [ht']
      · apply List.map_congr_left
        intro j _
        simp [Nat.add_assoc, Nat.add_comm 1]
    · intro j hj
      have := hc (j + 1) (by omega)
      simpa [Nat.add_assoc, Nat.add_comm 1] using this

/-- C51. While the clock does not run back behind the moment of creation, the `j`-th `expired()` says
whether `duration` has passed at that moment. -/
theorem C51_expired_iff (c : Clock) (d : Int) (hd : 0 < d) (n : Nat)
    (hc : ∀ j, 1 ≤ j → j ≤ n → c.readings c.next ≤ c.readings (c.next + j)) :
    checks (mkTimeout c (some d)).1 (mkTimeout c (some d)).2 n =
      (List.range n).map fun j => .ok (decide (c.readings c.next + d ≤ c.readings (c.next + 1 + j))) := by
  apply checks_eq n _ _ d _ (finite_mk c d hd) rfl
  intro j hj
  have := hc (j + 1) (by omega) (by omega)
  simpa [mkTimeout, Clock.read, Nat.add_assoc, Nat.add_comm 1] using this

/-- C51. On a clock that never runs backwards, expired stays expired. -/
theorem C51_stays_expired (c : Clock) (d : Int) (hd : 0 < d) (n i j : Nat) (hij : i ≤ j) (hj : j < n)
    (hmono : ∀ a b, a ≤ b → c.readings a ≤ c.readings b)
    (h : (checks (mkTimeout c (some d)).1 (mkTimeout c (some d)).2 n)[i]? = some (.ok true)) :
    (checks (mkTimeout c (some d)).1 (mkTimeout c (some d)).2 n)[j]? = some (.ok true) := by
  rw [C51_expired_iff c d hd n (fun _ _ _ => hmono _ _ (by omega))] at h ⊢
  have hi : i < n := by omega
  rw [List.getElem?_map, List.getElem?_range hi] at h
  rw [List.getElem?_map, List.getElem?_range hj]
  simp only [Option.map_some, Option.some.injEq, Except.ok.injEq, decide_eq_true_eq] at h ⊢
  have := hmono (c.next + 1 + i) (c.next + 1 + j) (by omega)
  omega

/-- C51. `time_left` on a clock that has not run back: the time remaining, never negative. -/
theorem C51_time_left (c : Clock) (d : Int) (hd : 0 < d)
    (hc : c.readings c.next ≤ c.readings (c.next + 1)) :
    ((mkTimeout c (some d)).1.timeLeft (mkTimeout c (some d)).2).2 =
      .ok (some (max 0 (c.readings c.next + d - c.readings (c.next + 1)))) := by
  obtain ⟨target, ht, heq⟩ := timeLeft_finite (finite_mk c d hd) (mkTimeout c (some d)).2
  simp only [mkTimeout, Clock.read, Option.some.injEq] at ht
  rw [heq, if_neg (by show ¬ target - c.readings (c.next + 1) > d; omega), ← ht]
  rfl

/-- C51. If the clock runs backwards, the timeout starts again: it is reported as not expired and its
end moves to `duration` after the next reading. -/
theorem C51_clock_jump (c : Clock) (d : Int) (hd : 0 < d)
    (hc : c.readings (c.next + 1) < c.readings c.next) :
    let t := (mkTimeout c (some d)).1
    let c' := (mkTimeout c (some d)).2
    (t.expired c').2 = .ok false ∧
    (t.expired c').1.1.targetTime = some (c.readings (c.next + 2) + d) := by
  intro t c'
  obtain ⟨target, ht, heq⟩ := expired_finite (finite_mk c d hd) c'
  show ((mkTimeout c (some d)).1.expired c').2 = _ ∧ ((mkTimeout c (some d)).1.expired c').1.1.targetTime = _
  rw [heq]
  simp only [mkTimeout, Clock.read, Option.some.injEq] at ht
  rw [if_pos]
  · refine ⟨?_, rfl⟩
    simp only [Except.ok.injEq, decide_eq_false_iff_not]; omega
  · show target - c.readings (c.next + 1) > d
    omega

/-- C51. A timeout of `None` never expires, one of 0 is always expired; neither looks at the clock
again. -/
theorem C51_none_and_zero (c c' : Clock) :
    (mkTimeout c none).1.expired c' = (((mkTimeout c none).1, c'), .ok false) ∧
    (mkTimeout c none).1.timeLeft c' = (((mkTimeout c none).1, c'), .ok none) ∧
    (mkTimeout c (some 0)).1.expired c' = (((mkTimeout c (some 0)).1, c'), .ok true) ∧
    (mkTimeout c (some 0)).1.timeLeft c' = (((mkTimeout c (some 0)).1, c'), .ok (some 0)) :=
  ⟨rfl, rfl, rfl, rfl⟩

/-- C51. `restart` of a timeout created with `None` breaks it: `expired` raises `TypeError`; `restart` of
a timeout created with 0 keeps it expired for ever. -/
theorem C51_restart_defects (c c' c'' : Clock) (d : Int) :
    (((mkTimeout c none).1.restart c' (some d)).1.1.expired c'').2 = .error .type ∧
    (((mkTimeout c (some 0)).1.restart c' (some d)).1.1.expired c'').2 = .ok true :=
  ⟨rfl, rfl⟩

/-- C51. `restart` of a finite timeout with a positive duration makes it a fresh timeout. -/
theorem C51_restart (c : Clock) (c' : Clock) (d d' : Int) (hd : 0 < d) (hd' : 0 < d') :
    ((mkTimeout c (some d)).1.restart c' (some d')) =
      (mkTimeout c' (some d'), .ok ()) := by
  simp only [mkTimeout, Clock.read, Timeout.restart]
  have h1 : decide (d = 0) = false := by simp; omega
  have h2 : decide (d' = 0) = false := by simp; omega
  rw [h1, h2]

/-- A clock for the examples: reading `k` is `k`. -/
def exClock : Clock := { readings := fun k => k }

/-- A clock that jumps back once: 5, 6, 2, 3, 4, ... -/
def exBackClock : Clock := { readings := fun k => if k < 2 then 5 + k else k }

-- C51_time_left, C51_bounds, C51_clock_jump
example : ((mkTimeout exClock (some 3)).1.timeLeft (mkTimeout exClock (some 3)).2).2 = .ok (some 2) ∧
    ((mkTimeout { exBackClock with next := 1 } (some 3)).1.expired (mkTimeout { exBackClock with next := 1 } (some 3)).2).2 =
      .ok false ∧
    ((mkTimeout { exBackClock with next := 1 } (some 3)).1.expired
      (mkTimeout { exBackClock with next := 1 } (some 3)).2).1.1.targetTime = some 6 := by decide

example : checks (mkTimeout exClock (some 3)).1 (mkTimeout exClock (some 3)).2 4 =
    [.ok false, .ok false, .ok true, .ok true] := by decide

/-! ### Reading -/

theorem recvLoop_one (s : List Delivery) :
    (content s = [] → (recvLoop 1 [] s).1 = .pending ∧ content (recvLoop 1 [] s).2 = []) ∧
    (∀ b r, content s = .byte b :: r →
      (recvLoop 1 [] s).1 = .returned [b] ∧ content (recvLoop 1 [] s).2 = r) ∧
    (∀ e r, content s = .fail e :: r →
      (recvLoop 1 [] s).1 = .raised e ∧ content (recvLoop 1 [] s).2 = r) := by
  induction s with
  | nil =>
    have h : recvLoop 1 [] [] = (.pending, []) := by
      rw [recvLoop]; simp [osRead]
    rw [h]; simp [content]
  | cons x s ih =>
    cases x with
    | fail e =>
      have h : recvLoop 1 [] (.fail e :: s) = (.raised e, s) := by
        rw [recvLoop]; simp [osRead]
      rw [h]
      refine ⟨by simp [content], by simp [content], ?_⟩
      intro e' r hc
      simp only [content, List.cons.injEq, Item.fail.injEq] at hc
      exact ⟨by rw [hc.1], hc.2⟩
    | seg d =>
      have hdone : ∀ (b : UInt8) (s' : List Delivery), recvLoop 1 [b] s' = (.returned [b], s') := by
        intro b s'; rw [recvLoop]; simp
      cases d with
      | nil =>
        have h : recvLoop 1 [] (.seg [] :: s) = recvLoop 1 [] s := by
          rw [recvLoop]; simp [osRead]
        rw [h]; simpa [content] using ih
      | cons b d =>
        cases d with
        | nil =>
          have h : recvLoop 1 [] (.seg [b] :: s) = (.returned [b], s) := by
            rw [recvLoop]; simp [osRead, hdone]
          rw [h]
          refine ⟨by simp [content], ?_, by simp [content]⟩
          intro b' r hc
          simp only [content, List.map_cons, List.map_nil, List.cons_append, List.nil_append,
            List.cons.injEq, Item.byte.injEq] at hc
          exact ⟨by rw [hc.1], hc.2⟩
        | cons b2 d =>
          have h : recvLoop 1 [] (.seg (b :: b2 :: d) :: s) = (.returned [b], .seg (b2 :: d) :: s) := by
            rw [recvLoop]; simp [osRead, hdone]
          rw [h]
          refine ⟨by simp [content], ?_, by simp [content]⟩
          intro b' r hc
          simp only [content, List.map_cons, List.cons_append,
            List.cons.injEq, Item.byte.injEq] at hc
          exact ⟨by rw [hc.1], by simpa [content] using hc.2⟩

theorem recvBytes_one {t : Transport} {h : Handle} (ht : t.socket = some h) (s : List Delivery) :
    t.recvBytes 1 s = recvLoop 1 [] s := by
  unfold Transport.recvBytes; rw [ht]

theorem sliceFrom_last (line : Bytes) (b : UInt8) : sliceFrom (line ++ [b]) (-1) = [b] := by
  unfold sliceFrom clampIdx
  have : (((line ++ [b]).length : Int) + -1).toNat = line.length := by
    rw [List.length_append, List.length_singleton]; omega
  rw [if_pos (by omega), this, List.drop_left]

/-- One iteration of the default `recv_until` loop in terms of the script's content. -/
theorem loop_step {t : Transport} {h : Handle} (ht : t.socket = some h) (to : Timeout) (line : Bytes)
    (s : List Delivery) (c : Clock) :
    (content s = [] → ∃ s', content s' = [] ∧
      recvUntilLoop t [0x0D] none to line s c = (.pending, s', c)) ∧
    (∀ e r, content s = .fail e :: r → ∃ s', content s' = r ∧
      recvUntilLoop t [0x0D] none to line s c = (.raised e, s', c)) ∧
    (∀ b r, content s = .byte b :: r → ∃ s', content s' = r ∧
      recvUntilLoop t [0x0D] none to line s c =
        if b = 0x0D then (.returned (line ++ [b]), s', c)
        else match to.expired c with
          | ((_, c), .error e) => (.raised e, s', c)
          | ((_, c), .ok true) => (.returned (line ++ [b]), s', c)
          | ((to, c), .ok false) => recvUntilLoop t [0x0D] none to (line ++ [b]) s' c) := by
  obtain ⟨h1, h2, h3⟩ := recvLoop_one s
  refine ⟨fun hc => ?_, fun e r hc => ?_, fun b r hc => ?_⟩
  · refine ⟨_, (h1 hc).2, ?_⟩
    have hr : t.recvBytes 1 s = (.pending, (recvLoop 1 [] s).2) := by
      rw [recvBytes_one ht]; exact Prod.ext (h1 hc).1 rfl
    rw [recvUntilLoop]
    split
    · next s' heq => rw [hr] at heq; simp only [Prod.mk.injEq, true_and] at heq; rw [heq]
    · next heq => rw [hr] at heq; simp at heq
    · next heq => rw [hr] at heq; simp at heq
  · refine ⟨_, (h3 e r hc).2, ?_⟩
    have hr : t.recvBytes 1 s = (.raised e, (recvLoop 1 [] s).2) := by
      rw [recvBytes_one ht]; exact Prod.ext (h3 e r hc).1 rfl
    rw [recvUntilLoop]
    split
    · next heq => rw [hr] at heq; simp at heq
    · next e' s' heq =>
      rw [hr] at heq; simp only [Prod.mk.injEq, Outcome3.raised.injEq] at heq; rw [heq.1, heq.2]
    · next heq => rw [hr] at heq; simp at heq
  · refine ⟨_, (h2 b r hc).2, ?_⟩
    have hr : t.recvBytes 1 s = (.returned [b], (recvLoop 1 [] s).2) := by
      rw [recvBytes_one ht]; exact Prod.ext (h2 b r hc).1 rfl
    rw [recvUntilLoop]
    split
    · next heq => rw [hr] at heq; simp at heq
    · next heq => rw [hr] at heq; simp at heq
    · next b' s' heq =>
      rw [hr] at heq
      simp only [Prod.mk.injEq, Outcome3.returned.injEq] at heq
      obtain ⟨rfl, rfl⟩ := heq
      simp only [List.isEmpty_cons, Bool.false_eq_true, if_false, List.length_cons, List.length_nil]
      have : sliceFrom (line ++ [b]) (-((0 + 1 : Nat) : Int)) = [b] := sliceFrom_last line b
      rw [this]
      simp only [List.cons.injEq, and_true]
      rfl

/-- The timeouts that occur inside `recv`. -/
def Usable (t : Timeout) : Prop :=
  t.targetTime = none ∨ (t.isNonBlocking = true ∧ t.targetTime.isSome) ∨ ∃ d, Finite t d

theorem usable_mk (c : Clock) (d : Option Int) : Usable (mkTimeout c d).1 := by
  cases d with
  | none => exact .inl rfl
  | some d =>
    by_cases h : d = 0
    · subst h; exact .inr (.inl ⟨rfl, rfl⟩)
    · refine .inr (.inr ⟨d, rfl, ?_, rfl, rfl⟩)
      simp [mkTimeout, Clock.read, h]

theorem usable_expired {t : Timeout} (h : Usable t) (c : Clock) :
    ∃ t' c' b, t.expired c = ((t', c'), .ok b) ∧ Usable t' := by
  rcases h with h | ⟨h1, h2⟩ | ⟨d, h⟩
  · refine ⟨t, c, false, ?_, .inl h⟩
    unfold Timeout.expired; rw [h]
  · obtain ⟨x, hx⟩ := Option.isSome_iff_exists.1 h2
    refine ⟨t, c, true, ?_, .inr (.inl ⟨h1, h2⟩)⟩
    unfold Timeout.expired Timeout.timeLeft; rw [hx, h1]; rfl
  · obtain ⟨target, _, heq⟩ := expired_finite h c
    rw [heq]
    split
    · exact ⟨_, _, _, rfl, .inr (.inr ⟨d, h.1, h.2.1, h.2.2.1, rfl⟩)⟩
    · exact ⟨_, _, _, rfl, .inr (.inr ⟨d, h⟩)⟩

/-- What a run of the receive loop can look like. -/
theorem loop_outcome {t : Transport} {h : Handle} (ht : t.socket = some h) (items : List Item)
    (to : Timeout) (hto : Usable to) (line : Bytes) (s : List Delivery) (c : Clock)
    (hs : content s = items) :
    ∃ s' c', content s' <:+ items ∧
    ((∃ bs, recvUntilLoop t [0x0D] none to line s c = (.returned (line ++ bs), s', c') ∧
        items = bytesOnly bs ++ content s' ∧ bs ≠ [] ∧ 0x0D ∉ bs.dropLast ∧
        (to.targetTime = none → bs.getLast? = some 0x0D)) ∨
     (∃ bs e, recvUntilLoop t [0x0D] none to line s c = (.raised e, s', c') ∧
        items = bytesOnly bs ++ .fail e :: content s' ∧ 0x0D ∉ bs) ∨
     (∃ bs, recvUntilLoop t [0x0D] none to line s c = (.pending, s', c') ∧
        items = bytesOnly bs ∧ content s' = [] ∧ 0x0D ∉ bs)) := by
  induction items generalizing to line s c with
  | nil =>
    obtain ⟨s', h1, h2⟩ := (loop_step ht to line s c).1 hs
    refine ⟨s', c, by rw [h1]; exact List.suffix_refl _, .inr (.inr ⟨[], h2, rfl, h1, by simp⟩)⟩
  | cons i items ih =>
    cases i with
    | fail e =>
      obtain ⟨s', h1, h2⟩ := (loop_step ht to line s c).2.1 e items hs
      refine ⟨s', c, by rw [h1]; exact List.suffix_cons _ _, .inr (.inl ⟨[], e, h2, ?_, by simp⟩)⟩
      rw [h1]; rfl
    | byte b =>
      obtain ⟨s1, h1, h2⟩ := (loop_step ht to line s c).2.2 b items hs
      by_cases hb : b = 0x0D
      · rw [if_pos hb] at h2
        refine ⟨s1, c, by rw [h1]; exact List.suffix_cons _ _, .inl ⟨[b], h2, ?_, by simp, by simp, ?_⟩⟩
        · rw [h1]; rfl
        · intro _; simp [hb]
      · rw [if_neg hb] at h2
        obtain ⟨to', c1, x, hx, hto'⟩ := usable_expired hto c
        rw [hx] at h2
        cases x with
        | true =>
          dsimp only at h2
          refine ⟨s1, c1, by rw [h1]; exact List.suffix_cons _ _, .inl ⟨[b], h2, ?_, by simp, by simp, ?_⟩⟩
          · rw [h1]; rfl
          · intro hn
            unfold Timeout.expired at hx; rw [hn] at hx; simp at hx
        | false =>
          dsimp only at h2
          obtain ⟨s', c', hsuf, hcase⟩ := ih to' hto' (line ++ [b]) s1 c1 h1
          refine ⟨s', c', hsuf.trans (List.suffix_cons _ _), ?_⟩
          rw [h2]
          rcases hcase with ⟨bs, g1, g2, g3, g4, g5⟩ | ⟨bs, e, g1, g2, g3⟩ | ⟨bs, g1, g2, g3, g4⟩
          · refine .inl ⟨b :: bs, by rw [g1]; simp, by rw [g2]; rfl, by simp, ?_, ?_⟩
            · rw [List.dropLast_cons_of_ne_nil g3]
              simp only [List.mem_cons, not_or]
              exact ⟨fun h => hb h.symm, g4⟩
            · intro hn
              have : to'.targetTime = none := by
                unfold Timeout.expired at hx; rw [hn] at hx; simp at hx; rw [← hx.1]; exact hn
              have := g5 this
              cases bs with
              | nil => exact absurd rfl g3
              | cons x xs => simpa using this
          · refine .inr (.inl ⟨b :: bs, e, g1, by rw [g2]; rfl, ?_⟩)
            simp only [List.mem_cons, not_or]
            exact ⟨fun h => hb h.symm, g3⟩
          · refine .inr (.inr ⟨b :: bs, g1, by rw [g2]; rfl, g3, ?_⟩)
            simp only [List.mem_cons, not_or]
            exact ⟨fun h => hb h.symm, g4⟩

theorem recv_eq (t : Transport) (s : List Delivery) (c : Clock) :
    t.recv s c =
      match recvUntilLoop t [0x0D] none (mkTimeout c t.timeout).1 [] s (mkTimeout c t.timeout).2 with
      | (.raised e, s, c) => (.raised (wrapOs e), s, c)
      | r => r := rfl

/-- C47. Whatever the deliveries and the clock do, a connected `recv` ends in one of three ways: it
returns the next bytes of the stream, at least one, with 0x0D at most at the end (and exactly at the
end if the timeout is `None`), leaving the rest unread; or an exception of the OS reaches it before
any 0x0D, it raises the translated exception and the bytes read before are gone; or the
deliveries end without a 0x0D and it is still reading. -/
theorem C47_recv_cases (t : Transport) (h : Handle) (ht : t.socket = some h) (s : List Delivery) (c : Clock) :
    (∃ bs s' c', t.recv s c = (.returned bs, s', c') ∧ content s = bytesOnly bs ++ content s' ∧
      bs ≠ [] ∧ 0x0D ∉ bs.dropLast ∧ (t.timeout = none → bs.getLast? = some 0x0D)) ∨
    (∃ bs e s' c', t.recv s c = (.raised (wrapOs e), s', c') ∧
      content s = bytesOnly bs ++ .fail e :: content s' ∧ 0x0D ∉ bs) ∨
    (∃ bs s' c', t.recv s c = (.pending, s', c') ∧ content s = bytesOnly bs ∧ content s' = [] ∧
      0x0D ∉ bs) := by
  obtain ⟨s', c', _, hcase⟩ := loop_outcome ht (content s) (mkTimeout c t.timeout).1 (usable_mk c _) [] s
    (mkTimeout c t.timeout).2 rfl
  rw [recv_eq]
  rcases hcase with ⟨bs, g1, g2, g3, g4, g5⟩ | ⟨bs, e, g1, g2, g3⟩ | ⟨bs, g1, g2, g3, g4⟩
  · refine .inl ⟨bs, s', c', by rw [g1]; rfl, g2, g3, g4, fun hn => g5 ?_⟩
    rw [hn]; rfl
  · exact .inr (.inl ⟨bs, e, s', c', by rw [g1], g2, g3⟩)
  · exact .inr (.inr ⟨bs, s', c', by rw [g1], g2, g3, g4⟩)

/-- The loop before the timeout: it passes over bytes other than 0x0D. -/
theorem loop_skip {t : Transport} {h : Handle} (ht : t.socket = some h) (w : Bytes) (hw : 0x0D ∉ w)
    (r : List Item) (to : Timeout) (line : Bytes) (s : List Delivery) (c : Clock)
    (hs : content s = bytesOnly w ++ r)
    (hto : to.targetTime = none ∨ ∃ d target, Finite to d ∧ to.targetTime = some target ∧
      ∀ j, j < w.length → target - c.readings (c.next + j) ≤ d ∧ c.readings (c.next + j) < target) :
    ∃ s' c', content s' = r ∧ c'.readings = c.readings ∧
      (to.targetTime = none → c' = c) ∧ (to.targetTime ≠ none → c'.next = c.next + w.length) ∧
      recvUntilLoop t [0x0D] none to line s c = recvUntilLoop t [0x0D] none to (line ++ w) s' c' := by
  induction w generalizing line s c with
  | nil => exact ⟨s, c, by simpa [bytesOnly] using hs, rfl, fun _ => rfl, fun _ => rfl, by simp⟩
  | cons b w ih =>
    have hb : b ≠ 0x0D := fun h => hw (by simp [h])
    obtain ⟨s1, h1, h2⟩ := (loop_step ht to line s c).2.2 b (bytesOnly w ++ r) hs
    rw [if_neg hb] at h2
    rcases hto with hn | ⟨d, target, hf, htg, hj⟩
    · have hx : to.expired c = ((to, c), .ok false) := by unfold Timeout.expired; rw [hn]
      rw [hx] at h2
      obtain ⟨s', c', g1, g2, g3, g4, g5⟩ := ih (fun h => hw (by simp [h])) (line ++ [b]) s1 c h1 (.inl hn)
      refine ⟨s', c', g1, g2, g3, fun h => absurd hn h, ?_⟩
      rw [h2]; dsimp only; rw [g5]; simp
    · obtain ⟨target', ht', hx⟩ := expired_finite hf c
      rw [htg] at ht'
      obtain rfl : target = target' := by simpa using ht'
      have h0 := hj 0 (by simp)
      rw [Nat.add_zero] at h0
      rw [if_neg (by omega), decide_eq_false (by omega)] at hx
      rw [hx] at h2
      obtain ⟨s', c', g1, g2, g3, g4, g5⟩ := ih (fun h => hw (by simp [h])) (line ++ [b]) s1
        ⟨c.readings, c.next + 1⟩ h1 (.inr ⟨d, target, hf, htg, fun j hj' => by
          have := hj (j + 1) (by simpa using hj')
          simpa [Nat.add_assoc, Nat.add_comm 1] using this⟩)
      refine ⟨s', c', g1, g2, fun h => absurd h (by rw [htg]; simp), fun h => ?_, ?_⟩
      · rw [g4 h]; simp [Nat.add_assoc, Nat.add_comm 1]
      · rw [h2]; dsimp only; rw [g5]; simp

theorem inTime_skip {t : Transport} {c : Clock} {n : Nat} (h : InTime t.timeout c n) :
    (mkTimeout c t.timeout).1.targetTime = none ∨
      ∃ d target, Finite (mkTimeout c t.timeout).1 d ∧ (mkTimeout c t.timeout).1.targetTime = some target ∧
      ∀ j, j < n → target - (mkTimeout c t.timeout).2.readings ((mkTimeout c t.timeout).2.next + j) ≤ d ∧
        (mkTimeout c t.timeout).2.readings ((mkTimeout c t.timeout).2.next + j) < target := by
  cases hd : t.timeout with
  | none => exact .inl rfl
  | some d =>
    obtain ⟨h1, h2⟩ := h d hd
    refine .inr ⟨d, c.readings c.next + d, finite_mk c d h1, rfl, fun j hj => ?_⟩
    have := h2 (j + 1) (by omega) (by omega)
    have e : (mkTimeout c (some d)).2.readings ((mkTimeout c (some d)).2.next + j) =
        c.readings (c.next + (j + 1)) := by
      show c.readings (c.next + 1 + j) = _
      congr 1; omega
    rw [e]; omega

/-- C47. If a line arrives in time, `recv` returns exactly this line, up to and including the first
0x0D, however it is cut into segments and whatever empty reads are in between; everything behind it
stays unread. -/
theorem C47_returns_line (t : Transport) (h : Handle) (ht : t.socket = some h) (s : List Delivery)
    (c : Clock) (w : Bytes) (r : List Item) (hw : 0x0D ∉ w)
    (hs : content s = bytesOnly (w ++ [0x0D]) ++ r) (hc : InTime t.timeout c w.length) :
    ∃ s' c', t.recv s c = (.returned (w ++ [0x0D]), s', c') ∧ content s' = r := by
  obtain ⟨s1, c1, g1, _, _, _, g5⟩ := loop_skip ht w hw (.byte 0x0D :: r) (mkTimeout c t.timeout).1 [] s
    (mkTimeout c t.timeout).2 (by rw [hs]; simp [bytesOnly]) (inTime_skip hc)
  obtain ⟨s', h1, h2⟩ := (loop_step ht (mkTimeout c t.timeout).1 ([] ++ w) s1 c1).2.2 0x0D r g1
  rw [if_pos rfl] at h2
  refine ⟨s', c1, ?_, h1⟩
  rw [recv_eq, g5, h2]
  rfl

-- the three cases of `C47_recv_cases`: a timeout that expires after the second byte (the two bytes are
-- returned), an OS error, and a line that never ends
example : ((⟨.tcp, some 2, some 3⟩ : Transport).recv [.seg [0x41, 0x42, 0x43], .seg [0x0D]] exClock).1 =
      .returned [0x41, 0x42] ∧
    ((⟨.tcp, some 10, some 3⟩ : Transport).recv [.seg [0x41], .fail .os, .seg [0x0D]] exClock).1 =
      .raised (.elgas .communication) ∧
    ((⟨.tcp, some 10, some 3⟩ : Transport).recv [.seg [0x41], .seg []] exClock).1 = .pending := by decide +kernel

/-- C47. Two scripts with the same content lead to the same outcome. -/
theorem C47_segmentation_irrelevant (t : Transport) (h : Handle) (ht : t.socket = some h)
    (s1 s2 : List Delivery) (c : Clock) (hs : content s1 = content s2) :
    (t.recv s1 c).1 = (t.recv s2 c).1 ∧ content (t.recv s1 c).2.1 = content (t.recv s2 c).2.1 ∧
    (t.recv s1 c).2.2 = (t.recv s2 c).2.2 := by
  have key : ∀ (items : List Item) (to : Timeout) (_ : Usable to) (line : Bytes) (s1 s2 : List Delivery) (c : Clock),
      content s1 = items → content s2 = items →
      (recvUntilLoop t [0x0D] none to line s1 c).1 = (recvUntilLoop t [0x0D] none to line s2 c).1 ∧
      content (recvUntilLoop t [0x0D] none to line s1 c).2.1 =
        content (recvUntilLoop t [0x0D] none to line s2 c).2.1 ∧
      (recvUntilLoop t [0x0D] none to line s1 c).2.2 = (recvUntilLoop t [0x0D] none to line s2 c).2.2 := by
    intro items
    induction items with
    | nil =>
      intro to hto line s1 s2 c e1 e2
      obtain ⟨a, ha, ha'⟩ := (loop_step ht to line s1 c).1 e1
      obtain ⟨b, hb, hb'⟩ := (loop_step ht to line s2 c).1 e2
      rw [ha', hb']; exact ⟨rfl, by rw [ha, hb], rfl⟩
    | cons i items ih =>
      intro to hto line s1 s2 c e1 e2
      cases i with
      | fail e =>
        obtain ⟨a, ha, ha'⟩ := (loop_step ht to line s1 c).2.1 e items e1
        obtain ⟨b, hb, hb'⟩ := (loop_step ht to line s2 c).2.1 e items e2
        rw [ha', hb']; exact ⟨rfl, by rw [ha, hb], rfl⟩
      | byte x =>
        obtain ⟨a, ha, ha'⟩ := (loop_step ht to line s1 c).2.2 x items e1
        obtain ⟨b, hb, hb'⟩ := (loop_step ht to line s2 c).2.2 x items e2
        rw [ha', hb']
        split
        · exact ⟨rfl, by rw [ha, hb], rfl⟩
        · obtain ⟨to', c1, y, hy, hto'⟩ := usable_expired hto c
          rw [hy]
          cases y with
          | true => exact ⟨rfl, by rw [ha, hb], rfl⟩
          | false => exact ih to' hto' (line ++ [x]) a b c1 ha hb
  have := key (content s1) _ (usable_mk c t.timeout) [] s1 s2 (mkTimeout c t.timeout).2 rfl hs.symm
  rw [recv_eq, recv_eq]
  generalize recvUntilLoop t [0x0D] none (mkTimeout c t.timeout).1 [] s1 (mkTimeout c t.timeout).2 = x at this
  generalize recvUntilLoop t [0x0D] none (mkTimeout c t.timeout).1 [] s2 (mkTimeout c t.timeout).2 = y at this
  obtain ⟨x1, x2, x3⟩ := x
  obtain ⟨y1, y2, y3⟩ := y
  obtain ⟨h1, h2, h3⟩ := this
  dsimp only at h1 h2 h3
  subst h1 h3
  cases x1 <;> exact ⟨rfl, h2, rfl⟩

/-- The line "A\r" in three segments with an empty read in between, followed by another line. -/
example : ∃ s' c', (⟨.tcp, some 10, some 3⟩ : Transport).recv
      [.seg [0x41], .seg [], .seg [0x0D, 0x42], .seg [0x0D]] exClock =
      (.returned [0x41, 0x0D], s', c') ∧ content s' = bytesOnly [0x42, 0x0D] :=
  C47_returns_line _ 3 rfl _ _ [0x41] (bytesOnly [0x42, 0x0D]) (by decide) rfl
    (fun d hd => by
      obtain rfl : d = 10 := by simpa using hd.symm
      refine ⟨by omega, fun j h1 h2 => ?_⟩
      simp at h2; simp [exClock]; omega)

/-! ### C48 -/

/-- C48. The peer sends bytes without an end character in time and then nothing but empty reads (the
TCP peer has closed, the serial line is silent): however many reads are made, `recv` has not
returned, and after the last byte it has not looked at the clock again. -/
theorem C48_recv_spins (t : Transport) (h : Handle) (ht : t.socket = some h) (s : List Delivery)
    (c : Clock) (w : Bytes) (hw : 0x0D ∉ w) (hs : content s = bytesOnly w)
    (hc : InTime t.timeout c w.length) (n : Nat) :
    ∃ s' c', t.recv (s ++ List.replicate n (.seg [])) c = (.pending, s', c') ∧ content s' = [] ∧
      c'.next = c.next + (if t.timeout = none then 0 else 1 + w.length) := by
  have hcont : content (s ++ List.replicate n (.seg [])) = bytesOnly w := by
    rw [← hs]
    clear hs
    induction s with
    | nil =>
      induction n with
      | zero => rfl
      | succ n ih => simpa [List.replicate_succ, content] using ih
    | cons x s ih =>
      cases x <;> simp [content, ih]
  obtain ⟨s1, c1, g1, _, g3, g4, g5⟩ := loop_skip ht w hw [] (mkTimeout c t.timeout).1 [] _
    (mkTimeout c t.timeout).2 (by rw [hcont]; simp) (inTime_skip hc)
  obtain ⟨s', h1, h2⟩ := (loop_step ht (mkTimeout c t.timeout).1 ([] ++ w) s1 c1).1 g1
  refine ⟨s', c1, ?_, h1, ?_⟩
  · rw [recv_eq, g5, h2]
  · cases hd : t.timeout with
    | none =>
      rw [hd] at g3
      rw [g3 rfl, if_pos rfl]; rfl
    | some d =>
      rw [hd] at g4
      rw [g4 (by simp [mkTimeout, Clock.read]), if_neg (by simp)]
      simp [mkTimeout, Clock.read, Nat.add_assoc]

/-- C48. With a timeout of any kind (finite, zero or none) and any clock: if nothing at all arrives,
`recv` never returns. -/
theorem C48_silent_peer (t : Transport) (h : Handle) (ht : t.socket = some h) (c : Clock) (n : Nat) :
    ∃ s' c', t.recv (List.replicate n (.seg [])) c = (.pending, s', c') := by
  have hcont : content (List.replicate n (.seg [])) = [] := by
    induction n with
    | zero => rfl
    | succ n ih => simpa [List.replicate_succ, content] using ih
  obtain ⟨s', _, h2⟩ := (loop_step ht (mkTimeout c t.timeout).1 [] _ (mkTimeout c t.timeout).2).1 hcont
  exact ⟨s', _, by rw [recv_eq, h2]⟩

/-- C48. The only ways out of `recv` are a byte or an OS exception. -/
theorem C48_needs_input (t : Transport) (h : Handle) (ht : t.socket = some h) (s : List Delivery) (c : Clock)
    (hs : content s = []) : (t.recv s c).1 = .pending := by
  obtain ⟨s', _, h2⟩ := (loop_step ht (mkTimeout c t.timeout).1 [] s (mkTimeout c t.timeout).2).1 hs
  rw [recv_eq, h2]

-- the peer sends "A" and closes; a hundred empty reads later `recv` is still running
example : ∃ s' c', (⟨.tcp, some 10, some 3⟩ : Transport).recv ([.seg [0x41]] ++ List.replicate 100 (.seg [])) exClock =
    (.pending, s', c') ∧ content s' = [] ∧ c'.next = exClock.next + (if (some 10 : Option Int) = none then 0 else 1 + 1) :=
  C48_recv_spins _ 3 rfl _ _ [0x41] (by decide) rfl
    (fun d hd => by
      obtain rfl : d = 10 := by simpa using hd.symm
      refine ⟨by omega, fun j h1 h2 => ?_⟩
      simp at h2; simp [exClock]; omega) 100

/-! ### C49 -/

/-- C49. What each call does without a handle. -/
theorem C49_disconnected (t : Transport) (ht : t.socket = none) :
    (∀ h, t.connect (.ok h) = ({ t with socket := some h }, [.create (some h)], .ok ())) ∧
    (∀ e, t.connect (.error e) = (t, [.create none], .error (wrapOs e))) ∧
    (∀ a b, t.disconnect a b = (t, [], .ok ())) ∧
    (∀ d os, t.send d os = ([], .error .runtime)) ∧
    (∀ s c, (t.recv s c).1 = .raised .runtime ∧ (t.recv s c).2.1 = s) := by
  refine ⟨?_, ?_, ?_, ?_, ?_⟩
  · intro h; unfold Transport.connect; rw [ht]
  · intro e; unfold Transport.connect; rw [ht]
  · intro a b; unfold Transport.disconnect; rw [ht]
  · intro d os; unfold Transport.send; rw [ht]; rfl
  · intro s c
    have hr : t.recvBytes 1 s = (.raised .runtime, s) := by unfold Transport.recvBytes; rw [ht]
    have : ∀ to line c, recvUntilLoop t [0x0D] none to line s c = (.raised .runtime, s, c) := by
      intro to line c
      rw [recvUntilLoop]
      split
      · next heq => rw [hr] at heq; simp at heq
      · next heq => rw [hr] at heq; simp at heq; rw [← heq.1, ← heq.2]
      · next heq => rw [hr] at heq; simp at heq
    rw [recv_eq, this]; exact ⟨rfl, rfl⟩

/-- C49. What each call does with a handle: `connect` raises `RuntimeError` and changes nothing,
`send` writes the data to this handle, and `disconnect` drops the handle whether or not the OS calls
fail with `OSError`. -/
theorem C49_connected (t : Transport) (h : Handle) (ht : t.socket = some h) :
    (∀ os, t.connect os = (t, [], .error .runtime)) ∧
    (∀ d, t.send d (.ok ()) = ([.write h d], .ok ())) ∧
    (∀ d e, t.send d (.error e) = ([.write h d], .error (wrapOs e))) ∧
    (∀ a b, OsErr a → OsErr b → (t.disconnect a b).1 = { t with socket := none } ∧
      ((t.disconnect a b).2.2 = .ok () ∨ (t.disconnect a b).2.2 = .error (.elgas .communication))) := by
  refine ⟨?_, ?_, ?_, ?_⟩
  · intro os; unfold Transport.connect; rw [ht]; rfl
  · intro d; unfold Transport.send; rw [ht]
  · intro d e; unfold Transport.send; rw [ht]
  · intro a b ha hb
    unfold Transport.disconnect; rw [ht]
    dsimp only
    cases hk : t.kind with
    | tcp =>
      cases a with
      | error e => obtain rfl := ha e rfl; exact ⟨rfl, .inr rfl⟩
      | ok u =>
        cases b with
        | error e => obtain rfl := hb e rfl; exact ⟨rfl, .inr rfl⟩
        | ok u => exact ⟨rfl, .inl rfl⟩
    | serial =>
      cases b with
      | error e => obtain rfl := hb e rfl; exact ⟨rfl, .inr rfl⟩
      | ok u => exact ⟨rfl, .inl rfl⟩

/-- C49. In every history in which the OS raises nothing but `OSError`, the only exceptions are
`CommunicationError` and `RuntimeError`. -/
theorem C49_exceptions (t : Transport) (ops : List TOp) (hops : ∀ op ∈ ops, op.onlyOsErrors) :
    ∀ st ∈ (trun t ops).2, ∀ e, st.result = some (.error e) →
      e = .elgas .communication ∨ e = .runtime := by
  induction ops generalizing t with
  | nil => simp [trun]
  | cons op ops ih =>
    intro st hst e he
    simp only [trun, List.mem_cons] at hst
    rcases hst with rfl | hst
    · have hop := hops op (by simp)
      cases hs : t.socket with
      | none =>
        obtain ⟨h1, h2, h3, h4, h5⟩ := C49_disconnected t hs
        cases op with
        | connect os =>
          cases os with
          | ok h => simp [tstep, h1, Except.map] at he
          | error x =>
            have : x = .os := hop x rfl
            simp [tstep, h2, Except.map, this, wrapOs] at he
            exact .inl he.symm
        | disconnect a b => simp [tstep, h3, Except.map] at he
        | send d os => simp [tstep, h4, Except.map] at he; exact .inr he.symm
        | recv s c => simp [tstep, (h5 s c).1] at he; exact .inr he.symm
      | some h =>
        obtain ⟨h1, h2, h3, h4⟩ := C49_connected t h hs
        cases op with
        | connect os => simp [tstep, h1, Except.map] at he; exact .inr he.symm
        | disconnect a b =>
          rcases (h4 a b hop.1 hop.2).2 with h | h
          · simp [tstep, h, Except.map] at he
          · simp [tstep, h, Except.map] at he; exact .inl he.symm
        | send d os =>
          cases os with
          | ok u => simp [tstep, h2, Except.map] at he
          | error x =>
            have : x = .os := hop x rfl
            simp [tstep, h3, Except.map, this, wrapOs] at he
            exact .inl he.symm
        | recv s c =>
          rcases C47_recv_cases t h hs s c with ⟨bs, s', c', hr, _⟩ | ⟨bs, x, s', c', hr, hc, _⟩ | ⟨bs, s', c', hr, _⟩
          · simp [tstep, hr] at he
          · have hx : x = .os := by
              have hmem : Item.fail x ∈ content s := by rw [hc]; simp
              have : ∀ s : List Delivery, Item.fail x ∈ content s → Delivery.fail x ∈ s := by
                intro s
                induction s with
                | nil => simp [content]
                | cons y s ih =>
                  cases y with
                  | fail z =>
                    simp only [content, List.mem_cons, Item.fail.injEq, Delivery.fail.injEq]
                    exact Or.imp id ih
                  | seg d =>
                    simp only [content, List.mem_append, List.mem_map, List.mem_cons]
                    rintro (⟨_, _, h⟩ | h)
                    · simp at h
                    · exact .inr (ih h)
              exact hop x (this s hmem)
            simp [tstep, hr, hx, wrapOs] at he
            exact .inl he.symm
          · simp [tstep, hr] at he
    · exact ih _ (fun op h => hops op (by simp [h])) st hst e he

/-- What `disconnect` of a connected transport does to the OS. -/
theorem disconnect_calls {t : Transport} {h : Handle} (ht : t.socket = some h) (a b : Res Unit)
    (ha : OsErr a) (hb : OsErr b) :
    t.disconnect a b =
      match t.kind, a, b with
      | .tcp, .error _, _ => ({ t with socket := none }, [.shutdown h], .error (.elgas .communication))
      | .tcp, .ok (), .error _ =>
        ({ t with socket := none }, [.shutdown h, .close h], .error (.elgas .communication))
      | .tcp, .ok (), .ok () => ({ t with socket := none }, [.shutdown h, .close h], .ok ())
      | .serial, _, .error _ => ({ t with socket := none }, [.close h], .error (.elgas .communication))
      | .serial, _, .ok () => ({ t with socket := none }, [.close h], .ok ()) := by
  unfold Transport.disconnect; rw [ht]
  dsimp only
  cases hk : t.kind with
  | tcp =>
    cases a with
    | error e => obtain rfl := ha e rfl; rfl
    | ok u =>
      cases b with
      | error e => obtain rfl := hb e rfl; rfl
      | ok u => rfl
  | serial =>
    cases b with
    | error e => obtain rfl := hb e rfl; rfl
    | ok u => rfl

/-- C49. In every history of a new transport (the OS raising nothing but `OSError`) at most one handle
is held at any time: a new one is opened only after the previous one was given up, and no handle is
used after it was given up. -/
theorem C49_one_handle (k : Kind) (timeout : Option Int) (ops : List TOp)
    (hops : ∀ op ∈ ops, op.onlyOsErrors) :
    OneAtATime k none (osLog (trun (mkTransport k timeout) ops).2) := by
  suffices h : ∀ (ops : List TOp) (t : Transport), t.kind = k → (∀ op ∈ ops, op.onlyOsErrors) →
      OneAtATime k t.socket (osLog (trun t ops).2) from
      h ops (mkTransport k timeout) rfl hops
  intro ops
  induction ops with
  | nil => intro t _ _; exact .done _
  | cons op ops ih =>
    intro t hk hops
    have hop := hops op (by simp)
    have ih' : ∀ t' : Transport, t'.kind = k → OneAtATime k t'.socket (osLog (trun t' ops).2) :=
      fun t' h => ih t' h (fun o ho => hops o (by simp [ho]))
    have hlog : osLog (trun t (op :: ops)).2 = (tstep t op).2.calls ++ osLog (trun (tstep t op).1 ops).2 := by
      simp [trun, osLog]
    rw [hlog]
    cases hs : t.socket with
    | none =>
      obtain ⟨h1, h2, h3, h4, h5⟩ := C49_disconnected t hs
      cases op with
      | connect os =>
        cases os with
        | ok h =>
          simp only [tstep, h1, List.cons_append, List.nil_append]
          exact .opened h _ (ih' { t with socket := some h } hk)
        | error x =>
          simp only [tstep, h2, List.cons_append, List.nil_append]
          exact .failed _ (by have := ih' t hk; rwa [hs] at this)
      | disconnect a b => simpa [tstep, h3, hs] using ih' t hk
      | send d os => simpa [tstep, h4, hs] using ih' t hk
      | recv s c => simpa [tstep, hs] using ih' t hk
    | some h =>
      obtain ⟨h1, h2, h3, h4⟩ := C49_connected t h hs
      cases op with
      | connect os => simpa [tstep, h1, hs] using ih' t hk
      | disconnect a b =>
        have hd := disconnect_calls hs a b hop.1 hop.2
        have hn := ih' { t with socket := none } hk
        simp only [tstep, hd]
        rw [hk]
        cases k with
        | tcp =>
          cases a with
          | error e => exact .tcpDropped h _ rfl (by rw [hk] at hn; exact hn)
          | ok u =>
            cases b with
            | error e => exact .tcpClosed h _ rfl (by rw [hk] at hn; exact hn)
            | ok u => exact .tcpClosed h _ rfl (by rw [hk] at hn; exact hn)
        | serial =>
          cases b with
          | error e => exact .serialClosed h _ rfl (by rw [hk] at hn; exact hn)
          | ok u => exact .serialClosed h _ rfl (by rw [hk] at hn; exact hn)
      | send d os =>
        have hn := ih' t hk
        rw [hs] at hn
        cases os with
        | ok u => simp only [tstep, h2]; exact .written h d _ hn
        | error x => simp only [tstep, h3]; exact .written h d _ hn
      | recv s c => simpa [tstep, hs] using ih' t hk

/-- C49. After a `disconnect`, failing or not, the transport is as new: `connect` works again. -/
theorem C49_reconnect (t : Transport) (a b : Res Unit) (ha : OsErr a) (hb : OsErr b) (h : Handle) :
    (t.disconnect a b).1 = mkTransport t.kind t.timeout ∧
    ((t.disconnect a b).1.connect (.ok h)).2.2 = .ok () := by
  have h0 : (t.disconnect a b).1 = mkTransport t.kind t.timeout := by
    cases hs : t.socket with
    | none =>
      rw [(C49_disconnected t hs).2.2.1]
      obtain ⟨x, y, z⟩ := t; simp only at hs; rw [hs]; rfl
    | some h' => exact ((C49_connected t h' hs).2.2.2 a b ha hb).1
  refine ⟨h0, ?_⟩
  rw [h0]; rfl

/-- A history with a refused second connect, a failing shutdown and a reconnect. -/
example : (trun (mkTransport .tcp (some 10))
      [.connect (.ok 3), .connect (.ok 4), .send [1] (.ok ()), .disconnect (.error .os) (.ok ()),
        .send [2] (.ok ()), .connect (.ok 5)]).2.map (fun s => (s.result, s.calls)) =
    [(some (.ok []), [.create (some 3)]), (some (.error .runtime), []), (some (.ok []), [.write 3 [1]]),
      (some (.error (.elgas .communication)), [.shutdown 3]), (some (.error .runtime), []),
      (some (.ok []), [.create (some 5)])] := by rfl

/-! ### C50 -/

/-- A transport makes OS calls only on the handle it holds or is given. -/
theorem calls_mention (t : Transport) (ops : List TOp) (h : Handle) (hs : t.socket ≠ some h)
    (hfresh : .connect (.ok h) ∉ ops) :
    ∀ x ∈ osLog (trun t ops).2, callHandle x ≠ some h := by
  induction ops generalizing t with
  | nil => simp [trun, osLog]
  | cons op ops ih =>
    have hlog : osLog (trun t (op :: ops)).2 = (tstep t op).2.calls ++ osLog (trun (tstep t op).1 ops).2 := by
      simp [trun, osLog]
    have hf : TOp.connect (.ok h) ∉ ops := fun hm => hfresh (by simp [hm])
    have hne : op ≠ .connect (.ok h) := fun hm => hfresh (by simp [hm])
    have key : (tstep t op).1.socket ≠ some h ∧ ∀ x ∈ (tstep t op).2.calls, callHandle x ≠ some h := by
      cases op with
      | connect os =>
        simp only [tstep]
        unfold Transport.connect
        cases hs' : t.socket with
        | some g => simp only [hs']; exact ⟨by rw [← hs']; exact hs, by simp⟩
        | none =>
          cases os with
          | ok g =>
            have : g ≠ h := fun hg => hne (by rw [hg])
            simpa [callHandle] using this
          | error e => simp [callHandle, hs']
      | disconnect a b =>
        simp only [tstep]
        unfold Transport.disconnect
        cases hs' : t.socket with
        | none => simp [hs']
        | some g =>
          have hg : g ≠ h := fun hg => hs (by rw [hs', hg])
          have hg' : ¬ (some g = some h) := by simpa using hg
          dsimp only
          cases t.kind <;> dsimp only
          · cases a with
            | error e => dsimp only; split <;> simp [callHandle, hs', hg]
            | ok u =>
              cases b with
              | error e => dsimp only; split <;> simp [callHandle, hs', hg]
              | ok u => simp [callHandle, hg]
          · cases b with
            | error e => dsimp only; split <;> simp [callHandle, hs', hg]
            | ok u => simp [callHandle, hg]
      | send d os =>
        simp only [tstep]
        unfold Transport.send
        refine ⟨hs, ?_⟩
        cases hs' : t.socket with
        | none => simp
        | some g =>
          have hg : g ≠ h := fun hg => hs (by rw [hs', hg])
          cases os <;> simp [callHandle, hg]
      | recv s c => exact ⟨hs, by simp [tstep]⟩
    rw [hlog]
    intro x hx
    rw [List.mem_append] at hx
    rcases hx with hx | hx
    · exact key.2 x hx
    · exact ih _ key.1 hf x hx

/-- C50. TCP: if `shutdown` fails (the peer has already closed), `close` is not called, and in no
later history does the transport ever close or otherwise touch this socket again (unless the OS hands
out the same, still open, socket once more). -/
theorem C50_leak (t : Transport) (h : Handle) (ht : t.socket = some h) (hk : t.kind = .tcp) (b : Res Unit)
    (ops : List TOp) (hfresh : .connect (.ok h) ∉ ops) :
    (t.disconnect (.error .os) b) = ({ t with socket := none }, [.shutdown h], .error (.elgas .communication)) ∧
    ∀ x ∈ osLog (trun (t.disconnect (.error .os) b).1 ops).2, callHandle x ≠ some h := by
  have h1 : t.disconnect (.error .os) b =
      ({ t with socket := none }, [.shutdown h], .error (.elgas .communication)) := by
    unfold Transport.disconnect; rw [ht]; dsimp only; rw [hk]; rfl
  refine ⟨h1, ?_⟩
  rw [h1]
  exact calls_mention _ ops h (by simp) hfresh

/-- C50. In all other cases `disconnect` closes the handle. -/
theorem C50_closes (t : Transport) (h : Handle) (ht : t.socket = some h) (a b : Res Unit)
    (hk : t.kind = .serial ∨ a = .ok ()) : .close h ∈ (t.disconnect a b).2.1 := by
  unfold Transport.disconnect; rw [ht]; dsimp only
  rcases hk with hk | ha
  · rw [hk]
    cases b with
    | error e => dsimp only; split <;> simp
    | ok u => simp
  · subst ha
    cases t.kind <;> dsimp only
    all_goals
      cases b with
      | error e => dsimp only; split <;> simp
      | ok u => simp

-- a TCP transport whose shutdown fails, and one whose shutdown succeeds
example : (⟨.tcp, none, some 3⟩ : Transport).disconnect (.error .os) (.ok ()) =
      (⟨.tcp, none, none⟩, [.shutdown 3], .error (.elgas .communication)) ∧
    (∀ x ∈ osLog (trun ((⟨.tcp, none, some 3⟩ : Transport).disconnect (.error .os) (.ok ())).1
      [.disconnect (.ok ()) (.ok ()), .connect (.ok 4), .send [1] (.ok ()), .disconnect (.ok ()) (.ok ())]).2,
      callHandle x ≠ some 3) ∧
    .close 3 ∈ ((⟨.tcp, none, some 3⟩ : Transport).disconnect (.ok ()) (.ok ())).2.1 :=
  ⟨rfl, (C50_leak _ 3 rfl rfl _ _ (by simp)).2, C50_closes _ 3 rfl _ _ (.inr rfl)⟩

end Elgas
