import Verif.Props.Threads
import Verif.Spec.Lock
/-!
C114: threads that share one client and make every call under a lock.
-/
namespace Elgas
open Spec

theorem serial_took {C : BlockCipher} {w w' : World} {hist : List (Nat × Event × Outcome3 Event)}
    (h : Serial C w hist w') (tid : Nat) (e : Event) (hi : w'.conn.state = .idle) :
    Serial C w (hist ++ [(tid, e, (w'.exchange C e).1)]) (w'.exchange C e).2 := by
  induction h with
  | nil w => exact .took _ _ _ _ _ hi (.nil _)
  | took w w' t' e' r h0 _ ih => exact .took _ _ _ _ _ h0 (ih hi)
  | busy w w' t' e' r h0 _ ih => exact .busy _ _ _ _ _ h0 (ih hi)

theorem serial_busy {C : BlockCipher} {w w' : World} {hist : List (Nat × Event × Outcome3 Event)}
    (h : Serial C w hist w') (tid : Nat) (e : Event) (hi : w'.conn.state ≠ .idle) :
    Serial C w (hist ++ [(tid, e, .raised (.elgas .localProtocol))]) w' := by
  induction h with
  | nil w => exact .busy _ _ _ _ _ hi (.nil _)
  | took w w' t' e' r h0 _ ih => exact .took _ _ _ _ _ h0 (ih hi)
  | busy w w' t' e' r h0 _ ih => exact .busy _ _ _ _ _ h0 (ih hi)

theorem serial_takes (C : BlockCipher) (w : World) : Takes C (Serial C w) :=
  fun _ _ tid e h hi => serial_took h tid e hi

/-- The invariant: only the thread that holds the lock is in a call. -/
structure LockInv (C : BlockCipher) (w : World) (l : Locked) (w1 : World) : Prop where
  flight : FlightInv C (Serial C w) l.threads w1
  held : ∀ j, (l.threads.flights j).isSome = true → l.holder = some j

/-- A step of the thread that holds the lock, or of any thread if nobody does. -/
theorem locked_threads_step {C : BlockCipher} {plan : Nat → List (Nat × Event × Outcome3 Event) → Option Event}
    (hplan : ∀ tid hist e, plan tid hist = some e → IsRequest e) {w w1 : World} {m : Threads}
    (hi : FlightInv C (Serial C w) m w1) (tid : Nat) (ho : ∀ j, j ≠ tid → m.flights j = none) :
    ∃ w1', FlightInv C (Serial C w) (m.step C plan tid) w1' := by
  unfold Threads.step
  cases hfl : m.flights tid with
  | some x =>
    obtain ⟨e, p⟩ := x
    rcases hi.now with ⟨hn, _⟩ | ⟨t', e', p', hf⟩
    · rw [hn tid] at hfl; cases hfl
    · by_cases ht : tid = t'
      · subst ht
        have := hf.flight
        rw [hfl] at this
        injection this with this
        injection this with h1 h2
        subst h1; subst h2
        exact threads_advance (serial_takes C w) hi hf
      · rw [hf.alone tid ht] at hfl; cases hfl
  | none =>
    dsimp only
    cases hp : plan tid m.history with
    | none => exact ⟨w1, hi⟩
    | some e =>
      have he := hplan tid _ e hp
      dsimp only
      rcases hi.now with ⟨hnone, hw⟩ | ⟨t', e', p', hf⟩
      · by_cases hs : m.world.conn.state = .idle
        · obtain ⟨s, hpe, _⟩ := C34_idle_accepts e he
          rw [← hs] at hpe
          rw [hpe]
          refine ⟨w1, hi.past, hi.own, .inr ⟨tid, e, .setting s, ?_, fun j hj => ?_, ?_, ?_, he, ?_, ⟨hw, ?_⟩, ?_⟩⟩
          · show (if tid = tid then some (e, Point.setting s) else m.flights tid) = _
            rw [if_pos rfl]
          · show (if j = tid then some (e, Point.setting s) else m.flights j) = none
            rw [if_neg hj]; exact hnone j
          · rw [← hw]; exact exchange_left C m.world e s hpe
          · exact (fits_of_accepted he hpe).2
          · show m.world.transport = _; rw [hw]
          · rw [← hw]; exact hpe
          · rw [← hw]; exact hs
        · rw [refused_unless_idle he hs]
          refine ⟨w1, serial_busy hi.past tid e (hw ▸ hs), forall_snoc hi.own (own_raised _ _ _), .inl ⟨fun j => ?_, hw⟩⟩
          show (if j = tid then none else m.flights j) = none
          split
          · rfl
          · exact hnone j
      · exfalso
        by_cases h : t' = tid
        · rw [← h, hf.flight] at hfl; cases hfl
        · have := ho t' h; rw [hf.flight] at this; cases this

theorem locked_others {l : Locked} {tid : Nat} (hh : l.holder = none ∨ l.holder = some tid) {j : Nat}
    (hj : l.holder = some j) : j = tid := by
  rcases hh with h | h <;> rw [h] at hj
  · cases hj
  · injection hj with hj; exact hj.symm

theorem locked_step {C : BlockCipher} {plan : Nat → List (Nat × Event × Outcome3 Event) → Option Event}
    {keep : Nat → List (Nat × Event × Outcome3 Event) → Bool}
    (hplan : ∀ tid hist e, plan tid hist = some e → IsRequest e) {w w1 : World} {l : Locked}
    (hi : LockInv C w l w1) (tid : Nat) : ∃ w1', LockInv C w (l.step C plan keep tid) w1' := by
  unfold Locked.step
  by_cases hh : l.holder = none ∨ l.holder = some tid
  · rw [if_pos hh]
    have ho : ∀ j, j ≠ tid → l.threads.flights j = none := by
      intro j hj
      cases hf : l.threads.flights j with
      | none => rfl
      | some x => exact absurd (locked_others hh (hi.held j (by rw [hf]; rfl))) hj
    obtain ⟨w2, h2⟩ := locked_threads_step hplan hi.flight tid ho
    refine ⟨w2, h2, fun j hj => ?_⟩
    dsimp only at hj ⊢
    by_cases hjt : j = tid
    · subst hjt; rw [hj]; rfl
    · rw [step_other hjt, ho j hjt] at hj; cases hj
  · rw [if_neg hh]; exact ⟨w1, hi⟩

theorem locked_run {C : BlockCipher} {plan : Nat → List (Nat × Event × Outcome3 Event) → Option Event}
    {keep : Nat → List (Nat × Event × Outcome3 Event) → Bool}
    (hplan : ∀ tid hist e, plan tid hist = some e → IsRequest e) {w : World} (schedule : List Nat) :
    ∀ {l : Locked} {w1 : World}, LockInv C w l w1 → ∃ w1', LockInv C w (l.run C plan keep schedule) w1' := by
  induction schedule with
  | nil => intro l w1 hi; exact ⟨w1, hi⟩
  | cons t ts ih =>
    intro l w1 hi
    obtain ⟨w2, h2⟩ := locked_step hplan hi t
    exact ih h2

theorem locked_init (C : BlockCipher) (w : World) : LockInv C w { threads := { world := w } } w :=
  ⟨⟨.nil w, (fun x hx => by cases hx), .inl ⟨fun _ => rfl, rfl⟩⟩, fun j h => (by cases h)⟩

/-- C114. Threads that share one client and make every call under one lock are, in every schedule, one program: the calls
that have ended, in the order in which they ended, had exactly the outcomes they have when one program makes them one
after the other, each after the end of the one before.  When no thread is in a call the client is in the state in which
that program leaves it; otherwise exactly one is, the one that holds the lock, and at most its request has been written. -/
theorem C114_one_program (C : BlockCipher) (plan : Nat → List (Nat × Event × Outcome3 Event) → Option Event)
    (keep : Nat → List (Nat × Event × Outcome3 Event) → Bool)
    (hplan : ∀ tid hist e, plan tid hist = some e → IsRequest e) (w : World) (schedule : List Nat) (l : Locked)
    (hl : l = Locked.run C plan keep { threads := { world := w } } schedule) :
    ∃ w1, Serial C w l.threads.history w1 ∧
      (((∀ tid, l.threads.flights tid = none) ∧ l.threads.world = w1) ∨
       ∃ tid e p, l.threads.flights tid = some (e, p) ∧ (∀ j, j ≠ tid → l.threads.flights j = none) ∧
        l.holder = some tid ∧
        (l.threads.world.os = w1.os ∨
         ∃ h line, w1.transport.socket = some h ∧ (w1.conn.send C e (w1.rands w1.draws)).2 = .ok line ∧
          l.threads.world.os = w1.os ++ [.write h line])) := by
  obtain ⟨w1, hi⟩ := locked_run hplan schedule (locked_init C w)
  rw [← hl] at hi
  refine ⟨w1, hi.flight.past, ?_⟩
  rcases hi.flight.now with ⟨hn, hw⟩ | ⟨tid, e, p, hf⟩
  · exact .inl ⟨hn, hw⟩
  · refine .inr ⟨tid, e, p, hf.flight, hf.alone, hi.held tid (by rw [hf.flight]; rfl), ?_⟩
    have hb := hf.before
    cases p with
    | setting s => left; rw [hb.1]
    | building => exact .inl hb.1
    | sending data => exact .inl hb.1
    | _ => exact .inr hb

/-- C114. What a call returns is of the kind its own request asks for, in every schedule. -/
theorem C114_own_answer (C : BlockCipher) (plan : Nat → List (Nat × Event × Outcome3 Event) → Option Event)
    (keep : Nat → List (Nat × Event × Outcome3 Event) → Bool)
    (hplan : ∀ tid hist e, plan tid hist = some e → IsRequest e) (w : World) (schedule : List Nat) (tid : Nat) (e ev : Event)
    (hx : (tid, e, .returned ev) ∈ (Locked.run C plan keep { threads := { world := w } } schedule).threads.history) :
    responseOf e.type = some ev.type := by
  obtain ⟨w1, hi⟩ := locked_run hplan schedule (locked_init C w)
  exact hi.flight.own _ hx ev rfl

theorem serial_idle {C : BlockCipher} {w w1 : World} {hist : List (Nat × Event × Outcome3 Event)}
    (h : Serial C w hist w1) (hw : w.conn.state = .idle) (hret : ∀ x ∈ hist, ∃ ev, x.2.2 = .returned ev) :
    w1.conn.state = .idle := by
  induction h with
  | nil w => exact hw
  | took w w' t' e' r _ _ ih =>
    obtain ⟨ev, hev⟩ := hret _ List.mem_cons_self
    exact ih (exchange_idle hev) (fun x hx => hret x (List.mem_cons_of_mem _ hx))
  | busy w w' t' e' r _ _ ih =>
    obtain ⟨ev, hev⟩ := hret _ List.mem_cons_self
    cases hev

theorem serial_split {C : BlockCipher} {w1 : World} (pre : List (Nat × Event × Outcome3 Event)) :
    ∀ {w : World} {post : List (Nat × Event × Outcome3 Event)}, Serial C w (pre ++ post) w1 →
      ∃ w0, Serial C w pre w0 ∧ Serial C w0 post w1 := by
  induction pre with
  | nil => intro w post h; exact ⟨w, .nil w, h⟩
  | cons x pre ih =>
    intro w post h
    cases h with
    | took _ _ t e r h0 h1 =>
      obtain ⟨w0, a, b⟩ := ih h1
      exact ⟨w0, .took _ _ _ _ _ h0 a, b⟩
    | busy _ _ t e r h0 h1 =>
      obtain ⟨w0, a, b⟩ := ih h1
      exact ⟨w0, .busy _ _ _ _ _ h0 a, b⟩

/-- C114. No thread is refused because of another: a call all of whose predecessors returned was made on an idle
connection and has the outcome it has there. -/
theorem C114_not_in_the_way (C : BlockCipher) (plan : Nat → List (Nat × Event × Outcome3 Event) → Option Event)
    (keep : Nat → List (Nat × Event × Outcome3 Event) → Bool)
    (hplan : ∀ tid hist e, plan tid hist = some e → IsRequest e) (w : World) (hw : w.conn.state = .idle)
    (schedule : List Nat) (pre post : List (Nat × Event × Outcome3 Event)) (tid : Nat) (e : Event) (o : Outcome3 Event)
    (hx : (Locked.run C plan keep { threads := { world := w } } schedule).threads.history = pre ++ (tid, e, o) :: post)
    (hret : ∀ x ∈ pre, ∃ ev, x.2.2 = .returned ev) :
    ∃ w0, Serial C w pre w0 ∧ w0.conn.state = .idle ∧ o = (w0.exchange C e).1 := by
  obtain ⟨w1, hi⟩ := locked_run hplan schedule (locked_init C w)
  have hp := hi.flight.past
  rw [hx] at hp
  obtain ⟨w0, a, b⟩ := serial_split pre hp
  have h0 := serial_idle a hw hret
  refine ⟨w0, a, h0, ?_⟩
  cases b with
  | took _ _ _ _ _ _ _ => rfl
  | busy _ _ _ _ _ hb _ => exact absurd h0 hb

theorem serial_determined {C : BlockCipher} {w w1 : World} {hist : List (Nat × Event × Outcome3 Event)}
    (h : Serial C w hist w1) : ∀ {hist' : List (Nat × Event × Outcome3 Event)} {w2 : World}, Serial C w hist' w2 →
      hist.map (fun x => (x.1, x.2.1)) = hist'.map (fun x => (x.1, x.2.1)) → hist = hist' ∧ w1 = w2 := by
  induction h with
  | nil w =>
    intro hist' w2 h' hm
    cases h' with
    | nil => exact ⟨rfl, rfl⟩
    | took => cases hm
    | busy => cases hm
  | took w w' t e r hi _ ih =>
    intro hist' w2 h' hm
    cases h' with
    | nil => cases hm
    | took _ _ t' e' r' _ h1 =>
      simp only [List.map_cons, List.cons.injEq, Prod.mk.injEq] at hm
      obtain ⟨⟨ht, he⟩, hm⟩ := hm
      subst ht; subst he
      obtain ⟨a, b⟩ := ih h1 hm
      exact ⟨by rw [a], b⟩
    | busy _ _ t' e' r' hb _ => exact absurd hi hb
  | busy w w' t e r hb _ ih =>
    intro hist' w2 h' hm
    cases h' with
    | nil => cases hm
    | took _ _ t' e' r' hi _ => exact absurd hi hb
    | busy _ _ t' e' r' _ h1 =>
      simp only [List.map_cons, List.cons.injEq, Prod.mk.injEq] at hm
      obtain ⟨⟨ht, he⟩, hm⟩ := hm
      subst ht; subst he
      obtain ⟨a, b⟩ := ih h1 hm
      exact ⟨by rw [a], b⟩

/-- C114. Only the order of the calls matters, not how the steps of the threads are interleaved: two schedules in which
the same requests end in the same order give the same outcomes, and leave the same client behind when no call is
under way. -/
theorem C114_order_only (C : BlockCipher) (plan plan' : Nat → List (Nat × Event × Outcome3 Event) → Option Event)
    (keep keep' : Nat → List (Nat × Event × Outcome3 Event) → Bool)
    (hplan : ∀ tid hist e, plan tid hist = some e → IsRequest e)
    (hplan' : ∀ tid hist e, plan' tid hist = some e → IsRequest e) (w : World) (schedule schedule' : List Nat) (l l' : Locked)
    (hl : l = Locked.run C plan keep { threads := { world := w } } schedule)
    (hl' : l' = Locked.run C plan' keep' { threads := { world := w } } schedule')
    (ho : l.threads.history.map (fun x => (x.1, x.2.1)) = l'.threads.history.map (fun x => (x.1, x.2.1))) :
    l.threads.history = l'.threads.history ∧
    ((∀ j, l.threads.flights j = none) → (∀ j, l'.threads.flights j = none) → l.threads.world = l'.threads.world) := by
  obtain ⟨w1, h1, k1⟩ := C114_one_program C plan keep hplan w schedule l hl
  obtain ⟨w2, h2, k2⟩ := C114_one_program C plan' keep' hplan' w schedule' l' hl'
  obtain ⟨a, b⟩ := serial_determined h1 h2 ho
  refine ⟨a, fun n1 n2 => ?_⟩
  rcases k1 with ⟨_, e1⟩ | ⟨t, _, _, e1, _⟩
  · rcases k2 with ⟨_, e2⟩ | ⟨t, _, _, e2, _⟩
    · rw [e1, e2, b]
    · rw [n2 t] at e2; cases e2
  · rw [n1 t] at e1; cases e1

/-- A schedule in which two threads disturb each other without a lock (C89): thread 2 looks the state up while
thread 1 has not changed it yet. -/
def exWoven : List Nat := [1, 2, 1, 2, 1, 2, 1, 2] ++ (List.replicate 50 [1, 2]).flatten ++ List.replicate 60 2

-- with the lock both get the time, in the mixed schedule too, and nobody is refused
example : (∀ tid hist e, exUntil tid hist = some e → IsRequest e) ∧ exShared.conn.state = .idle ∧
    exShort (Locked.run idCipher exUntil (fun _ _ => false) { threads := { world := exShared } } exWoven).threads.history =
      [(1, .returned), (2, .returned)] ∧
    exShort (Threads.run idCipher exUntil { world := exShared } exWoven).history ≠ [(1, .returned), (2, .returned)] ∧
    (Locked.run idCipher exUntil (fun _ _ => false) { threads := { world := exShared } } [1, 2, 1, 2, 1, 2]).holder = some 1 := by
  refine ⟨fun tid hist e h => ?_, rfl, by decide +kernel, by decide +kernel, by decide +kernel⟩
  unfold exUntil at h
  split at h
  · cases h
  · cases h; rfl

end Elgas
