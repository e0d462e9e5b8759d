import Verif.Props.Lock
import Verif.Props.Work
/-!
C115: threads that share one client and call every method under a lock.
-/
namespace Elgas
open Spec

/-- What a step of a thread is. -/
theorem thread_shape (C : BlockCipher) (plan : Nat → List (Nat × Event × Outcome3 Event) → Option Event) (m : Threads)
    (tid : Nat) : m.step C plan tid = m ∨ ∃ e,
      ((∃ p, m.flights tid = some (e, p)) ∨ (m.flights tid = none ∧ plan tid m.history = some e)) ∧
      ((∃ p w, m.step C plan tid = m.go tid e p w) ∨ ∃ o w, m.step C plan tid = m.finish tid e o w) := by
  unfold Threads.step
  cases hf : m.flights tid with
  | none =>
    dsimp only
    cases hp : plan tid m.history with
    | none => exact .inl rfl
    | some e =>
      refine .inr ⟨e, .inr ⟨rfl, rfl⟩, ?_⟩
      dsimp only
      cases processEvent m.world.conn.state e with
      | error x => exact .inr ⟨_, _, rfl⟩
      | ok s => exact .inl ⟨_, _, rfl⟩
  | some x =>
    obtain ⟨e, p⟩ := x
    dsimp only
    have key : m.advance C tid e p = m ∨ ((∃ p' w, m.advance C tid e p = m.go tid e p' w) ∨
        ∃ o w, m.advance C tid e p = m.finish tid e o w) := by
      cases p with
      | reading t line =>
        show m.read tid e t line = m ∨ ((∃ p' w, m.read tid e t line = m.go tid e p' w) ∨
          ∃ o w, m.read tid e t line = m.finish tid e o w)
        unfold Threads.read
        split
        · exact .inl rfl
        · exact .inr (.inr ⟨_, _, rfl⟩)
        · right
          split
          · exact .inl ⟨_, _, rfl⟩
          · split
            · exact .inl ⟨_, _, rfl⟩
            · split
              · exact .inr ⟨_, _, rfl⟩
              · exact .inl ⟨_, _, rfl⟩
              · exact .inl ⟨_, _, rfl⟩
      | _ =>
        unfold Threads.advance
        dsimp only
        first
          | exact .inr (.inl ⟨_, _, rfl⟩)
          | exact .inr (.inr ⟨_, _, rfl⟩)
          | (split <;> first
              | exact .inl rfl
              | exact .inr (.inl ⟨_, _, rfl⟩)
              | exact .inr (.inr ⟨_, _, rfl⟩))
    rcases key with h | h
    · exact .inl h
    · exact .inr ⟨e, .inl ⟨p, rfl⟩, h⟩

/-- While a thread has read some but not all pages only it makes requests. -/
def KeptBy (work : Nat → Work) : List (Nat × Event × Outcome3 Event) → Prop
  | [] => True
  | (tid, _, o) :: rest => (∀ j, (work j).pages.isSome = true → j = tid) ∧
      KeptBy (fun j => if j = tid then ((work tid).answered o).2 else work j) rest

theorem keptBy_snoc (hist : List (Nat × Event × Outcome3 Event)) (tid : Nat) (e : Event) (o : Outcome3 Event) :
    ∀ work : Nat → Work, KeptBy work hist → (∀ j, ((works work hist).1 j).pages.isSome = true → j = tid) →
      KeptBy work (hist ++ [(tid, e, o)]) := by
  induction hist with
  | nil => intro work _ h; exact ⟨h, trivial⟩
  | cons x xs ih =>
    intro work h1 h2
    obtain ⟨t, e', o'⟩ := x
    exact ⟨h1.1, ih _ h1.2 h2⟩

/-- The invariant: everybody does his work, and holds the lock while he is in a method. -/
structure LockWork (pw : PyStr) (calls : Nat → List Call) (l : Locked) : Prop where
  past : WorksOn pw (fun j => { todo := calls j }) l.threads.history
  kept : KeptBy (fun j => { todo := calls j }) l.threads.history
  now : ∀ tid e p, l.threads.flights tid = some (e, p) →
    ((works (fun j => { todo := calls j }) l.threads.history).1 tid).request pw = some e
  held : ∀ j, keepOf calls j l.threads.history = true → l.holder = some j

theorem lockWork_step {C : BlockCipher} {pw : PyStr} {calls : Nat → List Call} {l : Locked}
    (h : LockWork pw calls l) (tid : Nat) : LockWork pw calls (l.step C (planOf pw calls) (keepOf calls) tid) := by
  unfold Locked.step
  by_cases hh : l.holder = none ∨ l.holder = some tid
  · rw [if_pos hh]
    rcases thread_shape C (planOf pw calls) l.threads tid with h0 | ⟨e, he, hs⟩
    · rw [h0]
      refine ⟨h.past, h.kept, h.now, fun j hj => ?_⟩
      dsimp only at hj ⊢
      have := locked_others hh (h.held j hj)
      subst this
      rw [hj]; simp
    · have hreq : ((works (fun j => { todo := calls j }) l.threads.history).1 tid).request pw = some e := by
        rcases he with ⟨p, hp⟩ | ⟨_, hp⟩
        · exact h.now _ _ _ hp
        · exact hp
      rcases hs with ⟨p, w, hs⟩ | ⟨o, w, hs⟩
      · rw [hs]
        refine ⟨h.past, h.kept, fun t e' p' hf => ?_, fun j hj => ?_⟩
        · change (if t = tid then some (e, p) else l.threads.flights t) = some (e', p') at hf
          split at hf
          · next ht => subst ht; cases hf; exact hreq
          · exact h.now _ _ _ hf
        · dsimp only at hj ⊢
          have := locked_others hh (h.held j hj)
          subst this
          have hj' : keepOf calls j (l.threads.go j e p w).history = true := hj
          rw [hj']; simp
      · rw [hs]
        refine ⟨worksOn_snoc _ _ _ _ _ h.past hreq,
          keptBy_snoc _ _ _ _ _ h.kept (fun j hj => locked_others hh (h.held j hj)), fun t e' p' hf => ?_, fun j hj => ?_⟩
        · change (if t = tid then none else l.threads.flights t) = some (e', p') at hf
          split at hf
          · cases hf
          · next ht =>
            change ((works _ (l.threads.history ++ [(tid, e, o)])).1 t).request pw = _
            rw [works_snoc]
            dsimp only
            rw [if_neg ht]
            exact h.now _ _ _ hf
        · dsimp only at hj ⊢
          by_cases ht : j = tid
          · subst ht; rw [hj]; simp
          · exfalso
            have hj' : ((works (fun j => ({ todo := calls j } : Work)) (l.threads.history ++ [(tid, e, o)])).1 j).pages.isSome
              = true := hj
            rw [works_snoc] at hj'
            dsimp only at hj'
            rw [if_neg ht] at hj'
            exact ht (locked_others hh (h.held j hj'))
  · rw [if_neg hh]; exact h

theorem lockWork_run {C : BlockCipher} {pw : PyStr} {calls : Nat → List Call} (schedule : List Nat) : ∀ {l : Locked},
    LockWork pw calls l → LockWork pw calls (l.run C (planOf pw calls) (keepOf calls) schedule) := by
  induction schedule with
  | nil => intro l h; exact h
  | cons t ts ih => intro l h; exact ih (lockWork_step h t)

/-- Where one program would be: `w0` when the last method ended; and now, with what the threads have to do, in the state `w`
nobody or one thread is between two pages. -/
def BetweenPages (C : BlockCipher) (w0 w : World) (work : Nat → Work) : Prop :=
  (w0 = w ∧ ∀ j, (work j).pages = none) ∨
  ∃ tid k ks p, work tid = ⟨k :: ks, some p⟩ ∧ (∀ j, j ≠ tid → (work j).pages = none) ∧ w0.conn.state = .idle ∧
    w.conn.state = .idle ∧ resume C w0 k none = resume C w k (some p)

theorem resume_start (C : BlockCipher) (w : World) (k : Call) : resume C w k none = wcall C w k := by cases k <;> rfl

theorem goesOn_more {k : Call} {pages : Option (Int × Bytes)} {o : Outcome3 Event} {p : Int × Bytes}
    (h : goesOn k pages o = .inr p) : ∃ ev, o = .returned ev := by
  cases o with
  | returned ev => exact ⟨ev, rfl⟩
  | raised x => rw [goesOn_refused] at h; cases h
  | pending => cases k <;> cases h

theorem serial_methods {C : BlockCipher} {w w1 : World} {hist : List (Nat × Event × Outcome3 Event)} (h : Serial C w hist w1) :
    ∀ (w0 : World) (work : Nat → Work), BetweenPages C w0 w work → WorksOn w.password work hist → KeptBy work hist →
    ∃ w2, SerialCalls C w0 (works work hist).2 w2 ∧ BetweenPages C w2 w1 (works work hist).1 := by
  induction h with
  | nil w => intro w0 work hb _ _; exact ⟨w0, .nil w0, hb⟩
  | busy w w' t e r hw _ ih =>
    intro w0 work hb hon hk
    rcases hb with ⟨hw0, hp⟩ | ⟨_, _, _, _, _, _, _, hi, _⟩
    · subst hw0
      obtain ⟨hreq, hon⟩ := hon
      cases htodo : (work t).todo with
      | nil => unfold Work.request at hreq; rw [htodo] at hreq; cases hreq
      | cons k ks =>
        have hans : (work t).answered (.raised (.elgas .localProtocol)) =
            ([(k, .raised (.elgas .localProtocol))], { todo := ks }) := by
          unfold Work.answered; rw [htodo]; dsimp only; rw [goesOn_refused]
        obtain ⟨w2, a, b⟩ := ih w0 _ (.inl ⟨rfl, fun j => by
          by_cases hj : j = t
          · rw [if_pos hj, hans]
          · rw [if_neg hj]; exact hp j⟩) hon hk.2
        have hgoal : ∀ w2, SerialCalls C w0 (((work t).answered (.raised (.elgas .localProtocol))).1.map (fun x => (t, x)) ++
              (works (fun j => if j = t then ((work t).answered (.raised (.elgas .localProtocol))).2 else work j) r).2) w2 →
            SerialCalls C w0 (works work ((t, e, .raised (.elgas .localProtocol)) :: r)).2 w2 := fun w2 h => h
        refine ⟨w2, hgoal w2 ?_, b⟩
        rw [hans] at a ⊢
        exact .busy _ _ _ _ _ hw a
    · exact absurd hi hw
  | took w w' t e r hw _ ih =>
    intro w0 work hb hon hk
    obtain ⟨hreq, hon⟩ := hon
    rw [← (exchange_config C w e).1] at hon
    cases htodo : (work t).todo with
    | nil => unfold Work.request at hreq; rw [htodo] at hreq; cases hreq
    | cons k ks =>
      have he : requestOf w.password k (work t).pages = e := by
        unfold Work.request at hreq
        rw [htodo] at hreq
        exact Option.some.inj hreq
      have hothers : ∀ j, j ≠ t → (work j).pages = none := by
        intro j hj
        cases hp : (work j).pages with
        | none => rfl
        | some p => exact absurd (hk.1 j (by rw [hp]; rfl)) hj
      have hres : resume C w0 k none = resume C w k (work t).pages ∧ w0.conn.state = .idle := by
        rcases hb with ⟨hw0, hp⟩ | ⟨t', k', ks', p, hwk, ho, hi0, _, hr⟩
        · subst hw0; rw [hp t]; exact ⟨rfl, hw⟩
        · have ht : t' = t := by
            refine Classical.byContradiction fun hne => ?_
            have := hothers t' hne
            rw [hwk] at this
            cases this
          subst ht
          rw [hwk] at htodo
          injection htodo with h1 h2
          subst h1
          rw [hwk]
          exact ⟨hr, hi0⟩
      obtain ⟨hres, hi0⟩ := hres
      rw [resume_step C w, he] at hres
      have hans : (work t).answered (w.exchange C e).1 = match goesOn k (work t).pages (w.exchange C e).1 with
          | .inl v => ([(k, v)], { todo := ks })
          | .inr p => ([], ⟨k :: ks, some p⟩) := by
        unfold Work.answered; rw [htodo]; dsimp only
        cases goesOn k (work t).pages (w.exchange C e).1 with
        | inl v => rfl
        | inr p => rw [← htodo]
      have hgoal : ∀ w2, SerialCalls C w0 (((work t).answered (w.exchange C e).1).1.map (fun x => (t, x)) ++
            (works (fun j => if j = t then ((work t).answered (w.exchange C e).1).2 else work j) r).2) w2 →
          SerialCalls C w0 (works work ((t, e, (w.exchange C e).1) :: r)).2 w2 := fun w2 h => h
      cases hg : goesOn k (work t).pages (w.exchange C e).1 with
      | inl v =>
        rw [hg] at hans hres
        dsimp only at hans hres
        rw [resume_start] at hres
        obtain ⟨w2, a, b⟩ := ih (w.exchange C e).2 _ (.inl ⟨rfl, fun j => by
          by_cases hj : j = t
          · rw [if_pos hj, hans]
          · rw [if_neg hj]; exact hothers j hj⟩) hon hk.2
        refine ⟨w2, hgoal w2 ?_, b⟩
        rw [hans] at a ⊢
        have := SerialCalls.made w0 w2 t k _ hi0 (by rw [hres]; exact a)
        rw [hres] at this
        exact this
      | inr p =>
        rw [hg] at hans hres
        dsimp only at hans hres
        obtain ⟨ev, hev⟩ := goesOn_more hg
        obtain ⟨w2, a, b⟩ := ih w0 _ (.inr ⟨t, k, ks, p, by rw [if_pos rfl, hans],
          fun j hj => by rw [if_neg hj]; exact hothers j hj, hi0, exchange_idle hev, hres⟩) hon hk.2
        refine ⟨w2, hgoal w2 ?_, b⟩
        rw [hans] at a ⊢
        exact a

theorem lockWork_init (pw : PyStr) (calls : Nat → List Call) (w : World) :
    LockWork pw calls { threads := { world := w } } :=
  ⟨trivial, trivial, fun tid e p hf => (by cases hf), fun j hj => (by cases hj)⟩

/-- C115. Threads that share one client and hold one lock while they are inside one of its read and write methods are, in
every schedule, one program: the methods that have ended, in the order in which they ended, had exactly the results they
have when one program calls them one after the other, each after the end of the one before, also those that consist of many
requests; and when nobody holds the lock the client is in the state in which that program leaves it. -/
theorem C115_one_program (C : BlockCipher) (w : World) (calls : Nat → List Call) (schedule : List Nat) (l : Locked)
    (hl : l = Locked.run C (planOf w.password calls) (keepOf calls) { threads := { world := w } } schedule) :
    ∃ w2, SerialCalls C w (endedCalls calls l.threads.history) w2 ∧ (l.holder = none → l.threads.world = w2) := by
  obtain ⟨w1, hi⟩ := locked_run (C := C) (keep := keepOf calls) (planOf_request (pw := w.password) (calls := calls)) schedule
    (locked_init C w)
  have hwork := lockWork_run (C := C) (pw := w.password) (calls := calls) schedule (lockWork_init w.password calls w)
  rw [← hl] at hi hwork
  obtain ⟨w2, a, b⟩ := serial_methods hi.flight.past w (fun j => { todo := calls j }) (.inl ⟨rfl, fun _ => rfl⟩) hwork.past
    hwork.kept
  refine ⟨w2, a, fun hn => ?_⟩
  have hw1 : l.threads.world = w1 := by
    rcases hi.flight.now with ⟨_, h⟩ | ⟨t, e, p, hf⟩
    · exact h
    · have := hi.held t (by rw [hf.flight]; rfl)
      rw [hn] at this; cases this
  rw [hw1]
  rcases b with ⟨h, _⟩ | ⟨t, k, ks, p, hwk, _⟩
  · exact h.symm
  · have := hwork.held t (by unfold keepOf; rw [hwk]; rfl)
    rw [hn] at this; cases this

theorem readPages_idle {C : BlockCipher} {w : World} {count : Int} {total d : Bytes}
    (h : (w.readPages C count total).1 = .returned d) : (w.readPages C count total).2.conn.state = .idle := by
  fun_induction World.readPages C w count total with
  | case1 => cases h
  | case2 => cases h
  | case3 w count total p w' hx he =>
    exact (by have := exchange_idle (C := C) (w := w) (by rw [hx]); rw [hx] at this; exact this)
  | case4 w count total p w' hx he ih => exact ih h
  | case5 => cases h

theorem wcall_idle {C : BlockCipher} {w : World} {k : Call} {v : Value} (h : (wcall C w k).1 = .returned v) :
    (wcall C w k).2.conn.state = .idle := by
  cases k with
  | readParameters n =>
    unfold wcall World.readParameters at h ⊢
    dsimp only at h ⊢
    obtain ⟨x, hx⟩ := andThen_returned h
    obtain ⟨d, hd⟩ := andThen_returned hx
    exact readPages_idle hd
  | readInstantaneousValues =>
    obtain ⟨x, hx⟩ := andThen_returned h
    exact exchange_idle hx
  | readTime =>
    obtain ⟨x, hx⟩ := andThen_returned h
    obtain ⟨y, hy⟩ := andThen_returned hx
    exact exchange_idle hy
  | writeTime t b =>
    obtain ⟨x, hx⟩ := andThen_returned h
    obtain ⟨y, hy⟩ := andThen_returned hx
    exact exchange_idle hy
  | readArchive a n i =>
    obtain ⟨x, hx⟩ := andThen_returned h
    exact exchange_idle hx
  | readArchiveByTime a n t =>
    obtain ⟨x, hx⟩ := andThen_returned h
    exact exchange_idle hx

theorem serialCalls_acts {C : BlockCipher} {w w2 : World} {ended : List (Nat × Call × Outcome3 Value)}
    (h : SerialCalls C w ended w2) : w.conn.state = .idle → (∀ x ∈ ended, ∃ v, x.2.2 = .returned v) →
    acts C w (ended.map (fun x => .call x.2.1)) = (ended.map (·.2.2), w2) ∧ w2.conn.state = .idle := by
  induction h with
  | nil w => intro hi _; exact ⟨rfl, hi⟩
  | made w w' t k r _ _ ih =>
    intro _ hr
    obtain ⟨v, hv⟩ := hr _ List.mem_cons_self
    obtain ⟨h1, h2⟩ := ih (wcall_idle hv) (fun x hx => hr x (List.mem_cons_of_mem _ hx))
    refine ⟨?_, h2⟩
    show ((wcall C w k).1 :: (acts C (wcall C w k).2 (r.map fun x => .call x.2.1)).1,
      (acts C (wcall C w k).2 (r.map fun x => .call x.2.1)).2) = _
    rw [h1]; rfl
  | busy w w' t k r hb _ _ => intro hi _; exact absurd hi hb

/-- C115. As long as the methods return, the threads together are the program (in the sense of `acts`, to which the theorems about programs
apply) that calls these methods in this order: same results, same final state of client, transport and operating system;
and the client is ready for the next call. -/
theorem C115_program (C : BlockCipher) (w : World) (hw : w.conn.state = .idle) (calls : Nat → List Call) (schedule : List Nat)
    (l : Locked)
    (hl : l = Locked.run C (planOf w.password calls) (keepOf calls) { threads := { world := w } } schedule)
    (hn : l.holder = none) (hr : ∀ x ∈ endedCalls calls l.threads.history, ∃ v, x.2.2 = .returned v) :
    acts C w ((endedCalls calls l.threads.history).map (fun x => .call x.2.1)) =
      ((endedCalls calls l.threads.history).map (·.2.2), l.threads.world) ∧
    l.threads.world.conn.state = .idle := by
  obtain ⟨w2, a, b⟩ := C115_one_program C w calls schedule l hl
  rw [b hn]
  exact serialCalls_acts a hw hr

theorem serialCalls_split {C : BlockCipher} {w1 : World} (pre : List (Nat × Call × Outcome3 Value)) :
    ∀ {w : World} {post : List (Nat × Call × Outcome3 Value)}, SerialCalls C w (pre ++ post) w1 →
      ∃ w0, SerialCalls C w pre w0 ∧ SerialCalls C w0 post w1 := by
  induction pre with
  | nil => intro w post h; exact ⟨w, .nil w, h⟩
  | cons x pre ih =>
    intro w post h
    cases h with
    | made _ _ t e r h0 h1 =>
      obtain ⟨w0, a, b⟩ := ih h1
      exact ⟨w0, .made _ _ _ _ _ h0 a, b⟩
    | busy _ _ t e r h0 h1 =>
      obtain ⟨w0, a, b⟩ := ih h1
      exact ⟨w0, .busy _ _ _ _ _ h0 a, b⟩

/-- C115. No thread is in another's way: a method whose predecessors all returned gives exactly what it gives to the program
that has called only these before. -/
theorem C115_not_in_the_way (C : BlockCipher) (w : World) (hw : w.conn.state = .idle) (calls : Nat → List Call)
    (schedule : List Nat) (pre post : List (Nat × Call × Outcome3 Value)) (tid : Nat) (k : Call) (o : Outcome3 Value)
    (hx : endedCalls calls (Locked.run C (planOf w.password calls) (keepOf calls)
      { threads := { world := w } } schedule).threads.history = pre ++ (tid, k, o) :: post)
    (hr : ∀ x ∈ pre, ∃ v, x.2.2 = .returned v) :
    o = (wcall C (acts C w (pre.map fun x => .call x.2.1)).2 k).1 := by
  obtain ⟨w1, hp, _⟩ := C115_one_program C w calls schedule _ rfl
  rw [hx] at hp
  obtain ⟨w0, a, b⟩ := serialCalls_split pre hp
  obtain ⟨h1, h2⟩ := serialCalls_acts a hw hr
  rw [h1]
  cases b with
  | made _ _ _ _ _ _ _ => rfl
  | busy _ _ _ _ _ hb _ => exact absurd h2 hb

theorem finish_moves {m : Threads} {tid : Nat} {e : Event} {o : Outcome3 Event} {w : World} : m.finish tid e o w ≠ m := by
  intro h
  have := congrArg (fun x : Threads => x.history.length) h
  simp [Threads.finish] at this

theorem go_moves {m : Threads} {tid : Nat} {e : Event} {p : Point} {w : World} (h : m.go tid e p w = m) :
    m.flights tid = some (e, p) ∧ m.world = w := by
  constructor
  · have := congrFun (congrArg Threads.flights h) tid
    simp only [Threads.go, if_pos] at this
    exact this.symm
  · exact (congrArg Threads.world h).symm

/-- A thread in a call that does not move waits for the operating system. -/
theorem advance_stuck {C : BlockCipher} {m : Threads} {tid : Nat} {e : Event} {p : Point}
    (hf : m.flights tid = some (e, p)) (h : m.advance C tid e p = m) :
    (p = .writing ∧ m.world.writes = []) ∨ ((∃ t line, p = .reading t line) ∧ m.world.unread = []) := by
  have hgo : ∀ {p' : Point} {w : World}, m.go tid e p' w = m → p' = p ∧ m.world = w := by
    intro p' w h
    obtain ⟨h1, h2⟩ := go_moves h
    rw [hf] at h1
    injection h1 with h1
    injection h1 with _ h1
    exact ⟨h1.symm, h2⟩
  cases p with
  | writing =>
    unfold Threads.advance at h
    dsimp only at h
    cases hw : m.world.writes with
    | nil => exact .inl ⟨rfl, rfl⟩
    | cons r writes =>
      rw [hw] at h
      cases r with
      | ok u => exact absurd (hgo h).1 (by simp)
      | error x => exact absurd h finish_moves
  | reading t line =>
    refine .inr ⟨⟨t, line, rfl⟩, ?_⟩
    have h' : m.read tid e t line = m := h
    unfold Threads.read at h'
    cases ho : osRead 1 m.world.unread with
    | none =>
      have := osRead_content (n := 1) (s := m.world.unread)
      rw [ho] at this
      exact this
    | some x =>
      obtain ⟨x, r⟩ := x
      rw [ho] at h'
      exfalso
      cases x with
      | error x => exact finish_moves h'
      | ok d =>
        dsimp only at h'
        have hline : d.isEmpty = false → ∀ {t' : Timeout}, Point.reading t' (line ++ d) ≠ .reading t line := by
          intro hd t' hp
          injection hp with _ hp
          have := congrArg List.length hp
          cases d with
          | nil => cases hd
          | cons b d => simp at this
        cases hd : d.isEmpty with
        | true =>
          rw [hd, if_pos rfl] at h'
          have hw := (hgo h').2
          have hlt := osRead_weight (n := 1) (by omega) ho
          have : m.world.unread = r := by
            have h1 := congrArg World.unread hw
            cases hs : m.world.transport.socket with
            | none =>
              have : m.world.unread = [] := by unfold World.unread; rw [hs]
              rw [this] at ho; cases ho
            | some g =>
              rw [h1]
              simp [World.setUnread, World.unread, hs]
          rw [this] at hlt
          omega
        | false =>
          rw [hd, if_neg (by simp)] at h'
          split at h'
          · exact absurd (hgo h').1 (by simp)
          · split at h'
            · exact finish_moves h'
            · exact absurd (hgo h').1 (by simp)
            · exact hline hd (hgo h').1
  | _ =>
    exfalso
    unfold Threads.advance at h
    dsimp only at h
    first
      | exact absurd (hgo h).1 (by simp)
      | exact finish_moves h
      | (split at h <;> first
          | exact absurd (hgo h).1 (by simp)
          | exact finish_moves h)

/-- A thread in no call that does not move has nothing to ask. -/
theorem step_stuck {C : BlockCipher} {plan : Nat → List (Nat × Event × Outcome3 Event) → Option Event} {m : Threads}
    {tid : Nat} (hf : m.flights tid = none) (h : m.step C plan tid = m) : plan tid m.history = none := by
  cases hp : plan tid m.history with
  | none => rfl
  | some e =>
    exfalso
    unfold Threads.step at h
    rw [hf] at h
    dsimp only at h
    rw [hp] at h
    dsimp only at h
    cases hpe : processEvent m.world.conn.state e with
    | error x => rw [hpe] at h; exact finish_moves h
    | ok s =>
      rw [hpe] at h
      have := (go_moves h).1
      rw [hf] at this; cases this

/-- C115. The lock does not lead to a deadlock: when no thread can move, all methods of all threads have ended and the lock is
free, or the thread that holds it waits for the operating system, which neither takes nor delivers anything. -/
theorem C115_no_deadlock (C : BlockCipher) (w : World) (calls : Nat → List Call) (schedule : List Nat) (l : Locked)
    (hl : l = Locked.run C (planOf w.password calls) (keepOf calls) { threads := { world := w } } schedule)
    (hs : ∀ tid, l.step C (planOf w.password calls) (keepOf calls) tid = l) :
    (l.holder = none ∧
      ∀ tid, ((endedCalls calls l.threads.history).filter (·.1 = tid)).map (·.2.1) = calls tid) ∨
    ∃ tid e p, l.holder = some tid ∧ l.threads.flights tid = some (e, p) ∧
      ((p = .writing ∧ l.threads.world.writes = []) ∨
       ((∃ t line, p = .reading t line) ∧ l.threads.world.unread = [])) := by
  obtain ⟨w1, hi⟩ := locked_run (C := C) (keep := keepOf calls) (planOf_request (pw := w.password) (calls := calls)) schedule
    (locked_init C w)
  have hwork := lockWork_run (C := C) (pw := w.password) (calls := calls) schedule (lockWork_init w.password calls w)
  rw [← hl] at hi hwork
  have hstep : ∀ tid, (l.holder = none ∨ l.holder = some tid) →
      l.threads.step C (planOf w.password calls) tid = l.threads := by
    intro tid hh
    have := congrArg Locked.threads (hs tid)
    unfold Locked.step at this
    rw [if_pos hh] at this
    exact this
  have hrequest : ∀ tid, planOf w.password calls tid l.threads.history = none →
      ((works (fun j => { todo := calls j }) l.threads.history).1 tid).todo = [] := by
    intro tid h
    unfold planOf Work.request at h
    cases ht : ((works (fun j => ({ todo := calls j } : Work)) l.threads.history).1 tid).todo with
    | nil => rfl
    | cons k ks => rw [ht] at h; cases h
  cases hh : l.holder with
  | none =>
    refine .inl ⟨rfl, fun tid => ?_⟩
    have hf : l.threads.flights tid = none := by
      cases hf : l.threads.flights tid with
      | none => rfl
      | some x => have := hi.held tid (by rw [hf]; rfl); rw [hh] at this; cases this
    have h0 := hrequest tid (step_stuck hf (hstep tid (.inl hh)))
    have := works_order l.threads.history tid (fun j => { todo := calls j })
    rw [h0, List.append_nil] at this
    exact this
  | some tid =>
    right
    have ht := hstep tid (.inr hh)
    cases hf : l.threads.flights tid with
    | some x =>
      obtain ⟨e, p⟩ := x
      refine ⟨tid, e, p, rfl, hf, advance_stuck (C := C) hf ?_⟩
      unfold Threads.step at ht
      rw [hf] at ht
      exact ht
    | none =>
      exfalso
      have h0 := hrequest tid (step_stuck hf ht)
      obtain ⟨w2, _, b⟩ := serial_methods hi.flight.past w (fun j => { todo := calls j }) (.inl ⟨rfl, fun _ => rfl⟩)
        hwork.past hwork.kept
      have hk : keepOf calls tid l.threads.history = true := by
        have := congrArg Locked.holder (hs tid)
        unfold Locked.step at this
        rw [if_pos (.inr hh)] at this
        dsimp only at this
        rw [ht, hf, hh] at this
        cases hk : keepOf calls tid l.threads.history with
        | true => rfl
        | false => rw [hk] at this; simp at this
      unfold keepOf at hk
      rcases b with ⟨_, hn⟩ | ⟨t, k, ks, p, hwk, ho, _⟩
      · rw [hn tid] at hk; cases hk
      · by_cases htt : tid = t
        · subst htt; rw [hwk] at h0; cases h0
        · rw [ho tid htt] at hk; cases hk

/-! ### Examples -/

/-- A device that is asked for its parameters, which come in two pages, and then for its time. -/
def exPagedWorld : World :=
  { exShared with
    password := "000000".toList
    inbox := fun _ =>
      [.seg (exWire .readScadaParameters (exPage 0 false (record (UInt8.ofNat ObjType.BINARY.value, exBinary)))),
       .seg (exWire .readScadaParameters (exPage 1 true (record (UInt8.ofNat ObjType.TIME_WINDOW.value, exTimeWindow)))),
       .seg exDeviceTime] }

/-- Thread 1 reads the parameters, thread 2 the time. -/
def exReaders : Nat → List Call := fun tid => if tid = 1 then [.readParameters 0] else if tid = 2 then [.readTime] else []

/-- The threads take turns. -/
def exInTurn : List Nat := (List.replicate 200 [1, 2]).flatten

-- both get what they asked for and the lock is free at the end; if it is given back between the pages they do not
example : exPagedWorld.conn.state = .idle ∧
    exEndedShort (endedCalls exReaders (Locked.run idCipher (planOf exPagedWorld.password exReaders) (keepOf exReaders)
      { threads := { world := exPagedWorld } } exInTurn).threads.history) = [(1, .returned), (2, .returned)] ∧
    (Locked.run idCipher (planOf exPagedWorld.password exReaders) (keepOf exReaders)
      { threads := { world := exPagedWorld } } exInTurn).holder = none ∧
    exEndedShort (endedCalls exReaders (Locked.run idCipher (planOf exPagedWorld.password exReaders) (fun _ _ => false)
      { threads := { world := exPagedWorld } } exInTurn).threads.history) ≠ [(1, .returned), (2, .returned)] := by
  refine ⟨rfl, ?_, ?_, ?_⟩ <;> decide +kernel

-- and then no thread can move any more
example (l : Locked) (hl : l = Locked.run idCipher (planOf exPagedWorld.password exReaders) (keepOf exReaders)
      { threads := { world := exPagedWorld } } exInTurn) (tid : Nat) :
    l.step idCipher (planOf exPagedWorld.password exReaders) (keepOf exReaders) tid = l := by
  have hh : l.holder = none := by rw [hl]; decide +kernel
  obtain ⟨w1, hi⟩ := locked_run (C := idCipher) (keep := keepOf exReaders)
    (planOf_request (pw := exPagedWorld.password) (calls := exReaders)) exInTurn (locked_init idCipher exPagedWorld)
  have hwork := lockWork_run (C := idCipher) (pw := exPagedWorld.password) (calls := exReaders) exInTurn
    (lockWork_init exPagedWorld.password exReaders exPagedWorld)
  rw [← hl] at hi hwork
  have hf : l.threads.flights tid = none := by
    cases hf : l.threads.flights tid with
    | none => rfl
    | some x => have := hi.held tid (by rw [hf]; rfl); rw [hh] at this; cases this
  have hk : keepOf exReaders tid l.threads.history = false := by
    cases hk : keepOf exReaders tid l.threads.history with
    | false => rfl
    | true => have := hwork.held tid hk; rw [hh] at this; cases this
  have ht : ((works (fun j => { todo := exReaders j }) l.threads.history).1 tid).todo = [] := by
    have := works_order l.threads.history tid (fun j => { todo := exReaders j })
    by_cases h1 : tid = 1
    · subst h1; rw [hl]; decide +kernel
    · by_cases h2 : tid = 2
      · subst h2; rw [hl]; decide +kernel
      · have h3 : exReaders tid = [] := by unfold exReaders; rw [if_neg h1, if_neg h2]
        dsimp only at this
        rw [h3] at this
        exact (List.append_eq_nil_iff.1 this).2
  have hstep : l.threads.step idCipher (planOf exPagedWorld.password exReaders) tid = l.threads := by
    unfold Threads.step planOf Work.request
    rw [hf, ht]
  unfold Locked.step
  rw [if_pos (.inl hh), hstep, hf, hk]
  cases l
  simp_all

end Elgas
