import Verif.Props.Threads
import Verif.Props.Assign
import Verif.Spec.Interrupt
/-!
C104: calls that are stopped from outside.
-/
namespace Elgas
open Spec

/-- What is decoded does not change until the buffer is emptied. -/
def HasDecoded (C : BlockCipher) (c : Conn) : Point → Prop
  | .checking pdu => c.decodeHead C = .ok (some pdu)
  | .accepting pdu s => c.decodeHead C = .ok (some pdu) ∧ s = .idle
  | .clearing pdu => c.decodeHead C = .ok (some pdu) ∧ c.state = .idle
  | _ => True

theorem decodeHead_state (C : BlockCipher) (c : Conn) (s : PState) : ({ c with state := s } : Conn).decodeHead C = c.decodeHead C := rfl

/-- Only the thread 0 is in a call, and has decoded what is in the buffer. -/
structure AloneInv (C : BlockCipher) (m : Threads) : Prop where
  alone : ∀ j, j ≠ 0 → m.flights j = none
  decoded : ∀ e p, m.flights 0 = some (e, p) → HasDecoded C m.world.conn p
  requests : ∀ x ∈ m.history, IsRequest x.2.1

theorem alone_go {C : BlockCipher} {m : Threads} (h : AloneInv C m) {e : Event} {p : Point} {w : World}
    (hd : HasDecoded C w.conn p) : AloneInv C (m.go 0 e p w) :=
  ⟨fun j hj => (go_other hj).trans (h.alone j hj), fun e' p' hf => by rw [go_self] at hf; cases hf; exact hd, h.requests⟩

theorem alone_finish {C : BlockCipher} {m : Threads} (h : AloneInv C m) {e : Event} (he : IsRequest e)
    {o : Outcome3 Event} {w : World} : AloneInv C (m.finish 0 e o w) :=
  ⟨fun j hj => (finish_other hj).trans (h.alone j hj), (fun e' p' hf => by
    have : (m.finish 0 e o w).flights 0 = none := rfl
    rw [this] at hf; cases hf), forall_snoc (P := fun x : Nat × Event × Outcome3 Event => IsRequest x.2.1) h.requests he⟩

theorem idle_of_response {s s' : PState} {e pdu : Event} (hw : awaits s = responseOf e.type) (he : IsRequest e)
    (h : processEvent s pdu = .ok s') : s' = .idle := by
  have := accepts_awaited (s := s) (ev := pdu) (hw.trans (checked hw he h))
  rw [this] at h
  cases h; rfl

theorem alone_step {C : BlockCipher} {plan : Nat → List (Nat × Event × Outcome3 Event) → Option Event} {m : Threads}
    (hplan : ∀ tid hist e, plan tid hist = some e → IsRequest e) (h : AloneInv C m) (hs : ∀ e p, m.flights 0 = some (e, p) → IsRequest e ∧ StateFits m.world.conn.state e p) :
    AloneInv C (m.step C plan 0) := by
  unfold Threads.step
  cases hf : m.flights 0 with
  | none =>
    dsimp only
    cases hp : plan 0 m.history with
    | none => exact h
    | some e =>
      have hreq := hplan _ _ _ hp
      dsimp only
      cases processEvent m.world.conn.state e with
      | error x => exact alone_finish h hreq
      | ok s => exact alone_go h trivial
  | some ep =>
    obtain ⟨e, p⟩ := ep
    obtain ⟨hreq, hfit⟩ := hs e p hf
    have hd := h.decoded e p hf
    dsimp only
    cases p with
    | setting s => exact alone_go h trivial
    | building =>
      show AloneInv C (match m.world.conn.serialise C e (m.world.rands m.world.draws) with | .error x => _ | .ok data => _)
      split
      · exact alone_finish h hreq
      · exact alone_go h trivial
    | sending data =>
      show AloneInv C (match m.world.transport.socket with | none => _ | some h => _)
      split
      · exact alone_finish h hreq
      · exact alone_go h trivial
    | writing =>
      show AloneInv C (match m.world.writes with | [] => _ | .ok () :: writes => _ | .error x :: writes => _)
      split
      · exact h
      · exact alone_go h trivial
      · exact alone_finish h hreq
    | starting => exact alone_go h trivial
    | reading t line =>
      show AloneInv C (m.read 0 e t line)
      unfold Threads.read
      repeat' split
      all_goals first
        | exact h
        | exact alone_finish h hreq
        | exact alone_go h trivial
    | adding line => exact alone_go h trivial
    | polling =>
      show AloneInv C (match m.world.conn.decodeHead C with | .error x => _ | .ok none => _ | .ok (some pdu) => _)
      split
      · exact alone_finish h hreq
      · exact alone_go h trivial
      · next pdu hdec => exact alone_go h hdec
    | checking pdu =>
      show AloneInv C (match processEvent m.world.conn.state pdu with | .error x => _ | .ok s => _)
      split
      · exact alone_finish h hreq
      · next s hp => exact alone_go h ⟨hd, idle_of_response hfit hreq hp⟩
    | accepting pdu s => exact alone_go h ⟨hd.1, hd.2⟩
    | clearing pdu => exact alone_finish h hreq

theorem alone_run {C : BlockCipher} {plan : Nat → List (Nat × Event × Outcome3 Event) → Option Event}
    (hplan : ∀ tid hist e, plan tid hist = some e → IsRequest e) {w : World} (n : Nat) :
    ∀ {m : Threads} {w1 : World}, ThreadsInv C w m w1 → AloneInv C m →
      ∃ w1', ThreadsInv C w (m.run C plan (List.replicate n 0)) w1' ∧ AloneInv C (m.run C plan (List.replicate n 0)) := by
  induction n with
  | zero => intro m w1 hi ha; exact ⟨w1, hi, ha⟩
  | succ n ih =>
    intro m w1 hi ha
    obtain ⟨w2, h2⟩ := threads_step hplan hi 0 (fun j e p hf _ => by
      refine Classical.byContradiction fun hj => ?_
      rw [ha.alone j hj] at hf; cases hf)
    have h3 := alone_step (C := C) (plan := plan) hplan ha (fun e p hf => by
      rcases hi.now with h | ⟨tid, e', p', hc⟩
      · rw [h.1 0] at hf; cases hf
      · by_cases ht : tid = 0
        · subst ht
          have := hc.flight
          rw [hf] at this; cases this
          exact ⟨hc.request, hc.state⟩
        · have := ha.alone tid ht
          rw [hc.flight] at this; cases this)
    exact ih h2 h3

/-- From what has been decoded to the line in the buffer. -/
theorem line_of_decoded {C : BlockCipher} {c : Conn} {e pdu : Event} (he : IsRequest e) (hk : responseOf e.type = some pdu.type)
    (hd : c.decodeHead C = .ok (some pdu)) :
    ∃ line rest, c.buffer = line ++ rest ∧ Response C c.cipherContext line pdu := by
  obtain ⟨s, _, haw⟩ := C34_idle_accepts e he
  have : (({ c with state := s } : Conn).nextEvent C).2 = .ok (some pdu) := by
    rw [nextEvent_decode, decodeHead_state, hd]
    dsimp only
    rw [accepts_awaited (haw.trans hk)]
  obtain ⟨x, rest, svc, data, h1, h2, h3, h4, h5, h6⟩ := (C44_returns_iff C _ pdu).1 this
  exact ⟨x ++ [0x0D], rest, by rw [show c.buffer = _ from h1]; simp, x, svc, data, rfl, h2, h3, h4, h5⟩

theorem busy_of_awaits {s : PState} {e : Event} (he : IsRequest e) (h : awaits s = responseOf e.type) : s ≠ .idle := by
  intro hs
  subst hs
  unfold IsRequest at he
  rw [← h] at he
  cases he

/-- Where a call needs the handle. -/
def NeedsHandle : Point → Prop
  | .setting _ | .building | .sending _ | .checking _ | .accepting _ _ | .clearing _ => False
  | _ => True

/-- The steps to the next read of the operating system or the end. -/
def rank : Point → Nat
  | .setting _ => 10
  | .building => 9
  | .sending _ => 8
  | .writing => 7
  | .adding _ => 6
  | .polling => 5
  | .starting => 4
  | .reading _ _ => 3
  | .checking _ => 2
  | .accepting _ _ => 1
  | .clearing _ => 0

theorem finish_go (m : Threads) (tid : Nat) (e e' : Event) (p : Point) (o : Outcome3 Event) (w w' : World) :
    (m.go tid e p w).finish tid e' o w' = m.finish tid e' o w' := by
  unfold Threads.finish Threads.go
  congr 1
  funext j
  dsimp only
  by_cases hj : j = tid
  · rw [if_pos hj, if_pos hj]
  · rw [if_neg hj, if_neg hj, if_neg hj]

/-- What a step of a call does. -/
inductive Advance (C : BlockCipher) (m : Threads) (tid : Nat) (e : Event) (p : Point) : Prop
  | went (p' : Point) (w : World) (step : m.advance C tid e p = m.go tid e p' w)
      (same : leftOf C w e p' = leftOf C m.world e p)
      (less : weight w.unread < weight m.world.unread ∨ weight w.unread = weight m.world.unread ∧ rank p' < rank p)
      (handle : NeedsHandle p' → w.transport.socket ≠ none)
  | ended (pdu : Event) (last : p = .clearing pdu)
  | failed (x : PyErr) (w : World) (step : m.advance C tid e p = m.finish tid e (.raised x) w)
      (same : leftOf C m.world e p = (.raised x, w))
  | stuck (same : (leftOf C m.world e p).1 = .pending)

theorem advance_left (C : BlockCipher) (m : Threads) (tid : Nat) (e : Event) (p : Point)
    (hn : NeedsHandle p → m.world.transport.socket ≠ none) : Advance C m tid e p := by
  cases p with
  | setting s =>
    exact .went .building { m.world with conn := { m.world.conn with state := s } } rfl rfl
      (.inr ⟨rfl, Nat.lt_succ_self _⟩) (fun h => h.elim)
  | building =>
    have hr : leftOf C m.world e .building = restBuild C m.world e := rfl
    unfold restBuild at hr
    have ha : m.advance C tid e .building = match m.world.conn.serialise C e (m.world.rands m.world.draws) with
      | .error x => m.finish tid e (.raised x) { m.world with draws := m.world.draws + 1 }
      | .ok data => m.go tid e (.sending data) { m.world with draws := m.world.draws + 1 } := rfl
    cases hs : m.world.conn.serialise C e (m.world.rands m.world.draws) with
    | error x => rw [hs] at hr ha; exact .failed x _ ha hr
    | ok data => rw [hs] at hr ha; exact .went _ _ ha hr.symm (.inr ⟨rfl, Nat.lt_succ_self _⟩) (fun h => h.elim)
  | sending data =>
    have hr : leftOf C m.world e (.sending data) = restSend C m.world data := rfl
    unfold restSend at hr
    have ha : m.advance C tid e (.sending data) = match m.world.transport.socket with
      | none => m.finish tid e (.raised .runtime) m.world
      | some h => m.go tid e .writing { m.world with os := m.world.os ++ [.write h data] } := rfl
    cases hs : m.world.transport.socket with
    | none => rw [hs] at hr ha; exact .failed _ _ ha hr
    | some h =>
      rw [hs] at hr ha
      exact .went _ _ ha hr.symm (.inr ⟨rfl, Nat.lt_succ_self _⟩) (fun _ => by
        show m.world.transport.socket ≠ none
        rw [hs]; intro h; cases h)
  | writing =>
    have hr : leftOf C m.world e .writing = restWrite C m.world := rfl
    unfold restWrite at hr
    have ha : m.advance C tid e .writing = match m.world.writes with
      | [] => m
      | .ok () :: writes => m.go tid e .starting { m.world with writes }
      | .error x :: writes => m.finish tid e (.raised (wrapOs x)) { m.world with writes } := rfl
    cases hw : m.world.writes with
    | nil => rw [hw] at hr; exact .stuck (by rw [hr])
    | cons r writes =>
      rw [hw] at hr ha
      cases r with
      | ok u => exact .went _ _ ha hr.symm (.inr ⟨rfl, by decide⟩) (fun _ => hn trivial)
      | error x => exact .failed _ _ ha hr
  | starting => exact .went _ _ rfl rfl (.inr ⟨rfl, Nat.lt_succ_self 3⟩) (fun _ => hn trivial)
  | adding line =>
    exact .went .polling { m.world with conn := m.world.conn.receiveData line } rfl rfl
      (.inr ⟨rfl, Nat.lt_succ_self 5⟩) (fun _ => hn trivial)
  | polling =>
    have hr := left_polling C m.world e
    have ha : m.advance C tid e .polling = match m.world.conn.decodeHead C with
      | .error x => m.finish tid e (.raised x) m.world
      | .ok none => m.go tid e .starting m.world
      | .ok (some pdu) => m.go tid e (.checking pdu) m.world := rfl
    cases hd : m.world.conn.decodeHead C with
    | error x => rw [hd] at hr ha; exact .failed _ _ ha hr
    | ok o =>
      rw [hd] at hr ha
      cases o with
      | none => exact .went _ _ ha hr.symm (.inr ⟨rfl, Nat.lt_succ_self _⟩) (fun _ => hn trivial)
      | some pdu => exact .went _ _ ha hr.symm (.inr ⟨rfl, by show 2 < 5; decide⟩) (fun h => h.elim)
  | checking pdu =>
    have hr : leftOf C m.world e (.checking pdu) = restCheck m.world pdu := rfl
    unfold restCheck at hr
    have ha : m.advance C tid e (.checking pdu) = match processEvent m.world.conn.state pdu with
      | .error x => m.finish tid e (.raised x) m.world
      | .ok s => m.go tid e (.accepting pdu s) m.world := rfl
    cases hd : processEvent m.world.conn.state pdu with
    | error x => rw [hd] at hr ha; exact .failed _ _ ha hr
    | ok s => rw [hd] at hr ha; exact .went _ _ ha hr.symm (.inr ⟨rfl, Nat.lt_succ_self 1⟩) (fun h => h.elim)
  | accepting pdu s =>
    exact .went (.clearing pdu) { m.world with conn := { m.world.conn with state := s } } rfl rfl
      (.inr ⟨rfl, Nat.lt_succ_self 0⟩) (fun h => h.elim)
  | clearing pdu => exact .ended pdu rfl
  | reading timeout line =>
    have hne := hn trivial
    obtain ⟨h, hs⟩ : ∃ h, m.world.transport.socket = some h := by
      cases hk : m.world.transport.socket with
      | none => exact absurd hk hne
      | some h => exact ⟨h, rfl⟩
    have hr := restRead_step C m.world hs timeout line
    have hrest : leftOf C m.world e (.reading timeout line) = restRead C m.world timeout line := rfl
    rw [← hrest] at hr
    have ha : m.advance C tid e (.reading timeout line) = m.read tid e timeout line := rfl
    unfold Threads.read at ha
    have hset : ∀ r k, (m.world.setUnread r k).conn = m.world.conn ∧
        (m.world.setUnread r k).transport = m.world.transport := fun r k =>
      ⟨(setUnread_fields m.world r k).2.1, (setUnread_fields m.world r k).1⟩
    have hun : ∀ r k, (m.world.setUnread r k).unread = r := fun r k => (setUnread_frame m.world r k).2 hne
    have hk : ∀ r k, (m.world.setUnread r k).transport.socket ≠ none := fun r k => by rw [(hset r k).2]; exact hne
    cases ho : osRead 1 m.world.unread with
    | none => rw [ho] at hr; exact .stuck hr
    | some x =>
      obtain ⟨x, r⟩ := x
      rw [ho] at hr ha
      cases x with
      | error x => exact .failed _ _ ha hr
      | ok d =>
        have hless : ∀ k, weight (m.world.setUnread r k).unread < weight m.world.unread := fun k => by
          rw [hun]; exact osRead_weight (by decide) ho
        dsimp only at hr ha
        by_cases hd : d.isEmpty = true
        · rw [if_pos hd] at hr ha
          exact .went _ _ ha hr.symm (.inl (hless _)) (fun _ => hk _ _)
        · rw [if_neg hd] at hr ha
          by_cases hsl : sliceFrom (line ++ d) (-1) = [0x0D]
          · rw [if_pos hsl] at hr ha
            exact .went _ _ ha (by rw [hr, leftOf, (hset r _).1]) (.inl (hless _)) (fun _ => hk _ _)
          · rw [if_neg hsl] at hr ha
            cases ht : timeout.expired m.world.clock with | mk tc o =>
            obtain ⟨t, c⟩ := tc
            rw [ht] at hr ha
            cases o with
            | error x => exact .failed _ _ ha hr
            | ok b =>
              cases b with
              | true => exact .went _ _ ha (by rw [hr, leftOf, (hset r _).1]) (.inl (hless _)) (fun _ => hk _ _)
              | false => exact .went _ _ ha hr.symm (.inl (hless _)) (fun _ => hk _ _)

/-- A call that is left alone comes to its end, if it has one, with the outcome and the effect of `leftOf`; if it returns,
there is the moment before. -/
theorem runs_left (C : BlockCipher) (plan : Nat → List (Nat × Event × Outcome3 Event) → Option Event) (tid : Nat) (e : Event)
    (a : Nat) : ∀ (b : Nat) (m : Threads) (p : Point), weight m.world.unread = a → rank p = b →
    m.flights tid = some (e, p) → (NeedsHandle p → m.world.transport.socket ≠ none) →
    (leftOf C m.world e p).1 ≠ .pending →
    ∃ k, m.run C plan (List.replicate (k + 1) tid) = m.finish tid e (leftOf C m.world e p).1 (leftOf C m.world e p).2 ∧
      ∀ pdu, (leftOf C m.world e p).1 = .returned pdu →
        (m.run C plan (List.replicate k tid)).flights tid = some (e, .clearing pdu) ∧
        (m.run C plan (List.replicate k tid)).history = m.history := by
  induction a using Nat.strongRecOn with
  | ind a iha =>
    intro b
    induction b using Nat.strongRecOn with
    | ind b ihb =>
      intro m p hm hp hf hn hpend
      have hstep : m.step C plan tid = m.advance C tid e p := step_advance hf
      cases advance_left C m tid e p hn with
      | stuck h => exact absurd h hpend
      | failed x w h1 h2 =>
        refine ⟨0, ?_, fun pdu h => ?_⟩
        · show m.step C plan tid = _
          rw [hstep, h1, h2]
        · rw [h2] at h; cases h
      | ended pdu h =>
        subst h
        refine ⟨0, ?_, fun pdu' h => ?_⟩
        · show m.step C plan tid = _
          rw [hstep]; rfl
        · cases h; exact ⟨hf, rfl⟩
      | went p' w' h1 h2 h3 h4 =>
        have ih : ∃ k, (m.go tid e p' w').run C plan (List.replicate (k + 1) tid) =
            (m.go tid e p' w').finish tid e (leftOf C w' e p').1 (leftOf C w' e p').2 ∧
            ∀ pdu, (leftOf C w' e p').1 = .returned pdu →
              ((m.go tid e p' w').run C plan (List.replicate k tid)).flights tid = some (e, .clearing pdu) ∧
              ((m.go tid e p' w').run C plan (List.replicate k tid)).history = m.history := by
          rcases h3 with h3 | ⟨h3, h5⟩
          · exact iha _ (hm ▸ h3) _ (m.go tid e p' w') p' rfl rfl go_self h4 (by show (leftOf C w' e p').1 ≠ _; rw [h2]; exact hpend)
          · exact ihb _ (hp ▸ h5) (m.go tid e p' w') p' (h3.trans hm) rfl go_self h4 (by show (leftOf C w' e p').1 ≠ _; rw [h2]; exact hpend)
        obtain ⟨k, i1, i2⟩ := ih
        rw [finish_go, h2] at i1
        rw [h2] at i2
        refine ⟨k + 1, ?_, fun pdu h => ?_⟩
        · show (m.step C plan tid).run C plan (List.replicate (k + 1) tid) = _
          rw [hstep, h1]; exact i1
        · show ((m.step C plan tid).run C plan (List.replicate k tid)).flights tid = _ ∧
            ((m.step C plan tid).run C plan (List.replicate k tid)).history = _
          rw [hstep, h1]; exact i2 pdu h

theorem oneByOne_nil {C : BlockCipher} {w w1 : World} (h : OneByOne C w [] w1) : w1 = w := by
  cases h; rfl

theorem stopped_inv (C : BlockCipher) (next : List (Event × Outcome3 Event) → Option Event)
    (hnext : ∀ past e, next past = some e → IsRequest e) (w : World) (n : Nat) :
    ∃ w1, ThreadsInv C w (stopped C next w n) w1 ∧ AloneInv C (stopped C next w n) :=
  alone_run (C := C) (plan := fun _ past => next (past.map Prod.snd)) (fun _ _ e h => hnext _ e h)
    n (threads_init C w) ⟨fun _ _ => rfl, (fun e p h => by cases h), (fun x h => by cases h)⟩

/-- The request under way is the one the program wanted. -/
theorem asked_run {C : BlockCipher} {plan : Nat → List (Nat × Event × Outcome3 Event) → Option Event} (n : Nat) :
    ∀ {m : Threads}, (∀ e p, m.flights 0 = some (e, p) → plan 0 m.history = some e) →
    ∀ e p, (m.run C plan (List.replicate n 0)).flights 0 = some (e, p) →
      plan 0 (m.run C plan (List.replicate n 0)).history = some e := by
  induction n with
  | zero => intro m h; exact h
  | succ n ih =>
    intro m h
    refine ih (m := m.step C plan 0) ?_
    have hgo : ∀ (e : Event) (p : Point) (w : World), plan 0 m.history = some e →
        ∀ e' p', (m.go 0 e p w).flights 0 = some (e', p') → plan 0 (m.go 0 e p w).history = some e' := by
      intro e p w he e' p' hf
      rw [go_self] at hf
      cases hf
      exact he
    have hfin : ∀ (e : Event) (o : Outcome3 Event) (w : World),
        ∀ e' p', (m.finish 0 e o w).flights 0 = some (e', p') → plan 0 (m.finish 0 e o w).history = some e' := by
      intro e o w e' p' hf
      have : (m.finish 0 e o w).flights 0 = none := rfl
      rw [this] at hf; cases hf
    unfold Threads.step
    cases hf : m.flights 0 with
    | none =>
      dsimp only
      cases hp : plan 0 m.history with
      | none => intro e p h; rw [hf] at h; cases h
      | some e =>
        dsimp only
        cases processEvent m.world.conn.state e with
        | error x => exact hfin _ _ _
        | ok s => exact hgo _ _ _ hp
    | some ep =>
      obtain ⟨e, p⟩ := ep
      have he := h e p hf
      dsimp only
      unfold Threads.advance Threads.read
      repeat' split
      all_goals first
        | exact hgo _ _ _ he
        | exact hfin _ _ _
        | exact h

theorem stopped_asked (C : BlockCipher) (next : List (Event × Outcome3 Event) → Option Event) (w : World) (n : Nat) (e : Event)
    (p : Point) (h : (stopped C next w n).flights 0 = some (e, p)) :
    next ((stopped C next w n).history.map Prod.snd) = some e :=
  asked_run (C := C) (plan := fun _ past => next (past.map Prod.snd)) n (fun e p h => by cases h) e p h

theorem leftover_of {C : BlockCipher} {w w1 : World} {m : Threads} (hi : ThreadsInv C w m w1) (ha : AloneInv C m)
    {e pdu : Event} (hf : m.flights 0 = some (e, .clearing pdu)) : Leftover C w1 e pdu m.world := by
  rcases hi.now with h | ⟨tid, e', p, hc⟩
  · rw [h.1 0] at hf; cases hf
  · have ht : tid = 0 := by
      refine Classical.byContradiction fun hj => ?_
      have := ha.alone tid hj
      rw [hc.flight] at this; cases this
    subst ht
    have hx := hc.flight
    rw [hf] at hx
    cases hx
    obtain ⟨d1, d2⟩ := ha.decoded e _ hf
    exact ⟨d2, hc.left, hc.state, hc.transport, hc.before, line_of_decoded hc.request hc.state d1⟩

/-- A request that is accepted is made to its end, if it has one. -/
theorem runs_exchange {C : BlockCipher} {plan : Nat → List (Nat × Event × Outcome3 Event) → Option Event} {m : Threads}
    {tid : Nat} {e : Event} (hf : m.flights tid = none) (hp : plan tid m.history = some e) (he : IsRequest e)
    (hs : m.world.conn.state = .idle) (hx : (m.world.exchange C e).1 ≠ .pending) :
    ∃ k, m.run C plan (List.replicate (k + 1) tid) =
        m.finish tid e (m.world.exchange C e).1 (m.world.exchange C e).2 ∧
      ∀ pdu, (m.world.exchange C e).1 = .returned pdu →
        (m.run C plan (List.replicate k tid)).flights tid = some (e, .clearing pdu) ∧
        (m.run C plan (List.replicate k tid)).history = m.history := by
  obtain ⟨s, hpe, _⟩ := C34_idle_accepts e he
  rw [← hs] at hpe
  have hl := exchange_left C m.world e s hpe
  rw [hl] at hx ⊢
  obtain ⟨k, h1, h2⟩ := runs_left C plan tid e _ _ (m.go tid e (.setting s) m.world) (.setting s) rfl rfl go_self
    (fun h => h.elim) hx
  have hstep : m.step C plan tid = m.go tid e (.setting s) m.world := by
    unfold Threads.step; rw [hf]; dsimp only; rw [hp]; dsimp only; rw [hpe]
  rw [finish_go] at h1
  refine ⟨k + 1, ?_, fun pdu h => ?_⟩
  · show (m.step C plan tid).run C plan (List.replicate (k + 1) tid) = _
    rw [hstep]; exact h1
  · show ((m.step C plan tid).run C plan (List.replicate k tid)).flights tid = _ ∧
      ((m.step C plan tid).run C plan (List.replicate k tid)).history = _
    rw [hstep]; exact h2 pdu h

theorem wants_request (pw : PyStr) (k : Call) (past : List (Event × Outcome3 Event)) (e : Event) (h : wants pw k past = some e) :
    IsRequest e := by
  have key : ∀ (past : List (Event × Outcome3 Event)) (count : Int), wantsPage pw count past = some e → IsRequest e := by
    intro past
    induction past with
    | nil => intro count h; cases h; rfl
    | cons x past ih =>
      intro count h
      unfold wantsPage at h
      split at h
      · next h0 => cases h0
      · next x' p past' h0 =>
        cases h0
        split at h
        · cases h
        · exact ih _ h
      · cases h
  cases k with
  | readParameters n => exact key past n h
  | _ =>
    cases past with
    | nil => cases h; rfl
    | cons x past => cases h

theorem wants_of (pw : PyStr) (k : Call) (past : List (Event × Outcome3 Event)) (e : Event) (h : wants pw k past = some e) :
    RequestOf pw k e := by
  have key : ∀ (past : List (Event × Outcome3 Event)) (count : Int), wantsPage pw count past = some e →
      ∃ count, e = pageRequest pw count := by
    intro past
    induction past with
    | nil => intro count h; cases h; exact ⟨count, rfl⟩
    | cons x past ih =>
      intro count h
      unfold wantsPage at h
      split at h
      · next h0 => cases h0
      · next x' p past' h0 =>
        cases h0
        split at h
        · cases h
        · exact ih _ h
      · cases h
  cases k with
  | readParameters n => exact key past n h
  | _ =>
    cases past with
    | nil => cases h; rfl
    | cons x past => cases h

theorem wants_first (pw : PyStr) (k : Call) : wants pw k [] = some (firstOf pw k) := by
  cases k <;> rfl

theorem exchange_ready {C : BlockCipher} {w : World} {e : Event} (he : IsRequest e) (hr : Ready w.conn) :
    (∃ pdu, (w.exchange C e).1 = .returned pdu ∧ (w.exchange C e).2.conn = w.conn) ∨
    ((∀ pdu, (w.exchange C e).1 ≠ .returned pdu) ∧ (w.exchange C e).2.conn.state ≠ .idle) := by
  cases ht : w.transport.socket with
  | none =>
    rw [exchange_closed ht]
    refine .inr ⟨fun v h => by (cases h), ?_⟩
    dsimp only
    obtain ⟨_, _, h3, _⟩ := (send_request_cases C w.conn _ (w.rands w.draws) he).resolve_right (fun hn => hn.1 hr.1)
    exact busy_of_awaits he h3
  | some g =>
    obtain ⟨h1, _⟩ := exchange_sys (C := C) ht e
    have h2 := C55_exchange C w.sys e he hr
    rw [h1] at h2
    rcases h2 with h | ⟨h, _, h'⟩
    · exact .inl h
    · exact .inr ⟨h, h'⟩

/-- Requests made one after the other from a client that is ready leave it as it was, or waiting. -/
theorem oneByOne_ready {C : BlockCipher} {w w1 : World} {hist : List (Nat × Event × Outcome3 Event)}
    (h : OneByOne C w hist w1) (he : ∀ x ∈ hist, IsRequest x.2.1) (hw : Ready w.conn ∨ w.conn.state ≠ .idle) :
    (w1.conn = w.conn ∨ w1.conn.state ≠ .idle) ∧
    (Ready w.conn → (∀ x ∈ hist, ∃ v, x.2.2 = .returned v) → w1.conn = w.conn) := by
  induction h with
  | nil w => exact ⟨.inl rfl, fun _ _ => rfl⟩
  | refused w w' tid e r _ ih =>
    obtain ⟨i1, _⟩ := ih (fun x hx => he x (List.mem_cons_of_mem _ hx)) hw
    refine ⟨i1, fun _ hret => ?_⟩
    obtain ⟨v, hv⟩ := hret _ List.mem_cons_self
    cases hv
  | took w w' tid e r _ ih =>
    have hreq := he _ List.mem_cons_self
    have he' := fun x hx => he x (List.mem_cons_of_mem _ hx)
    rcases hw with hr | hn
    · rcases exchange_ready (C := C) hreq hr with ⟨pdu, h1, h2⟩ | ⟨h1, h2⟩
      · rw [h2] at ih
        obtain ⟨i1, i2⟩ := ih he' (.inl hr)
        exact ⟨i1, fun _ hret => i2 hr fun x hx => hret x (List.mem_cons_of_mem _ hx)⟩
      · obtain ⟨i1, _⟩ := ih he' (.inr h2)
        refine ⟨.inr ?_, fun _ hret => ?_⟩
        · rcases i1 with h | h
          · rw [h]; exact h2
          · exact h
        · obtain ⟨v, hv⟩ := hret _ List.mem_cons_self
          exact absurd hv (h1 v)
    · have hx : w.exchange C e = (.raised (.elgas .localProtocol), { w with draws := w.draws + 1 }) := by
        unfold World.exchange World.send
        rcases send_request_cases C w.conn e (w.rands w.draws) hreq with ⟨h, _⟩ | ⟨_, h⟩
        · exact absurd h hn
        · rw [h]
      rw [hx] at ih
      obtain ⟨i1, _⟩ := ih he' (.inr hn)
      exact ⟨i1, fun hr => absurd hr.1 hn⟩

theorem wants_past (pw : PyStr) : ∀ (past : List (Event × Outcome3 Event)) (count count' : Int), 
    wantsPage pw count past = some (pageRequest pw count') → ∀ (e : Event) (p : ReadDeviceParametersResponse),
    wantsPage pw count (past ++ [(e, .returned (.readDeviceParametersResponse p))]) =
      if p.isEnd then none else some (pageRequest pw (count' + p.objectAmount)) := by
  intro past
  induction past with
  | nil =>
    intro count count' h e p
    have hc : count = count' := by
      simp only [wantsPage, pageRequest, Option.some.injEq, Event.readDeviceParametersRequest.injEq,
        ReadDeviceParametersRequest.mk.injEq] at h
      exact h.2.1
    subst hc
    rfl
  | cons x past ih =>
    intro count count' h e p
    unfold wantsPage at h
    split at h
    · next h0 => cases h0
    · next x' q past' h0 =>
      cases h0
      split at h
      · cases h
      · next hq =>
        show (if q.isEnd then none else wantsPage pw _ (past ++ _)) = _
        rw [if_neg hq]
        exact ih _ _ h e p
    · cases h

theorem wants_stops (pw : PyStr) : ∀ (past : List (Event × Outcome3 Event)) (count count' : Int), 
    wantsPage pw count past = some (pageRequest pw count') → ∀ (e : Event) (o : Outcome3 Event),
    (∀ p, o ≠ .returned (.readDeviceParametersResponse p)) → wantsPage pw count (past ++ [(e, o)]) = none := by
  intro past
  induction past with
  | nil =>
    intro count count' h e o ho
    show wantsPage pw count [(e, o)] = none
    unfold wantsPage
    split
    · next h0 => cases h0
    · next h0 => cases h0; exact absurd rfl (ho _)
    · rfl
  | cons x past ih =>
    intro count count' h e o ho
    unfold wantsPage at h
    split at h
    · next h0 => cases h0
    · next x' q past' h0 =>
      cases h0
      split at h
      · cases h
      · next hq =>
        show (if q.isEnd then none else wantsPage pw _ (past ++ _)) = _
        rw [if_neg hq]
        exact ih _ _ h e o ho
    · cases h

theorem pages_run {C : BlockCipher} {count0 : Int} {pw : PyStr} (w : World) (count : Int) (total : Bytes) :
    ∀ (m : Threads), m.world = w → w.password = pw → w.conn.state = .idle → m.flights 0 = none →
    wantsPage pw count0 (m.history.map Prod.snd) = some (pageRequest pw count) →
    (w.readPages C count total).1 ≠ .pending →
    ∃ k, (m.run C (fun _ past => wantsPage pw count0 (past.map Prod.snd)) (List.replicate k 0)).world =
        (w.readPages C count total).2 ∧
      (m.run C (fun _ past => wantsPage pw count0 (past.map Prod.snd)) (List.replicate k 0)).flights 0 = none ∧
      wantsPage pw count0 ((m.run C (fun _ past => wantsPage pw count0 (past.map Prod.snd))
        (List.replicate k 0)).history.map Prod.snd) = none := by
  fun_induction World.readPages C w count total with
  | case1 w count total x w1 hx =>
    intro m hm hpw hst hf hwant _
    subst hm hpw
    obtain ⟨k, h1, _⟩ := runs_exchange (C := C) (plan := fun _ past => wantsPage m.world.password count0 (past.map Prod.snd)) hf hwant rfl hst
      (by show (m.world.exchange C (pageRequest m.world.password count)).1 ≠ _; unfold pageRequest; rw [hx]; intro h; cases h)
    unfold pageRequest at h1
    rw [hx] at h1
    refine ⟨k + 1, by rw [h1]; rfl, by rw [h1]; rfl, ?_⟩
    rw [h1]
    show wantsPage _ _ ((m.history ++ [_]).map Prod.snd) = _
    rw [List.map_append]
    exact wants_stops _ _ _ _ hwant _ _ (fun p h => by cases h)
  | case2 w count total w1 hx => intro m _ _ _ _ _ h; exact absurd rfl h
  | case3 w count total p w1 hx hend =>
    intro m hm hpw hst hf hwant _
    subst hm hpw
    obtain ⟨k, h1, _⟩ := runs_exchange (C := C) (plan := fun _ past => wantsPage m.world.password count0 (past.map Prod.snd)) hf hwant rfl hst
      (by show (m.world.exchange C (pageRequest m.world.password count)).1 ≠ _; unfold pageRequest; rw [hx]; intro h; cases h)
    unfold pageRequest at h1
    rw [hx] at h1
    refine ⟨k + 1, by rw [h1]; rfl, by rw [h1]; rfl, ?_⟩
    rw [h1]
    show wantsPage _ _ ((m.history ++ [_]).map Prod.snd) = _
    rw [List.map_append]
    refine (wants_past _ _ _ _ hwant _ _).trans ?_
    rw [if_pos hend]
  | case4 w count total p w1 hx hend ih =>
    intro m hm hpw hst hf hwant hpend
    subst hm hpw
    obtain ⟨k, h1, _⟩ := runs_exchange (C := C) (plan := fun _ past => wantsPage m.world.password count0 (past.map Prod.snd)) hf hwant rfl hst
      (by show (m.world.exchange C (pageRequest m.world.password count)).1 ≠ _; unfold pageRequest; rw [hx]; intro h; cases h)
    have hidle := exchange_idle (C := C) (w := m.world) (e := pageRequest m.world.password count) (ev := .readDeviceParametersResponse p) (by unfold pageRequest; rw [hx])
    have hcfg := (exchange_config C m.world (pageRequest m.world.password count)).1
    unfold pageRequest at h1 hidle hcfg
    rw [hx] at h1 hidle hcfg
    obtain ⟨k', g1, g2, g3⟩ := ih (m.finish 0 (pageRequest m.world.password count) (.returned (.readDeviceParametersResponse p)) w1)
      rfl hcfg hidle rfl (by
        show wantsPage _ _ ((m.history ++ [_]).map Prod.snd) = _
        rw [List.map_append]
        refine (wants_past _ _ _ _ hwant _ _).trans ?_
        rw [if_neg hend]) hpend
    refine ⟨(k + 1) + k', ?_⟩
    rw [← List.replicate_append_replicate, threads_run_append, h1]
    exact ⟨g1, g2, g3⟩
  | case5 w count total o w1 hne hx =>
    intro m hm hpw hst hf hwant _
    subst hm hpw
    obtain ⟨k, h1, _⟩ := runs_exchange (C := C) (plan := fun _ past => wantsPage m.world.password count0 (past.map Prod.snd)) hf hwant rfl hst
      (by show (m.world.exchange C (pageRequest m.world.password count)).1 ≠ _; unfold pageRequest; rw [hx]; intro h; cases h)
    unfold pageRequest at h1
    rw [hx] at h1
    refine ⟨k + 1, by rw [h1]; rfl, by rw [h1]; rfl, ?_⟩
    rw [h1]
    show wantsPage _ _ ((m.history ++ [_]).map Prod.snd) = _
    rw [List.map_append]
    exact wants_stops _ _ _ _ hwant _ _ (fun p h => by cases h; exact hne _ rfl)


/-- C104. A program that sends one request after the other may be stopped at any moment.  The requests that have ended
before have had the outcome and the effect they have without the interruption.  Of the one under way either nothing has
happened; or the connection is claimed, and the request has been written at most once; or the call was just about to
return its answer, and the answer has stayed in the buffer of a connection that is free again. -/
theorem C104_interrupted (C : BlockCipher) (next : List (Event × Outcome3 Event) → Option Event)
    (hnext : ∀ past e, next past = some e → IsRequest e) (w : World) (n : Nat) :
    ∃ w1, OneByOne C w (stopped C next w n).history w1 ∧
      ((stopped C next w n).world = w1 ∨
       (∃ e, next ((stopped C next w n).history.map Prod.snd) = some e ∧ Claimed C w1 e (stopped C next w n).world) ∨
       (∃ e pdu, next ((stopped C next w n).history.map Prod.snd) = some e ∧ Leftover C w1 e pdu (stopped C next w n).world)) := by
  obtain ⟨w1, hi, ha⟩ := stopped_inv C next hnext w n
  refine ⟨w1, hi.past, ?_⟩
  rcases hi.now with h | ⟨tid, e, p, hc⟩
  · exact .inl h.2
  · have ht : tid = 0 := by
      refine Classical.byContradiction fun hj => ?_
      have := ha.alone tid hj
      rw [hc.flight] at this; cases this
    subst ht
    have hask := stopped_asked C next w n e p hc.flight
    have hb := hc.before
    have hst := hc.state
    have hreq := hc.request
    have htr := hc.transport
    cases p with
    | setting s => exact .inl hb.1
    | building => exact .inr (.inl ⟨e, hask, hst, busy_of_awaits hreq hst, htr, .inl hb.1⟩)
    | sending data => exact .inr (.inl ⟨e, hask, hst, busy_of_awaits hreq hst, htr, .inl hb.1⟩)
    | accepting pdu s => exact .inr (.inl ⟨e, hask, hst.1, busy_of_awaits hreq hst.1, htr, .inr hb⟩)
    | clearing pdu => exact .inr (.inr ⟨e, pdu, hask, leftover_of hi ha hc.flight⟩)
    | _ => exact .inr (.inl ⟨e, hask, hst, busy_of_awaits hreq hst, htr, .inr hb⟩)

/-- C104. The steps are those of the call: a call of the client that comes to an end leaves, when nobody stops it, exactly
what it leaves in `wcall`, however long one waits. -/
theorem C104_uninterrupted (C : BlockCipher) (w : World) (hw : w.conn.state = .idle) (k : Call)
    (hk : (wcall C w k).1 ≠ .pending) : ∃ n, ∀ more, cutCall C w k (n + more) = (wcall C w k).2 := by
  have key : ∃ n, (stopped C (wants w.password k) w n).world = (wcall C w k).2 ∧
      (stopped C (wants w.password k) w n).flights 0 = none ∧
      wants w.password k ((stopped C (wants w.password k) w n).history.map Prod.snd) = none := by
    have single : (∀ past, past ≠ [] → wants w.password k past = none) →
        (wcall C w k).2 = (w.exchange C (firstOf w.password k)).2 →
        ((w.exchange C (firstOf w.password k)).1 = .pending → (wcall C w k).1 = .pending) →
        ∃ n, (stopped C (wants w.password k) w n).world = (wcall C w k).2 ∧
          (stopped C (wants w.password k) w n).flights 0 = none ∧
          wants w.password k ((stopped C (wants w.password k) w n).history.map Prod.snd) = none := by
      intro h1 h2 h3
      obtain ⟨n, g, _⟩ := runs_exchange (C := C) (plan := fun _ past => wants w.password k (past.map Prod.snd))
        (m := { world := w }) (tid := 0) rfl (wants_first w.password k) (firstOf_request w.password k) hw (fun h => hk (h3 h))
      refine ⟨n + 1, ?_⟩
      unfold stopped
      rw [g]
      exact ⟨h2.symm, rfl, h1 _ (by intro h; cases h)⟩
    have nope : ∀ {k : Call}, (∀ n, k ≠ .readParameters n) → ∀ past, past ≠ [] → wants w.password k past = none := by
      intro k hk past hp
      cases past with
      | nil => exact absurd rfl hp
      | cons x past =>
        cases k with
        | readParameters n => exact absurd rfl (hk n)
        | _ => rfl
    have hpend : ∀ {k : Call}, (w.exchange C (firstOf w.password k)).1 = .pending → (wcall C w k).1 = .pending := by
      intro k h
      rw [wcall_pending (w' := (w.exchange C (firstOf w.password k)).2) (by rw [← h])]
    cases k with
    | readParameters n =>
      have hpages : (w.readPages C n []).1 ≠ .pending := by
        intro h
        apply hk
        show (((w.readPages C n []).1.andThen _).andThen _) = _
        rw [h]; rfl
      exact pages_run (C := C) (count0 := n) (pw := w.password) w n [] { world := w } rfl rfl hw rfl rfl hpages
    | readInstantaneousValues => exact single (nope (fun _ h => by cases h)) rfl hpend
    | readTime => exact single (nope (fun _ h => by cases h)) rfl hpend
    | writeTime t b => exact single (nope (fun _ h => by cases h)) rfl hpend
    | readArchive a n i => exact single (nope (fun _ h => by cases h)) rfl hpend
    | readArchiveByTime a n t => exact single (nope (fun _ h => by cases h)) rfl hpend
  obtain ⟨n, h1, h2, h3⟩ := key
  refine ⟨n, fun more => ?_⟩
  have hstay : ∀ more, stopped C (wants w.password k) w (n + more) = stopped C (wants w.password k) w n := by
    intro more
    induction more with
    | zero => rfl
    | succ more ih =>
      have : stopped C (wants w.password k) w (n + (more + 1)) =
          (stopped C (wants w.password k) w (n + more)).step C (fun _ past => wants w.password k (past.map Prod.snd)) 0 := by
        unfold stopped
        rw [← Nat.add_assoc, List.replicate_succ', threads_run_append]
        rfl
      rw [this, ih]
      unfold Threads.step
      rw [h2]
      dsimp only
      rw [h3]
  unfold cutCall
  rw [hstay]
  exact h1

/-- C104. A client that is ready and whose call is stopped is as ready as before, or waits for an answer, or is free with
an answer in its buffer. -/
theorem C104_call (C : BlockCipher) (w : World) (hr : Ready w.conn) (k : Call) (n : Nat) :
    (cutCall C w k n).conn = w.conn ∨ (cutCall C w k n).conn.state ≠ .idle ∨
    ∃ w1 e pdu, w1.conn = w.conn ∧ RequestOf w.password k e ∧ Leftover C w1 e pdu (cutCall C w k n) := by
  have hwant := wants_request w.password k
  obtain ⟨w0, _, ha⟩ := stopped_inv C (wants w.password k) hwant w n
  obtain ⟨w1, h1, h2⟩ := C104_interrupted C (wants w.password k) hwant w n
  have h3 := (oneByOne_ready h1 ha.requests (.inl hr)).1
  rcases h2 with h | ⟨e, _, h⟩ | ⟨e, pdu, he, h⟩
  · rcases h3 with h3 | h3
    · exact .inl (by unfold cutCall; rw [h]; exact h3)
    · exact .inr (.inl (by unfold cutCall; rw [h]; exact h3))
  · exact .inr (.inl h.busy)
  · refine .inr (.inr ⟨w1, e, pdu, ?_, wants_of _ _ _ _ he, h⟩)
    refine h3.resolve_right fun hn => ?_
    have hx := h.answered
    unfold World.exchange World.send at hx
    rcases send_request_cases C w1.conn e (w1.rands w1.draws) (hwant _ _ he) with ⟨hi, _⟩ | ⟨_, hs⟩
    · exact hn hi
    · rw [hs] at hx; cases hx

/-- C104. After the claim nothing can be done with this client any more: whatever is called later, also after connecting
anew, is refused with `LocalElgasProtocolError`, and nothing is written. -/
theorem C104_claimed (C : BlockCipher) (w1 w2 : World) (e : Event) (h : Claimed C w1 e w2) (as : List Action)
    (hp : ∀ a ∈ as, a.Plain) :
    (∀ (i : Nat) (k : Call), as[i]? = some (.call k) → (acts C w2 as).1[i]? = some (.raised (.elgas .localProtocol))) ∧
    written (acts C w2 as).2.os = written w2.os :=
  ⟨(C85_spoiled C w2 h.busy as hp).1, (C85_spoiled C w2 h.busy as hp).2.1⟩

/-- C104. Defect: the answer that has stayed in the buffer is the answer to the next request.  Whatever this request is,
also after connecting anew: the call returns nothing else than the old answer; if its request asks for this kind of thing
and is transmitted, and anything at all is received, the call does return the old answer; if it asks for something else,
it raises `LocalElgasProtocolError` and leaves the connection waiting. -/
theorem C104_leftover (C : BlockCipher) (w1 w2 : World) (e pdu : Event) (h : Leftover C w1 e pdu w2) (as : List Action)
    (has : ∀ a ∈ as, a = .connect ∨ a = .disconnect) (q : Event) (hq : IsRequest q) (v : World) (hv : v = (acts C w2 as).2) :
    (∀ ev, (v.exchange C q).1 = .returned ev → ev = pdu) ∧
    (∀ u, (v.send C q).1 = .returned u →
      (responseOf q.type = some pdu.type → (v.exchange C q).1 = .returned pdu ∧ Ready (v.exchange C q).2.conn) ∧
      (responseOf q.type ≠ some pdu.type → (v.exchange C q).1 = .raised (.elgas .localProtocol) ∧
        (v.exchange C q).2.conn.state ≠ .idle)) := by
  obtain ⟨ln, rest, hb, x, svc, data, rfl, hx, hd, hone, hdec⟩ := h.buffer
  have hconn : ∀ (as : List Action) (v : World), (∀ a ∈ as, a = .connect ∨ a = .disconnect) →
      (acts C v as).2.conn = v.conn := by
    intro as
    induction as with
    | nil => intro v _; rfl
    | cons a as ih =>
      intro v h
      have h1 : (act C v a).2.conn = v.conn := by
        rcases h a List.mem_cons_self with rfl | rfl
        · exact (connect_frame v).1
        · exact (disconnect_frame v).1
      exact (ih (act C v a).2 fun b hb => h b (List.mem_cons_of_mem _ hb)).trans h1
  have hcn : v.conn = w2.conn := by rw [hv]; exact hconn as w2 has
  have hsent : ∀ u, (v.send C q).1 = .returned u →
      (responseOf q.type = some pdu.type → (v.exchange C q).1 = .returned pdu ∧ Ready (v.exchange C q).2.conn) ∧
      (responseOf q.type ≠ some pdu.type → (v.exchange C q).1 = .raised (.elgas .localProtocol) ∧
        (v.exchange C q).2.conn.state ≠ .idle) := by
    intro u hu
    obtain ⟨a1, a2, d, a3⟩ := send_idle_buffer (C := C) (w := v) (by rw [hcn]; exact h.free) hq hu
    have hbuf : ∃ extra, (v.send C q).2.conn.buffer = x ++ 0x0D :: extra := by
      rw [a3, hcn, receiveData_append (fun _ => by rw [hb]; simp), hb]
      exact ⟨rest ++ d, by simp⟩
    obtain ⟨extra, hbuf⟩ := hbuf
    have hx2 : v.exchange C q = (v.send C q).2.nextEvent C := by
      unfold World.exchange
      cases hs : v.send C q with | mk o v1 =>
      rw [hs] at hu
      cases hu
      rfl
    have hd' : Delivers C (v.send C q).2.conn.cipherContext (x ++ [0x0D]) svc data := by rw [a2, hcn]; exact hd
    rw [hx2, nextEvent_unfold]
    constructor
    · intro hk
      have hp : ((v.send C q).2.conn.nextEvent C).2 = .ok (some pdu) :=
        (C44_returns_iff C _ pdu).2 ⟨x, extra, svc, data, hbuf, hx, hd', hone, hdec, a1.trans hk⟩
      have he := ((C38_poll_effect C _).2.2 _ hp).1
      cases hne : (v.send C q).2.conn.nextEvent C with | mk c1 r =>
      rw [hne] at hp he
      dsimp only at hp he
      subst hp
      exact ⟨rfl, by dsimp only; rw [he]; exact ⟨rfl, rfl⟩⟩
    · intro hk
      rw [C44_wrong_service_error C _ x extra svc data pdu hbuf hx hd' hone hdec (by rw [a1]; exact hk)]
      exact ⟨rfl, busy_of_awaits hq a1⟩
  refine ⟨fun ev hev => ?_, hsent⟩
  cases hs : v.send C q with | mk o v1 =>
  cases o with
  | returned u =>
    obtain ⟨g1, g2⟩ := hsent u (by rw [hs])
    by_cases hk : responseOf q.type = some pdu.type
    · rw [(g1 hk).1] at hev; injection hev with hev; exact hev.symm
    · rw [(g2 hk).1] at hev; cases hev
  | raised x => unfold World.exchange at hev; rw [hs] at hev; cases hev
  | pending => unfold World.exchange at hev; rw [hs] at hev; cases hev

/-- C104. Defect: every call has this moment.  Whatever request a client sends and gets an answer to, there is a number of
steps after which an interruption leaves the answer behind; one step later the call is over. -/
theorem C104_moment (C : BlockCipher) (w w' : World) (hw : w.conn.state = .idle) (e pdu : Event) (he : IsRequest e)
    (hx : w.exchange C e = (.returned pdu, w')) (next : List (Event × Outcome3 Event) → Option Event)
    (hnext : ∀ past e, next past = some e → IsRequest e) (h0 : next [] = some e) :
    ∃ n, Leftover C w e pdu (stopped C next w n).world ∧ (stopped C next w (n + 1)).world = w' := by
  obtain ⟨k, h1, h2⟩ := runs_exchange (C := C) (plan := fun _ past => next (past.map Prod.snd)) (m := { world := w })
    (tid := 0) rfl h0 he hw (by show (w.exchange C e).1 ≠ _; rw [hx]; intro h; cases h)
  obtain ⟨g1, g2⟩ := h2 pdu (by show (w.exchange C e).1 = _; rw [hx])
  obtain ⟨w1, hi, ha⟩ := stopped_inv C next hnext w k
  have hpast := hi.past
  have hh : (stopped C next w k).history = [] := g2
  rw [hh] at hpast
  have := oneByOne_nil hpast
  subst this
  refine ⟨k, leftover_of hi ha g1, ?_⟩
  unfold stopped
  rw [h1]
  show (w1.exchange C e).2 = _
  rw [hx]


/-- The steps change nothing of a connection but its state and its buffer. -/
theorem step_config (C : BlockCipher) (plan : Nat → List (Nat × Event × Outcome3 Event) → Option Event) (m : Threads)
    (tid : Nat) : (m.step C plan tid).world.conn.args = m.world.conn.args ∧
      (m.step C plan tid).world.conn.cipherContext = m.world.conn.cipherContext := by
  have hset : ∀ r k, (m.world.setUnread r k).conn = m.world.conn := fun r k => (setUnread_fields m.world r k).2.1
  unfold Threads.step
  repeat' split
  all_goals (try exact ⟨rfl, rfl⟩)
  next e p _ =>
    unfold Threads.advance
    repeat' split
    all_goals (try exact ⟨rfl, rfl⟩)
    · unfold Threads.read
      repeat' split
      all_goals first
        | exact ⟨rfl, rfl⟩
        | exact ⟨congrArg Conn.args (hset _ _), congrArg Conn.cipherContext (hset _ _)⟩
    · next line _ => exact ⟨(receiveData_frame m.world.conn line).1, (receiveData_frame m.world.conn line).2.1⟩

/-- C104. The repair: setting the state to IDLE and emptying the buffer makes of the connection of a client whose call was
stopped at any moment what it was before the call. -/
theorem C104_reset (C : BlockCipher) (w : World) (hr : Ready w.conn) (k : Call) (n : Nat) :
    ({ (cutCall C w k n).conn with state := .idle, buffer := [] } : Conn) = w.conn := by
  have key : ∀ n, (stopped C (wants w.password k) w n).world.conn.args = w.conn.args ∧
      (stopped C (wants w.password k) w n).world.conn.cipherContext = w.conn.cipherContext := by
    intro n
    induction n with
    | zero => exact ⟨rfl, rfl⟩
    | succ n ih =>
      have : stopped C (wants w.password k) w (n + 1) =
          (stopped C (wants w.password k) w n).step C (fun _ past => wants w.password k (past.map Prod.snd)) 0 := by
        unfold stopped
        rw [List.replicate_succ', threads_run_append]
        rfl
      rw [this]
      obtain ⟨h1, h2⟩ := step_config C (fun _ past => wants w.password k (past.map Prod.snd))
        (stopped C (wants w.password k) w n) 0
      exact ⟨h1.trans ih.1, h2.trans ih.2⟩
  obtain ⟨h1, h2⟩ := key n
  obtain ⟨r1, r2⟩ := hr
  unfold cutCall
  cases hc : w.conn with | mk a b s c =>
  rw [hc] at h1 h2 r1 r2
  dsimp only at h1 h2 r1 r2
  dsimp only
  rw [h1, h2, r1, r2]
/-! ### Examples -/

/-- Another time as the device says it. -/
def exOtherTime : Bytes :=
  escBytes (frame 0x86 0x6C [0, 0, 0, 0, 0, 0] [0x58, 0x59, 0xE3, 0x29, 0x02, 0x20, 0x0F, 0x12, 0x34]).dropLast ++ [0x0D]

/-- A client that asks for the time twice. -/
def exAskTwice : World := { exShared with inbox := fun _ => [.seg exDeviceTime, .seg exOtherTime] }

/-- The time a call returned. -/
def toldTime (o : Outcome3 Event) : Option DateTime :=
  match o with
  | .returned (.readTimeResponse p) => some p.time
  | _ => none

-- a call that is not stopped tells the right times; stopped after 35 steps, the next call tells the old time
example : toldTime (exAskTwice.exchange idCipher (.readTimeRequest {})).1 = some ⟨2020, 2, 29, 23, 59, 59, 0⟩ ∧
    toldTime ((exAskTwice.exchange idCipher (.readTimeRequest {})).2.exchange idCipher (.readTimeRequest {})).1 =
      some ⟨2020, 2, 29, 23, 59, 58, 0⟩ ∧
    toldTime ((cutCall idCipher exAskTwice .readTime 35).exchange idCipher (.readTimeRequest {})).1 =
      some ⟨2020, 2, 29, 23, 59, 59, 0⟩ ∧
    (cutCall idCipher exAskTwice .readTime 36).os = (exAskTwice.exchange idCipher (.readTimeRequest {})).2.os := by
  refine ⟨by decide +kernel, by decide +kernel, by decide +kernel, by decide +kernel⟩

-- the three kinds of moments: nothing has happened (0, 1, 36), claimed (2 to 34), left behind (35)
example : (List.range 40).filter (fun n => (cutCall idCipher exAskTwice .readTime n).conn.state = .idle) =
      [0, 1, 35, 36, 37, 38, 39] ∧
    (List.range 40).filter (fun n => (cutCall idCipher exAskTwice .readTime n).conn.buffer ≠ []) = [32, 33, 34, 35] ∧
    (List.range 40).filter (fun n => (written (cutCall idCipher exAskTwice .readTime n).os).length = 1) =
      (List.range 36).map (· + 4) := by
  refine ⟨by decide +kernel, by decide +kernel, by decide +kernel⟩

-- C104_uninterrupted
example : exAskTwice.conn.state = .idle ∧ Ready exAskTwice.conn ∧ ended (wcall idCipher exAskTwice .readTime).1 = .returned :=
  ⟨rfl, ⟨rfl, rfl⟩, by decide +kernel⟩

-- C104_moment and C104_leftover: there is a moment after which the next call for the time returns the old one
example : ∃ n pdu, Leftover idCipher exAskTwice (.readTimeRequest {}) pdu (cutCall idCipher exAskTwice .readTime n) ∧
    ∃ u, ((cutCall idCipher exAskTwice .readTime n).send idCipher (.readTimeRequest {})).1 = .returned u := by
  obtain ⟨w1, hi, ha⟩ := stopped_inv idCipher (wants exAskTwice.password .readTime) (wants_request _ _) exAskTwice 35
  have h35 : (match (stopped idCipher (wants exAskTwice.password .readTime) exAskTwice 35).flights 0 with
    | some (.readTimeRequest _, .clearing _) => true | _ => false) = true := by decide +kernel
  have hh : (stopped idCipher (wants exAskTwice.password .readTime) exAskTwice 35).history.isEmpty = true := by decide +kernel
  have hp := hi.past
  rw [List.isEmpty_iff.1 hh] at hp
  have := oneByOne_nil hp
  subst this
  have hask := stopped_asked idCipher (wants exAskTwice.password .readTime) exAskTwice 35
  cases hf : (stopped idCipher (wants exAskTwice.password .readTime) exAskTwice 35).flights 0 with
  | none => rw [hf] at h35; cases h35
  | some x =>
    obtain ⟨e, p⟩ := x
    have he := hask e p hf
    rw [List.isEmpty_iff.1 hh] at he
    cases he
    cases p with
    | clearing pdu =>
      have hs : ended ((cutCall idCipher exAskTwice .readTime 35).send idCipher (.readTimeRequest {})).1 = .returned := by
        decide +kernel
      obtain ⟨u, hu⟩ := ended_returned.1 hs
      exact ⟨35, pdu, leftover_of hi ha hf, u, hu⟩
    | _ => rw [hf] at h35; cases h35

end Elgas
