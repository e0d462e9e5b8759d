import Verif.Props.Tasks
import Verif.Spec.Threads
/-!
C89: threads that share one client and can be switched between any two accesses to it.
-/
namespace Elgas
open Spec

theorem nextEvent_decode (C : BlockCipher) (c : Conn) : c.nextEvent C =
    match c.decodeHead C with
    | .error e => (c, .error e)
    | .ok none => (c, .ok none)
    | .ok (some pdu) =>
      match processEvent c.state pdu with
      | .error e => (c, .error e)
      | .ok s' => ({ c with state := s', buffer := [] }, .ok (some pdu)) := by
  unfold Conn.nextEvent Conn.decodeHead
  by_cases hb : c.buffer.isEmpty = true
  · rw [if_pos hb, if_pos hb]
  · rw [if_neg hb, if_neg hb]
    cases indexEnd c.buffer with
    | none => rfl
    | some i =>
      dsimp only
      cases c.interpret C (sliceTo c.buffer ((i : Int) + 1)) with
      | error e =>
        dsimp only
        by_cases he : e.isValueError = true
        · rw [if_pos he, if_pos he]
        · rw [if_neg he, if_neg he]
      | ok response =>
        dsimp only
        cases pduFromResponse response with
        | error e => rfl
        | ok pdu => rfl

/-- What is left of a call that is about to build its request. -/
def restBuild (C : BlockCipher) (w : World) (e : Event) : Outcome3 Event × World :=
  match w.conn.serialise C e (w.rands w.draws) with
  | .error x => (.raised x, { w with draws := w.draws + 1 })
  | .ok data =>
    match w.transport.socket with
    | none => (.raised .runtime, { w with draws := w.draws + 1 })
    | some h => restWrite C { w with draws := w.draws + 1, os := w.os ++ [.write h data] }

/-- What is left of a call that is about to write. -/
def restSend (C : BlockCipher) (w : World) (data : Bytes) : Outcome3 Event × World :=
  match w.transport.socket with
  | none => (.raised .runtime, w)
  | some h => restWrite C { w with os := w.os ++ [.write h data] }

/-- What is left of a call that has decoded a response. -/
def restCheck (w : World) (pdu : Event) : Outcome3 Event × World :=
  match processEvent w.conn.state pdu with
  | .error x => (.raised x, w)
  | .ok s => (.returned pdu, { w with conn := { w.conn with state := s, buffer := [] } })

/-- What is left of a call, if no other thread runs until it ends. -/
def leftOf (C : BlockCipher) (w : World) (e : Event) : Point → Outcome3 Event × World
  | .setting s => restBuild C { w with conn := { w.conn with state := s } } e
  | .building => restBuild C w e
  | .sending data => restSend C w data
  | .writing => restWrite C w
  | .starting => restRecv C w
  | .reading timeout line => restRead C w timeout line
  | .adding line => ({ w with conn := w.conn.receiveData line } : World).nextEvent C
  | .polling => w.nextEvent C
  | .checking pdu => restCheck w pdu
  | .accepting pdu s => (.returned pdu, { w with conn := { w.conn with state := s, buffer := [] } })
  | .clearing pdu => (.returned pdu, { w with conn := { w.conn with buffer := [] } })

theorem exchange_left (C : BlockCipher) (w : World) (e : Event) (s : PState) (h : processEvent w.conn.state e = .ok s) :
    w.exchange C e = leftOf C w e (.setting s) := by
  rw [exchange_rest, send_accepted h]
  unfold leftOf restBuild
  dsimp only
  cases ({ w.conn with state := s } : Conn).serialise C e (w.rands w.draws) with
  | error x => rfl
  | ok data =>
    dsimp only
    cases w.transport.socket <;> rfl

theorem left_polling (C : BlockCipher) (w : World) (e : Event) : leftOf C w e .polling =
    match w.conn.decodeHead C with
    | .error x => (.raised x, w)
    | .ok none => leftOf C w e .starting
    | .ok (some pdu) => leftOf C w e (.checking pdu) := by
  show w.nextEvent C = _
  rw [nextEvent_unfold, nextEvent_decode]
  cases w.conn.decodeHead C with
  | error x => rfl
  | ok o =>
    cases o with
    | none => rfl
    | some pdu =>
      dsimp only
      show _ = restCheck w pdu
      unfold restCheck
      cases processEvent w.conn.state pdu <;> rfl

/-- The state of the connection fits where the only thread in a call is. -/
def StateFits (s : PState) (e : Event) : Point → Prop
  | .setting s' => awaits s' = responseOf e.type
  | .clearing pdu => responseOf e.type = some pdu.type
  | .accepting pdu _ => awaits s = responseOf e.type ∧ responseOf e.type = some pdu.type
  | _ => awaits s = responseOf e.type

/-- What has been written so far by the call. -/
def Wrote (C : BlockCipher) (w1 : World) (e : Event) (os : List OsCall) : Prop :=
  os = w1.os ∨ ∃ h line, w1.transport.socket = some h ∧ (w1.conn.send C e (w1.rands w1.draws)).2 = .ok line ∧
    os = w1.os ++ [.write h line]

/-- What is known about the world before the request has been written, and after. -/
def Before (C : BlockCipher) (m w1 : World) (e : Event) : Point → Prop
  | .setting s => m = w1 ∧ processEvent w1.conn.state e = .ok s
  | .building => m.os = w1.os ∧ ∃ s, processEvent w1.conn.state e = .ok s ∧
      m.conn = { w1.conn with state := s } ∧ m.rands = w1.rands ∧ m.draws = w1.draws
  | .sending data => m.os = w1.os ∧ (w1.conn.send C e (w1.rands w1.draws)).2 = .ok data
  | _ => ∃ h line, w1.transport.socket = some h ∧ (w1.conn.send C e (w1.rands w1.draws)).2 = .ok line ∧
    m.os = w1.os ++ [.write h line]

/-- The thread `tid` is in a call of `e`, alone, and what is left of it makes it a call made from `w1`. -/
structure InCall (C : BlockCipher) (m : Threads) (w1 : World) (tid : Nat) (e : Event) (p : Point) : Prop where
  flight : m.flights tid = some (e, p)
  alone : ∀ j, j ≠ tid → m.flights j = none
  left : w1.exchange C e = leftOf C m.world e p
  state : StateFits m.world.conn.state e p
  request : IsRequest e
  transport : m.world.transport = w1.transport
  before : Before C m.world w1 e p
  idle : w1.conn.state = .idle

/-- The invariant: the calls that have ended led to the state `w1` (in the sense of `R`), and at most one is under way. -/
structure FlightInv (C : BlockCipher) (R : List (Nat × Event × Outcome3 Event) → World → Prop) (m : Threads) (w1 : World) :
    Prop where
  past : R m.history w1
  own : ∀ x ∈ m.history, OwnAnswer x
  now : ((∀ j, m.flights j = none) ∧ m.world = w1) ∨ ∃ tid e p, InCall C m w1 tid e p

/-- The invariant without a lock. -/
abbrev ThreadsInv (C : BlockCipher) (w : World) (m : Threads) (w1 : World) : Prop := FlightInv C (OneByOne C w) m w1

/-- The calls that have ended include every call that took place (on an idle connection). -/
def Takes (C : BlockCipher) (R : List (Nat × Event × Outcome3 Event) → World → Prop) : Prop :=
  ∀ hist w1 tid e, R hist w1 → w1.conn.state = .idle → R (hist ++ [(tid, e, (w1.exchange C e).1)]) (w1.exchange C e).2

theorem oneByOne_takes (C : BlockCipher) (w : World) : Takes C (OneByOne C w) :=
  fun _ _ tid e h _ => oneByOne_snoc_took h tid e

/-- A call ends. -/
theorem threads_finish {C : BlockCipher} {R : List (Nat × Event × Outcome3 Event) → World → Prop}
    {w1 : World} {m : Threads} {tid : Nat} {e : Event} {p : Point}
    {o : Outcome3 Event} {w2 : World} (hR : Takes C R) (hi : FlightInv C R m w1) (hf : InCall C m w1 tid e p)
    (hr : leftOf C m.world e p = (o, w2)) (ho : OwnAnswer (tid, e, o)) : FlightInv C R (m.finish tid e o w2) w2 := by
  have hx : w1.exchange C e = (o, w2) := hf.left.trans hr
  refine ⟨?_, forall_snoc hi.own ho, .inl ⟨fun j => ?_, rfl⟩⟩
  · have := hR _ _ tid e hi.past hf.idle
    rw [hx] at this
    exact this
  · show (if j = tid then none else m.flights j) = none
    by_cases hj : j = tid
    · rw [if_pos hj]
    · rw [if_neg hj]; exact hf.alone j hj

/-- A call goes on. -/
theorem threads_go {C : BlockCipher} {R : List (Nat × Event × Outcome3 Event) → World → Prop}
    {w1 : World} {m : Threads} {tid : Nat} {e : Event} {p p' : Point}
    {w2 : World} (hi : FlightInv C R m w1) (hf : InCall C m w1 tid e p) (hr : leftOf C m.world e p = leftOf C w2 e p')
    (hs : StateFits w2.conn.state e p') (ht : w2.transport = m.world.transport) (hb : Before C w2 w1 e p') :
    FlightInv C R (m.go tid e p' w2) w1 := by
  refine ⟨hi.past, hi.own, .inr ⟨tid, e, p', ?_, fun j hj => ?_, hf.left.trans hr, hs, hf.request,
    ht.trans hf.transport, hb, hf.idle⟩⟩
  · show (if tid = tid then some (e, p') else m.flights tid) = _
    rw [if_pos rfl]
  · show (if j = tid then some (e, p') else m.flights j) = none
    rw [if_neg hj]; exact hf.alone j hj

theorem fits_of_accepted {s s' : PState} {e : Event} (he : IsRequest e) (h : processEvent s e = .ok s') :
    s = .idle ∧ awaits s' = responseOf e.type := by
  unfold IsRequest at he
  unfold processEvent at h
  cases s <;> cases ht : e.type <;> rw [ht] at h he <;> simp [transitions, raise, responseOf] at h he <;> subst h <;>
    exact ⟨rfl, rfl⟩

theorem checked {s s' : PState} {e pdu : Event} (hw : awaits s = responseOf e.type) (he : IsRequest e)
    (h : processEvent s pdu = .ok s') : responseOf e.type = some pdu.type := by
  unfold IsRequest at he
  unfold processEvent at h
  rw [← hw] at he ⊢
  cases s <;> cases ht : pdu.type <;> rw [ht] at h <;> simp [transitions, raise, awaits] at h he <;> rfl

theorem threads_advance {C : BlockCipher} {R : List (Nat × Event × Outcome3 Event) → World → Prop}
    {w1 : World} {m : Threads} {tid : Nat} {e : Event} {p : Point}
    (hR : Takes C R) (hi : FlightInv C R m w1) (hf : InCall C m w1 tid e p) : ∃ w1', FlightInv C R (m.advance C tid e p) w1' := by
  have hst := hf.state
  have hbe := hf.before
  cases p with
  | setting s =>
    obtain ⟨hb1, hb2⟩ := hbe
    exact ⟨w1, threads_go hi hf rfl hst rfl ⟨by rw [hb1], s, hb2, by rw [hb1], by rw [hb1], by rw [hb1]⟩⟩
  | building =>
    unfold Threads.advance
    dsimp only
    have hr : leftOf C m.world e .building = restBuild C m.world e := rfl
    unfold restBuild at hr
    obtain ⟨hb1, s, hb2, hb3, hb4, hb5⟩ := hbe
    cases hs : m.world.conn.serialise C e (m.world.rands m.world.draws) with
    | error x =>
      rw [hs] at hr
      exact ⟨_, threads_finish hR hi hf hr (own_raised _ _ _)⟩
    | ok data =>
      rw [hs] at hr
      refine ⟨w1, threads_go hi hf (p' := .sending data) hr hst rfl ⟨hb1, ?_⟩⟩
      rw [send_accepted hb2, ← hb3, ← hb4, ← hb5]
      exact hs
  | sending data =>
    unfold Threads.advance
    dsimp only
    obtain ⟨hb1, hb2⟩ := hbe
    have hr : leftOf C m.world e (.sending data) = restSend C m.world data := rfl
    unfold restSend at hr
    cases hk : m.world.transport.socket with
    | none =>
      rw [hk] at hr
      exact ⟨_, threads_finish hR hi hf hr (own_raised _ _ _)⟩
    | some h =>
      rw [hk] at hr
      refine ⟨w1, threads_go hi hf (p' := .writing) hr hst rfl ⟨h, data, ?_, hb2, ?_⟩⟩
      · rw [← hf.transport]; exact hk
      · show m.world.os ++ _ = _
        rw [hb1]
  | writing =>
    unfold Threads.advance
    dsimp only
    have hr : leftOf C m.world e .writing = restWrite C m.world := rfl
    unfold restWrite at hr
    cases hw : m.world.writes with
    | nil => exact ⟨w1, hi⟩
    | cons r writes =>
      rw [hw] at hr
      cases r with
      | ok u => exact ⟨w1, threads_go hi hf (p' := .starting) hr hst rfl hbe⟩
      | error x => exact ⟨_, threads_finish hR hi hf hr (own_raised _ _ _)⟩
  | starting => exact ⟨w1, threads_go hi hf rfl hst rfl hbe⟩
  | adding line =>
    refine ⟨w1, threads_go hi hf (p' := .polling) rfl ?_ rfl hbe⟩
    show awaits (m.world.conn.receiveData line).state = _
    rw [(receiveData_frame m.world.conn line).2.2]; exact hst
  | polling =>
    have hr := left_polling C m.world e
    unfold Threads.advance
    dsimp only
    cases hd : m.world.conn.decodeHead C with
    | error x => rw [hd] at hr; exact ⟨_, threads_finish hR hi hf hr (own_raised _ _ _)⟩
    | ok o =>
      rw [hd] at hr
      cases o with
      | none => exact ⟨w1, threads_go hi hf hr hst rfl hbe⟩
      | some pdu => exact ⟨w1, threads_go hi hf hr hst rfl hbe⟩
  | checking pdu =>
    have hr : leftOf C m.world e (.checking pdu) = restCheck m.world pdu := rfl
    unfold restCheck at hr
    unfold Threads.advance
    dsimp only
    cases hd : processEvent m.world.conn.state pdu with
    | error x => rw [hd] at hr; exact ⟨_, threads_finish hR hi hf hr (own_raised _ _ _)⟩
    | ok s =>
      rw [hd] at hr
      exact ⟨w1, threads_go hi hf (p' := .accepting pdu s) hr ⟨hst, checked hst hf.request hd⟩ rfl hbe⟩
  | accepting pdu s => exact ⟨w1, threads_go hi hf (p' := .clearing pdu) rfl hst.2 rfl hbe⟩
  | clearing pdu =>
    refine ⟨_, threads_finish hR hi hf rfl (fun ev h => ?_)⟩
    injection h with h
    subst h
    exact hst
  | reading timeout line =>
    show ∃ w1', FlightInv C R (m.read tid e timeout line) w1'
    unfold Threads.read
    obtain ⟨h, ln, hs, hb⟩ := hbe
    rw [← hf.transport] at hs
    have hbe : ∀ r k, Before C (m.world.setUnread r k) w1 e .writing := by
      intro r k
      refine ⟨h, ln, by rw [← hf.transport]; exact hs, hb.1, ?_⟩
      rw [(setUnread_fields m.world r k).2.2.1]; exact hb.2
    have hr := restRead_step C m.world hs timeout line
    have hrest : leftOf C m.world e (.reading timeout line) = restRead C m.world timeout line := rfl
    have hset : ∀ r k, (m.world.setUnread r k).conn = m.world.conn ∧
        (m.world.setUnread r k).transport = m.world.transport := fun r k =>
      ⟨(setUnread_fields m.world r k).2.1, (setUnread_fields m.world r k).1⟩
    cases ho : osRead 1 m.world.unread with
    | none => exact ⟨w1, hi⟩
    | some x =>
      obtain ⟨x, r⟩ := x
      rw [ho] at hr
      cases x with
      | error x => exact ⟨_, threads_finish hR hi hf (hrest.trans hr) (own_raised _ _ _)⟩
      | ok d =>
        dsimp only at hr ⊢
        by_cases hd : d.isEmpty = true
        · rw [if_pos hd] at hr ⊢
          obtain ⟨s1, s2⟩ := hset r m.world.clock
          exact ⟨w1, threads_go (p' := .reading timeout line) hi hf (hrest.trans hr)
            (by rw [s1]; exact hst) s2 (hbe _ _)⟩
        · rw [if_neg hd] at hr ⊢
          by_cases hsl : sliceFrom (line ++ d) (-1) = [0x0D]
          · rw [if_pos hsl] at hr ⊢
            obtain ⟨s1, s2⟩ := hset r m.world.clock
            exact ⟨w1, threads_go (p' := .adding (line ++ d)) hi hf (hrest.trans (by rw [hr, leftOf]; rw [s1]))
              (by rw [s1]; exact hst) s2 (hbe _ _)⟩
          · rw [if_neg hsl] at hr ⊢
            cases ht : timeout.expired m.world.clock with | mk tc o =>
            obtain ⟨t, c⟩ := tc
            rw [ht] at hr
            obtain ⟨s1, s2⟩ := hset r c
            cases o with
            | error x => exact ⟨_, threads_finish hR hi hf (hrest.trans hr) (own_raised _ _ _)⟩
            | ok b =>
              cases b with
              | true => exact ⟨w1, threads_go (p' := .adding (line ++ d)) hi hf (hrest.trans (by rw [hr, leftOf]; rw [s1]))
                  (by rw [s1]; exact hst) s2 (hbe _ _)⟩
              | false => exact ⟨w1, threads_go (p' := .reading t (line ++ d)) hi hf (hrest.trans hr)
                  (by rw [s1]; exact hst) s2 (hbe _ _)⟩

theorem refused_unless_idle {s : PState} {e : Event} (he : IsRequest e) (hs : s ≠ .idle) :
    processEvent s e = .error (.elgas .localProtocol) := by
  apply C34_refuses
  refine ⟨fun h => hs h.1, fun ha => ?_⟩
  cases hs : s <;> rw [hs] at ha <;> simp [awaits] at ha <;>
    (unfold IsRequest at he; rw [← ha] at he; simp [responseOf] at he)

theorem threads_step {C : BlockCipher} {plan : Nat → List (Nat × Event × Outcome3 Event) → Option Event}
    (hplan : ∀ tid hist e, plan tid hist = some e → IsRequest e) {w w1 : World} {m : Threads}
    (hi : ThreadsInv C w m w1) (tid : Nat)
    (hu : ∀ j e p, m.flights j = some (e, p) → Point.critical p → j = tid) :
    ∃ w1', ThreadsInv C w (m.step C plan tid) w1' := by
  unfold Threads.step
  cases hfl : m.flights tid with
  | some x =>
    obtain ⟨e, p⟩ := x
    rcases hi.now with ⟨hn, _⟩ | ⟨t', e', p', hf⟩
    · rw [hn tid] at hfl; cases hfl
    · by_cases ht : tid = t'
      · subst ht
        have := hf.flight
        rw [hfl] at this
        injection this with this
        injection this with h1 h2
        subst h1; subst h2
        exact threads_advance (oneByOne_takes C w) hi hf
      · rw [hf.alone tid ht] at hfl; cases hfl
  | none =>
    dsimp only
    cases hp : plan tid m.history with
    | none => exact ⟨w1, hi⟩
    | some e =>
      have he := hplan tid _ e hp
      dsimp only
      rcases hi.now with ⟨hnone, hw⟩ | ⟨t', e', p', hf⟩
      · cases hpe : processEvent m.world.conn.state e with
        | error x =>
          have hx : x = .elgas .localProtocol := by
            unfold processEvent at hpe
            split at hpe <;> cases hpe
            rfl
          subst hx
          refine ⟨w1, oneByOne_snoc_refused hi.past tid e, forall_snoc hi.own (own_raised _ _ _), .inl ⟨fun j => ?_, hw⟩⟩
          show (if j = tid then none else m.flights j) = none
          split
          · rfl
          · exact hnone j
        | ok s =>
          refine ⟨w1, hi.past, hi.own, .inr ⟨tid, e, .setting s, ?_, fun j hj => ?_, ?_, ?_, he, ?_, ⟨hw, ?_⟩, ?_⟩⟩
          · show (if tid = tid then some (e, Point.setting s) else m.flights tid) = _
            rw [if_pos rfl]
          · show (if j = tid then some (e, Point.setting s) else m.flights j) = none
            rw [if_neg hj]; exact hnone j
          · rw [← hw]; exact exchange_left C m.world e s hpe
          · exact (fits_of_accepted he hpe).2
          · show m.world.transport = _; rw [hw]
          · rw [← hw]; exact hpe
          · rw [← hw]; exact (fits_of_accepted he hpe).1
      · have hne : t' ≠ tid := by
          intro h
          rw [← h, hf.flight] at hfl
          cases hfl
        have hnc : ¬ Point.critical p' := fun hc => hne (hu t' e' p' hf.flight hc)
        have hidle : m.world.conn.state ≠ .idle := by
          apply not_idle_of_awaits hf.request
          have := hf.state
          cases p' with
          | setting s => exact absurd trivial hnc
          | clearing s => exact absurd trivial hnc
          | accepting pdu s => exact this.1
          | _ => exact this
        rw [refused_unless_idle he hidle]
        dsimp only
        refine ⟨w1, oneByOne_snoc_refused hi.past tid e, forall_snoc hi.own (own_raised _ _ _), .inr ⟨t', e', p', ?_,
          fun j hj => ?_, hf.left, hf.state, hf.request, hf.transport, hf.before, hf.idle⟩⟩
        · show (if t' = tid then none else m.flights t') = _
          rw [if_neg hne]; exact hf.flight
        · show (if j = tid then none else m.flights j) = none
          split
          · rfl
          · exact hf.alone j hj

theorem threads_run {C : BlockCipher} {plan : Nat → List (Nat × Event × Outcome3 Event) → Option Event}
    (hplan : ∀ tid hist e, plan tid hist = some e → IsRequest e) {w : World} (schedule : List Nat) :
    ∀ {m : Threads} {w1 : World}, ThreadsInv C w m w1 → Undisturbed C plan m schedule →
      ∃ w1', ThreadsInv C w (m.run C plan schedule) w1' := by
  induction schedule with
  | nil => intro m w1 hi _; exact ⟨w1, hi⟩
  | cons t ts ih =>
    intro m w1 hi hu
    obtain ⟨w2, h2⟩ := threads_step hplan hi t hu.1
    exact ih h2 hu.2

theorem threads_init (C : BlockCipher) (w : World) : ThreadsInv C w { world := w } w :=
  ⟨.nil w, (fun x hx => by cases hx), .inl ⟨fun _ => rfl, rfl⟩⟩


/-- C89. Threads that share one client do not get into each other's way in any schedule in which no other thread runs
while one is between looking the state up and changing it, or between declaring the connection free and emptying
its buffer: every call that has ended was either refused with `LocalElgasProtocolError` and then had no effect at all,
or had exactly the outcome and the effect it has when the calls that were not refused are made one after the other by one
thread.  At most one call is under way, of which at most the request has been written. -/
theorem C89_undisturbed (C : BlockCipher) (plan : Nat → List (Nat × Event × Outcome3 Event) → Option Event)
    (hplan : ∀ tid hist e, plan tid hist = some e → IsRequest e) (w : World) (schedule : List Nat)
    (hu : Undisturbed C plan { world := w } schedule) (m : Threads)
    (hm : m = Threads.run C plan { world := w } schedule) :
    ∃ w1, OneByOne C w m.history w1 ∧
      (((∀ tid, m.flights tid = none) ∧ m.world = w1) ∨
       ∃ tid e p, m.flights tid = some (e, p) ∧ (∀ j, j ≠ tid → m.flights j = none) ∧
        (m.world.os = w1.os ∨
         ∃ h line, w1.transport.socket = some h ∧ (w1.conn.send C e (w1.rands w1.draws)).2 = .ok line ∧
          m.world.os = w1.os ++ [.write h line])) := by
  obtain ⟨w1, hi⟩ := threads_run hplan schedule (threads_init C w) hu
  rw [← hm] at hi
  refine ⟨w1, hi.past, ?_⟩
  rcases hi.now with h | ⟨tid, e, p, hf⟩
  · exact .inl h
  · refine .inr ⟨tid, e, p, hf.flight, hf.alone, ?_⟩
    have hb := hf.before
    cases p with
    | setting s => left; rw [hb.1]
    | building => exact .inl hb.1
    | sending data => exact .inl hb.1
    | _ => exact .inr hb

/-- C89. In such a schedule what a call returns is of the kind its own request asks for. -/
theorem C89_own_answer (C : BlockCipher) (plan : Nat → List (Nat × Event × Outcome3 Event) → Option Event)
    (hplan : ∀ tid hist e, plan tid hist = some e → IsRequest e) (w : World) (schedule : List Nat)
    (hu : Undisturbed C plan { world := w } schedule) (tid : Nat) (e ev : Event)
    (hx : (tid, e, .returned ev) ∈ (Threads.run C plan { world := w } schedule).history) :
    responseOf e.type = some ev.type := by
  obtain ⟨w1, hi⟩ := threads_run hplan schedule (threads_init C w) hu
  exact hi.own _ hx ev rfl

theorem serialise_state (C : BlockCipher) (c : Conn) (s : PState) (e : Event) (r : Rand) :
    ({ c with state := s } : Conn).serialise C e r = c.serialise C e r := rfl

theorem sent_serialised {C : BlockCipher} {c : Conn} {e : Event} {r : Rand} {line : Bytes}
    (h : (c.send C e r).2 = .ok line) : c.serialise C e r = .ok line := by
  unfold Conn.send at h
  cases hp : processEvent c.state e with
  | error x => rw [hp] at h; cases h
  | ok s => rw [hp] at h; exact h

/-- C89. Defect: the first point matters.  For every idle connected client and any two requests that can be built there
is a schedule after which both have been written and neither is answered. -/
theorem C89_two_outstanding (C : BlockCipher) (plan : Nat → List (Nat × Event × Outcome3 Event) → Option Event) (w : World)
    (hidle : w.conn.state = .idle) (h : Handle) (hs : w.transport.socket = some h) (a b : Nat) (hab : a ≠ b)
    (e1 e2 : Event) (he1 : IsRequest e1) (he2 : IsRequest e2) (ha : plan a [] = some e1) (hb : plan b [] = some e2)
    (line1 line2 : Bytes) (h1 : (w.conn.send C e1 (w.rands w.draws)).2 = .ok line1)
    (h2 : (w.conn.send C e2 (w.rands (w.draws + 1))).2 = .ok line2) :
    ∃ schedule, (Threads.run C plan { world := w } schedule).world.os = w.os ++ [.write h line1, .write h line2] ∧
      (Threads.run C plan { world := w } schedule).history = [] := by
  obtain ⟨s1, hp1, _⟩ := C34_idle_accepts e1 he1
  obtain ⟨s2, hp2, _⟩ := C34_idle_accepts e2 he2
  have hba : b ≠ a := fun h => hab h.symm
  have k1 := sent_serialised h1
  have k2 := sent_serialised h2
  refine ⟨[a, b, a, b, a, b, a, b], ?_⟩
  simp [Threads.run, Threads.step, Threads.advance, Threads.go, ha, hb, hidle, hp1, hp2, hab, hba,
    serialise_state, k1, k2, hs]


theorem threads_run_append {C : BlockCipher} {plan : Nat → List (Nat × Event × Outcome3 Event) → Option Event} (m : Threads)
    (s s' : List Nat) : m.run C plan (s ++ s') = (m.run C plan s).run C plan s' := by
  unfold Threads.run; rw [List.foldl_append]

theorem go_go (m : Threads) (tid : Nat) (e e' : Event) (p p' : Point) (w w' : World) :
    (m.go tid e p w).go tid e' p' w' = m.go tid e' p' w' := by
  unfold Threads.go
  congr 1
  funext j
  by_cases hj : j = tid
  · rw [if_pos hj, if_pos hj]
  · rw [if_neg hj, if_neg hj]; dsimp only; rw [if_neg hj]

theorem go_self {m : Threads} {tid : Nat} {e : Event} {p : Point} {w : World} :
    (m.go tid e p w).flights tid = some (e, p) := by
  show (if tid = tid then _ else _) = _
  rw [if_pos rfl]

theorem step_advance {C : BlockCipher} {plan : Nat → List (Nat × Event × Outcome3 Event) → Option Event} {m : Threads}
    {tid : Nat} {e : Event} {p : Point} (h : m.flights tid = some (e, p)) : m.step C plan tid = m.advance C tid e p := by
  unfold Threads.step; rw [h]

/-- A thread that is alone reads a line. -/
theorem thread_reads {C : BlockCipher} {plan : Nat → List (Nat × Event × Outcome3 Event) → Option Event} {tid : Nat}
    {e : Event} {t : Timeout} (ht : t.targetTime = none) {more : List Delivery} (ln : Bytes) : ∀ {m : Threads} {acc : Bytes}
    {h : Handle}, m.world.transport.socket = some h → 0x0D ∉ ln → m.flights tid = some (e, .reading t acc) →
    m.world.unread = .seg (ln ++ [0x0D]) :: more →
    m.run C plan (List.replicate (ln.length + 1) tid) =
      m.go tid e (.adding (acc ++ ln ++ [0x0D])) (m.world.setUnread more m.world.clock) := by
  induction ln with
  | nil =>
    intro m acc h hs hln hf hu
    show m.step C plan tid = _
    rw [step_advance hf]
    show m.read tid e t acc = _
    unfold Threads.read
    rw [hu]
    have : osRead 1 (.seg ([] ++ [0x0D]) :: more) = some (.ok [0x0D], more) := rfl
    rw [this]
    dsimp only
    rw [if_neg (by simp), if_pos (by rw [sliceFrom_last]), List.append_nil]
  | cons b ln ih =>
    intro m acc h hs hln hf hu
    have hb : b ≠ 0x0D := fun hb => hln (by rw [hb]; exact List.mem_cons_self)
    show (m.step C plan tid).run C plan (List.replicate (ln.length + 1) tid) = _
    have h1 : m.step C plan tid = m.go tid e (.reading t (acc ++ [b]))
        (m.world.setUnread (.seg (ln ++ [0x0D]) :: more) m.world.clock) := by
      rw [step_advance hf]
      show m.read tid e t acc = _
      unfold Threads.read
      rw [hu]
      have : osRead 1 (.seg (b :: ln ++ [0x0D]) :: more) = some (.ok [b], .seg (ln ++ [0x0D]) :: more) := by
        unfold osRead
        dsimp only
        rw [if_neg (by simp)]
        rfl
      rw [this]
      dsimp only
      rw [if_neg (by simp), if_neg (by rw [sliceFrom_last]; intro h; injection h with h; exact hb h)]
      unfold Timeout.expired
      rw [ht]
    have hne : m.world.transport.socket ≠ none := by rw [hs]; intro h; cases h
    rw [h1, ih (m := m.go tid e (.reading t (acc ++ [b])) (m.world.setUnread (.seg (ln ++ [0x0D]) :: more) m.world.clock))
      (h := h) (by show (m.world.setUnread _ _).transport.socket = _; rw [(setUnread_fields m.world _ _).1]; exact hs)
      (fun hm => hln (List.mem_cons_of_mem _ hm)) go_self ((setUnread_frame m.world _ _).2 hne), go_go]
    show m.go tid e _ ((m.world.setUnread _ _).setUnread more (m.world.setUnread _ _).clock) = _
    rw [setUnread_setUnread, (setUnread_fields m.world _ _).2.2.2.1]
    simp

/-- A thread that is alone, from the writing of its request to the point at which the connection is free again. -/
theorem thread_answered {C : BlockCipher} {plan : Nat → List (Nat × Event × Outcome3 Event) → Option Event} {tid : Nat}
    {e pdu : Event} {more : List Delivery} {ln : Bytes} {m : Threads} {h : Handle} {ws : List (Res Unit)} {s : PState}
    (hs : m.world.transport.socket = some h) (hto : m.world.transport.timeout = none) (hln : 0x0D ∉ ln)
    (hf : m.flights tid = some (e, .writing)) (hw : m.world.writes = .ok () :: ws)
    (hu : m.world.unread = .seg (ln ++ [0x0D]) :: more)
    (hd : (m.world.conn.receiveData (ln ++ [0x0D])).decodeHead C = .ok (some pdu))
    (hp : processEvent m.world.conn.state pdu = .ok s) :
    ∃ n w', m.run C plan (List.replicate n tid) = m.go tid e (.clearing pdu) w' ∧
      w'.conn = { m.world.conn.receiveData (ln ++ [0x0D]) with state := s } ∧ w'.transport = m.world.transport ∧
      w'.writes = ws ∧ w'.unread = more ∧ w'.rands = m.world.rands ∧ w'.draws = m.world.draws := by
  have hmk : mkTimeout m.world.clock m.world.transport.timeout =
      ({ isInfinite := true, isNonBlocking := false, duration := none, targetTime := none }, m.world.clock) := by
    rw [hto]; rfl
  let t : Timeout := { isInfinite := true, isNonBlocking := false, duration := none, targetTime := none }
  let w1 : World := { m.world with writes := ws }
  have h1 : m.run C plan [tid, tid] = m.go tid e (.reading t []) w1 := by
    show (m.step C plan tid).step C plan tid = _
    have h0 : m.step C plan tid = m.go tid e .starting w1 := by
      rw [step_advance hf]
      show (match m.world.writes with | [] => _ | .ok () :: writes => _ | .error x :: writes => _) = _
      rw [hw]
    rw [h0, step_advance go_self]
    show (m.go tid e .starting w1).go tid e (.reading (mkTimeout m.world.clock m.world.transport.timeout).1 []) _ = _
    rw [go_go, hmk]
    show m.go tid e (.reading t []) { w1 with clock := (mkTimeout m.world.clock m.world.transport.timeout).2 } = _
    rw [hmk]
  have h2 := thread_reads (C := C) (plan := plan) (t := t) (tid := tid) (e := e) rfl ln (m := m.go tid e (.reading t []) w1) (acc := []) (h := h) hs hln
    go_self (more := more) hu
  rw [go_go] at h2
  have hne : m.world.transport.socket ≠ none := by rw [hs]; intro h; cases h
  let w2 : World := w1.setUnread more m.world.clock
  have hc2 : w2.conn = m.world.conn := (setUnread_fields w1 more _).2.1
  let w3 : World := { w2 with conn := m.world.conn.receiveData (ln ++ [0x0D]) }
  let w4 : World := { w3 with conn := { w3.conn with state := s } }
  have hst : w3.conn.state = m.world.conn.state := (receiveData_frame m.world.conn (ln ++ [0x0D])).2.2
  have h3 : (m.go tid e (.adding ([] ++ ln ++ [0x0D])) w2).run C plan [tid, tid, tid, tid] =
      m.go tid e (.clearing pdu) w4 := by
    show ((((m.go tid e (.adding ([] ++ ln ++ [0x0D])) w2).step C plan tid).step C plan tid).step C plan tid).step C plan tid = _
    have a1 : (m.go tid e (.adding ([] ++ ln ++ [0x0D])) w2).step C plan tid = m.go tid e .polling w3 := by
      rw [step_advance go_self]
      show (m.go tid e _ w2).go tid e .polling { w2 with conn := w2.conn.receiveData (ln ++ [0x0D]) } = _
      rw [go_go, hc2]
    have a2 : (m.go tid e .polling w3).step C plan tid = m.go tid e (.checking pdu) w3 := by
      rw [step_advance go_self]
      show (match w3.conn.decodeHead C with | .error x => _ | .ok none => _ | .ok (some pdu) => _) = _
      rw [hd]
      exact go_go _ _ _ _ _ _ _ _
    have a3 : (m.go tid e (.checking pdu) w3).step C plan tid = m.go tid e (.accepting pdu s) w3 := by
      rw [step_advance go_self]
      show (match processEvent w3.conn.state pdu with | .error x => _ | .ok s => _) = _
      rw [hst, hp]
      exact go_go _ _ _ _ _ _ _ _
    have a4 : (m.go tid e (.accepting pdu s) w3).step C plan tid = m.go tid e (.clearing pdu) w4 := by
      rw [step_advance go_self]
      exact go_go _ _ _ _ _ _ _ _
    rw [a1, a2, a3, a4]
  refine ⟨2 + (ln.length + 1) + 4, w4, ?_, rfl, ?_, ?_, ?_, ?_, ?_⟩
  · rw [← List.replicate_append_replicate, ← List.replicate_append_replicate, threads_run_append, threads_run_append]
    show ((m.run C plan [tid, tid]).run C plan _).run C plan [tid, tid, tid, tid] = _
    rw [h1, h2]
    exact h3
  · exact (setUnread_fields w1 more _).1
  · exact (setUnread_fields w1 more _).2.2.2.2
  · exact (setUnread_frame w1 more _).2 hne
  · show (w1.setUnread more _).rands = _
    unfold World.setUnread; split <;> rfl
  · show (w1.setUnread more _).draws = _
    unfold World.setUnread; split <;> rfl


theorem decodeHead_of_nextEvent {C : BlockCipher} {c : Conn} {ev : Event} (h : (c.nextEvent C).2 = .ok (some ev)) :
    c.decodeHead C = .ok (some ev) := by
  rw [nextEvent_decode] at h
  cases hd : c.decodeHead C with
  | error x => rw [hd] at h; cases h
  | ok o =>
    rw [hd] at h
    cases o with
    | none => cases h
    | some pdu =>
      dsimp only at h
      cases hp : processEvent c.state pdu with
      | error x => rw [hp] at h; cases h
      | ok s => rw [hp] at h; cases h; rfl

/-- The first line of the buffer decides what is decoded. -/
theorem decodeHead_line {C : BlockCipher} {c : Conn} {ln rest : Bytes} {svc : ServiceNumber} {data : Bytes} {ev : Event}
    (hb : c.buffer = ln ++ 0x0D :: rest) (hln : 0x0D ∉ ln) (hd : Delivers C c.cipherContext (ln ++ [0x0D]) svc data)
    (h1 : ∀ b, data = [b] → ¬ OneBit b) (hdec : Decodes svc data ev) : c.decodeHead C = .ok (some ev) := by
  obtain ⟨s, hs⟩ : ∃ s, awaits s = some ev.type := by
    cases hdec
    · exact ⟨.awaitingReadActualValuesResponse, rfl⟩
    · exact ⟨.awaitingReadTimeResponse, rfl⟩
    · exact ⟨.awaitingReadDeviceParametersResponse, rfl⟩
    · exact ⟨.awaitingReadArchiveByTimeResponse, rfl⟩
    · exact ⟨.awaitingReadArchiveResponse, rfl⟩
    · exact ⟨.awaitingWriteTimeResponse, rfl⟩
  have : (({ c with state := s } : Conn).nextEvent C).2 = .ok (some ev) :=
    (C44_returns_iff C _ ev).2 ⟨ln, rest, svc, data, hb, hln, hd, h1, hdec, hs⟩
  exact decodeHead_of_nextEvent (c := { c with state := s }) this

theorem accepts_awaited {s : PState} {ev : Event} (h : awaits s = some ev.type) : processEvent s ev = .ok .idle := by
  unfold processEvent
  cases s <;> simp [awaits] at h <;> rw [← h] <;> rfl

/-- A thread that is alone, from the beginning of its call to the writing of the request. -/
theorem thread_sends {C : BlockCipher} {plan : Nat → List (Nat × Event × Outcome3 Event) → Option Event} {tid : Nat}
    {e : Event} {m : Threads} {h : Handle} {s : PState} {line : Bytes} (hf : m.flights tid = none)
    (hp : plan tid m.history = some e) (hpe : processEvent m.world.conn.state e = .ok s)
    (hl : m.world.conn.serialise C e (m.world.rands m.world.draws) = .ok line) (hs : m.world.transport.socket = some h) :
    m.run C plan [tid, tid, tid, tid] = m.go tid e .writing
      { m.world with
        conn := { m.world.conn with state := s }
        draws := m.world.draws + 1
        os := m.world.os ++ [.write h line] } := by
  show (((m.step C plan tid).step C plan tid).step C plan tid).step C plan tid = _
  have a1 : m.step C plan tid = m.go tid e (.setting s) m.world := by
    unfold Threads.step; rw [hf]; dsimp only; rw [hp]; dsimp only; rw [hpe]
  have a2 : (m.go tid e (.setting s) m.world).step C plan tid =
      m.go tid e .building { m.world with conn := { m.world.conn with state := s } } := by
    rw [step_advance go_self]
    exact go_go _ _ _ _ _ _ _ _
  have a3 : (m.go tid e .building { m.world with conn := { m.world.conn with state := s } }).step C plan tid =
      m.go tid e (.sending line) { m.world with conn := { m.world.conn with state := s }, draws := m.world.draws + 1 } := by
    rw [step_advance go_self]
    show (match ({ m.world.conn with state := s } : Conn).serialise C e (m.world.rands m.world.draws) with
      | .error x => _ | .ok data => _) = _
    rw [serialise_state, hl]
    exact go_go _ _ _ _ _ _ _ _
  rw [a1, a2, a3, step_advance go_self]
  show (match m.world.transport.socket with | none => _ | some h => _) = _
  rw [hs]
  exact go_go _ _ _ _ _ _ _ _

theorem go_other {m : Threads} {tid j : Nat} {e : Event} {p : Point} {w : World} (hj : j ≠ tid) :
    (m.go tid e p w).flights j = m.flights j := by
  show (if j = tid then _ else _) = _
  rw [if_neg hj]

/-- C89. Defect: the first point matters.  Whatever two requests two threads make at the same time of an idle client, there
is a schedule in which the second thread is given the answer to the request of the first. -/
theorem C89_foreign_answer (C : BlockCipher) (plan : Nat → List (Nat × Event × Outcome3 Event) → Option Event) (w : World)
    (hidle : w.conn.state = .idle) (hbuf : w.conn.buffer = []) (h : Handle) (hs : w.transport.socket = some h)
    (hto : w.transport.timeout = none) (a b : Nat) (hab : a ≠ b)
    (e1 e2 : Event) (he1 : IsRequest e1) (he2 : IsRequest e2) (ha : plan a [] = some e1) (hb : plan b [] = some e2)
    (line1 line2 : Bytes) (h1 : (w.conn.send C e1 (w.rands w.draws)).2 = .ok line1)
    (h2 : (w.conn.send C e2 (w.rands (w.draws + 1))).2 = .ok line2)
    (ws : List (Res Unit)) (hw : w.writes = .ok () :: ws) (ln : Bytes) (hln : 0x0D ∉ ln) (more : List Delivery)
    (hin : w.inbox h = .seg (ln ++ [0x0D]) :: more) (svc : ServiceNumber) (data : Bytes) (ev : Event)
    (hd : Delivers C w.conn.cipherContext (ln ++ [0x0D]) svc data) (hone : ∀ b, data = [b] → ¬ OneBit b)
    (hdec : Decodes svc data ev) (hev : responseOf e1.type = some ev.type) :
    ∃ schedule, (Threads.run C plan { world := w } schedule).history = [(b, e2, .returned ev)] := by
  obtain ⟨s1, hp1, haw⟩ := C34_idle_accepts e1 he1
  obtain ⟨s2, hp2, _⟩ := C34_idle_accepts e2 he2
  have hba : b ≠ a := fun h => hab h.symm
  have k1 := sent_serialised h1
  have k2 := sent_serialised h2
  have hne : ln ++ [0x0D] ≠ [0x0D] := delivers_ne hd
  let w1 : World := { w with
    conn := { w.conn with state := s1 }
    draws := w.draws + 2
    os := w.os ++ [.write h line1, .write h line2] }
  let m : Threads := { world := w1, flights := fun j => if j = b then some (e2, .writing) else if j = a then some (e1, .writing) else none }
  have hm : Threads.run C plan { world := w } [a, b, b, a, a, b, a, b] = m := by
    simp [Threads.run, Threads.step, Threads.advance, Threads.go, ha, hb, hidle, hp1, hp2, hab, hba, serialise_state, k1, k2,
      hs, m, w1]
    funext j
    by_cases hj : j = a <;> by_cases hj' : j = b <;> simp [hj, hj', hab]
  have hrd : w1.conn.receiveData (ln ++ [0x0D]) = { w1.conn with buffer := ln ++ [0x0D] } := by
    unfold Conn.receiveData
    rw [if_neg (by simp), if_neg (fun h => hne h.1)]
    show ({ w1.conn with buffer := w.conn.buffer ++ _ } : Conn) = _
    rw [hbuf]; rfl
  obtain ⟨n, w', hr, _⟩ := thread_answered (C := C) (plan := plan) (tid := b) (m := m) (e := e2) (pdu := ev) (more := more)
    (ln := ln) (h := h) (ws := ws) (s := .idle) hs hto hln (by simp [m]) hw
    (by show World.unread w1 = _; unfold World.unread; show (match w.transport.socket with | none => _ | some h => _) = _; rw [hs]; exact hin)
    (by show (w1.conn.receiveData _).decodeHead C = _; rw [hrd]; exact decodeHead_line (rest := []) rfl hln hd hone hdec)
    (accepts_awaited (by show awaits s1 = _; rw [haw]; exact hev))
  refine ⟨[a, b, b, a, a, b, a, b] ++ List.replicate n b ++ [b], ?_⟩
  rw [threads_run_append, threads_run_append, hm, hr]
  show ((m.go b e2 (.clearing ev) w').step C plan b).history = _
  rw [step_advance go_self]
  rfl

/-- C89. Defect: the second point matters.  When two threads ask an idle client for the same kind of thing, there is a
schedule in which both are given the answer to the request of the first, and the answer to the second is thrown away. -/
theorem C89_stale_answer (C : BlockCipher) (plan : Nat → List (Nat × Event × Outcome3 Event) → Option Event) (w : World)
    (hidle : w.conn.state = .idle) (hbuf : w.conn.buffer = []) (h : Handle) (hs : w.transport.socket = some h)
    (hto : w.transport.timeout = none) (a b : Nat) (hab : a ≠ b)
    (e1 e2 : Event) (he1 : IsRequest e1) (he2 : IsRequest e2) (ha : plan a [] = some e1) (hb : plan b [] = some e2)
    (line1 line2 : Bytes) (h1 : (w.conn.send C e1 (w.rands w.draws)).2 = .ok line1)
    (h2 : (w.conn.send C e2 (w.rands (w.draws + 1))).2 = .ok line2)
    (ws : List (Res Unit)) (hw : w.writes = .ok () :: .ok () :: ws) (ln ln2 : Bytes) (hln : 0x0D ∉ ln) (hln2 : 0x0D ∉ ln2)
    (more : List Delivery) (hin : w.inbox h = .seg (ln ++ [0x0D]) :: .seg (ln2 ++ [0x0D]) :: more)
    (svc : ServiceNumber) (data : Bytes) (ev : Event)
    (hd : Delivers C w.conn.cipherContext (ln ++ [0x0D]) svc data) (hone : ∀ b, data = [b] → ¬ OneBit b)
    (hdec : Decodes svc data ev) (hev1 : responseOf e1.type = some ev.type) (hev2 : responseOf e2.type = some ev.type) :
    ∃ schedule, (Threads.run C plan { world := w } schedule).history = [(b, e2, .returned ev), (a, e1, .returned ev)] ∧
      (Threads.run C plan { world := w } schedule).world.conn.buffer = [] ∧
      (Threads.run C plan { world := w } schedule).world.inbox h = more := by
  obtain ⟨s1, hp1, haw1⟩ := C34_idle_accepts e1 he1
  obtain ⟨s2, hp2, haw2⟩ := C34_idle_accepts e2 he2
  have hba : b ≠ a := fun h => hab h.symm
  have hrd : ∀ c : Conn, c.buffer = [] → c.receiveData (ln ++ [0x0D]) = { c with buffer := ln ++ [0x0D] } := by
    intro c hc
    unfold Conn.receiveData
    rw [if_neg (by simp), if_neg (fun h => delivers_ne hd h.1), hc]
    rfl
  have hun : ∀ v : World, v.transport = w.transport → v.unread = v.inbox h := by
    intro v hv
    unfold World.unread
    rw [hv, hs]
  -- the first thread, up to the second point
  let m0 : Threads := { world := w }
  have hsend1 := thread_sends (C := C) (plan := plan) (tid := a) (m := m0) (e := e1) (h := h) (s := s1) (line := line1) rfl ha
    (by show processEvent w.conn.state e1 = _; rw [hidle]; exact hp1) (sent_serialised h1) hs
  let w1 : World := { w with conn := { w.conn with state := s1 }, draws := w.draws + 1, os := w.os ++ [.write h line1] }
  let m1 : Threads := m0.go a e1 .writing w1
  obtain ⟨n1, w2, hr1, hc1, ht1, hw1, hu1, hrand1, hdraw1⟩ := thread_answered (C := C) (plan := plan) (tid := a) (m := m1)
    (e := e1) (pdu := ev) (more := .seg (ln2 ++ [0x0D]) :: more) (ln := ln) (h := h) (ws := .ok () :: ws) (s := .idle) hs hto
    hln go_self hw ((hun w1 rfl).trans hin)
    (by show (w1.conn.receiveData _).decodeHead C = _
        rw [hrd w1.conn hbuf]; exact decodeHead_line (rest := []) rfl hln hd hone hdec)
    (accepts_awaited (by show awaits s1 = _; rw [haw1]; exact hev1))
  have hc1' : w2.conn = { w.conn with state := .idle, buffer := ln ++ [0x0D] } := by
    rw [hc1]
    show ({ w1.conn.receiveData (ln ++ [0x0D]) with state := .idle } : Conn) = _
    rw [hrd w1.conn hbuf]
  -- the second thread
  let m2 : Threads := m1.go a e1 (.clearing ev) w2
  have hsend2 := thread_sends (C := C) (plan := plan) (tid := b) (m := m2) (e := e2) (h := h) (s := s2) (line := line2)
    (by show (m1.go a e1 (.clearing ev) w2).flights b = none
        rw [go_other hba]; show (m0.go a e1 .writing w1).flights b = none; rw [go_other hba])
    hb (by show processEvent w2.conn.state e2 = _; rw [hc1']; exact hp2)
    (by show w2.conn.serialise C e2 (w2.rands w2.draws) = _
        rw [hc1', hrand1, hdraw1]
        have := sent_serialised h2
        exact this)
    (by show w2.transport.socket = _; rw [ht1]; exact hs)
  let w3 : World := { w2 with conn := { w2.conn with state := s2 }, draws := w2.draws + 1, os := w2.os ++ [.write h line2] }
  let m3 : Threads := m2.go b e2 .writing w3
  have hc3 : w3.conn.receiveData (ln2 ++ [0x0D]) = { w.conn with state := s2, buffer := ln ++ 0x0D :: (ln2 ++ [0x0D]) } := by
    show ({ w2.conn with state := s2 } : Conn).receiveData _ = _
    rw [hc1']
    unfold Conn.receiveData
    rw [if_neg (by simp), if_neg (by intro h; simp at h)]
    simp
  obtain ⟨n2, w4, hr2, hc2, ht2, hw2, hu2, hrand2, hdraw2⟩ := thread_answered (C := C) (plan := plan) (tid := b) (m := m3)
    (e := e2) (pdu := ev) (more := more) (ln := ln2) (h := h) (ws := ws) (s := .idle)
    (by show w2.transport.socket = _; rw [ht1]; exact hs) (by show w2.transport.timeout = _; rw [ht1]; exact hto)
    hln2 go_self hw1 hu1
    (by show (w3.conn.receiveData _).decodeHead C = _
        rw [hc3]; exact decodeHead_line rfl hln hd hone hdec)
    (accepts_awaited (by show awaits s2 = _; rw [haw2]; exact hev2))
  let m4 : Threads := m3.go b e2 (.clearing ev) w4
  have hrun : Threads.run C plan m0 ([a, a, a, a] ++ List.replicate n1 a ++ [b, b, b, b] ++ List.replicate n2 b ++ [b, a]) =
      m4.run C plan [b, a] := by
    rw [threads_run_append, threads_run_append, threads_run_append, threads_run_append, hsend1]
    show (((m1.run C plan (List.replicate n1 a)).run C plan [b, b, b, b]).run C plan (List.replicate n2 b)).run C plan
      [b, a] = _
    rw [hr1]
    show ((m2.run C plan [b, b, b, b]).run C plan (List.replicate n2 b)).run C plan [b, a] = _
    rw [hsend2]
    show (m3.run C plan (List.replicate n2 b)).run C plan [b, a] = _
    rw [hr2]
  have hend : m4.run C plan [b, a] = (m4.finish b e2 (.returned ev) { w4 with conn := { w4.conn with buffer := [] } }).finish a e1
      (.returned ev) { w4 with conn := { w4.conn with buffer := [] } } := by
    show (m4.step C plan b).step C plan a = _
    have b1 : m4.step C plan b = m4.finish b e2 (.returned ev) { w4 with conn := { w4.conn with buffer := [] } } := by
      show (m3.go b e2 (.clearing ev) w4).step C plan b = _
      rw [step_advance go_self]
      rfl
    have b2 : (m4.finish b e2 (.returned ev) { w4 with conn := { w4.conn with buffer := [] } }).flights a =
        some (e1, .clearing ev) := by
      show (if a = b then none else m4.flights a) = _
      rw [if_neg hab]
      show (m3.go b e2 (.clearing ev) w4).flights a = _
      rw [go_other hab]
      show (m2.go b e2 .writing w3).flights a = _
      rw [go_other hab]
      exact go_self
    rw [b1, step_advance b2]
    rfl
  refine ⟨[a, a, a, a] ++ List.replicate n1 a ++ [b, b, b, b] ++ List.replicate n2 b ++ [b, a], ?_⟩
  rw [hrun, hend]
  refine ⟨rfl, rfl, ?_⟩
  show w4.inbox h = more
  rw [← hu2]
  refine (hun w4 ?_).symm
  rw [ht2]
  show w2.transport = _
  rw [ht1]
  rfl

/-! ### Examples -/

theorem finish_other {m : Threads} {tid j : Nat} {e : Event} {o : Outcome3 Event} {w : World} (hj : j ≠ tid) :
    (m.finish tid e o w).flights j = m.flights j := by
  show (if j = tid then _ else _) = _
  rw [if_neg hj]

theorem step_other {C : BlockCipher} {plan : Nat → List (Nat × Event × Outcome3 Event) → Option Event} {m : Threads}
    {tid j : Nat} (hj : j ≠ tid) : (m.step C plan tid).flights j = m.flights j := by
  unfold Threads.step
  repeat' split
  all_goals (try rfl)
  all_goals (try exact go_other hj)
  all_goals (try exact finish_other hj)
  next e p _ =>
    unfold Threads.advance
    repeat' split
    all_goals (try rfl)
    all_goals (try exact go_other hj)
    all_goals (try exact finish_other hj)
    unfold Threads.read
    repeat' split
    all_goals (try rfl)
    all_goals (try exact go_other hj)
    all_goals (try exact finish_other hj)

/-- A check of `Undisturbed` for the threads 1 and 2. -/
def undisturbedB (C : BlockCipher) (plan : Nat → List (Nat × Event × Outcome3 Event) → Option Event) :
    Threads → List Nat → Bool
  | _, [] => true
  | m, tid :: schedule =>
    (tid = 1 || tid = 2) &&
    ([1, 2].all fun j => j = tid || match m.flights j with
      | some (_, .setting _) => false
      | some (_, .clearing _) => false
      | _ => true) && undisturbedB C plan (m.step C plan tid) schedule

theorem undisturbed_of_check {C : BlockCipher} {plan : Nat → List (Nat × Event × Outcome3 Event) → Option Event}
    (schedule : List Nat) : ∀ {m : Threads}, (∀ j, j ≠ 1 → j ≠ 2 → m.flights j = none) →
    undisturbedB C plan m schedule = true → Undisturbed C plan m schedule := by
  induction schedule with
  | nil => intro m _ _; trivial
  | cons t ts ih =>
    intro m hn h
    unfold undisturbedB at h
    rw [Bool.and_eq_true, Bool.and_eq_true] at h
    obtain ⟨⟨h0, h1⟩, h2⟩ := h
    refine ⟨fun j e p hf hc => ?_, ih (fun j j1 j2 => ?_) h2⟩
    · have hj : j = 1 ∨ j = 2 := by
        refine Classical.byContradiction fun hno => ?_
        have := hn j (fun h => hno (.inl h)) (fun h => hno (.inr h))
        rw [hf] at this; cases this
      have := List.all_eq_true.1 h1 j (by rcases hj with h | h <;> simp [h])
      rw [hf] at this
      cases p with
      | setting s => simpa using this
      | clearing s => simpa using this
      | _ => exact absurd hc id
    · have ht : j ≠ t := by
        intro h
        subst h
        simp at h0
        exact h0.elim j1 j2
      rw [step_other ht]
      exact hn j j1 j2

/-- Every thread asks for the time until it is told. -/
def exUntil (tid : Nat) (hist : List (Nat × Event × Outcome3 Event)) : Option Event :=
  if hist.any (fun x => x.1 = tid && ended x.2.2 = .returned) then none else some (.readTimeRequest {})

/-- Two threads that disturb each other only where it does no harm: thread 2 tries several times while thread 1 is in its
call and is refused, and gets its answer later. -/
def exTurns : List Nat := [1, 1, 2, 1, 1, 2, 1, 1] ++ List.replicate 40 1 ++ List.replicate 60 2

example : (∀ tid hist e, exUntil tid hist = some e → IsRequest e) ∧
    Undisturbed idCipher exUntil { world := exShared } exTurns ∧
    exShort (Threads.run idCipher exUntil { world := exShared } exTurns).history =
    [(2, .raised (.elgas .localProtocol)), (2, .raised (.elgas .localProtocol)), (1, .returned), (2, .returned)] := by
  refine ⟨fun tid hist e h => ?_, undisturbed_of_check exTurns (fun _ _ _ => rfl) (by decide +kernel), by decide +kernel⟩
  unfold exUntil at h
  split at h
  · cases h
  · cases h; rfl

/-- Thread 1 asks for the time, thread 2 for values. -/
def exTwo (tid : Nat) (_ : List (Nat × Event × Outcome3 Event)) : Option Event :=
  if tid = 1 then some (.readTimeRequest {}) else some (.readInstantaneousValuesRequest { password := "000000".toList })

theorem exDeviceTime_line : ∃ ln data p, exDeviceTime = ln ++ [0x0D] ∧ 0x0D ∉ ln ∧
    Delivers idCipher none exDeviceTime .readDeviceTime data ∧ (∀ b, data = [b] → ¬ OneBit b) ∧
    Decodes .readDeviceTime data (.readTimeResponse p) := by
  have hd : ReadTimeResponse.fromBytes [0x59, 0x59, 0xE3, 0x29, 0x02, 0x20, 0x0F, 0x12, 0x34] = .ok _ := rfl
  exact ⟨exDeviceTime.dropLast, [0x59, 0x59, 0xE3, 0x29, 0x02, 0x20, 0x0F, 0x12, 0x34], _, by decide +kernel,
    by decide +kernel,
    ⟨frame 0x86 0x6C [0, 0, 0, 0, 0, 0] [0x59, 0x59, 0xE3, 0x29, 0x02, 0x20, 0x0F, 0x12, 0x34], false,
      ⟨.readDeviceTime, 0, 0, 0, 0, [0x59, 0x59, 0xE3, 0x29, 0x02, 0x20, 0x0F, 0x12, 0x34]⟩, by decide +kernel,
      by decide +kernel, rfl, rfl⟩, fun b h => (by cases h), .time _ _ hd⟩

theorem of_isOk {α : Type} {r : Res α} (h : r.isOk = true) : ∃ a, r = .ok a := by
  cases r with
  | error x => cases h
  | ok a => exact ⟨a, rfl⟩

-- the hypotheses of the defects can be met: thread 2 is given a time
example : ∃ schedule p, (Threads.run idCipher exTwo { world := exShared } schedule).history =
    [(2, .readInstantaneousValuesRequest { password := "000000".toList }, .returned (.readTimeResponse p))] := by
  obtain ⟨ln, data, p, h1, h2, h3, h4, h5⟩ := exDeviceTime_line
  obtain ⟨l1, k1⟩ := of_isOk (r := (exConn.send idCipher (.readTimeRequest {}) exRand).2) (by decide +kernel)
  obtain ⟨l2, k2⟩ := of_isOk (r := (exConn.send idCipher (.readInstantaneousValuesRequest { password := "000000".toList })
    exRand).2) (by decide +kernel)
  obtain ⟨schedule, h⟩ := C89_foreign_answer idCipher exTwo exShared rfl rfl 5 rfl rfl 1 2 (by decide) (.readTimeRequest {})
    (.readInstantaneousValuesRequest { password := "000000".toList }) (by unfold IsRequest; decide) (by unfold IsRequest; decide) rfl rfl l1 l2 k1 k2 _ rfl ln h2 [.seg [], .seg exDeviceTime] (by rw [← h1]; rfl) .readDeviceTime data (.readTimeResponse p)
    (by rw [← h1]; exact h3) h4 h5 rfl
  exact ⟨schedule, p, h⟩

example : ∃ schedule p, (Threads.run idCipher exUntil { world := { exShared with
      inbox := fun _ => [.seg exDeviceTime, .seg exDeviceTime] } } schedule).history =
    [(2, .readTimeRequest {}, .returned (.readTimeResponse p)), (1, .readTimeRequest {}, .returned (.readTimeResponse p))] := by
  obtain ⟨ln, data, p, h1, h2, h3, h4, h5⟩ := exDeviceTime_line
  obtain ⟨l1, k1⟩ := of_isOk (r := (exConn.send idCipher (.readTimeRequest {}) exRand).2) (by decide +kernel)
  obtain ⟨schedule, h, _⟩ := C89_stale_answer idCipher exUntil { exShared with
      inbox := fun _ => [.seg exDeviceTime, .seg exDeviceTime] } rfl rfl 5 rfl rfl 1 2 (by decide) (.readTimeRequest {})
    (.readTimeRequest {}) (by unfold IsRequest; decide) (by unfold IsRequest; decide) rfl rfl l1 l1 k1 k1 _ rfl ln ln h2 h2 [] (by rw [← h1]) .readDeviceTime data (.readTimeResponse p)
    (by rw [← h1]; exact h3) h4 h5 rfl rfl
  exact ⟨schedule, p, h⟩

end Elgas
