import Verif.Props.Lifecycle
import Verif.Spec.Tasks
/-!
C88: several tasks that share one client.
-/
namespace Elgas
open Spec

theorem setUnread_setUnread (w : World) (s s' : List Delivery) (c c' : Clock) :
    (w.setUnread s c).setUnread s' c' = w.setUnread s' c' := by
  unfold World.setUnread
  cases h : w.transport.socket with
  | none => dsimp only; rw [h]
  | some g =>
    dsimp only
    rw [h]
    dsimp only
    congr 1
    funext x
    by_cases hx : x = g
    · rw [if_pos hx, if_pos hx]
    · rw [if_neg hx, if_neg hx, if_neg hx]

theorem setUnread_self (w : World) (c : Clock) : w.setUnread w.unread c = { w with clock := c } := by
  unfold World.setUnread World.unread
  cases h : w.transport.socket with
  | none => rfl
  | some g =>
    dsimp only
    congr 1
    funext x
    by_cases hx : x = g
    · rw [if_pos hx, hx]
    · rw [if_neg hx]

theorem setUnread_conn (w : World) (s : List Delivery) (k : Clock) (c : Conn) :
    ({ w with conn := c } : World).setUnread s k = { w.setUnread s k with conn := c } := by
  unfold World.setUnread
  cases h : w.transport.socket with
  | none => rfl
  | some g => rfl

theorem setUnread_clock (w : World) (s : List Delivery) (k k' : Clock) :
    ({ w with clock := k' } : World).setUnread s k = w.setUnread s k := by
  unfold World.setUnread
  cases h : w.transport.socket with
  | none => rfl
  | some g => rfl

theorem setUnread_fields (w : World) (s : List Delivery) (k : Clock) :
    (w.setUnread s k).transport = w.transport ∧ (w.setUnread s k).conn = w.conn ∧ (w.setUnread s k).os = w.os ∧
    (w.setUnread s k).clock = k ∧ (w.setUnread s k).writes = w.writes := by
  unfold World.setUnread
  cases h : w.transport.socket with
  | none => exact ⟨rfl, rfl, rfl, rfl, rfl⟩
  | some g => exact ⟨rfl, rfl, rfl, rfl, rfl⟩

/-- What is left of a call whose task waits inside `recv_until`. -/
def restRead (C : BlockCipher) (w : World) (timeout : Timeout) (line : Bytes) : Outcome3 Event × World :=
  match recvUntilLoop w.transport [0x0D] none timeout line w.unread w.clock with
  | (.returned d, s, c) => ({ w.setUnread s c with conn := w.conn.receiveData d } : World).nextEvent C
  | (.raised e, s, c) => (.raised (wrapOs e), w.setUnread s c)
  | (.pending, s, c) => (.pending, w.setUnread s c)

/-- What is left of a call that is about to receive. -/
def restRecv (C : BlockCipher) (w : World) : Outcome3 Event × World :=
  restRead C { w with clock := (mkTimeout w.clock w.transport.timeout).2 } (mkTimeout w.clock w.transport.timeout).1 []

theorem nextEvent_unfold (C : BlockCipher) (w : World) : w.nextEvent C =
    match w.conn.nextEvent C with
    | (c, .error x) => (.raised x, { w with conn := c })
    | (c, .ok (some ev)) => (.returned ev, { w with conn := c })
    | (c, .ok none) => restRecv C { w with conn := c } := by
  have hw : ∀ c : Conn, ({ w.setUnread w.unread w.clock with conn := c } : World) = { w with conn := c } := by
    intro c; rw [setUnread_self]
  unfold World.nextEvent
  rw [worldLoop]
  cases hc : w.conn.nextEvent C with | mk c r =>
  cases r with
  | error x => dsimp only; rw [hw]
  | ok o =>
    cases o with
    | some ev => dsimp only; rw [hw]
    | none =>
      dsimp only
      unfold restRecv restRead
      dsimp only
      unfold Transport.recv Transport.recvUntil
      dsimp only
      have hu : ({ w with conn := c, clock := (mkTimeout w.clock w.transport.timeout).2 } : World).unread = w.unread := rfl
      rw [hu]
      cases hr : recvUntilLoop w.transport [0x0D] none (mkTimeout w.clock w.transport.timeout).1 [] w.unread
        (mkTimeout w.clock w.transport.timeout).2 with | mk o rest =>
      obtain ⟨s, k⟩ := rest
      have hset : ({ w with conn := c, clock := (mkTimeout w.clock w.transport.timeout).2 } : World).setUnread s k =
          { w.setUnread s k with conn := c } := by
        rw [show ({ w with conn := c, clock := (mkTimeout w.clock w.transport.timeout).2 } : World) =
          { ({ w with conn := c } : World) with clock := (mkTimeout w.clock w.transport.timeout).2 } from rfl,
          setUnread_clock, setUnread_conn]
      cases o with
      | raised e => dsimp only; rw [hset]
      | pending => dsimp only; rw [hset]
      | returned d =>
        dsimp only
        rw [hset]
        have hsome : w.transport.socket ≠ none := by
          intro hn
          have := recv_closed w.transport w.unread w.clock hn
          unfold Transport.recv Transport.recvUntil at this
          dsimp only at this
          rw [hr] at this
          cases this
        unfold World.nextEvent
        dsimp only
        obtain ⟨f1, _, _, f4, _⟩ := setUnread_fields w s k
        have hun : ({ w.setUnread s k with conn := c.receiveData d } : World).unread = s :=
          (setUnread_frame w s k).2 hsome
        have hwl : worldLoop C (w.setUnread s k).transport (c.receiveData d) s (w.setUnread s k).clock =
            worldLoop C w.transport (c.receiveData d) s k := by rw [f1, f4]
        rw [hun, hwl]
        cases worldLoop C w.transport (c.receiveData d) s k with | mk o2 r2 =>
        obtain ⟨c2, s2, k2⟩ := r2
        dsimp only
        have hset2 : ({ w.setUnread s k with conn := c.receiveData d } : World).setUnread s2 k2 =
            { w.setUnread s2 k2 with conn := c.receiveData d } := by
          rw [setUnread_conn, setUnread_setUnread]
        rw [hset2]

/-- What is left of a call whose request is being written. -/
def restWrite (C : BlockCipher) (w : World) : Outcome3 Event × World :=
  match w.writes with
  | [] => (.pending, w)
  | .ok () :: writes => restRecv C { w with writes }
  | .error x :: writes => (.raised (wrapOs x), { w with writes })

/-- What is left of a call. -/
def rest (C : BlockCipher) (w : World) : Phase → Outcome3 Event × World
  | .writing => restWrite C w
  | .reading timeout line => restRead C w timeout line

theorem receive_next (C : BlockCipher) (w : World) :
    (match w.receive with
      | (.returned (), w) => w.nextEvent C
      | (.raised x, w) => (.raised x, w)
      | (.pending, w) => (.pending, w)) = restRecv C w := by
  unfold World.receive restRecv restRead
  dsimp only
  unfold Transport.recv Transport.recvUntil
  dsimp only
  have hu : ({ w with clock := (mkTimeout w.clock w.transport.timeout).2 } : World).unread = w.unread := rfl
  rw [hu]
  cases hr : recvUntilLoop w.transport [0x0D] none (mkTimeout w.clock w.transport.timeout).1 [] w.unread
    (mkTimeout w.clock w.transport.timeout).2 with | mk o rest =>
  obtain ⟨s, k⟩ := rest
  cases o with
  | raised e => dsimp only; rw [setUnread_clock w s k (mkTimeout w.clock w.transport.timeout).2]
  | pending => dsimp only; rw [setUnread_clock w s k (mkTimeout w.clock w.transport.timeout).2]
  | returned d => dsimp only; rw [setUnread_clock w s k (mkTimeout w.clock w.transport.timeout).2]

/-- A call, cut where its task waits first. -/
theorem exchange_rest (C : BlockCipher) (w : World) (e : Event) : w.exchange C e =
    match w.conn.send C e (w.rands w.draws) with
    | (c, .error x) => (.raised x, { w with conn := c, draws := w.draws + 1 })
    | (c, .ok data) =>
      match w.transport.socket with
      | none => (.raised .runtime, { w with conn := c, draws := w.draws + 1 })
      | some h => rest C { w with conn := c, draws := w.draws + 1, os := w.os ++ [.write h data] } .writing := by
  unfold World.exchange World.send
  cases hs : w.conn.send C e (w.rands w.draws) with | mk c r =>
  cases r with
  | error x => rfl
  | ok data =>
    dsimp only
    unfold World.write
    dsimp only
    cases hk : w.transport.socket with
    | none => rfl
    | some h =>
      dsimp only
      unfold rest restWrite
      dsimp only
      cases hw : w.writes with
      | nil => rfl
      | cons os writes =>
        dsimp only
        unfold Transport.send
        rw [hk]
        cases os with
        | error x => rfl
        | ok u =>
          dsimp only
          rw [← receive_next]
          generalize World.receive _ = r
          obtain ⟨o, w1⟩ := r
          cases o <;> rfl

theorem recvLoop_read (s : List Delivery) : recvLoop 1 [] s =
    match osRead 1 s with
    | none => (.pending, s)
    | some (.error e, r) => (.raised e, r)
    | some (.ok d, r) => if d.isEmpty then recvLoop 1 [] r else (.returned d, r) := by
  rw [recvLoop]
  simp only [List.length_nil, Nat.lt_add_one, dite_true, List.nil_append, Nat.sub_zero]
  split
  · next h => rw [h]
  · next h => rw [h]
  · next d r h =>
    rw [h]
    dsimp only
    cases d with
    | nil => rfl
    | cons b bs =>
      rw [recvLoop]
      simp

theorem recvUntil_eq (t : Transport) (timeout : Timeout) (line : Bytes) (s : List Delivery) (c : Clock) :
    recvUntilLoop t [0x0D] none timeout line s c =
    match t.recvBytes 1 s with
    | (.pending, s') => (.pending, s', c)
    | (.raised e, s') => (.raised e, s', c)
    | (.returned b, s') =>
      if b.isEmpty then (.returned line, s', c)
      else if sliceFrom (line ++ b) (-1) = [0x0D] then (.returned (line ++ b), s', c)
      else
        match timeout.expired c with
        | ((_, c), .error e) => (.raised e, s', c)
        | ((_, c), .ok true) => (.returned (line ++ b), s', c)
        | ((timeout, c), .ok false) => recvUntilLoop t [0x0D] none timeout (line ++ b) s' c := by
  rw [recvUntilLoop]
  split
  · next h => rw [h]
  · next h => rw [h]
  · next b s' h =>
    rw [h]
    dsimp only
    rfl

/-- One read of a task inside `recv_until`. -/
theorem restRead_step (C : BlockCipher) (w : World) {h : Handle} (ht : w.transport.socket = some h) (timeout : Timeout)
    (line : Bytes) :
    match osRead 1 w.unread with
    | none => (restRead C w timeout line).1 = .pending
    | some (.error x, r) => restRead C w timeout line = (.raised (wrapOs x), w.setUnread r w.clock)
    | some (.ok d, r) =>
      restRead C w timeout line =
      if d.isEmpty then restRead C (w.setUnread r w.clock) timeout line
      else if sliceFrom (line ++ d) (-1) = [0x0D] then
        ({ w.setUnread r w.clock with conn := w.conn.receiveData (line ++ d) } : World).nextEvent C
      else
        match timeout.expired w.clock with
        | ((_, c), .error x) => (.raised (wrapOs x), w.setUnread r c)
        | ((_, c), .ok true) => ({ w.setUnread r c with conn := w.conn.receiveData (line ++ d) } : World).nextEvent C
        | ((t, c), .ok false) => restRead C (w.setUnread r c) t (line ++ d) := by
  have hne : w.transport.socket ≠ none := by rw [ht]; intro h; cases h
  have hb : ∀ s, w.transport.recvBytes 1 s = recvLoop 1 [] s := by
    intro s; unfold Transport.recvBytes; rw [ht]
  have hset : ∀ r k, (w.setUnread r k).transport = w.transport ∧ (w.setUnread r k).unread = r ∧
      (w.setUnread r k).clock = k ∧ (w.setUnread r k).conn = w.conn := fun r k =>
    ⟨(setUnread_fields w r k).1, (setUnread_frame w r k).2 hne, (setUnread_fields w r k).2.2.2.1,
      (setUnread_fields w r k).2.1⟩
  cases hr : osRead 1 w.unread with
  | none =>
    dsimp only
    unfold restRead
    rw [recvUntil_eq, hb, recvLoop_read, hr]
  | some x =>
    obtain ⟨x, r⟩ := x
    cases x with
    | error x =>
      dsimp only
      unfold restRead
      rw [recvUntil_eq, hb, recvLoop_read, hr]
    | ok d =>
      dsimp only
      unfold restRead
      rw [recvUntil_eq, hb, recvLoop_read, hr]
      dsimp only
      by_cases hd : d.isEmpty = true
      · rw [if_pos hd, if_pos hd, (hset r w.clock).1, (hset r w.clock).2.1, (hset r w.clock).2.2.1,
          (hset r w.clock).2.2.2, recvUntil_eq, hb]
        simp only [setUnread_setUnread]
      · rw [if_neg hd, if_neg hd]
        dsimp only
        rw [if_neg hd]
        by_cases hs : sliceFrom (line ++ d) (-1) = [0x0D]
        · rw [if_pos hs, if_pos hs]
        · rw [if_neg hs, if_neg hs]
          cases ht : timeout.expired w.clock with | mk tc o =>
          obtain ⟨t, c⟩ := tc
          cases o with
          | error x => rfl
          | ok b =>
            cases b with
            | true => rfl
            | false =>
              dsimp only
              rw [(hset r c).1, (hset r c).2.1, (hset r c).2.2.1, (hset r c).2.2.2]
              simp only [setUnread_setUnread]

theorem oneByOne_snoc_refused {C : BlockCipher} {w w' : World} {hist : List (Nat × Event × Outcome3 Event)}
    (h : OneByOne C w hist w') (tid : Nat) (e : Event) :
    OneByOne C w (hist ++ [(tid, e, .raised (.elgas .localProtocol))]) w' := by
  induction h with
  | nil w => exact .refused _ _ _ _ _ (.nil w)
  | refused w w' t' e' r _ ih => exact .refused _ _ _ _ _ ih
  | took w w' t' e' r _ ih => exact .took _ _ _ _ _ ih

theorem oneByOne_snoc_took {C : BlockCipher} {w w' : World} {hist : List (Nat × Event × Outcome3 Event)}
    (h : OneByOne C w hist w') (tid : Nat) (e : Event) :
    OneByOne C w (hist ++ [(tid, e, (w'.exchange C e).1)]) (w'.exchange C e).2 := by
  induction h with
  | nil w => exact .took _ _ _ _ _ (.nil _)
  | refused w w' t' e' r _ ih => exact .refused _ _ _ _ _ ih
  | took w w' t' e' r _ ih => exact .took _ _ _ _ _ ih

/-- The entry was answered with the response that belongs to it. -/
def OwnAnswer (x : Nat × Event × Outcome3 Event) : Prop :=
  ∀ ev, x.2.2 = .returned ev → responseOf x.2.1.type = some ev.type

/-- The task `tid` is in a call of `e`, alone, and what is left of it makes it a call made from `w1`. -/
structure Flying (C : BlockCipher) (m : Machine) (w1 : World) (tid : Nat) (e : Event) (p : Phase) : Prop where
  flight : m.flights tid = some (e, p)
  alone : ∀ j, j ≠ tid → m.flights j = none
  left : w1.exchange C e = rest C m.world p
  waiting : awaits m.world.conn.state = responseOf e.type
  request : IsRequest e
  handle : ∃ h line, m.world.transport.socket = some h ∧ (w1.conn.send C e (w1.rands w1.draws)).2 = .ok line ∧
    m.world.os = w1.os ++ [.write h line] ∧ w1.transport = m.world.transport

/-- The invariant. -/
structure TasksInv (C : BlockCipher) (w : World) (m : Machine) (w1 : World) : Prop where
  past : OneByOne C w m.history w1
  own : ∀ x ∈ m.history, OwnAnswer x
  now : ((∀ j, m.flights j = none) ∧ m.world = w1) ∨ ∃ tid e p, Flying C m w1 tid e p

theorem not_idle_of_awaits {s : PState} {e : Event} (he : IsRequest e) (h : awaits s = responseOf e.type) : s ≠ .idle := by
  intro hs
  subst hs
  unfold IsRequest at he
  rw [← h] at he
  cases he

theorem own_raised (tid : Nat) (e : Event) (x : PyErr) : OwnAnswer (tid, e, .raised x) := fun ev h => by cases h

theorem forall_snoc {α : Type} {l : List α} {x : α} {P : α → Prop} (h : ∀ y ∈ l, P y) (hx : P x) : ∀ y ∈ l ++ [x], P y := by
  intro y hy
  rcases List.mem_append.1 hy with hy | hy
  · exact h y hy
  · rw [List.mem_singleton.1 hy]; exact hx

/-- A call in flight ends. -/
theorem inv_finish {C : BlockCipher} {w w1 : World} {m : Machine} {tid : Nat} {e : Event} {p : Phase} {o : Outcome3 Event}
    {w2 : World} (hi : TasksInv C w m w1) (hf : Flying C m w1 tid e p) (hr : rest C m.world p = (o, w2))
    (ho : OwnAnswer (tid, e, o)) : TasksInv C w (m.finish tid e o w2) w2 := by
  have hx : w1.exchange C e = (o, w2) := hf.left.trans hr
  refine ⟨?_, ?_, .inl ⟨fun j => ?_, rfl⟩⟩
  · have := oneByOne_snoc_took hi.past tid e
    rw [hx] at this
    exact this
  · exact forall_snoc hi.own ho
  · show (if j = tid then none else m.flights j) = none
    by_cases hj : j = tid
    · rw [if_pos hj]
    · rw [if_neg hj]; exact hf.alone j hj

/-- A call in flight runs on. -/
theorem flying_wait {C : BlockCipher} {w w1 : World} {m : Machine} {tid : Nat} {e : Event} {p p' : Phase}
    {w2 : World} (hi : TasksInv C w m w1) (hf : Flying C m w1 tid e p) (hr : rest C m.world p = rest C w2 p')
    (hc : w2.conn.state = m.world.conn.state) (ht : w2.transport = m.world.transport) (hos : w2.os = m.world.os) :
    TasksInv C w (m.wait tid e p' w2) w1 ∧ Flying C (m.wait tid e p' w2) w1 tid e p' := by
  have hfly : Flying C (m.wait tid e p' w2) w1 tid e p' := by
    refine ⟨?_, fun j hj => ?_, ?_, ?_, hf.request, ?_⟩
    · show (if tid = tid then some (e, p') else m.flights tid) = _
      rw [if_pos rfl]
    · show (if j = tid then some (e, p') else m.flights j) = none
      rw [if_neg hj]; exact hf.alone j hj
    · exact hf.left.trans hr
    · show awaits w2.conn.state = _
      rw [hc]; exact hf.waiting
    · obtain ⟨h, line, h1, h2, h3, h4⟩ := hf.handle
      exact ⟨h, line, by show w2.transport.socket = _; rw [ht]; exact h1, h2,
        by show w2.os = _; rw [hos]; exact h3, by show _ = w2.transport; rw [ht]; exact h4⟩
  exact ⟨⟨hi.past, hi.own, .inr ⟨tid, e, p', hfly⟩⟩, hfly⟩

theorem flying_recv {C : BlockCipher} {w w1 : World} {m : Machine} {tid : Nat} {e : Event} {p : Phase}
    {w2 : World} (hi : TasksInv C w m w1) (hf : Flying C m w1 tid e p) (hr : rest C m.world p = restRecv C w2)
    (hc : w2.conn.state = m.world.conn.state) (ht : w2.transport = m.world.transport) (hos : w2.os = m.world.os) :
    TasksInv C w (m.startRecv tid e w2) w1 := by
  unfold Machine.startRecv
  exact (flying_wait hi hf (p' := .reading (mkTimeout w2.clock w2.transport.timeout).1 [])
    (w2 := { w2 with clock := (mkTimeout w2.clock w2.transport.timeout).2 }) hr hc ht hos).1

/-- After a line has arrived. -/
theorem inv_arrived {C : BlockCipher} {w w1 : World} {m : Machine} {tid : Nat} {e : Event} {p : Phase} {line : Bytes}
    {w2 : World} (hi : TasksInv C w m w1) (hf : Flying C m w1 tid e p)
    (hr : rest C m.world p = ({ w2 with conn := w2.conn.receiveData line } : World).nextEvent C)
    (hc : w2.conn = m.world.conn) (ht : w2.transport = m.world.transport) (hos : w2.os = m.world.os) :
    ∃ w1', TasksInv C w (m.arrived C tid e line w2) w1' := by
  rw [nextEvent_unfold] at hr
  dsimp only at hr
  have hst : (w2.conn.receiveData line).state = m.world.conn.state := by
    rw [(receiveData_frame w2.conn line).2.2, hc]
  obtain ⟨e1, e2, e3⟩ := C38_poll_effect C (w2.conn.receiveData line)
  unfold Machine.arrived
  cases hn : (w2.conn.receiveData line).nextEvent C with | mk c r =>
  rw [hn] at hr e1 e2 e3
  cases r with
  | error x => exact ⟨_, inv_finish hi hf hr (own_raised _ _ _)⟩
  | ok o =>
    cases o with
    | some ev =>
      refine ⟨_, inv_finish hi hf hr (fun ev' h => ?_)⟩
      injection h with h
      subst h
      have := (e3 ev rfl).2
      rw [hst, hf.waiting] at this
      exact this
    | none =>
      refine ⟨w1, flying_recv hi hf hr ?_ ht hos⟩
      show c.state = _
      have : c = w2.conn.receiveData line := e1 rfl
      rw [this, hst]

theorem inv_step {C : BlockCipher} {plan : Nat → List (Nat × Event × Outcome3 Event) → Option Event}
    (hplan : ∀ tid hist e, plan tid hist = some e → IsRequest e) {w w1 : World} {m : Machine} (hi : TasksInv C w m w1)
    (tid : Nat) : ∃ w1', TasksInv C w (m.step C plan tid) w1' := by
  unfold Machine.step
  cases hfl : m.flights tid with
  | none =>
    dsimp only
    cases hp : plan tid m.history with
    | none => exact ⟨w1, hi⟩
    | some e =>
      have he := hplan tid _ e hp
      dsimp only
      unfold Machine.start
      rcases hi.now with ⟨hnone, hw⟩ | ⟨t', e', p', hf⟩
      · -- nobody is in a call
        have hex := exchange_rest C w1 e
        rw [← hw] at hex
        cases hpe : processEvent m.world.conn.state e with
        | error x =>
          have hx : x = .elgas .localProtocol := by
            unfold processEvent at hpe
            split at hpe <;> cases hpe
            rfl
          subst hx
          refine ⟨w1, oneByOne_snoc_refused hi.past tid e, forall_snoc hi.own (own_raised _ _ _), .inl ⟨fun j => ?_, hw⟩⟩
          show (if j = tid then none else m.flights j) = none
          split
          · rfl
          · exact hnone j
        | ok s' =>
          dsimp only
          have hsend := send_accepted (C := C) (r := m.world.rands m.world.draws) hpe
          have haw : awaits s' = responseOf e.type := by
            rcases send_request_cases C m.world.conn e (m.world.rands m.world.draws) he with ⟨_, _, h3, _⟩ | ⟨_, h2⟩
            · rw [hsend] at h3; exact h3
            · exfalso
              by_cases hidle : m.world.conn.state = .idle
              · rcases send_request_cases C m.world.conn e (m.world.rands m.world.draws) he with ⟨_, _, _, h4⟩ | ⟨h, _⟩
                · rw [h2] at h4; exact h4 rfl
                · exact h hidle
              · have := C34_refuses m.world.conn.state e ⟨fun h => hidle h.1, fun ha => by
                  cases hs : m.world.conn.state <;> rw [hs] at ha <;> simp [awaits] at ha <;>
                    (unfold IsRequest at he; rw [← ha] at he; simp [responseOf] at he)⟩
                rw [this] at hpe
                cases hpe
          have hflights : ∀ j, (if j = tid then none else m.flights j) = none := by
            intro j
            split
            · rfl
            · exact hnone j
          cases hs : m.world.conn.send C e (m.world.rands m.world.draws) with | mk c r =>
          rw [hs] at hex hsend
          cases r with
          | error x =>
            dsimp only at hex ⊢
            refine ⟨_, ?_, forall_snoc hi.own (own_raised _ _ _), .inl ⟨hflights, rfl⟩⟩
            have := oneByOne_snoc_took hi.past tid e
            rw [← hw, hex] at this
            exact this
          | ok data =>
            dsimp only at hex ⊢
            cases hk : m.world.transport.socket with
            | none =>
              rw [hk] at hex
              dsimp only at hex ⊢
              refine ⟨_, ?_, forall_snoc hi.own (own_raised _ _ _), .inl ⟨hflights, rfl⟩⟩
              have := oneByOne_snoc_took hi.past tid e
              rw [← hw, hex] at this
              exact this
            | some h =>
              rw [hk] at hex
              dsimp only at hex ⊢
              refine ⟨w1, hi.past, hi.own, .inr ⟨tid, e, .writing, ?_, fun j hj => ?_, ?_, ?_, he, ?_⟩⟩
              · show (if tid = tid then some (e, Phase.writing) else m.flights tid) = _
                rw [if_pos rfl]
              · show (if j = tid then some (e, Phase.writing) else m.flights j) = none
                rw [if_neg hj]; exact hnone j
              · rw [← hw]; exact hex
              · show awaits c.state = _
                injection hsend with h1 _
                rw [h1]
                exact haw
              · refine ⟨h, data, hk, ?_, ?_, ?_⟩
                · rw [← hw, hs]
                · rw [← hw]; rfl
                · rw [← hw]; rfl
      · -- somebody is in a call
        have hne : t' ≠ tid := by
          intro h
          rw [← h, hf.flight] at hfl
          cases hfl
        have hpe : processEvent m.world.conn.state e = .error (.elgas .localProtocol) := by
          apply C34_refuses
          have := not_idle_of_awaits hf.request hf.waiting
          refine ⟨fun h => this h.1, fun ha => ?_⟩
          cases hs : m.world.conn.state <;> rw [hs] at ha <;> simp [awaits] at ha <;>
            (unfold IsRequest at he; rw [← ha] at he; simp [responseOf] at he)
        rw [hpe]
        dsimp only
        refine ⟨w1, oneByOne_snoc_refused hi.past tid e, forall_snoc hi.own (own_raised _ _ _), .inr ⟨t', e', p', ?_, fun j hj => ?_,
          hf.left, hf.waiting, hf.request, hf.handle⟩⟩
        · show (if t' = tid then none else m.flights t') = _
          rw [if_neg hne]; exact hf.flight
        · show (if j = tid then none else m.flights j) = none
          split
          · rfl
          · exact hf.alone j hj
  | some fl =>
    obtain ⟨e, p⟩ := fl
    have hf : Flying C m w1 tid e p := by
      rcases hi.now with ⟨hnone, _⟩ | ⟨t', e', p', hf⟩
      · rw [hnone tid] at hfl; cases hfl
      · by_cases ht : tid = t'
        · subst ht
          have := hf.flight
          rw [hfl] at this
          injection this with this
          injection this with h1 h2
          rw [h1, h2]; exact hf
        · rw [hf.alone tid ht] at hfl; cases hfl
    cases p with
    | writing =>
      dsimp only
      unfold Machine.wrote
      have hr : rest C m.world .writing = restWrite C m.world := rfl
      unfold restWrite at hr
      cases hw : m.world.writes with
      | nil => exact ⟨w1, hi⟩
      | cons r writes =>
        rw [hw] at hr
        cases r with
        | ok u => exact ⟨w1, flying_recv hi hf hr rfl rfl rfl⟩
        | error x => exact ⟨_, inv_finish hi hf hr (own_raised _ _ _)⟩
    | reading timeout line =>
      dsimp only
      unfold Machine.read
      obtain ⟨h, _, hs, _⟩ := hf.handle
      have hr := restRead_step C m.world hs timeout line
      have hrest : rest C m.world (.reading timeout line) = restRead C m.world timeout line := rfl
      have hset : ∀ r k, (m.world.setUnread r k).conn = m.world.conn ∧
          (m.world.setUnread r k).transport = m.world.transport ∧ (m.world.setUnread r k).os = m.world.os := fun r k =>
        ⟨(setUnread_fields m.world r k).2.1, (setUnread_fields m.world r k).1, (setUnread_fields m.world r k).2.2.1⟩
      cases ho : osRead 1 m.world.unread with
      | none => exact ⟨w1, hi⟩
      | some x =>
        obtain ⟨x, r⟩ := x
        rw [ho] at hr
        cases x with
        | error x => exact ⟨_, inv_finish hi hf (hrest.trans hr) (own_raised _ _ _)⟩
        | ok d =>
          dsimp only at hr ⊢
          by_cases hd : d.isEmpty = true
          · rw [if_pos hd] at hr ⊢
            obtain ⟨s1, s2, s3⟩ := hset r m.world.clock
            exact ⟨w1, (flying_wait (p' := .reading timeout line) hi hf (hrest.trans hr) (by rw [s1]) s2 s3).1⟩
          · rw [if_neg hd] at hr ⊢
            by_cases hsl : sliceFrom (line ++ d) (-1) = [0x0D]
            · rw [if_pos hsl] at hr ⊢
              obtain ⟨s1, s2, s3⟩ := hset r m.world.clock
              exact inv_arrived hi hf (hrest.trans (by rw [s1]; exact hr)) s1 s2 s3
            · rw [if_neg hsl] at hr ⊢
              cases ht : timeout.expired m.world.clock with | mk tc o =>
              obtain ⟨t, c⟩ := tc
              rw [ht] at hr
              obtain ⟨s1, s2, s3⟩ := hset r c
              cases o with
              | error x => exact ⟨_, inv_finish hi hf (hrest.trans hr) (own_raised _ _ _)⟩
              | ok b =>
                cases b with
                | true => exact inv_arrived hi hf (hrest.trans (by rw [s1]; exact hr)) s1 s2 s3
                | false =>
                  exact ⟨w1, (flying_wait (p' := .reading t (line ++ d)) hi hf (hrest.trans hr) (by rw [s1]) s2 s3).1⟩

theorem inv_run {C : BlockCipher} {plan : Nat → List (Nat × Event × Outcome3 Event) → Option Event}
    (hplan : ∀ tid hist e, plan tid hist = some e → IsRequest e) {w : World} (schedule : List Nat) :
    ∀ {m : Machine} {w1 : World}, TasksInv C w m w1 → ∃ w1', TasksInv C w (m.run C plan schedule) w1' := by
  induction schedule with
  | nil => intro m w1 hi; exact ⟨w1, hi⟩
  | cons t ts ih =>
    intro m w1 hi
    obtain ⟨w2, h2⟩ := inv_step hplan hi t
    exact ih h2

theorem inv_init (C : BlockCipher) (w : World) : TasksInv C w { world := w } w :=
  ⟨.nil w, (fun x hx => by cases hx), .inl ⟨fun _ => rfl, rfl⟩⟩

/-- C88. Tasks that share one client and are switched only where they wait for the operating system, in any order,
each sending whatever requests, do not get into each other's way: every call that has ended was either refused with
`LocalElgasProtocolError` and then had no effect at all, or had exactly the outcome and the effect it has when the calls
that were not refused are made one after the other by one task.  At most one call is under way, of which only the
request has been written. -/
theorem C88_one_by_one (C : BlockCipher) (plan : Nat → List (Nat × Event × Outcome3 Event) → Option Event)
    (hplan : ∀ tid hist e, plan tid hist = some e → IsRequest e) (w : World) (schedule : List Nat) (m : Machine)
    (hm : m = Machine.run C plan { world := w } schedule) :
    ∃ w1, OneByOne C w m.history w1 ∧
      (((∀ tid, m.flights tid = none) ∧ m.world = w1) ∨
       ∃ tid e p, m.flights tid = some (e, p) ∧ (∀ j, j ≠ tid → m.flights j = none) ∧
        ∃ h line, w1.transport.socket = some h ∧ (w1.conn.send C e (w1.rands w1.draws)).2 = .ok line ∧
          m.world.os = w1.os ++ [.write h line]) := by
  obtain ⟨w1, hi⟩ := inv_run hplan schedule (inv_init C w)
  rw [← hm] at hi
  refine ⟨w1, hi.past, ?_⟩
  rcases hi.now with h | ⟨tid, e, p, hf⟩
  · exact .inl h
  · obtain ⟨h, line, h1, h2, h3, h4⟩ := hf.handle
    exact .inr ⟨tid, e, p, hf.flight, hf.alone, h, line, by rw [h4]; exact h1, h2, h3⟩

/-- C88. No task is given the response to another task's request: what a call returns is of the kind its own request
asks for. -/
theorem C88_own_answer (C : BlockCipher) (plan : Nat → List (Nat × Event × Outcome3 Event) → Option Event)
    (hplan : ∀ tid hist e, plan tid hist = some e → IsRequest e) (w : World) (schedule : List Nat)
    (tid : Nat) (e ev : Event)
    (hx : (tid, e, .returned ev) ∈ (Machine.run C plan { world := w } schedule).history) :
    responseOf e.type = some ev.type := by
  obtain ⟨w1, hi⟩ := inv_run hplan schedule (inv_init C w)
  exact hi.own _ hx ev rfl

theorem worldLoop_idle (C : BlockCipher) (t : Transport) (c : Conn) (s : List Delivery) (k : Clock) {ev : Event}
    (h : (worldLoop C t c s k).1 = .returned ev) : (worldLoop C t c s k).2.1.state = .idle := by
  fun_induction worldLoop C t c s k with
  | case1 => cases h
  | case2 c s k c1 ev' hn =>
    have := ((C38_poll_effect C c).2.2 ev' (by rw [hn])).1
    rw [hn] at this
    have h1 : c1 = { c with buffer := [], state := .idle } := this
    rw [h1]
  | case3 c s k c1 hn d s1 k1 hr ih => exact ih h
  | case4 => cases h
  | case5 => cases h

theorem exchange_idle {C : BlockCipher} {w : World} {e ev : Event} (h : (w.exchange C e).1 = .returned ev) :
    (w.exchange C e).2.conn.state = .idle := by
  unfold World.exchange at h ⊢
  cases hs : w.send C e with | mk o w1 =>
  rw [hs] at h
  cases o with
  | raised x => cases h
  | pending => cases h
  | returned u =>
    dsimp only at h ⊢
    unfold World.nextEvent at h ⊢
    dsimp only at h ⊢
    exact worldLoop_idle C _ _ _ _ h

theorem oneByOne_idle {C : BlockCipher} {w w1 : World} {hist : List (Nat × Event × Outcome3 Event)}
    (h : OneByOne C w hist w1) (hw : w.conn.state = .idle) (hret : ∀ x ∈ hist, ∃ ev, x.2.2 = .returned ev) :
    w1.conn.state = .idle := by
  induction h with
  | nil w => exact hw
  | refused w w' t' e' r _ ih =>
    obtain ⟨ev, hev⟩ := hret _ List.mem_cons_self
    cases hev
  | took w w' t' e' r _ ih =>
    obtain ⟨ev, hev⟩ := hret _ List.mem_cons_self
    exact ih (exchange_idle hev) (fun x hx => hret x (List.mem_cons_of_mem _ hx))

/-- C88. Calls are not refused without need: as long as all calls so far have returned and none is under way, the next
call of any task is accepted: it is under way then, or its request could not be built or transmitted. -/
theorem C88_accepted (C : BlockCipher) (plan : Nat → List (Nat × Event × Outcome3 Event) → Option Event)
    (hplan : ∀ tid hist e, plan tid hist = some e → IsRequest e) (w : World) (hw : w.conn.state = .idle)
    (schedule : List Nat) (m : Machine) (hm : m = Machine.run C plan { world := w } schedule)
    (hret : ∀ x ∈ m.history, ∃ ev, x.2.2 = .returned ev) (hnone : ∀ tid, m.flights tid = none)
    (tid : Nat) (e : Event) (hp : plan tid m.history = some e) :
    (∃ p, (m.step C plan tid).flights tid = some (e, p)) ∨
    ∃ x, (m.step C plan tid).history = m.history ++ [(tid, e, .raised x)] ∧ x ≠ .elgas .localProtocol := by
  obtain ⟨w1, hi⟩ := inv_run hplan schedule (inv_init C w)
  rw [← hm] at hi
  have hidle : m.world.conn.state = .idle := by
    rcases hi.now with ⟨_, h⟩ | ⟨t, e, p, hf⟩
    · rw [h]; exact oneByOne_idle hi.past hw hret
    · have := hf.flight; rw [hnone t] at this; cases this
  have he := hplan tid _ e hp
  obtain ⟨_, _, _, hq⟩ := (send_request_cases C m.world.conn e (m.world.rands m.world.draws) he).resolve_right
    (fun hn => hn.1 hidle)
  obtain ⟨s', hpe, _⟩ := C34_idle_accepts e he
  unfold Machine.step
  rw [hnone tid, hp]
  dsimp only
  unfold Machine.start
  rw [hidle, hpe]
  dsimp only
  cases hs : m.world.conn.send C e (m.world.rands m.world.draws) with | mk c r =>
  rw [hs] at hq
  cases r with
  | error x => exact .inr ⟨x, rfl, fun h => hq (by rw [h])⟩
  | ok data =>
    dsimp only
    cases hk : m.world.transport.socket with
    | none => exact .inr ⟨.runtime, rfl, by intro h; cases h⟩
    | some h => exact .inl ⟨.writing, by simp [Machine.wait]⟩

/-- How much is left to do for a task in a call. -/
def remaining (m : Machine) : Phase → Nat
  | .writing => 2 * weight m.world.unread + 1
  | .reading _ _ => 2 * weight m.world.unread

/-- A task in a call that runs on: it is stuck, it ends, or it comes closer to the end. -/
structure RunsOn (C : BlockCipher) (m m' : Machine) (tid : Nat) (e : Event) (p : Phase) (p' : Phase) : Prop where
  flight : m'.flights tid = some (e, p')
  history : m'.history = m.history
  transport : m'.world.transport = m.world.transport
  left : rest C m'.world p' = rest C m.world p
  less : remaining m' p' < remaining m p

theorem own_arrived {C : BlockCipher} {m : Machine} {tid : Nat} {e : Event} {p : Phase} {line : Bytes} {w2 : World}
    (hr : rest C m.world p = ({ w2 with conn := w2.conn.receiveData line } : World).nextEvent C)
    (ht : w2.transport = m.world.transport) (hl : 2 * weight w2.unread < remaining m p) :
    (m.arrived C tid e line w2).history = m.history ++ [(tid, e, (rest C m.world p).1)] ∨
    ∃ p', RunsOn C m (m.arrived C tid e line w2) tid e p p' := by
  rw [nextEvent_unfold] at hr
  dsimp only at hr
  unfold Machine.arrived
  cases hn : (w2.conn.receiveData line).nextEvent C with | mk c r =>
  rw [hn] at hr
  cases r with
  | error x => left; rw [hr]; rfl
  | ok o =>
    cases o with
    | some ev => left; rw [hr]; rfl
    | none =>
      refine .inr ⟨.reading (mkTimeout w2.clock w2.transport.timeout).1 [], ?_, rfl, ht, hr.symm, hl⟩
      simp [Machine.startRecv, Machine.wait]

theorem own_step {C : BlockCipher} {plan : Nat → List (Nat × Event × Outcome3 Event) → Option Event} {m : Machine}
    {tid : Nat} {e : Event} {p : Phase} (hfl : m.flights tid = some (e, p)) {h : Handle}
    (hs : m.world.transport.socket = some h) :
    (rest C m.world p).1 = .pending ∨ (m.step C plan tid).history = m.history ++ [(tid, e, (rest C m.world p).1)] ∨
    ∃ p', RunsOn C m (m.step C plan tid) tid e p p' := by
  have hne : m.world.transport.socket ≠ none := by rw [hs]; intro h; cases h
  unfold Machine.step
  rw [hfl]
  cases p with
  | writing =>
    dsimp only
    unfold Machine.wrote
    have hr : rest C m.world .writing = restWrite C m.world := rfl
    unfold restWrite at hr
    cases hw : m.world.writes with
    | nil => rw [hw] at hr; left; rw [hr]
    | cons r writes =>
      rw [hw] at hr
      cases r with
      | ok u =>
        refine .inr (.inr ⟨.reading (mkTimeout m.world.clock m.world.transport.timeout).1 [], ?_, rfl, rfl, hr.symm, ?_⟩)
        · simp [Machine.startRecv, Machine.wait]
        · exact Nat.lt_succ_self _
      | error x => right; left; rw [hr]; rfl
  | reading timeout line =>
    dsimp only
    unfold Machine.read
    have hr := restRead_step C m.world hs timeout line
    have hrest : rest C m.world (.reading timeout line) = restRead C m.world timeout line := rfl
    have hun : ∀ r k, (m.world.setUnread r k).unread = r := fun r k => (setUnread_frame m.world r k).2 hne
    have hset : ∀ r k, (m.world.setUnread r k).conn = m.world.conn ∧
        (m.world.setUnread r k).transport = m.world.transport := fun r k =>
      ⟨(setUnread_fields m.world r k).2.1, (setUnread_fields m.world r k).1⟩
    cases ho : osRead 1 m.world.unread with
    | none => rw [ho] at hr; left; rw [hrest]; exact hr
    | some x =>
      obtain ⟨x, r⟩ := x
      rw [ho] at hr
      cases x with
      | error x => right; left; rw [hrest, hr]; rfl
      | ok d =>
        have hwt : weight r < weight m.world.unread := osRead_weight (by decide) ho
        have hlt : ∀ k, 2 * weight (m.world.setUnread r k).unread < remaining m (.reading timeout line) := by
          intro k
          rw [hun]
          show 2 * weight r < 2 * weight m.world.unread
          omega
        right
        dsimp only at hr ⊢
        by_cases hd : d.isEmpty = true
        · rw [if_pos hd] at hr ⊢
          refine .inr ⟨.reading timeout line, ?_, rfl, (hset r m.world.clock).2, hr.symm, hlt _⟩
          simp [Machine.wait]
        · rw [if_neg hd] at hr ⊢
          by_cases hsl : sliceFrom (line ++ d) (-1) = [0x0D]
          · rw [if_pos hsl] at hr ⊢
            obtain ⟨s1, s2⟩ := hset r m.world.clock
            exact own_arrived (p := .reading timeout line) (hrest.trans (by rw [s1]; exact hr)) s2 (hlt _)
          · rw [if_neg hsl] at hr ⊢
            cases ht : timeout.expired m.world.clock with | mk tc o =>
            obtain ⟨t, c⟩ := tc
            rw [ht] at hr
            obtain ⟨s1, s2⟩ := hset r c
            cases o with
            | error x => left; rw [hrest, hr]; rfl
            | ok b =>
              cases b with
              | true => exact own_arrived (p := .reading timeout line) (hrest.trans (by rw [s1]; exact hr)) s2 (hlt _)
              | false =>
                refine .inr ⟨.reading t (line ++ d), ?_, rfl, s2, hr.symm, hlt _⟩
                simp [Machine.wait]

theorem own_run {C : BlockCipher} {plan : Nat → List (Nat × Event × Outcome3 Event) → Option Event} (n : Nat) :
    ∀ {m : Machine} {tid : Nat} {e : Event} {p : Phase} {h : Handle}, remaining m p ≤ n →
    m.flights tid = some (e, p) → m.world.transport.socket = some h → (rest C m.world p).1 ≠ .pending →
    ∃ k, (m.run C plan (List.replicate k tid)).history = m.history ++ [(tid, e, (rest C m.world p).1)] := by
  induction n with
  | zero =>
    intro m tid e p h hn hfl hs hp
    rcases own_step (C := C) (plan := plan) hfl hs with h1 | h1 | ⟨p', h1⟩
    · exact absurd h1 hp
    · exact ⟨1, h1⟩
    · have := h1.less; omega
  | succ n ih =>
    intro m tid e p h hn hfl hs hp
    rcases own_step (C := C) (plan := plan) hfl hs with h1 | h1 | ⟨p', h1⟩
    · exact absurd h1 hp
    · exact ⟨1, h1⟩
    · obtain ⟨k, hk⟩ := ih (by have := h1.less; omega) h1.flight (by rw [h1.transport]; exact hs) (by rw [h1.left]; exact hp)
      refine ⟨k + 1, ?_⟩
      rw [h1.history, h1.left] at hk
      exact hk

/-- C88. A call that is under way ends as soon as its task is scheduled often enough, with the outcome it has when it
is made alone after the calls before it; unless that call alone would never end. -/
theorem C88_progress (C : BlockCipher) (plan : Nat → List (Nat × Event × Outcome3 Event) → Option Event)
    (hplan : ∀ tid hist e, plan tid hist = some e → IsRequest e) (w : World) (schedule : List Nat) (m : Machine)
    (hm : m = Machine.run C plan { world := w } schedule) (tid : Nat) (e : Event) (p : Phase)
    (hf : m.flights tid = some (e, p)) :
    ∃ w1, OneByOne C w m.history w1 ∧ ((w1.exchange C e).1 = .pending ∨
      ∃ n, (m.run C plan (List.replicate n tid)).history = m.history ++ [(tid, e, (w1.exchange C e).1)]) := by
  obtain ⟨w1, hi⟩ := inv_run hplan schedule (inv_init C w)
  rw [← hm] at hi
  refine ⟨w1, hi.past, ?_⟩
  rcases hi.now with ⟨h, _⟩ | ⟨t, e', p', hfly⟩
  · rw [h tid] at hf; cases hf
  · have ht : tid = t := by
      refine Classical.byContradiction fun hne => ?_
      rw [hfly.alone tid hne] at hf
      cases hf
    subst ht
    have := hfly.flight
    rw [hf] at this
    injection this with this
    injection this with h1 h2
    subst h1; subst h2
    by_cases hp : (rest C m.world p).1 = .pending
    · left; rw [hfly.left]; exact hp
    · right
      obtain ⟨h, _, hs, _⟩ := hfly.handle
      rw [hfly.left]
      exact own_run (remaining m p) (Nat.le_refl _) hf hs hp

/-- Two tasks that each ask for the time, twice and once. -/
def exPlan (tid : Nat) (hist : List (Nat × Event × Outcome3 Event)) : Option Event :=
  if (hist.filter (·.1 = tid)).length < 3 - tid then some (.readTimeRequest {}) else none

/-- A client that is connected to something that answers twice. -/
def exShared : World :=
  { password := [], conn := exConn, transport := { kind := .tcp, timeout := none, socket := some 5 }, opens := [],
    shutdowns := [], closes := [], writes := [.ok (), .ok (), .ok ()],
    inbox := fun _ => [.seg exDeviceTime, .seg [], .seg exDeviceTime], clock := { readings := fun _ => 0 },
    rands := fun _ => exRand }

def exShort (h : List (Nat × Event × Outcome3 Event)) : List (Nat × Ended) := h.map fun x => (x.1, ended x.2.2)

example : ∀ tid hist e, exPlan tid hist = some e → IsRequest e := by
  intro tid hist e h
  unfold exPlan at h
  split at h
  · cases h; rfl
  · cases h

/-- The tasks in turn: task 1 starts and waits, task 2 is refused meanwhile, task 1 gets its answer and asks again. -/
example : exShort (Machine.run idCipher exPlan { world := exShared } ([1, 2] ++ List.replicate 60 1)).history =
    [(2, .raised (.elgas .localProtocol)), (1, .returned), (1, .returned)] ∧
    exShort (Machine.run idCipher exPlan { world := exShared } (List.replicate 5 2 ++ [1] ++ List.replicate 40 2 ++
      List.replicate 40 1)).history = [(1, .raised (.elgas .localProtocol)), (2, .returned), (1, .returned)] := by
  decide +kernel

end Elgas
