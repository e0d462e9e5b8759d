import Verif.Model.Client
/-!
Model of /repo/elgas/client.py together with the transport classes of /repo/elgas/transport.py: a client
object that holds a `BlockingTcpTransport` or a `SerialTransport`, in an environment of the operating system.

`Model/Client` models the same client with any transport, whose outcomes are chosen outside the program.  Here the
outcomes of `transport.send` and `transport.recv` are those of `Model/Transport`, and `connect` and `disconnect` are
calls like the others.  `Outcome3.pending` means that a call does not come back: the operating system has nothing
in store for the call that the program waits for.
-/
namespace Elgas

/-- A client with its transport, the outcomes of the coming OS calls (opening, shutting down, closing, writing;
what every handle has to read), the clock, the coming random draws, and a record of the OS calls so far.
client.py:16-38, transport.py:75-78, 183-186. -/
structure World where
  password : PyStr
  conn : Conn
  transport : Transport
  opens : List (Res Handle)
  shutdowns : List (Res Unit)
  closes : List (Res Unit)
  writes : List (Res Unit)
  inbox : Handle → List Delivery
  clock : Clock
  rands : Nat → Rand
  draws : Nat := 0
  os : List OsCall := []

/-- The operating system as the program finds it.
What transport.py:92-94, 113-114, 126, 150 (and 196-200, 217, 229, 253) lead to. -/
structure OsEnv where
  opens : List (Res Handle)
  shutdowns : List (Res Unit)
  closes : List (Res Unit)
  writes : List (Res Unit)
  inbox : Handle → List Delivery
  clock : Clock
  rands : Nat → Rand

/-- `ElgasClient(transport, ...)` client.py:13-38 with a new transport. -/
def mkWorld (kind : Kind) (timeout : Option Int) (a : ClientArgs) (env : OsEnv) : Res World := do
  let conn ← clientConn a
  return { password := toSecretStr a.password, conn, transport := mkTransport kind timeout, opens := env.opens,
           shutdowns := env.shutdowns, closes := env.closes, writes := env.writes, inbox := env.inbox,
           clock := env.clock, rands := env.rands }

/-- `connect` client.py:40-41: `self.transport.connect()`.  The OS is asked only if there is no handle
(transport.py:88-90, 192-194). -/
def World.connect (w : World) : Outcome3 Unit × World :=
  match w.transport.socket, w.opens with
  | none, [] => (.pending, w)
  | none, os :: opens =>
    let r := w.transport.connect os
    (match r.2.2 with | .ok () => .returned () | .error e => .raised e,
      { w with transport := r.1, os := w.os ++ r.2.1, opens })
  | some _, _ => (.raised .runtime, w)

/-- `disconnect` client.py:43-44: `self.transport.disconnect()`.  A TCP transport shuts its socket down and then, if
that succeeded, closes it; a serial transport closes its port (transport.py:105-119, 209-222). -/
def World.disconnect (w : World) : Outcome3 Unit × World :=
  match w.transport.socket, w.transport.kind, w.shutdowns, w.closes with
  | none, _, _, _ => (.returned (), w)
  | some _, .tcp, [], _ => (.pending, w)
  | some h, .tcp, .ok () :: shutdowns, [] =>
    (.pending, { w with shutdowns, os := w.os ++ [.shutdown h] })
  | some _, .tcp, .ok () :: shutdowns, c :: closes =>
    let r := w.transport.disconnect (.ok ()) c
    (match r.2.2 with | .ok () => .returned () | .error e => .raised e,
      { w with transport := r.1, os := w.os ++ r.2.1, shutdowns, closes })
  | some _, .tcp, .error e :: shutdowns, _ =>
    let r := w.transport.disconnect (.error e) (.ok ())
    (match r.2.2 with | .ok () => .returned () | .error e => .raised e,
      { w with transport := r.1, os := w.os ++ r.2.1, shutdowns })
  | some _, .serial, _, [] => (.pending, w)
  | some _, .serial, _, c :: closes =>
    let r := w.transport.disconnect (.ok ()) c
    (match r.2.2 with | .ok () => .returned () | .error e => .raised e,
      { w with transport := r.1, os := w.os ++ r.2.1, closes })

/-- `self.transport.send(data)` client.py:49. -/
def World.write (w : World) (data : Bytes) : Outcome3 Unit × World :=
  match w.transport.socket, w.writes with
  | some h, [] => (.pending, { w with os := w.os ++ [.write h data] })
  | some _, os :: writes =>
    let r := w.transport.send data os
    (match r.2 with | .ok () => .returned () | .error e => .raised e, { w with os := w.os ++ r.1, writes })
  | none, _ => (.raised .runtime, w)

/-- What the handle of the transport has to read. transport.py:150, 253. -/
def World.unread (w : World) : List Delivery :=
  match w.transport.socket with
  | none => []
  | some h => w.inbox h

/-- The unread deliveries after a read. transport.py:150, 253. -/
def World.setUnread (w : World) (s : List Delivery) (c : Clock) : World :=
  match w.transport.socket with
  | none => { w with clock := c }
  | some h => { w with inbox := fun g => if g = h then s else w.inbox g, clock := c }

/-- `self.elgas_connection.receive_data(self.transport.recv())` client.py:50-51, 57. -/
def World.receive (w : World) : Outcome3 Unit × World :=
  match w.transport.recv w.unread w.clock with
  | (.returned d, s, c) => (.returned (), { w.setUnread s c with conn := w.conn.receiveData d })
  | (.raised e, s, c) => (.raised e, w.setUnread s c)
  | (.pending, s, c) => (.pending, w.setUnread s c)

/-- `self.send(event)` client.py:46-51 for one event. -/
def World.send (C : BlockCipher) (w : World) (e : Event) : Outcome3 Unit × World :=
  match w.conn.send C e (w.rands w.draws) with
  | (c, .error x) => (.raised x, { w with conn := c, draws := w.draws + 1 })
  | (c, .ok data) =>
    match ({ w with conn := c, draws := w.draws + 1 } : World).write data with
    | (.returned (), w) => w.receive
    | r => r

/-- `self.send(*events)` client.py:46-51. -/
def World.sendAll (C : BlockCipher) (w : World) : List Event → Outcome3 Unit × World
  | [] => (.returned (), w)
  | e :: es =>
    match w.send C e with
    | (.returned (), w) => w.sendAll C es
    | r => r

theorem recvBytes_weight (t : Transport) {s : List Delivery} {b : Bytes} {s' : List Delivery}
    (h : t.recvBytes 1 s = (.returned b, s')) : weight s' < weight s := by
  unfold Transport.recvBytes at h
  split at h
  · cases h
  · have := (recvLoop_weight 1 [] s).2 b (by rw [h]) (by simp)
    rw [h] at this; exact this

/-- When `recv` returns, the script has become shorter. -/
theorem recvUntilLoop_weight (t : Transport) (expected : Bytes) (size : Option Nat) (timeout : Timeout) (line : Bytes)
    (s : List Delivery) (c : Clock) {d : Bytes} {s' : List Delivery} {c' : Clock}
    (h : recvUntilLoop t expected size timeout line s c = (.returned d, s', c')) : weight s' < weight s := by
  fun_induction recvUntilLoop t expected size timeout line s c with
  | case1 => cases h
  | case2 => cases h
  | case3 timeout line s c b s1 hr => cases h; exact recvBytes_weight t hr
  | case4 timeout line s c b s1 hr =>
    injection h with _ h
    injection h with h _
    subst h
    exact recvBytes_weight t hr
  | case5 timeout line s c b s1 hr =>
    injection h with _ h
    injection h with h _
    subst h
    exact recvBytes_weight t hr
  | case6 => cases h
  | case7 timeout line s c b s1 hr =>
    injection h with _ h
    injection h with h _
    subst h
    exact recvBytes_weight t hr
  | case8 timeout line s c b s1 hr _ _ _ _ _ _ _ ih => exact Nat.lt_trans (ih h) (recvBytes_weight t hr)

theorem recv_weight {t : Transport} {s s' : List Delivery} {c c' : Clock} {d : Bytes}
    (h : t.recv s c = (.returned d, s', c')) : weight s' < weight s := by
  unfold Transport.recv Transport.recvUntil at h
  split at h
  · cases h
  · exact recvUntilLoop_weight _ _ _ _ _ _ _ h

/-- The loop of `next_event` client.py:53-59 on the connection, the unread deliveries and the clock. -/
def worldLoop (C : BlockCipher) (t : Transport) (c : Conn) (s : List Delivery) (k : Clock) :
    Outcome3 Event × Conn × List Delivery × Clock :=
  match c.nextEvent C with
  | (c, .error e) => (.raised e, c, s, k)
  | (c, .ok (some ev)) => (.returned ev, c, s, k)
  | (c, .ok none) =>
    match _h : t.recv s k with
    | (.returned d, s, k) => worldLoop C t (c.receiveData d) s k
    | (.raised e, s, k) => (.raised e, c, s, k)
    | (.pending, s, k) => (.pending, c, s, k)
termination_by weight s
decreasing_by exact recv_weight _h

/-- `next_event` client.py:53-59. -/
def World.nextEvent (C : BlockCipher) (w : World) : Outcome3 Event × World :=
  let (o, c, s, k) := worldLoop C w.transport w.conn w.unread w.clock
  (o, { w.setUnread s k with conn := c })

/-- `self.send(request); response = self.next_event()`: the common part of all calls.
client.py:63-65, 71-73, 79-83, 93-97, 112-120, 125-133. -/
def World.exchange (C : BlockCipher) (w : World) (e : Event) : Outcome3 Event × World :=
  match w.send C e with
  | (.returned (), w) => w.nextEvent C
  | (.raised x, w) => (.raised x, w)
  | (.pending, w) => (.pending, w)

/-- `read_instantaneous_values` client.py:61-67. -/
def World.readInstantaneousValues (C : BlockCipher) (w : World) : Outcome3 Event × World :=
  w.exchange C (.readInstantaneousValuesRequest { password := w.password })

/-- `read_time` client.py:69-75. -/
def World.readTime (C : BlockCipher) (w : World) : Outcome3 DateTime × World :=
  let (o, w) := w.exchange C (.readTimeRequest {})
  (o.andThen timeOf, w)

/-- `write_time` client.py:77-84. -/
def World.writeTime (C : BlockCipher) (w : World) (t : DateTime) (cryout : Bool) : Outcome3 Unit × World :=
  let (o, w) := w.exchange C (.writeTimeRequest { password := w.password, deviceTime := t, cryout })
  (o.andThen fun _ => .returned (), w)

/-- `read_archive` client.py:109-120. -/
def World.readArchive (C : BlockCipher) (w : World) (archive amount oldestRecordId : Int) : Outcome3 Event × World :=
  w.exchange C (.readArchiveRequest { password := w.password, archive, amount, oldestRecordId })

/-- `read_archive_by_time` client.py:122-133. -/
def World.readArchiveByTime (C : BlockCipher) (w : World) (archive amount : Int) (oldestTimestamp : DateTime) :
    Outcome3 Event × World :=
  w.exchange C (.readArchiveByTimeRequest { password := w.password, archive, amount, oldestTimestamp })

theorem setUnread_frame (w : World) (s : List Delivery) (k : Clock) :
    (w.setUnread s k).transport = w.transport ∧ (w.transport.socket ≠ none → (w.setUnread s k).unread = s) := by
  unfold World.setUnread World.unread
  cases h : w.transport.socket with
  | none => exact ⟨rfl, fun hn => absurd rfl hn⟩
  | some g => dsimp only; rw [h]; exact ⟨rfl, fun _ => by simp⟩

/-- Nothing is read without a handle. -/
theorem recv_closed (t : Transport) (s : List Delivery) (k : Clock) (h : t.socket = none) :
    (t.recv s k).1 = .raised .runtime := by
  have hb : t.recvBytes 1 s = (.raised .runtime, s) := by unfold Transport.recvBytes; rw [h]
  have hl : ∀ to l c, recvUntilLoop t [0x0D] none to l s c = (.raised .runtime, s, c) := by
    intro to l c
    unfold recvUntilLoop
    split
    · next hr => rw [hb] at hr; cases hr
    · next hr => rw [hb] at hr; cases hr; rfl
    · next hr => rw [hb] at hr; cases hr
  unfold Transport.recv Transport.recvUntil
  dsimp only
  rw [hl]
  rfl

theorem world_receive_weight {w w' : World} (h : w.receive = (.returned (), w')) :
    weight w'.unread < weight w.unread ∧ w'.transport = w.transport := by
  unfold World.receive at h
  split at h
  · next d s c hr =>
    injection h with _ h
    subst h
    have hn : w.transport.socket ≠ none := by
      intro hn
      have := recv_closed w.transport w.unread w.clock hn
      rw [hr] at this; cases this
    refine ⟨?_, (setUnread_frame w s c).1⟩
    have : ({ w.setUnread s c with conn := w.conn.receiveData d } : World).unread = (w.setUnread s c).unread := rfl
    rw [this, (setUnread_frame w s c).2 hn]
    exact recv_weight hr
  · cases h
  · cases h

theorem world_write_frame {w w' : World} {data : Bytes} {o : Outcome3 Unit} (h : w.write data = (o, w')) :
    w'.unread = w.unread ∧ w'.transport = w.transport := by
  unfold World.write at h
  split at h <;> cases h <;> exact ⟨rfl, rfl⟩

theorem world_send_weight {C : BlockCipher} {w w' : World} {e : Event} (h : w.send C e = (.returned (), w')) :
    weight w'.unread < weight w.unread ∧ w'.transport = w.transport := by
  unfold World.send at h
  split at h
  · cases h
  · split at h
    · next c data _ w1 hw =>
      have h1 := world_receive_weight h
      have h2 := world_write_frame hw
      rw [h2.1, h2.2] at h1
      exact h1
    · next hx => rw [h] at hx; exact absurd rfl (hx w')

theorem worldLoop_weight (C : BlockCipher) (t : Transport) (c : Conn) (s : List Delivery) (k : Clock) {ev : Event}
    (h : (worldLoop C t c s k).1 = .returned ev) : weight (worldLoop C t c s k).2.2.1 ≤ weight s := by
  fun_induction worldLoop C t c s k with
  | case1 => simp
  | case2 => simp
  | case3 c s k c1 hn d s1 k1 hr ih => exact Nat.le_trans (ih h) (Nat.le_of_lt (recv_weight hr))
  | case4 => cases h
  | case5 => cases h

theorem nextEvent_unread {C : BlockCipher} {w w' : World} {ev : Event} (h : w.nextEvent C = (.returned ev, w')) :
    weight w'.unread ≤ weight w.unread := by
  unfold World.nextEvent at h
  cases hl : worldLoop C w.transport w.conn w.unread w.clock with | mk o t =>
  obtain ⟨c, s, k⟩ := t
  rw [hl] at h
  injection h with h1 h2
  subst h1
  subst h2
  have h3 := worldLoop_weight C w.transport w.conn w.unread w.clock (by rw [hl])
  rw [hl] at h3
  dsimp only at h3 ⊢
  have he : ({ w.setUnread s k with conn := c } : World).unread = (w.setUnread s k).unread := rfl
  rw [he]
  by_cases hn : w.transport.socket = none
  · have : (w.setUnread s k).unread = w.unread := by unfold World.setUnread World.unread; simp [hn]
    rw [this]; exact Nat.le_refl _
  · rw [(setUnread_frame w s k).2 hn]; exact h3

theorem world_exchange_weight {C : BlockCipher} {w w' : World} {e ev : Event}
    (h : w.exchange C e = (.returned ev, w')) : weight w'.unread < weight w.unread := by
  unfold World.exchange at h
  split at h
  · next w1 hs => exact Nat.lt_of_le_of_lt (nextEvent_unread h) (world_send_weight hs).1
  · cases h
  · cases h

/-- The `while not should_stop` loop of `read_parameters` client.py:91-103: the data of all pages. -/
def World.readPages (C : BlockCipher) (w : World) (objectCount : Int) (total : Bytes) : Outcome3 Bytes × World :=
  match _h : w.exchange C (.readDeviceParametersRequest
      { password := w.password, objectCount, bufferLength := 1024 }) with
  | (.raised e, w) => (.raised e, w)
  | (.pending, w) => (.pending, w)
  | (.returned (.readDeviceParametersResponse p), w) =>
    if p.isEnd then (.returned (total ++ p.data), w)
    else w.readPages C (objectCount + p.objectAmount) (total ++ p.data)
  | (.returned _, w) => (.raised .attribute, w)
termination_by weight w.unread
decreasing_by exact world_exchange_weight _h

/-- `read_parameters` client.py:86-107. -/
def World.readParameters (C : BlockCipher) (w : World) (readFrom : Int) : Outcome3 (List PObj) × World :=
  let (o, w) := w.readPages C readFrom []
  (o.andThen fun d => .ofRes (parseParameters none (some d)), w)

end Elgas
