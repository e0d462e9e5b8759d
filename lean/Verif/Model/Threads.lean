import Verif.Model.Tasks
/-!
Threads that share one client, each calling `send(request)` and `next_event()` (client.py:46-59).  Unlike in
`Model/Tasks` another thread can run between any two accesses to what the threads share: the state of the connection,
its buffer, and the handle of the operating system.  Each of these accesses is one step (CPython executes it without
switching threads, except `self.buffer += data`, which is several instructions, and `sendall`, which may write in
pieces; both are one step here).  What a thread does on its own in between belongs to the step before.
-/
namespace Elgas

/-- What a thread in a call does next. -/
inductive Point
  /-- `self.current_state = new_state` in `send`: state.py:93 called from connection.py:111. -/
  | setting (s : PState)
  /-- `event.to_bytes()` to `escape_characters`: connection.py:112-139. -/
  | building
  /-- `self.transport.send(data)`: client.py:49, transport.py:121-126, 224-229. -/
  | sending (data : Bytes)
  /-- The OS is writing: transport.py:126, 229. -/
  | writing
  /-- `recv` begins: transport.py:131-134, 154-162, 234-237, 257-265. -/
  | starting
  /-- Inside `recv_until`: transport.py:162-173, 265-276. -/
  | reading (timeout : Timeout) (line : Bytes)
  /-- `receive_data(line)`: connection.py:141-158, called from client.py:51, 57. -/
  | adding (line : Bytes)
  /-- `next_event` up to the state check: connection.py:160-191. -/
  | polling
  /-- `process_event(pdu)` up to the assignment: state.py:82-92, called from connection.py:193. -/
  | checking (pdu : Event)
  /-- `self.current_state = new_state` in `next_event`: state.py:93 called from connection.py:193. -/
  | accepting (pdu : Event) (s : PState)
  /-- `self.buffer = bytearray()`: connection.py:195. -/
  | clearing (pdu : Event)

/-- `next_event` connection.py:160-191: what the buffer holds; `none` is `NEED_DATA`. -/
def Conn.decodeHead (C : BlockCipher) (c : Conn) : Res (Option Event) :=
  if c.buffer.isEmpty then .ok none
  else
    match indexEnd c.buffer with
    | none => .ok none
    | some i =>
      match c.interpret C (sliceTo c.buffer ((i : Int) + 1)) with
      | .error e => if e.isValueError then .ok none else .error e
      | .ok response =>
        match pduFromResponse response with
        | .error e => .error e
        | .ok pdu => .ok (some pdu)

/-- All threads: the shared client with its transport, where each thread is, and the calls that have ended, in the
order in which they ended. client.py:16-38. -/
structure Threads where
  world : World
  flights : Nat → Option (Event × Point) := fun _ => none
  history : List (Nat × Event × Outcome3 Event) := []

/-- The call of the thread ends. The return or exception of client.py:59 or of a call before. -/
def Threads.finish (m : Threads) (tid : Nat) (e : Event) (o : Outcome3 Event) (w : World) : Threads :=
  { world := w
    flights := fun j => if j = tid then none else m.flights j
    history := m.history ++ [(tid, e, o)] }

/-- The thread can be switched. Between any two statements of client.py:46-59 and what they call. -/
def Threads.go (m : Threads) (tid : Nat) (e : Event) (p : Point) (w : World) : Threads :=
  { m with world := w, flights := fun j => if j = tid then some (e, p) else m.flights j }

/-- One read of the operating system inside `recv_until`: transport.py:140-174. -/
def Threads.read (m : Threads) (tid : Nat) (e : Event) (timeout : Timeout) (line : Bytes) : Threads :=
  match osRead 1 m.world.unread with
  | none => m
  | some (.error x, rest) => m.finish tid e (.raised (wrapOs x)) (m.world.setUnread rest m.world.clock)
  | some (.ok d, rest) =>
    if d.isEmpty then m.go tid e (.reading timeout line) (m.world.setUnread rest m.world.clock)
    else if sliceFrom (line ++ d) (-1) = [0x0D] then
      m.go tid e (.adding (line ++ d)) (m.world.setUnread rest m.world.clock)
    else
      match timeout.expired m.world.clock with
      | ((_, c), .error x) => m.finish tid e (.raised (wrapOs x)) (m.world.setUnread rest c)
      | ((_, c), .ok true) => m.go tid e (.adding (line ++ d)) (m.world.setUnread rest c)
      | ((t, c), .ok false) => m.go tid e (.reading t (line ++ d)) (m.world.setUnread rest c)

/-- A thread in a call makes its next step: client.py:46-59, connection.py:108-197, state.py:82-94,
transport.py:121-174. -/
def Threads.advance (C : BlockCipher) (m : Threads) (tid : Nat) (e : Event) : Point → Threads
  | .setting s => m.go tid e .building { m.world with conn := { m.world.conn with state := s } }
  | .building =>
    match m.world.conn.serialise C e (m.world.rands m.world.draws) with
    | .error x => m.finish tid e (.raised x) { m.world with draws := m.world.draws + 1 }
    | .ok data => m.go tid e (.sending data) { m.world with draws := m.world.draws + 1 }
  | .sending data =>
    match m.world.transport.socket with
    | none => m.finish tid e (.raised .runtime) m.world
    | some h => m.go tid e .writing { m.world with os := m.world.os ++ [.write h data] }
  | .writing =>
    match m.world.writes with
    | [] => m
    | .ok () :: writes => m.go tid e .starting { m.world with writes }
    | .error x :: writes => m.finish tid e (.raised (wrapOs x)) { m.world with writes }
  | .starting =>
    m.go tid e (.reading (mkTimeout m.world.clock m.world.transport.timeout).1 [])
      { m.world with clock := (mkTimeout m.world.clock m.world.transport.timeout).2 }
  | .reading timeout line => m.read tid e timeout line
  | .adding line => m.go tid e .polling { m.world with conn := m.world.conn.receiveData line }
  | .polling =>
    match m.world.conn.decodeHead C with
    | .error x => m.finish tid e (.raised x) m.world
    | .ok none => m.go tid e .starting m.world
    | .ok (some pdu) => m.go tid e (.checking pdu) m.world
  | .checking pdu =>
    match processEvent m.world.conn.state pdu with
    | .error x => m.finish tid e (.raised x) m.world
    | .ok s => m.go tid e (.accepting pdu s) m.world
  | .accepting pdu s => m.go tid e (.clearing pdu) { m.world with conn := { m.world.conn with state := s } }
  | .clearing pdu => m.finish tid e (.returned pdu) { m.world with conn := { m.world.conn with buffer := [] } }

/-- The thread `tid` makes a step: it begins its next call, if it is in none (`plan`: which request it sends next, given
everything that has ended so far; `none`: it has nothing to do) and looks the state up (connection.py:110-111,
state.py:82-91), or goes on. client.py:46-59. -/
def Threads.step (C : BlockCipher) (plan : Nat → List (Nat × Event × Outcome3 Event) → Option Event) (m : Threads)
    (tid : Nat) : Threads :=
  match m.flights tid with
  | none =>
    match plan tid m.history with
    | none => m
    | some e =>
      match processEvent m.world.conn.state e with
      | .error x => m.finish tid e (.raised x) m.world
      | .ok s => m.go tid e (.setting s) m.world
  | some (e, p) => m.advance C tid e p

/-- The threads run in the order of a schedule. client.py:46-59 for all threads. -/
def Threads.run (C : BlockCipher) (plan : Nat → List (Nat × Event × Outcome3 Event) → Option Event) (m : Threads)
    (schedule : List Nat) : Threads :=
  schedule.foldl (Threads.step C plan) m

end Elgas
