import Verif.Model.Program
/-!
Several tasks that use one client, each calling `send(request)` and `next_event()` (client.py:46-59; every public
read and write method is made of such pairs, client.py:61-133).  The tasks are scheduled cooperatively: another task
can run whenever one waits for the operating system, that is at the writing of a request and at every single read, and
nowhere else (as with gevent; preemptive threads, which can also be switched inside the methods of the connection, are
modelled in `Model/Threads`).  The code in between is that of client.py, connection.py and transport.py, cut at the OS calls.
-/
namespace Elgas

/-- Where a task waits: for its request to be written (transport.py:121-129, 224-232), or for the next byte inside
`recv_until` with the state of its locals (transport.py:154-174, 257-277). -/
inductive Phase
  | writing
  | reading (timeout : Timeout) (line : Bytes)

/-- All tasks: the shared client with its transport, what each task is waiting for, and the calls that have ended, in
the order in which they ended. client.py:16-38. -/
structure Machine where
  world : World
  flights : Nat → Option (Event × Phase) := fun _ => none
  history : List (Nat × Event × Outcome3 Event) := []

/-- The call of the task ends. The return or exception of client.py:59 or of a call before. -/
def Machine.finish (m : Machine) (tid : Nat) (e : Event) (o : Outcome3 Event) (w : World) : Machine :=
  { world := w
    flights := fun j => if j = tid then none else m.flights j
    history := m.history ++ [(tid, e, o)] }

/-- The task waits. transport.py:126, 150, 229, 253 (the OS calls that block). -/
def Machine.wait (m : Machine) (tid : Nat) (e : Event) (p : Phase) (w : World) : Machine :=
  { m with world := w, flights := fun j => if j = tid then some (e, p) else m.flights j }

/-- `recv` begins: transport.py:131-138, 154-162 (`Timeout(self.timeout)`). -/
def Machine.startRecv (m : Machine) (tid : Nat) (e : Event) (w : World) : Machine :=
  m.wait tid e (.reading (mkTimeout w.clock w.transport.timeout).1 [])
    { w with clock := (mkTimeout w.clock w.transport.timeout).2 }

/-- `recv` has returned `line`: client.py:50-51 and 57, then client.py:54-59. -/
def Machine.arrived (C : BlockCipher) (m : Machine) (tid : Nat) (e : Event) (line : Bytes) (w : World) : Machine :=
  match (w.conn.receiveData line).nextEvent C with
  | (c, .error x) => m.finish tid e (.raised x) { w with conn := c }
  | (c, .ok (some ev)) => m.finish tid e (.returned ev) { w with conn := c }
  | (c, .ok none) => m.startRecv tid e { w with conn := c }

/-- The task calls `send(request)` and runs until it waits: client.py:46-49, connection.py:110-113. -/
def Machine.start (C : BlockCipher) (m : Machine) (tid : Nat) (e : Event) : Machine :=
  match processEvent m.world.conn.state e with
  | .error x => m.finish tid e (.raised x) m.world
  | .ok _ =>
    match m.world.conn.send C e (m.world.rands m.world.draws) with
    | (c, .error x) => m.finish tid e (.raised x) { m.world with conn := c, draws := m.world.draws + 1 }
    | (c, .ok data) =>
      match m.world.transport.socket with
      | none => m.finish tid e (.raised .runtime) { m.world with conn := c, draws := m.world.draws + 1 }
      | some h =>
        m.wait tid e .writing
          { m.world with conn := c, draws := m.world.draws + 1, os := m.world.os ++ [.write h data] }

/-- The task runs on after its request has been written (or not): transport.py:121-129, client.py:50. -/
def Machine.wrote (m : Machine) (tid : Nat) (e : Event) : Machine :=
  match m.world.writes with
  | [] => m
  | .ok () :: writes => m.startRecv tid e { m.world with writes }
  | .error x :: writes => m.finish tid e (.raised (wrapOs x)) { m.world with writes }

/-- The task runs on after one read of the operating system: transport.py:140-174. -/
def Machine.read (C : BlockCipher) (m : Machine) (tid : Nat) (e : Event) (timeout : Timeout) (line : Bytes) : Machine :=
  match osRead 1 m.world.unread with
  | none => m
  | some (.error x, rest) => m.finish tid e (.raised (wrapOs x)) (m.world.setUnread rest m.world.clock)
  | some (.ok d, rest) =>
    if d.isEmpty then m.wait tid e (.reading timeout line) (m.world.setUnread rest m.world.clock)
    else if sliceFrom (line ++ d) (-1) = [0x0D] then
      m.arrived C tid e (line ++ d) (m.world.setUnread rest m.world.clock)
    else
      match timeout.expired m.world.clock with
      | ((_, c), .error x) => m.finish tid e (.raised (wrapOs x)) (m.world.setUnread rest c)
      | ((_, c), .ok true) => m.arrived C tid e (line ++ d) (m.world.setUnread rest c)
      | ((t, c), .ok false) => m.wait tid e (.reading t (line ++ d)) (m.world.setUnread rest c)

/-- The task `tid` is scheduled: it begins its next call, if it is in none (`plan`: which request it sends next, given
everything that has ended so far; `none`: it has nothing to do), or runs on to the next time it waits, if the operating
system has something for it. client.py:46-59. -/
def Machine.step (C : BlockCipher) (plan : Nat → List (Nat × Event × Outcome3 Event) → Option Event) (m : Machine)
    (tid : Nat) : Machine :=
  match m.flights tid with
  | none =>
    match plan tid m.history with
    | none => m
    | some e => m.start C tid e
  | some (e, .writing) => m.wrote tid e
  | some (e, .reading timeout line) => m.read C tid e timeout line

/-- The tasks run in the order of a schedule. client.py:46-59 for all tasks. -/
def Machine.run (C : BlockCipher) (plan : Nat → List (Nat × Event × Outcome3 Event) → Option Event) (m : Machine)
    (schedule : List Nat) : Machine :=
  schedule.foldl (Machine.step C plan) m

end Elgas
