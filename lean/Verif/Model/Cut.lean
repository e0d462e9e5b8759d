import Verif.Model.Program
/-!
`connect` and `disconnect` of a client in small steps (client.py:40-44, transport.py:84-119, 188-222), so that a program
can be stopped inside them.  A step is one question to the operating system, or one assignment to the transport; what
the program does on its own in between belongs to the step before.
-/
namespace Elgas

/-- Where a `connect` or a `disconnect` is. -/
inductive Lap
  /-- `connect` has been called: transport.py:88-93, 192-196. -/
  | connecting
  /-- The operating system has come back, nothing has been assigned: transport.py:92-102, 196-206. -/
  | opened (r : Res Handle)
  /-- `disconnect` has been called: transport.py:110-113, 214-217. -/
  | disconnecting
  /-- `shutdown` has come back: transport.py:113-116. -/
  | shut (r : Res Unit)
  /-- `close` has come back, nothing has been assigned: transport.py:114-118, 217-221. -/
  | closed (r : Res Unit)
  /-- The call has come back. -/
  | ended (o : Outcome3 Unit)

/-- `except (OSError, ...) as e: self.tcp_socket = None; raise CommunicationError from e` transport.py:115-117, 218-220. -/
def World.given (w : World) (e : PyErr) : World × Lap :=
  if e = .os then ({ w with transport := { w.transport with socket := none } }, .ended (.raised (.elgas .communication)))
  else (w, .ended (.raised e))

/-- `close()` transport.py:114, 217. -/
def World.giveUp (w : World) (h : Handle) (here : Lap) : World × Lap :=
  match w.closes with
  | [] => (w, here)
  | r :: closes => ({ w with closes, os := w.os ++ [.close h] }, .closed r)

/-- The next step of a `connect` (transport.py:84-103, 188-207) or a `disconnect` (transport.py:105-119, 209-222).
While the operating system does not come back, the call stays where it is. -/
def World.lap (w : World) : Lap → World × Lap
  | .connecting =>
    match w.transport.socket, w.opens with
    | some _, _ => (w, .ended (.raised .runtime))
    | none, [] => (w, .connecting)
    | none, .ok h :: opens => ({ w with opens, os := w.os ++ [.create (some h)] }, .opened (.ok h))
    | none, .error e :: opens => ({ w with opens, os := w.os ++ [.create none] }, .opened (.error e))
  | .opened (.ok h) => ({ w with transport := { w.transport with socket := some h } }, .ended (.returned ()))
  | .opened (.error e) => (w, .ended (.raised (wrapOs e)))
  | .disconnecting =>
    match w.transport.socket, w.transport.kind with
    | none, _ => (w, .ended (.returned ()))
    | some h, .tcp =>
      match w.shutdowns with
      | [] => (w, .disconnecting)
      | r :: shutdowns => ({ w with shutdowns, os := w.os ++ [.shutdown h] }, .shut r)
    | some h, .serial => w.giveUp h .disconnecting
  | .shut (.ok ()) =>
    match w.transport.socket with
    | none => (w, .ended (.raised .attribute))
    | some h => w.giveUp h (.shut (.ok ()))
  | .shut (.error e) => w.given e
  | .closed (.ok ()) => ({ w with transport := { w.transport with socket := none } }, .ended (.returned ()))
  | .closed (.error e) => w.given e
  | .ended o => (w, .ended o)

/-- Several steps. transport.py:84-119, 188-222. -/
def World.laps (w : World) (l : Lap) : Nat → World × Lap
  | 0 => (w, l)
  | n + 1 => (w.lap l).1.laps (w.lap l).2 n

end Elgas
