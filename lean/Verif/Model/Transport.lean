import Verif.Py.Basic
/-!
Model of /repo/elgas/transport.py.

The operating system and the clock are an environment: every OS call has an outcome chosen outside
the program (`Res`: a value or an exception), incoming data is a script of deliveries, and
`time.monotonic()` is an arbitrary sequence of readings.  Clock readings and durations are integers
of some fixed unit (the code uses floats; float rounding is not modelled).  Log calls: see Model/Log.
-/
namespace Elgas

/-! ### The environment -/

/-- A socket or serial port object. transport.py:78, 186. -/
abbrev Handle := Nat

/-- What the peer and the OS have in store for the next reads of a handle: a segment of bytes (an
empty one is an empty read: end of stream on TCP, read timeout on a serial line), or an
exception. What transport.py:150, 253 meet. -/
inductive Delivery
  | seg (d : Bytes)
  | fail (e : PyErr)
  deriving DecidableEq, Repr

/-- The readings of `time.monotonic()` in order: `readings k` is the `k`-th call, `next` the number
of calls so far. transport.py:23, 38, 41, 52. -/
structure Clock where
  readings : Nat → Int
  next : Nat := 0

/-- `time.monotonic()`. transport.py:23, 38, 41, 52. -/
def Clock.read (c : Clock) : Int × Clock := (c.readings c.next, { c with next := c.next + 1 })

/-- The outcome of a call that may run for ever: `pending` means that the call has used up all
deliveries of the script and is still reading. Used for transport.py:131-174. -/
inductive Outcome3 (α : Type)
  | returned (a : α)
  | raised (e : PyErr)
  | pending
  deriving DecidableEq, Repr

/-- `handle.recv(n)` / `handle.read(n)` for `n ≥ 1`: at most `n` bytes of the first segment; `none`
when nothing is in the script. transport.py:150, 253. -/
def osRead (n : Nat) : List Delivery → Option (Res Bytes × List Delivery)
  | [] => none
  | .fail e :: rest => some (.error e, rest)
  | .seg d :: rest =>
    if d.length ≤ n then some (.ok d, rest) else some (.ok (d.take n), .seg (d.drop n) :: rest)

/-! ### `Timeout` transport.py:14-52 -/

/-- A `Timeout` object transport.py:17-25. -/
structure Timeout where
  isInfinite : Bool
  isNonBlocking : Bool
  duration : Option Int
  targetTime : Option Int
  deriving DecidableEq, Repr

/-- `Timeout(duration)` transport.py:17-25. -/
def mkTimeout (c : Clock) (duration : Option Int) : Timeout × Clock :=
  match duration with
  | some d =>
    let (now, c) := c.read
    ({ isInfinite := false, isNonBlocking := d = 0, duration := some d, targetTime := some (now + d) }, c)
  | none => ({ isInfinite := true, isNonBlocking := false, duration := none, targetTime := none }, c)

/-- `time_left` transport.py:31-44; the result `none` is Python's `None`.  `None - x` and
`x > None` raise `TypeError`. -/
def Timeout.timeLeft (t : Timeout) (c : Clock) : (Timeout × Clock) × Res (Option Int) :=
  if t.isNonBlocking then ((t, c), .ok (some 0))
  else if t.isInfinite then ((t, c), .ok none)
  else
    let (now, c) := c.read
    match t.targetTime with
    | none => ((t, c), raise .type)
    | some target =>
      let delta := target - now
      match t.duration with
      | none => ((t, c), raise .type)
      | some d =>
        if delta > d then
          let (now, c) := c.read
          (({ t with targetTime := some (now + d) }, c), .ok (some d))
        else ((t, c), .ok (some (max 0 delta)))

/-- `expired` transport.py:27-29; `None <= 0` raises `TypeError`. -/
def Timeout.expired (t : Timeout) (c : Clock) : (Timeout × Clock) × Res Bool :=
  match t.targetTime with
  | none => ((t, c), .ok false)
  | some _ =>
    match t.timeLeft c with
    | (s, .error e) => (s, .error e)
    | (s, .ok none) => (s, raise .type)
    | (s, .ok (some x)) => (s, .ok (decide (x ≤ 0)))

/-- `restart(duration)` transport.py:46-52; `time.monotonic() + None` raises `TypeError`. -/
def Timeout.restart (t : Timeout) (c : Clock) (duration : Option Int) : (Timeout × Clock) × Res Unit :=
  let (now, c) := c.read
  match duration with
  | none => (({ t with duration := none }, c), raise .type)
  | some d => (({ t with duration := some d, targetTime := some (now + d) }, c), .ok ())

/-! ### `BlockingTcpTransport` transport.py:69-174 and `SerialTransport` transport.py:177-277

The two classes have the same text up to the OS functions called and up to `disconnect`. -/

/-- Which of the two classes. transport.py:69, 177. -/
inductive Kind | tcp | serial
  deriving DecidableEq, Repr

/-- A transport object: transport.py:75-78 (`tcp_socket`) and 183-186 (`serial_port`).  The address
arguments only show in the log: see `Place` in Model/ProgramLog. -/
structure Transport where
  kind : Kind
  timeout : Option Int
  socket : Option Handle
  deriving DecidableEq, Repr

/-- A new transport: `tcp_socket` / `serial_port` start as `None` (transport.py:78, 186). -/
def mkTransport (kind : Kind) (timeout : Option Int) : Transport := { kind, timeout, socket := none }

/-- An OS call made by the transport. transport.py:92-94, 113-114, 126, 196-200, 217, 229. -/
inductive OsCall
  | create (h : Option Handle)     -- socket.create_connection / serial.Serial; `none`: it failed
  | shutdown (h : Handle)
  | close (h : Handle)
  | write (h : Handle) (d : Bytes) -- sendall / write
  deriving DecidableEq, Repr

/-- `except (OSError, ...) as e: raise CommunicationError`: `socket.timeout`, `socket.error`,
`ConnectionRefusedError`, `IOError` and `serial.SerialException` are all `OSError` or subclasses;
every other exception passes.
transport.py:95-102, 115-117, 128-129, 136-137 and 201-206, 218-220, 231-232, 239-240. -/
def wrapOs (e : PyErr) : PyErr := if e = .os then .elgas .communication else e

/-- `connect` transport.py:84-103 and 188-207; `os` is the outcome of opening the handle. -/
def Transport.connect (t : Transport) (os : Res Handle) : Transport × List OsCall × Res Unit :=
  match t.socket with
  | some _ => (t, [], raise .runtime)
  | none =>
    match os with
    | .ok h => ({ t with socket := some h }, [.create (some h)], .ok ())
    | .error e => (t, [.create none], .error (wrapOs e))

/-- `disconnect` transport.py:105-119 (shutdown, then close) and 209-222 (close only). -/
def Transport.disconnect (t : Transport) (osShutdown osClose : Res Unit) :
    Transport × List OsCall × Res Unit :=
  match t.socket with
  | none => (t, [], .ok ())
  | some h =>
    match t.kind with
    | .tcp =>
      match osShutdown with
      | .error e =>
        if e = .os then ({ t with socket := none }, [.shutdown h], .error (.elgas .communication))
        else (t, [.shutdown h], .error e)
      | .ok () =>
        match osClose with
        | .error e =>
          if e = .os then
            ({ t with socket := none }, [.shutdown h, .close h], .error (.elgas .communication))
          else (t, [.shutdown h, .close h], .error e)
        | .ok () => ({ t with socket := none }, [.shutdown h, .close h], .ok ())
    | .serial =>
      match osClose with
      | .error e =>
        if e = .os then ({ t with socket := none }, [.close h], .error (.elgas .communication))
        else (t, [.close h], .error e)
      | .ok () => ({ t with socket := none }, [.close h], .ok ())

/-- `send` transport.py:121-129 and 224-232. -/
def Transport.send (t : Transport) (data : Bytes) (os : Res Unit) : List OsCall × Res Unit :=
  match t.socket with
  | none => ([], raise .runtime)
  | some h =>
    match os with
    | .ok () => ([.write h data], .ok ())
    | .error e => ([.write h data], .error (wrapOs e))

/-- The `while len(data) < amount` loop of `_recv_bytes` transport.py:148-150 and 251-253, with what
is left of the script. -/
def recvLoop (amount : Nat) (data : Bytes) (s : List Delivery) : Outcome3 Bytes × List Delivery :=
  if _h : data.length < amount then
    match _hr : osRead (amount - data.length) s with
    | none => (.pending, s)
    | some (.error e, rest) => (.raised e, rest)
    | some (.ok d, rest) => recvLoop amount (data ++ d) rest
  else (.returned data, s)
termination_by (amount - data.length) + s.length
decreasing_by
  have hr := _hr
  simp only [List.length_append]
  cases s with
  | nil => simp [osRead] at hr
  | cons x s =>
    cases x with
    | fail e => simp [osRead] at hr
    | seg b =>
      simp only [osRead] at hr
      split at hr
      · simp only [Option.some.injEq, Prod.mk.injEq, Except.ok.injEq] at hr
        rw [← hr.1, ← hr.2]; simp only [List.length_cons]; omega
      · simp only [Option.some.injEq, Prod.mk.injEq, Except.ok.injEq] at hr
        rw [← hr.1, ← hr.2]; simp only [List.length_cons, List.length_take]; omega

/-- `_recv_bytes` transport.py:140-152 and 243-255. -/
def Transport.recvBytes (t : Transport) (amount : Nat) (s : List Delivery) :
    Outcome3 Bytes × List Delivery :=
  match t.socket with
  | none => (.raised .runtime, s)
  | some _ => recvLoop amount [] s

/-- How much a script can still deliver. A measure for transport.py:149-174, not part of the code. -/
def weight (s : List Delivery) : Nat :=
  (s.map fun | .seg d => d.length + 1 | .fail _ => 1).sum

theorem osRead_weight {n : Nat} {s rest : List Delivery} {d : Bytes} (hn : 0 < n)
    (h : osRead n s = some (.ok d, rest)) : weight rest < weight s := by
  cases s with
  | nil => simp [osRead] at h
  | cons x s =>
    cases x with
    | fail e => simp [osRead] at h
    | seg b =>
      simp only [osRead] at h
      split at h <;>
      · simp only [Option.some.injEq, Prod.mk.injEq, Except.ok.injEq] at h
        rw [← h.2]; simp only [weight, List.map_cons, List.sum_cons, List.length_drop]; omega

theorem recvLoop_weight (amount : Nat) (data : Bytes) (s : List Delivery) :
    weight (recvLoop amount data s).2 ≤ weight s ∧
    (∀ r, (recvLoop amount data s).1 = .returned r → data.length < amount →
      weight (recvLoop amount data s).2 < weight s) := by
  fun_induction recvLoop amount data s with
  | case1 => simp
  | case2 data s h e rest hr =>
    refine ⟨?_, by simp⟩
    cases s with
    | nil => simp [osRead] at hr
    | cons x s =>
      cases x with
      | fail e =>
        simp only [osRead, Option.some.injEq, Prod.mk.injEq] at hr
        rw [← hr.2]; simp [weight]
      | seg b =>
        simp only [osRead] at hr
        split at hr <;> simp at hr
  | case3 data s h d rest hr ih =>
    have := osRead_weight (by omega) hr
    exact ⟨by omega, fun _ _ _ => by omega⟩
  | case4 data s h => exact ⟨by simp, fun _ _ h' => absurd h' h⟩

/-- The loop of `recv_until(expected, size)` transport.py:162-174 and 265-277, from the state `line`
and `timeout`: the outcome, the unread deliveries and the clock. -/
def recvUntilLoop (t : Transport) (expected : Bytes) (size : Option Nat) (timeout : Timeout)
    (line : Bytes) (s : List Delivery) (c : Clock) : Outcome3 Bytes × List Delivery × Clock :=
  match _hr : t.recvBytes 1 s with
  | (.pending, s') => (.pending, s', c)
  | (.raised e, s') => (.raised e, s', c)
  | (.returned b, s') =>
    if b.isEmpty then (.returned line, s', c)
    else
      let line := line ++ b
      if sliceFrom line (-(expected.length : Int)) = expected then (.returned line, s', c)
      else if (match size with | some n => decide (line.length ≥ n) | none => false) then
        (.returned line, s', c)
      else
        match timeout.expired c with
        | ((_, c), .error e) => (.raised e, s', c)
        | ((_, c), .ok true) => (.returned line, s', c)
        | ((timeout, c), .ok false) => recvUntilLoop t expected size timeout line s' c
termination_by weight s
decreasing_by
  have hr := _hr
  unfold Transport.recvBytes at hr
  split at hr
  · simp at hr
  · have := (recvLoop_weight 1 [] s).2 b (by rw [hr]) (by simp)
    rw [hr] at this; exact this

/-- `recv_until` transport.py:154-174 and 257-277. -/
def Transport.recvUntil (t : Transport) (expected : Bytes) (size : Option Nat) (s : List Delivery)
    (c : Clock) : Outcome3 Bytes × List Delivery × Clock :=
  let (timeout, c) := mkTimeout c t.timeout
  recvUntilLoop t expected size timeout [] s c

/-- `recv` transport.py:131-138 and 234-241 (`recv_until` with its default arguments). -/
def Transport.recv (t : Transport) (s : List Delivery) (c : Clock) :
    Outcome3 Bytes × List Delivery × Clock :=
  match t.recvUntil [0x0D] none s c with
  | (.raised e, s, c) => (.raised (wrapOs e), s, c)
  | r => r

end Elgas
