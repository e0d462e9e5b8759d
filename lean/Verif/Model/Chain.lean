import Verif.Model.Transport
/-!
The exception objects of /repo/elgas/transport.py: `raise CommunicationError from e` keeps the exception of the operating
system as `__cause__`.  Model/Transport knows exceptions by class only; here every exception the operating system raises is
an object of its own, and what leaves a method is either that object or a new one with its `__cause__`.
-/
namespace Elgas

/-- An exception object raised by the operating system (or by pyserial): its class, and which object it is.
What transport.py:92-94, 113-114, 126, 150, 196-200, 217, 229, 253 may raise. -/
structure OsExc where
  cls : PyErr
  id : Nat
  deriving DecidableEq, Repr

/-- An exception that leaves a method of a transport: an object of the operating system that passes, or a new object with
its `__cause__` (`raise X from e`; `none`: `raise X`). transport.py:90, 102, 117, 124, 129, 137, 146 and 193, 206, 220,
227, 232, 240, 249. -/
inductive Thrown
  | passed (e : OsExc)
  | new (cls : PyErr) (cause : Option OsExc)
  deriving DecidableEq, Repr

/-- The class of an exception. Part of transport.py:95, 115, 128, 136, 201, 218, 231, 239. -/
def Thrown.cls : Thrown → PyErr
  | .passed e => e.cls
  | .new c _ => c

/-- The outcome of a call of the operating system, with the object it raises. transport.py:92-94, 113-114, 126. -/
abbrev OsRes (α : Type) := Except OsExc α

/-- What the next reads of a handle meet, with the objects raised. transport.py:150, 253. -/
inductive Arriving
  | seg (d : Bytes)
  | fail (e : OsExc)
  deriving DecidableEq, Repr

/-- `except (OSError, …) as e: raise CommunicationError(…) from e`.
transport.py:95-102, 115-117, 128-129, 136-137 and 201-206, 218-220, 231-232, 239-240. -/
def wrapFrom (e : OsExc) : Thrown := if e.cls = .os then .new (.elgas .communication) (some e) else .passed e

/-- `connect` transport.py:84-103 and 188-207. -/
def Transport.connectX (t : Transport) (os : OsRes Handle) : Transport × List OsCall × Except Thrown Unit :=
  match t.socket with
  | some _ => (t, [], .error (.new .runtime none))
  | none =>
    match os with
    | .ok h => ({ t with socket := some h }, [.create (some h)], .ok ())
    | .error e => (t, [.create none], .error (wrapFrom e))

/-- `disconnect` transport.py:105-119 (shutdown, then close) and 209-222 (close only). -/
def Transport.disconnectX (t : Transport) (osShutdown osClose : OsRes Unit) :
    Transport × List OsCall × Except Thrown Unit :=
  let failed (calls : List OsCall) (e : OsExc) : Transport × List OsCall × Except Thrown Unit :=
    (if e.cls = .os then { t with socket := none } else t, calls, .error (wrapFrom e))
  match t.socket with
  | none => (t, [], .ok ())
  | some h =>
    match t.kind with
    | .tcp =>
      match osShutdown with
      | .error e => failed [.shutdown h] e
      | .ok () =>
        match osClose with
        | .error e => failed [.shutdown h, .close h] e
        | .ok () => ({ t with socket := none }, [.shutdown h, .close h], .ok ())
    | .serial =>
      match osClose with
      | .error e => failed [.close h] e
      | .ok () => ({ t with socket := none }, [.close h], .ok ())

/-- `send` transport.py:121-129 and 224-232. -/
def Transport.sendX (t : Transport) (data : Bytes) (os : OsRes Unit) : List OsCall × Except Thrown Unit :=
  match t.socket with
  | none => ([], .error (.new .runtime none))
  | some h =>
    match os with
    | .ok () => ([.write h data], .ok ())
    | .error e => ([.write h data], .error (wrapFrom e))

/-- The outcome of a call that may run for ever, with the object raised. Used for transport.py:131-174. -/
inductive Ending (α : Type)
  | returned (a : α)
  | raised (e : Thrown)
  | pending
  deriving DecidableEq, Repr

/-- `_recv_bytes(1)` transport.py:140-152 and 243-255: the loop goes on over empty reads. -/
def Transport.recvByteX (t : Transport) : List Arriving → Ending Bytes × List Arriving
  | s =>
    match t.socket with
    | none => (.raised (.new .runtime none), s)
    | some _ => go s
where
  /-- The loop. transport.py:148-150 and 251-253. -/
  go : List Arriving → Ending Bytes × List Arriving
    | [] => (.pending, [])
    | .fail e :: rest => (.raised (.passed e), rest)
    | .seg [] :: rest => go rest
    | .seg [b] :: rest => (.returned [b], rest)
    | .seg (b :: c :: d) :: rest => (.returned [b], .seg (c :: d) :: rest)

/-- How much can still arrive. A measure for transport.py:149-174, not part of the code. -/
def arrivingWeight (s : List Arriving) : Nat :=
  (s.map fun | .seg d => d.length + 1 | .fail _ => 1).sum

theorem recvByteX_go_weight (s rest : List Arriving) (b : Bytes) (h : Transport.recvByteX.go s = (.returned b, rest)) :
    arrivingWeight rest < arrivingWeight s := by
  fun_induction Transport.recvByteX.go s with
  | case1 => simp at h
  | case2 => simp at h
  | case3 s ih => have := ih h; simp [arrivingWeight] at this ⊢; omega
  | case4 b s => simp at h; rw [← h.2]; simp [arrivingWeight]
  | case5 b c d s => simp at h; rw [← h.2]; simp [arrivingWeight]

/-- The loop of `recv_until` with its default arguments, transport.py:162-174 and 265-277. -/
def recvLineX (t : Transport) (timeout : Timeout) (line : Bytes) (s : List Arriving) (c : Clock) :
    Ending Bytes × List Arriving × Clock :=
  match _hr : t.recvByteX s with
  | (.pending, s') => (.pending, s', c)
  | (.raised e, s') => (.raised e, s', c)
  | (.returned b, s') =>
    if b.isEmpty then (.returned line, s', c)
    else if sliceFrom (line ++ b) (-1) = [0x0D] then (.returned (line ++ b), s', c)
    else
      match timeout.expired c with
      | ((_, c), .error e) => (.raised (.new e none), s', c)
      | ((_, c), .ok true) => (.returned (line ++ b), s', c)
      | ((timeout, c), .ok false) => recvLineX t timeout (line ++ b) s' c
termination_by arrivingWeight s
decreasing_by
  have hr := _hr
  unfold Transport.recvByteX at hr
  split at hr
  · simp at hr
  · exact recvByteX_go_weight _ _ _ hr

/-- `recv` transport.py:131-138 and 234-241: what comes out of `recv_until` is wrapped if it is an `OSError`. -/
def Transport.recvX (t : Transport) (s : List Arriving) (c : Clock) : Ending Bytes × List Arriving × Clock :=
  match recvLineX t (mkTimeout c t.timeout).1 [] s (mkTimeout c t.timeout).2 with
  | (.raised (.passed e), s, c) => (.raised (wrapFrom e), s, c)
  | r => r

end Elgas
