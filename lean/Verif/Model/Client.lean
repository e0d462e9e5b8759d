import Verif.Model.Connection
import Verif.Model.Transport
import Verif.Model.Parser
/-!
Model of /repo/elgas/client.py.

The transport is an environment, as in the `ElgasTransport` protocol (transport.py:54-66): the outcome
of every `transport.send` and `transport.recv` call is chosen outside the program.  `Outcome3.pending`
means that a call is waiting for the transport, which has nothing more in store.  The log calls
are modelled in Model/Log (`response.time.isoformat()` in a log call is the reason for the `AttributeError` branches).
-/
namespace Elgas

/-- The arguments of `ElgasClient(...)` client.py:17-23 besides the transport. -/
structure ClientArgs where
  password : PyStr
  passwordId : Int
  encryptionKey : Option Bytes := none
  encryptionKeyId : Option Int := none
  deriving DecidableEq, Repr

/-- A client with its environment: the password kept by the client, its connection, the outcomes of
the coming `transport.send` and `transport.recv` calls, the coming random draws, and a record of the
data handed to `transport.send` so far. client.py:16-38. -/
structure Sys where
  password : PyStr
  conn : Conn
  sends : List (Res Unit)
  recvs : List (Res Bytes)
  rands : Nat → Rand
  draws : Nat := 0
  handed : List Bytes := []

/-- The default connection of a client client.py:25-38: all addresses 0, the secrets of the client. -/
def clientConn (a : ClientArgs) : Res Conn :=
  mkConn
    { sourceAddress1 := 0, sourceAddress2 := 0, destinationAddress1 := 0, destinationAddress2 := 0,
      password := toSecretStr a.password, passwordId := a.passwordId,
      encryptionKey := toSecretByte a.encryptionKey, encryptionKeyId := a.encryptionKeyId }

/-- `ElgasClient(transport, ...)` client.py:13-38, in a given environment. -/
def mkClient (a : ClientArgs) (sends : List (Res Unit)) (recvs : List (Res Bytes)) (rands : Nat → Rand) :
    Res Sys := do
  let conn ← clientConn a
  return { password := toSecretStr a.password, conn, sends, recvs, rands }

/-- `self.elgas_connection.receive_data(self.transport.recv())` client.py:50-51, 57. -/
def Sys.receive (s : Sys) : Outcome3 Unit × Sys :=
  match s.recvs with
  | [] => (.pending, s)
  | .error e :: rest => (.raised e, { s with recvs := rest })
  | .ok d :: rest => (.returned (), { s with recvs := rest, conn := s.conn.receiveData d })

/-- `self.send(event)` client.py:46-51 for one event. -/
def Sys.send (C : BlockCipher) (s : Sys) (e : Event) : Outcome3 Unit × Sys :=
  match s.conn.send C e (s.rands s.draws) with
  | (c, .error x) => (.raised x, { s with conn := c, draws := s.draws + 1 })
  | (c, .ok data) =>
    let s := { s with conn := c, draws := s.draws + 1, handed := s.handed ++ [data] }
    match s.sends with
    | [] => (.pending, s)
    | .error x :: rest => (.raised x, { s with sends := rest })
    | .ok () :: rest => Sys.receive { s with sends := rest }

/-- `self.send(*events)` client.py:46-51. -/
def Sys.sendAll (C : BlockCipher) (s : Sys) : List Event → Outcome3 Unit × Sys
  | [] => (.returned (), s)
  | e :: es =>
    match s.send C e with
    | (.returned (), s) => s.sendAll C es
    | r => r

/-- The loop of `next_event` client.py:53-59 on the connection and the coming `recv` outcomes. -/
def nextEventLoop (C : BlockCipher) (c : Conn) (rs : List (Res Bytes)) :
    Outcome3 Event × Conn × List (Res Bytes) :=
  match c.nextEvent C with
  | (c, .error e) => (.raised e, c, rs)
  | (c, .ok (some ev)) => (.returned ev, c, rs)
  | (c, .ok none) =>
    match rs with
    | [] => (.pending, c, [])
    | .error e :: rest => (.raised e, c, rest)
    | .ok d :: rest => nextEventLoop C (c.receiveData d) rest
termination_by structural rs

/-- `next_event` client.py:53-59. -/
def Sys.nextEvent (C : BlockCipher) (s : Sys) : Outcome3 Event × Sys :=
  let (o, c, rs) := nextEventLoop C s.conn s.recvs
  (o, { s with conn := c, recvs := rs })

/-- `self.send(request); response = self.next_event()`: the common part of all calls.
client.py:63-65, 71-73, 79-83, 93-97, 112-120, 125-133. -/
def Sys.exchange (C : BlockCipher) (s : Sys) (e : Event) : Outcome3 Event × Sys :=
  match s.send C e with
  | (.returned (), s) => s.nextEvent C
  | (.raised x, s) => (.raised x, s)
  | (.pending, s) => (.pending, s)

/-- Apply a function to the value returned. Sequencing of statements in client.py:61-133. -/
def Outcome3.andThen {α β : Type} (o : Outcome3 α) (f : α → Outcome3 β) : Outcome3 β :=
  match o with
  | .returned a => f a
  | .raised e => .raised e
  | .pending => .pending

/-- `read_instantaneous_values` client.py:61-67. -/
def Sys.readInstantaneousValues (C : BlockCipher) (s : Sys) : Outcome3 Event × Sys :=
  s.exchange C (.readInstantaneousValuesRequest { password := s.password })

/-- `response.time` client.py:74-75. -/
def timeOf : Event → Outcome3 DateTime
  | .readTimeResponse p => .returned p.time
  | _ => .raised .attribute

/-- `read_time` client.py:69-75. -/
def Sys.readTime (C : BlockCipher) (s : Sys) : Outcome3 DateTime × Sys :=
  let (o, s) := s.exchange C (.readTimeRequest {})
  (o.andThen timeOf, s)

/-- `write_time` client.py:77-84. -/
def Sys.writeTime (C : BlockCipher) (s : Sys) (t : DateTime) (cryout : Bool) : Outcome3 Unit × Sys :=
  let (o, s) := s.exchange C (.writeTimeRequest { password := s.password, deviceTime := t, cryout })
  (o.andThen fun _ => .returned (), s)

/-- `read_archive` client.py:109-120. -/
def Sys.readArchive (C : BlockCipher) (s : Sys) (archive amount oldestRecordId : Int) : Outcome3 Event × Sys :=
  s.exchange C (.readArchiveRequest { password := s.password, archive, amount, oldestRecordId })

/-- `read_archive_by_time` client.py:122-133. -/
def Sys.readArchiveByTime (C : BlockCipher) (s : Sys) (archive amount : Int) (oldestTimestamp : DateTime) :
    Outcome3 Event × Sys :=
  s.exchange C (.readArchiveByTimeRequest { password := s.password, archive, amount, oldestTimestamp })

theorem receive_recvs {s s' : Sys} (h : s.receive = (.returned (), s')) : s'.recvs.length < s.recvs.length := by
  unfold Sys.receive at h
  split at h
  · cases h
  · cases h
  · next d rest hr =>
    injection h with _ h
    rw [← h, hr]
    exact Nat.lt_succ_self _

theorem send_recvs {C : BlockCipher} {s s' : Sys} {e : Event} (h : s.send C e = (.returned (), s')) :
    s'.recvs.length < s.recvs.length := by
  unfold Sys.send at h
  split at h
  · cases h
  · dsimp only at h
    split at h
    · cases h
    · cases h
    · have := receive_recvs h
      exact this

theorem nextEventLoop_recvs (C : BlockCipher) (c : Conn) (rs : List (Res Bytes)) :
    (nextEventLoop C c rs).2.2.length ≤ rs.length := by
  induction rs generalizing c with
  | nil =>
    unfold nextEventLoop
    split <;> exact Nat.le_refl _
  | cons r rs ih =>
    unfold nextEventLoop
    split
    · exact Nat.le_refl _
    · exact Nat.le_refl _
    · cases r with
      | error e => exact Nat.le_succ _
      | ok d => exact Nat.le_trans (ih _) (Nat.le_succ _)

theorem exchange_recvs {C : BlockCipher} {s s' : Sys} {e ev : Event} (h : s.exchange C e = (.returned ev, s')) :
    s'.recvs.length < s.recvs.length := by
  unfold Sys.exchange at h
  split at h
  · next s1 hs =>
    have h1 := send_recvs hs
    have h2 := nextEventLoop_recvs C s1.conn s1.recvs
    unfold Sys.nextEvent at h
    injection h with _ h
    rw [← h]
    exact Nat.lt_of_le_of_lt h2 h1
  · cases h
  · cases h

/-- The `while not should_stop` loop of `read_parameters` client.py:91-103: the data of all pages. -/
def Sys.readPages (C : BlockCipher) (s : Sys) (objectCount : Int) (total : Bytes) : Outcome3 Bytes × Sys :=
  match _h : s.exchange C (.readDeviceParametersRequest
      { password := s.password, objectCount, bufferLength := 1024 }) with
  | (.raised e, s) => (.raised e, s)
  | (.pending, s) => (.pending, s)
  | (.returned (.readDeviceParametersResponse p), s) =>
    if p.isEnd then (.returned (total ++ p.data), s)
    else s.readPages C (objectCount + p.objectAmount) (total ++ p.data)
  | (.returned _, s) => (.raised .attribute, s)
termination_by s.recvs.length
decreasing_by exact exchange_recvs _h

/-- A result of a pure call. The return of `parser.parse`, client.py:107. -/
def Outcome3.ofRes {α : Type} : Res α → Outcome3 α
  | .ok a => .returned a
  | .error e => .raised e

/-- `read_parameters` client.py:86-107. -/
def Sys.readParameters (C : BlockCipher) (s : Sys) (readFrom : Int) : Outcome3 (List PObj) × Sys :=
  let (o, s) := s.readPages C readFrom []
  (o.andThen fun d => .ofRes (parseParameters none (some d)), s)

end Elgas
