import Verif.Model.Own
/-!
Several connections and clients in one program: the objects of Python as cells of a store, referred to by number.

A connection refers to its `bytearray` and to its `ElgasState`, a client to its transport and its connection, so two
connections may share a state object, and two clients a connection or a transport.  Objects that nothing refers to
are not kept.  Everything else in the library (frames, PDUs, cipher contexts) is never changed once it is made, and
stays a value.  The transport is an environment as in Model/Client.
-/
namespace Elgas

/-- An `ElgasConnection` object connection.py:80-106; `buffer` and `state` are references. -/
structure ConnObj where
  args : ConnArgs
  buffer : Nat
  state : Nat
  cipherContext : Option CipherContext
  deriving DecidableEq, Repr

/-- A transport object (transport.py:54-66): what its coming calls lead to, and what it was given to send. -/
structure TransportObj where
  sends : List (Res Unit)
  recvs : List (Res Bytes)
  handed : List Bytes := []

/-- An `ElgasClient` object client.py:13-38; `transport` and `connection` are references. -/
structure ClientObj where
  password : PyStr
  transport : Nat
  connection : Nat
  deriving DecidableEq, Repr

/-- All objects of a program. connection.py:102-103, client.py:17, 25. -/
structure Heap where
  states : List PState := []
  buffers : List Bytes := []
  conns : List ConnObj := []
  transports : List TransportObj := []
  clients : List ClientObj := []

/-- `ElgasState(current_state=s)` state.py:74-80. -/
def Heap.newState (h : Heap) (s : PState) : Nat × Heap :=
  (h.states.length, { h with states := h.states ++ [s] })

/-- `bytearray()` connection.py:102, 195. -/
def Heap.newBuffer (h : Heap) : Nat × Heap := (h.buffers.length, { h with buffers := h.buffers ++ [[]] })

/-- `ElgasConnection(..., elgas_state=state, cipher_context=context)` connection.py:80-106: the factories make a new
`bytearray` and, without the argument `elgas_state`, a new `ElgasState` (connection.py:102-103).  The validators run
last; if one fails, nothing refers to the new objects. -/
def Heap.newConn (h : Heap) (a : ConnArgs) (state : Option Nat) (context : Option (Option CipherContext)) :
    Res Nat × Heap :=
  match mkConnWith a none context with
  | .error x => (.error x, h)
  | .ok c =>
    let (b, h1) := h.newBuffer
    let (s, h2) := match state with
      | some s => (s, h1)
      | none => h1.newState .idle
    (.ok h2.conns.length,
      { h2 with conns := h2.conns ++ [{ args := a, buffer := b, state := s, cipherContext := c.cipherContext }] })

/-- `ElgasClient(transport, ..., elgas_connection=conn)` client.py:13-38: without the argument `elgas_connection` the
factory makes a new connection. -/
def Heap.newClient (h : Heap) (a : ClientArgs) (transport : Nat) (conn : Option Nat) : Res Nat × Heap :=
  match conn with
  | some k =>
    (.ok h.clients.length,
      { h with clients := h.clients ++ [{ password := toSecretStr a.password, transport, connection := k }] })
  | none =>
    match h.newConn
      { sourceAddress1 := 0, sourceAddress2 := 0, destinationAddress1 := 0, destinationAddress2 := 0,
        password := toSecretStr a.password, passwordId := a.passwordId,
        encryptionKey := toSecretByte a.encryptionKey, encryptionKeyId := a.encryptionKeyId } none none with
    | (.error x, h) => (.error x, h)
    | (.ok k, h) =>
      (.ok h.clients.length,
        { h with clients := h.clients ++ [{ password := toSecretStr a.password, transport, connection := k }] })

/-- The connection `k` with the present contents of its buffer and its state object. connection.py:80-106. -/
def Heap.conn (h : Heap) (k : Nat) : Option Conn := do
  let o ← h.conns[k]?
  let buffer ← h.buffers[o.buffer]?
  let state ← h.states[o.state]?
  return { args := o.args, buffer, state, cipherContext := o.cipherContext }

/-- `ElgasConnection.send` connection.py:108-139: `process_event` assigns `current_state` of the state object
(state.py:93).  `none` if there is no connection `k`. -/
def Heap.send (C : BlockCipher) (h : Heap) (k : Nat) (e : Event) (r : Rand) : Option (Res Bytes × Heap) := do
  let o ← h.conns[k]?
  let c ← h.conn k
  match processEvent c.state e with
  | .error x => return (.error x, h)
  | .ok s' => return (c.serialise C e r, { h with states := h.states.set o.state s' })

/-- `ElgasConnection.receive_data` connection.py:141-158: `self.buffer += data` extends the `bytearray` in place. -/
def Heap.receiveData (h : Heap) (k : Nat) (data : Bytes) : Option Heap := do
  let o ← h.conns[k]?
  let c ← h.conn k
  if data.isEmpty then return h
  else if data = [0x0D] ∧ c.buffer.length = 0 then return h
  else return { h with buffers := h.buffers.set o.buffer (c.buffer ++ data) }

/-- `next_event` connection.py:160-197: on success the state object is assigned and `self.buffer` becomes a new
`bytearray` (connection.py:193-195). -/
def Heap.nextEvent (C : BlockCipher) (h : Heap) (k : Nat) : Option (Res (Option Event) × Heap) := do
  let o ← h.conns[k]?
  let c ← h.conn k
  if c.buffer.isEmpty then return (.ok none, h)
  else
    match indexEnd c.buffer with
    | none => return (.ok none, h)
    | some i =>
      let data := sliceTo c.buffer ((i : Int) + 1)
      match c.interpret C data with
      | .error e => if e.isValueError then return (.ok none, h) else return (.error e, h)
      | .ok response =>
        match pduFromResponse response with
        | .error e => return (.error e, h)
        | .ok pdu =>
          match processEvent c.state pdu with
          | .error e => return (.error e, h)
          | .ok s' =>
            let h1 := { h with states := h.states.set o.state s' }
            let (b, h2) := h1.newBuffer
            return (.ok (some pdu), { h2 with conns := h2.conns.set k { o with buffer := b } })

/-- The client `j` with the present contents of the objects it refers to. client.py:13-38. -/
def Heap.client (h : Heap) (j : Nat) (rands : Nat → Rand) : Option Sys := do
  let o ← h.clients[j]?
  let t ← h.transports[o.transport]?
  let conn ← h.conn o.connection
  return { password := o.password, conn, sends := t.sends, recvs := t.recvs, rands, handed := t.handed }

/-- A method of the client `j`, client.py:61-133, given as a function of the present contents of its objects.  The
methods only change the objects the client refers to, and nothing else runs meanwhile, so the objects are read once
and written back in the end (the new contents of the buffer to the `bytearray` the connection has; which of the
`bytearray`s made meanwhile it is does not show, as nothing else refers to them). -/
def Heap.onClient {α : Type} (h : Heap) (j : Nat) (rands : Nat → Rand) (f : Sys → α × Sys) : Option (α × Heap) := do
  let o ← h.clients[j]?
  let c ← h.conns[o.connection]?
  let s ← h.client j rands
  let (x, s') := f s
  return (x, { h with
    states := h.states.set c.state s'.conn.state
    buffers := h.buffers.set c.buffer s'.conn.buffer
    transports := h.transports.set o.transport { sends := s'.sends, recvs := s'.recvs, handed := s'.handed } })

end Elgas
