import Verif.Model.Repr
/-!
The log calls of state.py, connection.py, transport.py (`send`, `recv`) and client.py.

Each function of the model is repeated here with the records it logs, in order; `*_erase` shows that
dropping the records gives back the function without logging.  A record is taken at the moment of the call (the
renderers of structlog's default configuration print at once, and print every level).  The `structlog` proxy and the
layout of a line are not modelled: a record is its event text and the `repr` of its arguments.
-/
namespace Elgas

/-- One log call: level, event text, keyword arguments.
`LOG` of client.py:9, connection.py:10, state.py:6, transport.py:11. -/
structure Record where
  level : String
  event : String
  args : List (String × PyVal)

/-- What a record prints: the event text and the `repr` of each argument; `stack` are the frames of the renderer and
of the caller. `LOG` of client.py:9, connection.py:10, state.py:6, transport.py:11. -/
def Record.texts (p : Printing) (stack : List String) (r : Record) : List PyStr :=
  r.event.toList :: r.args.map fun a => a.1.toList ++ ['='] ++ a.2.repr p stack

/-- `LOG.debug(event, **args)`. E.g. connection.py:110. -/
def debug (event : String) (args : List (String × PyVal) := []) : Record := { level := "debug", event, args }

/-- `LOG.info(event, **args)`. E.g. client.py:62. -/
def info (event : String) (args : List (String × PyVal) := []) : Record := { level := "info", event, args }

/-! ### state.py and connection.py -/

/-- `ElgasState.process_event` state.py:82-94; the f-string of line 94 prints the sentinels by name. -/
def processEventL (s : PState) (e : Event) : List Record × Res PState :=
  match transitions s e.type with
  | some s' => ([debug ("Elgas state transitioned from " ++ s.name ++ " to " ++ s'.name)], .ok s')
  | none => ([], raise (.elgas .localProtocol))

/-- The frame object built by `send` after the state change, and whether it is an `EncryptedRequest`:
connection.py:112-134. -/
def Conn.requestObject (C : BlockCipher) (c : Conn) (e : Event) (r : Rand) : Res (Bool × Frame) := do
  let applicationData ← e.toBytes r
  match c.cipherContext with
  | some ctx => do
    let service ← e.service
    let data ← ctx.encrypt C applicationData r.pad
    return (true, { service, da1 := c.args.destinationAddress1, da2 := c.args.destinationAddress2,
                    sa1 := c.args.sourceAddress1, sa2 := c.args.sourceAddress2, data })
  | none => do
    let service ← e.service
    return (false, { service, da1 := c.args.destinationAddress1, da2 := c.args.destinationAddress2,
                     sa1 := c.args.sourceAddress1, sa2 := c.args.sourceAddress2, data := applicationData })

/-- `send` after the state change: connection.py:112-139. -/
def Conn.serialiseL (C : BlockCipher) (c : Conn) (e : Event) (r : Rand) : List Record × Res Bytes :=
  match c.requestObject C e r with
  | .error x => ([], .error x)
  | .ok (encrypted, request) =>
    ([debug "Sending ELGAS request" [("request",
      if encrypted then frameVal "EncryptedRequest" request .bytearray else frameVal "Request" request .bytes)]],
      requestToBytes (if encrypted then encryptedRequestType else requestType) request >>= escapeCharacters)

/-- `ElgasConnection.send` connection.py:108-139; `secret`: the password in the request is a `SecretStr`. -/
def Conn.sendL (p : Printing) (secret : Bool) (C : BlockCipher) (c : Conn) (e : Event) (r : Rand) :
    List Record × Conn × Res Bytes :=
  let log := [debug "Sending request PDU" [("pdu", eventVal p secret e)]]
  match processEventL c.state e with
  | (l, .error x) => (log ++ l, c, .error x)
  | (l, .ok s') =>
    let c' := { c with state := s' }
    let (l', out) := c'.serialiseL C e r
    (log ++ l ++ l', c', out)

/-- `ElgasConnection.receive_data` connection.py:141-158. -/
def Conn.receiveDataL (c : Conn) (data : Bytes) : List Record × Conn :=
  if data.isEmpty then ([], c)
  else if data = [0x0D] ∧ c.buffer.length = 0 then
    ([info ("Received an end char when read buffer was empty. This is a" ++
      " known issue and data is ignored.")], c)
  else
    let c := { c with buffer := c.buffer ++ data }
    ([debug "Added data to connection buffer" [("data", .bytes data), ("total_buffer", .bytearray c.buffer)]], c)

/-- The `try` block connection.py:175-185. -/
def Conn.interpretL (C : BlockCipher) (c : Conn) (data : Bytes) : List Record × Res Frame :=
  match returnCharacters data with
  | .error x => ([], .error x)
  | .ok raw =>
    match responseFactory raw with
    | .error x => ([], .error x)
    | .ok (encrypted, response) =>
      let log := [debug "Received ELGAS response"
        [("response", frameVal (if encrypted then "EncryptedResponse" else "Response") response .bytes)]]
      if encrypted then
        match c.cipherContext with
        | none => (log, raise .attribute)
        | some ctx =>
          match ctx.decrypt C response.data with
          | .error x => (log, .error x)
          | .ok d =>
            let response := { response with data := d }
            let log := log ++ [debug "Decrypted ELGAS response"
              [("decrypted", frameVal "EncryptedResponse" response .bytes)]]
            (log, if response.data.length = 1 then (raiseError response.data).bind fun _ => .ok response
              else .ok response)
      else
        (log, if response.data.length = 1 then (raiseError response.data).bind fun _ => .ok response
          else .ok response)

/-- `next_event` connection.py:160-197. -/
def Conn.nextEventL (p : Printing) (C : BlockCipher) (c : Conn) : List Record × Conn × Res (Option Event) :=
  if c.buffer.isEmpty then ([debug "Buffer empty. Need more data"], c, .ok none)
  else
    match indexEnd c.buffer with
    | none => ([debug "No end char in data. Need more data"], c, .ok none)
    | some i =>
      let data := sliceTo c.buffer ((i : Int) + 1)
      match c.interpretL C data with
      | (l, .error e) =>
        if e.isValueError then (l ++ [debug "Cannot interpret data as frame. Need more data"], c, .ok none)
        else (l, c, .error e)
      | (l, .ok response) =>
        match pduFromResponse response with
        | .error e => (l, c, .error e)
        | .ok pdu =>
          let l := l ++ [info "Received PDU" [("pdu", eventVal p false pdu)]]
          match processEventL c.state pdu with
          | (l', .error e) => (l ++ l', c, .error e)
          | (l', .ok s') => (l ++ l', { c with state := s', buffer := [] }, .ok (some pdu))

/-! ### transport.py and client.py

`tr` is the transport object: `transport=self` of transport.py:127, 135, 230, 238. -/

/-- What `transport.send(data)` logs, by its outcome: transport.py:125-129 and 228-232. -/
def sentL (tr : PyVal) (data : Bytes) : Res Unit → List Record
  | .ok () => [debug "Sent data" [("data", .bytes data), ("transport", tr)]]
  | .error _ => []

/-- What `transport.recv()` logs, by its outcome: transport.py:133-138 and 236-241. -/
def receivedL (tr : PyVal) : Res Bytes → List Record
  | .ok d => [debug "Received data" [("data", .bytes d), ("transport", tr)]]
  | .error _ => []

/-- `self.elgas_connection.receive_data(self.transport.recv())` client.py:50-51, 57. -/
def Sys.receiveL (tr : PyVal) (s : Sys) : List Record × Outcome3 Unit × Sys :=
  match s.recvs with
  | [] => ([], .pending, s)
  | .error e :: rest => (receivedL tr (.error e), .raised e, { s with recvs := rest })
  | .ok d :: rest =>
    let (l, c) := s.conn.receiveDataL d
    (receivedL tr (.ok d) ++ l, .returned (), { s with recvs := rest, conn := c })

/-- `self.send(event)` client.py:46-51 for one event; the password in the event is the client's (`SecretStr`). -/
def Sys.sendL (p : Printing) (tr : PyVal) (C : BlockCipher) (s : Sys) (e : Event) : List Record × Outcome3 Unit × Sys :=
  match s.conn.sendL p true C e (s.rands s.draws) with
  | (l, c, .error x) => (l, .raised x, { s with conn := c, draws := s.draws + 1 })
  | (l, c, .ok data) =>
    let s := { s with conn := c, draws := s.draws + 1, handed := s.handed ++ [data] }
    match s.sends with
    | [] => (l, .pending, s)
    | .error x :: rest => (l ++ sentL tr data (.error x), .raised x, { s with sends := rest })
    | .ok () :: rest =>
      let (l', o) := Sys.receiveL tr { s with sends := rest }
      (l ++ sentL tr data (.ok ()) ++ l', o)

/-- The loop of `next_event` client.py:53-59. -/
def nextEventLoopL (p : Printing) (tr : PyVal) (C : BlockCipher) (c : Conn) (rs : List (Res Bytes)) :
    List Record × Outcome3 Event × Conn × List (Res Bytes) :=
  match c.nextEventL p C with
  | (l, c, .error e) => (l, .raised e, c, rs)
  | (l, c, .ok (some ev)) => (l, .returned ev, c, rs)
  | (l, c, .ok none) =>
    match rs with
    | [] => (l, .pending, c, [])
    | .error e :: rest => (l ++ receivedL tr (.error e), .raised e, c, rest)
    | .ok d :: rest =>
      let (l', c) := c.receiveDataL d
      let (l'', o) := nextEventLoopL p tr C c rest
      (l ++ receivedL tr (.ok d) ++ l' ++ l'', o)
termination_by structural rs

/-- `next_event` client.py:53-59. -/
def Sys.nextEventL (p : Printing) (tr : PyVal) (C : BlockCipher) (s : Sys) : List Record × Outcome3 Event × Sys :=
  let (l, o, c, rs) := nextEventLoopL p tr C s.conn s.recvs
  (l, o, { s with conn := c, recvs := rs })

/-- `self.send(request); response = self.next_event()`. client.py:63-65 and the like. -/
def Sys.exchangeL (p : Printing) (tr : PyVal) (C : BlockCipher) (s : Sys) (e : Event) :
    List Record × Outcome3 Event × Sys :=
  match s.sendL p tr C e with
  | (l, .returned (), s) =>
    let (l', o) := s.nextEventL p tr C
    (l ++ l', o)
  | (l, .raised x, s) => (l, .raised x, s)
  | (l, .pending, s) => (l, .pending, s)

/-! ### Dropping the records -/

theorem ok_bind {α β : Type} (a : α) (f : α → Res β) : (Except.ok a >>= f) = f a := rfl

theorem processEventL_erase (s : PState) (e : Event) : (processEventL s e).2 = processEvent s e := by
  unfold processEventL processEvent
  split <;> simp_all

theorem serialiseL_erase (C : BlockCipher) (c : Conn) (e : Event) (r : Rand) :
    (c.serialiseL C e r).2 = c.serialise C e r := by
  have h : (c.serialiseL C e r).2 = c.requestObject C e r >>= fun x =>
      requestToBytes (if x.1 then encryptedRequestType else requestType) x.2 >>= escapeCharacters := by
    unfold Conn.serialiseL
    cases c.requestObject C e r with
    | error x => rfl
    | ok x =>
      obtain ⟨b, f⟩ := x
      rw [ok_bind]
  rw [h]
  unfold Conn.requestObject Conn.serialise
  rw [bind_assoc]
  congr 1
  funext b
  cases c.cipherContext with
  | none => simp only [bind_assoc, pure_bind]; rfl
  | some ctx => simp only [bind_assoc, pure_bind]; rfl

theorem sendL_erase (p : Printing) (secret : Bool) (C : BlockCipher) (c : Conn) (e : Event) (r : Rand) :
    (c.sendL p secret C e r).2 = c.send C e r := by
  unfold Conn.sendL Conn.send
  rw [← processEventL_erase]
  cases h : processEventL c.state e with
  | mk l o =>
    cases o with
    | error x => rfl
    | ok s' =>
      dsimp only
      rw [← serialiseL_erase]

theorem receiveDataL_erase (c : Conn) (d : Bytes) : (c.receiveDataL d).2 = c.receiveData d := by
  unfold Conn.receiveDataL Conn.receiveData
  split
  · rfl
  · split <;> rfl

theorem interpretL_erase (C : BlockCipher) (c : Conn) (d : Bytes) : (c.interpretL C d).2 = c.interpret C d := by
  unfold Conn.interpretL Conn.interpret
  cases returnCharacters d with
  | error x => rfl
  | ok raw =>
    cases hf : responseFactory raw with
    | error x => simp only [bind, Except.bind, hf]
    | ok ef =>
      obtain ⟨enc, f⟩ := ef
      simp only [bind, Except.bind, hf]
      cases enc with
      | false =>
        simp only [Bool.false_eq_true, if_false]
        rfl
      | true =>
        simp only [if_true]
        cases c.cipherContext with
        | none => rfl
        | some ctx =>
          dsimp only
          cases ctx.decrypt C f.data with
          | error x => rfl
          | ok d =>
            rfl

theorem nextEventL_erase (p : Printing) (C : BlockCipher) (c : Conn) : (c.nextEventL p C).2 = c.nextEvent C := by
  unfold Conn.nextEventL Conn.nextEvent
  split
  · rfl
  · cases indexEnd c.buffer with
    | none => rfl
    | some i =>
      dsimp only
      rw [← interpretL_erase]
      cases h : c.interpretL C (sliceTo c.buffer (↑i + 1)) with
      | mk l o =>
        cases o with
        | error e => dsimp only; split <;> rfl
        | ok f =>
          dsimp only
          cases pduFromResponse f with
          | error e => rfl
          | ok pdu =>
            dsimp only
            rw [← processEventL_erase]
            cases processEventL c.state pdu with
            | mk l o => cases o <;> rfl

theorem receiveL_erase (tr : PyVal) (s : Sys) : (s.receiveL tr).2 = s.receive := by
  unfold Sys.receiveL Sys.receive
  split
  · next h => simp [h]
  · next h => simp [h]
  · next h => simp [h, receiveDataL_erase]

theorem sysSendL_erase (p : Printing) (tr : PyVal) (C : BlockCipher) (s : Sys) (e : Event) :
    (s.sendL p tr C e).2 = s.send C e := by
  unfold Sys.sendL Sys.send
  rw [← sendL_erase p true]
  cases h : s.conn.sendL p true C e (s.rands s.draws) with
  | mk l o =>
    obtain ⟨c, o⟩ := o
    cases o with
    | error x => rfl
    | ok d =>
      dsimp only
      cases s.sends with
      | nil => rfl
      | cons x rest =>
        cases x with
        | error x => rfl
        | ok u => dsimp only; rw [← receiveL_erase tr]

theorem nextEventLoopL_erase (p : Printing) (tr : PyVal) (C : BlockCipher) (c : Conn) (rs : List (Res Bytes)) :
    (nextEventLoopL p tr C c rs).2 = nextEventLoop C c rs := by
  induction rs generalizing c with
  | nil =>
    unfold nextEventLoopL nextEventLoop
    rw [← nextEventL_erase p]
    cases c.nextEventL p C with
    | mk l o => obtain ⟨c, o⟩ := o; cases o with | error e => rfl | ok o => cases o <;> rfl
  | cons r rs ih =>
    unfold nextEventLoopL nextEventLoop
    rw [← nextEventL_erase p]
    cases c.nextEventL p C with
    | mk l o =>
      obtain ⟨c, o⟩ := o
      cases o with
      | error e => rfl
      | ok o =>
        cases o with
        | some ev => rfl
        | none =>
          cases r with
          | error e => rfl
          | ok d => dsimp only; rw [ih, receiveDataL_erase]

theorem sysNextEventL_erase (p : Printing) (tr : PyVal) (C : BlockCipher) (s : Sys) :
    (s.nextEventL p tr C).2 = s.nextEvent C := by
  unfold Sys.nextEventL Sys.nextEvent
  rw [← nextEventLoopL_erase p tr]

theorem exchangeL_erase (p : Printing) (tr : PyVal) (C : BlockCipher) (s : Sys) (e : Event) :
    (s.exchangeL p tr C e).2 = s.exchange C e := by
  unfold Sys.exchangeL Sys.exchange
  rw [← sysSendL_erase p tr]
  cases s.sendL p tr C e with
  | mk l o =>
    obtain ⟨o, s⟩ := o
    cases o with
    | returned u => dsimp only; rw [sysNextEventL_erase]
    | raised x => rfl
    | pending => rfl

/-! ### The calls of the client -/

/-- `w` decimal digits. Part of `isoformat()`, client.py:74, 78. -/
def decDigits (w n : Nat) : PyStr := List.replicate (w - (Nat.toDigits 10 n).length) '0' ++ Nat.toDigits 10 n

/-- `datetime.isoformat()` of a naive `datetime`. client.py:74, 78. -/
def isoformat (t : DateTime) : PyStr :=
  decDigits 4 t.year ++ ['-'] ++ decDigits 2 t.month ++ ['-'] ++ decDigits 2 t.day ++ ['T'] ++
    decDigits 2 t.hour ++ [':'] ++ decDigits 2 t.minute ++ [':'] ++ decDigits 2 t.second ++
    (if t.microsecond ≠ 0 then ['.'] ++ decDigits 6 t.microsecond else [])

/-- `read_instantaneous_values` client.py:61-67. -/
def Sys.readInstantaneousValuesL (p : Printing) (tr : PyVal) (C : BlockCipher) (s : Sys) :
    List Record × Outcome3 Event × Sys :=
  let (l, o, s) := s.exchangeL p tr C (.readInstantaneousValuesRequest { password := s.password })
  let l := [info "Reading instantaneous values"] ++ l
  match o with
  | .returned _ => (l ++ [info "Received instantaneous values"], o, s)
  | _ => (l, o, s)

/-- `read_time` client.py:69-75. -/
def Sys.readTimeL (p : Printing) (tr : PyVal) (C : BlockCipher) (s : Sys) : List Record × Outcome3 DateTime × Sys :=
  let (l, o, s) := s.exchangeL p tr C (.readTimeRequest {})
  let l := [info "Reading device time"] ++ l
  match o.andThen timeOf with
  | .returned t => (l ++ [info "Got device time" [("time", .str (isoformat t))]], .returned t, s)
  | o => (l, o, s)

/-- `write_time` client.py:77-84. -/
def Sys.writeTimeL (p : Printing) (tr : PyVal) (C : BlockCipher) (s : Sys) (t : DateTime) (cryout : Bool) :
    List Record × Outcome3 Unit × Sys :=
  let (l, o, s) := s.exchangeL p tr C (.writeTimeRequest { password := s.password, deviceTime := t, cryout })
  let l := [info "Writing time to device" [("time", .str (isoformat t))]] ++ l
  match o.andThen fun _ => .returned () with
  | .returned () => (l ++ [info "Finished writing time to device"], .returned (), s)
  | o => (l, o, s)

/-- `read_archive` client.py:109-120 (logs nothing itself). -/
def Sys.readArchiveL (p : Printing) (tr : PyVal) (C : BlockCipher) (s : Sys) (archive amount oldestRecordId : Int) :
    List Record × Outcome3 Event × Sys :=
  s.exchangeL p tr C (.readArchiveRequest { password := s.password, archive, amount, oldestRecordId })

/-- `read_archive_by_time` client.py:122-133 (logs nothing itself). -/
def Sys.readArchiveByTimeL (p : Printing) (tr : PyVal) (C : BlockCipher) (s : Sys) (archive amount : Int)
    (oldestTimestamp : DateTime) : List Record × Outcome3 Event × Sys :=
  s.exchangeL p tr C (.readArchiveByTimeRequest { password := s.password, archive, amount, oldestTimestamp })

/-- The loop of `read_parameters` client.py:91-103. -/
def Sys.readPagesL (p : Printing) (tr : PyVal) (C : BlockCipher) (s : Sys) (objectCount : Int) (total : Bytes) :
    List Record × Outcome3 Bytes × Sys :=
  let ask := [info "Requesting device parameters" [("object_count", .int objectCount)]]
  match _h : s.exchangeL p tr C (.readDeviceParametersRequest
      { password := s.password, objectCount, bufferLength := 1024 }) with
  | (l, .raised e, s') => (ask ++ l, .raised e, s')
  | (l, .pending, s') => (ask ++ l, .pending, s')
  | (l, .returned (.readDeviceParametersResponse r), s') =>
    let l := ask ++ l ++ [info "Received device parameters" [("object_amount", .int r.objectAmount)]]
    if r.isEnd then (l, .returned (total ++ r.data), s')
    else
      let (l', o) := s'.readPagesL p tr C (objectCount + r.objectAmount) (total ++ r.data)
      (l ++ [info "More parameters available" [("next_object_count", .int (objectCount + r.objectAmount))]] ++ l', o)
  | (l, .returned _, s') => (ask ++ l, .raised .attribute, s')
termination_by s.recvs.length
decreasing_by
  have h := exchangeL_erase p tr C s (.readDeviceParametersRequest
      { password := s.password, objectCount, bufferLength := 1024 })
  rw [_h] at h
  exact exchange_recvs h.symm

/-- `read_parameters` client.py:86-107. -/
def Sys.readParametersL (p : Printing) (tr : PyVal) (C : BlockCipher) (s : Sys) (readFrom : Int) :
    List Record × Outcome3 (List PObj) × Sys :=
  let (l, o, s) := s.readPagesL p tr C readFrom []
  let l := [info "Reading device parameters" [("read_from", .int readFrom)]] ++ l
  match o with
  | .returned d =>
    (l ++ [debug "Received total parameters data" [("data", .bytes d)]], .ofRes (parseParameters none (some d)), s)
  | .raised e => (l, .raised e, s)
  | .pending => (l, .pending, s)

theorem readPagesL_erase (p : Printing) (tr : PyVal) (C : BlockCipher) (s : Sys) (n : Int) (total : Bytes) :
    (s.readPagesL p tr C n total).2 = s.readPages C n total := by
  fun_induction Sys.readPages C s n total with
  | case1 s n total e s' h =>
    unfold Sys.readPagesL
    rw [← exchangeL_erase p tr] at h
    split <;> simp_all
  | case2 s n total s' h =>
    unfold Sys.readPagesL
    rw [← exchangeL_erase p tr] at h
    split <;> simp_all
  | case3 s n total r s' h he =>
    unfold Sys.readPagesL
    rw [← exchangeL_erase p tr] at h
    split <;> simp_all
  | case4 s n total r s' h he ih =>
    unfold Sys.readPagesL
    rw [← exchangeL_erase p tr] at h
    split <;> simp_all
  | case5 s n total ev s' hne h =>
    unfold Sys.readPagesL
    rw [← exchangeL_erase p tr] at h
    split
    · simp_all
    · simp_all
    · next h' => rw [h'] at h; injection h with h _; injection h with h; exact absurd h.symm (hne _)
    · simp_all

theorem readInstantaneousValuesL_erase (p : Printing) (tr : PyVal) (C : BlockCipher) (s : Sys) :
    (s.readInstantaneousValuesL p tr C).2 = s.readInstantaneousValues C := by
  unfold Sys.readInstantaneousValuesL Sys.readInstantaneousValues
  rw [← exchangeL_erase p tr]
  cases s.exchangeL p tr C _ with
  | mk l o => obtain ⟨o, s⟩ := o; cases o <;> rfl

theorem readTimeL_erase (p : Printing) (tr : PyVal) (C : BlockCipher) (s : Sys) :
    (s.readTimeL p tr C).2 = s.readTime C := by
  unfold Sys.readTimeL Sys.readTime
  rw [← exchangeL_erase p tr]
  cases s.exchangeL p tr C _ with
  | mk l o => obtain ⟨o, s⟩ := o; dsimp only; cases o.andThen timeOf <;> rfl

theorem writeTimeL_erase (p : Printing) (tr : PyVal) (C : BlockCipher) (s : Sys) (t : DateTime) (b : Bool) :
    (s.writeTimeL p tr C t b).2 = s.writeTime C t b := by
  unfold Sys.writeTimeL Sys.writeTime
  rw [← exchangeL_erase p tr]
  cases s.exchangeL p tr C _ with
  | mk l o => obtain ⟨o, s⟩ := o; cases o <;> rfl

theorem readArchiveL_erase (p : Printing) (tr : PyVal) (C : BlockCipher) (s : Sys) (a n i : Int) :
    (s.readArchiveL p tr C a n i).2 = s.readArchive C a n i := exchangeL_erase ..

theorem readArchiveByTimeL_erase (p : Printing) (tr : PyVal) (C : BlockCipher) (s : Sys) (a n : Int) (t : DateTime) :
    (s.readArchiveByTimeL p tr C a n t).2 = s.readArchiveByTime C a n t := exchangeL_erase ..

theorem readParametersL_erase (p : Printing) (tr : PyVal) (C : BlockCipher) (s : Sys) (n : Int) :
    (s.readParametersL p tr C n).2 = s.readParameters C n := by
  unfold Sys.readParametersL Sys.readParameters
  rw [← readPagesL_erase p tr]
  cases s.readPagesL p tr C n [] with
  | mk l o => obtain ⟨o, s⟩ := o; cases o <;> rfl

end Elgas
