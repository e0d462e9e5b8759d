import Verif.Model.Program
import Verif.Model.Log
/-!
The log of a client that holds one of the transports of /repo/elgas/transport.py: the functions of Model/Program with
the records they log, in order.  `*_erase` shows that dropping the records gives back the function without logging.
-/
namespace Elgas

/-- The arguments with which a transport was made: transport.py:75-76 (`host`, `port`) and 183-184 (`port`,
`baud_rate`). -/
inductive Place
  | tcp (host : PyStr) (port : Int)
  | serial (port : PyStr) (baudRate : Int)

/-- The class of the transport. transport.py:69, 177. -/
def Place.kind : Place → Kind
  | .tcp .. => .tcp
  | .serial .. => .serial

/-- What the log calls print of a transport: its arguments, and how the `repr` of each handle looks (`socket.socket`
and `serial.Serial` are of other libraries). transport.py:78, 186. -/
structure Look where
  place : Place
  handle : Handle → PyStr

/-- `{self.address}` (a tuple) and `{self.port}` in the f-strings of transport.py:103, 119, 207, 222. -/
def Look.address (p : Printing) (look : Look) : String :=
  match look.place with
  | .tcp host port => String.ofList (['('] ++ strRepr p host ++ [',', ' '] ++ pyStrInt port ++ [')'])
  | .serial port _ => String.ofList port

/-- The transport object as an argument of a log call: transport.py:75-78, 183-186. -/
def Look.val (look : Look) (t : Transport) : PyVal :=
  let handle := match t.socket with | none => .none | some h => .foreign (look.handle h)
  match look.place with
  | .tcp host port => .obj "BlockingTcpTransport" (.of [("host", .str host), ("port", .int port),
      ("timeout", optVal .int t.timeout), ("tcp_socket", handle)])
  | .serial port baudRate => .obj "SerialTransport" (.of [("port", .str port), ("baud_rate", .int baudRate),
      ("timeout", optVal .int t.timeout), ("serial_port", handle)])

/-- `connect` client.py:40-41; the record is that of transport.py:103, 207. -/
def World.connectL (p : Printing) (look : Look) (w : World) : List Record × Outcome3 Unit × World :=
  match w.connect with
  | (.returned (), w') => ([info ("Connected to " ++ look.address p)], .returned (), w')
  | (o, w') => ([], o, w')

/-- `disconnect` client.py:43-44; the record is that of transport.py:119, 222, inside `if self.tcp_socket` (110) and
`if self.serial_port` (214). -/
def World.disconnectL (p : Printing) (look : Look) (w : World) : List Record × Outcome3 Unit × World :=
  match w.disconnect with
  | (.returned (), w') =>
    (match w.transport.socket with
      | some _ => [info ("Connection to " ++ look.address p ++ " is closed")]
      | none => [], .returned (), w')
  | (o, w') => ([], o, w')

/-- `self.transport.send(data)` client.py:49; the record is that of transport.py:127, 230. -/
def World.writeL (look : Look) (w : World) (data : Bytes) : List Record × Outcome3 Unit × World :=
  match w.write data with
  | (.returned (), w') => (sentL (look.val w.transport) data (.ok ()), .returned (), w')
  | (o, w') => ([], o, w')

/-- `self.elgas_connection.receive_data(self.transport.recv())` client.py:50-51, 57; the records are those of
transport.py:135, 238 and connection.py:141-158. -/
def World.receiveL (look : Look) (w : World) : List Record × Outcome3 Unit × World :=
  match w.transport.recv w.unread w.clock with
  | (.returned d, s, c) =>
    let (l, conn) := w.conn.receiveDataL d
    (receivedL (look.val w.transport) (.ok d) ++ l, .returned (), { w.setUnread s c with conn })
  | (.raised e, s, c) => ([], .raised e, w.setUnread s c)
  | (.pending, s, c) => ([], .pending, w.setUnread s c)

/-- `self.send(event)` client.py:46-51 for one event; `secret`: the password in it is a `SecretStr`. -/
def World.sendL (p : Printing) (look : Look) (secret : Bool) (C : BlockCipher) (w : World) (e : Event) :
    List Record × Outcome3 Unit × World :=
  match w.conn.sendL p secret C e (w.rands w.draws) with
  | (l, c, .error x) => (l, .raised x, { w with conn := c, draws := w.draws + 1 })
  | (l, c, .ok data) =>
    match ({ w with conn := c, draws := w.draws + 1 } : World).writeL look data with
    | (l', .returned (), w) =>
      let (l'', o) := w.receiveL look
      (l ++ l' ++ l'', o)
    | (l', o) => (l ++ l', o)

/-- `self.send(*events)` client.py:46-51. -/
def World.sendAllL (p : Printing) (look : Look) (secret : Bool) (C : BlockCipher) (w : World) :
    List Event → List Record × Outcome3 Unit × World
  | [] => ([], .returned (), w)
  | e :: es =>
    match w.sendL p look secret C e with
    | (l, .returned (), w) =>
      let (l', o) := w.sendAllL p look secret C es
      (l ++ l', o)
    | r => r

/-- The loop of `next_event` client.py:53-59. -/
def worldLoopL (p : Printing) (look : Look) (C : BlockCipher) (t : Transport) (c : Conn) (s : List Delivery) (k : Clock) :
    List Record × Outcome3 Event × Conn × List Delivery × Clock :=
  match c.nextEventL p C with
  | (l, c, .error e) => (l, .raised e, c, s, k)
  | (l, c, .ok (some ev)) => (l, .returned ev, c, s, k)
  | (l, c, .ok none) =>
    match _h : t.recv s k with
    | (.returned d, s, k) =>
      let (l', c) := c.receiveDataL d
      let (l'', o) := worldLoopL p look C t c s k
      (l ++ receivedL (look.val t) (.ok d) ++ l' ++ l'', o)
    | (.raised e, s, k) => (l, .raised e, c, s, k)
    | (.pending, s, k) => (l, .pending, c, s, k)
termination_by weight s
decreasing_by exact recv_weight _h

/-- `next_event` client.py:53-59. -/
def World.nextEventL (p : Printing) (look : Look) (C : BlockCipher) (w : World) : List Record × Outcome3 Event × World :=
  let (l, o, c, s, k) := worldLoopL p look C w.transport w.conn w.unread w.clock
  (l, o, { w.setUnread s k with conn := c })

/-- `self.send(request); response = self.next_event()`; the password in the request is the client's (`SecretStr`).
client.py:63-65, 71-73, 79-83, 93-97, 112-120, 125-133. -/
def World.exchangeL (p : Printing) (look : Look) (C : BlockCipher) (w : World) (e : Event) :
    List Record × Outcome3 Event × World :=
  match w.sendL p look true C e with
  | (l, .returned (), w) =>
    let (l', o) := w.nextEventL p look C
    (l ++ l', o)
  | (l, .raised x, w) => (l, .raised x, w)
  | (l, .pending, w) => (l, .pending, w)

/-! ### Dropping the records -/

theorem connectL_erase (p : Printing) (look : Look) (w : World) : (w.connectL p look).2 = w.connect := by
  unfold World.connectL
  split
  · next h => rw [h]
  · next h => rw [h]

theorem disconnectL_erase (p : Printing) (look : Look) (w : World) : (w.disconnectL p look).2 = w.disconnect := by
  unfold World.disconnectL
  split
  · next h => rw [h]
  · next h => rw [h]

theorem writeL_erase (look : Look) (w : World) (d : Bytes) : (w.writeL look d).2 = w.write d := by
  unfold World.writeL
  split
  · next h => rw [h]
  · next h => rw [h]

theorem worldReceiveL_erase (look : Look) (w : World) : (w.receiveL look).2 = w.receive := by
  unfold World.receiveL World.receive
  split
  · next h => dsimp only; rw [h, receiveDataL_erase]
  · next h => rw [h]
  · next h => rw [h]

theorem worldSendL_erase (p : Printing) (look : Look) (secret : Bool) (C : BlockCipher) (w : World) (e : Event) :
    (w.sendL p look secret C e).2 = w.send C e := by
  unfold World.sendL World.send
  rw [← sendL_erase p secret]
  cases w.conn.sendL p secret C e (w.rands w.draws) with | mk l o =>
  obtain ⟨c, o⟩ := o
  cases o with
  | error x => rfl
  | ok data =>
    dsimp only
    rw [← writeL_erase look]
    cases ({ w with conn := c, draws := w.draws + 1 } : World).writeL look data with | mk l' o =>
    obtain ⟨o, w1⟩ := o
    cases o with
    | returned u => dsimp only; rw [← worldReceiveL_erase look]
    | raised x => rfl
    | pending => rfl

theorem sendAllL_erase (p : Printing) (look : Look) (secret : Bool) (C : BlockCipher) (w : World) (es : List Event) :
    (w.sendAllL p look secret C es).2 = w.sendAll C es := by
  induction es generalizing w with
  | nil => rfl
  | cons e es ih =>
    unfold World.sendAllL World.sendAll
    rw [← worldSendL_erase p look secret]
    cases w.sendL p look secret C e with | mk l o =>
    obtain ⟨o, w1⟩ := o
    cases o with
    | returned u => dsimp only; rw [← ih]
    | raised x => rfl
    | pending => rfl

theorem worldLoopL_erase (p : Printing) (look : Look) (C : BlockCipher) (t : Transport) (c : Conn) (s : List Delivery)
    (k : Clock) : (worldLoopL p look C t c s k).2 = worldLoop C t c s k := by
  fun_induction worldLoopL p look C t c s k with
  | case1 c s k l c1 e hn => unfold worldLoop; rw [← nextEventL_erase p, hn]
  | case2 c s k l c1 ev hn => unfold worldLoop; rw [← nextEventL_erase p, hn]
  | case3 c s k l c1 hn d s1 k1 hr l' c2 hd l'' o hrec ih =>
    unfold worldLoop
    rw [← nextEventL_erase p, hn]
    dsimp only
    rw [hrec] at ih
    have : c2 = c1.receiveData d := by rw [← receiveDataL_erase, hd]
    split
    · next h' => rw [hr] at h'; cases h'; rw [← this]; exact ih
    · next h' => rw [hr] at h'; cases h'
    · next h' => rw [hr] at h'; cases h'
  | case4 c s k l c1 hn e s1 k1 hr =>
    unfold worldLoop
    rw [← nextEventL_erase p, hn]
    dsimp only
    split <;> simp_all
  | case5 c s k l c1 hn s1 k1 hr =>
    unfold worldLoop
    rw [← nextEventL_erase p, hn]
    dsimp only
    split <;> simp_all

theorem worldNextEventL_erase (p : Printing) (look : Look) (C : BlockCipher) (w : World) :
    (w.nextEventL p look C).2 = w.nextEvent C := by
  unfold World.nextEventL World.nextEvent
  rw [← worldLoopL_erase p look]

theorem worldExchangeL_erase (p : Printing) (look : Look) (C : BlockCipher) (w : World) (e : Event) :
    (w.exchangeL p look C e).2 = w.exchange C e := by
  unfold World.exchangeL World.exchange
  rw [← worldSendL_erase p look true]
  cases w.sendL p look true C e with | mk l o =>
  obtain ⟨o, w1⟩ := o
  cases o with
  | returned u => dsimp only; rw [worldNextEventL_erase]
  | raised x => rfl
  | pending => rfl

/-! ### The calls of the client -/

/-- `read_instantaneous_values` client.py:61-67. -/
def World.readInstantaneousValuesL (p : Printing) (look : Look) (C : BlockCipher) (w : World) :
    List Record × Outcome3 Event × World :=
  let (l, o, w) := w.exchangeL p look C (.readInstantaneousValuesRequest { password := w.password })
  let l := [info "Reading instantaneous values"] ++ l
  match o with
  | .returned _ => (l ++ [info "Received instantaneous values"], o, w)
  | _ => (l, o, w)

/-- `read_time` client.py:69-75. -/
def World.readTimeL (p : Printing) (look : Look) (C : BlockCipher) (w : World) :
    List Record × Outcome3 DateTime × World :=
  let (l, o, w) := w.exchangeL p look C (.readTimeRequest {})
  let l := [info "Reading device time"] ++ l
  match o.andThen timeOf with
  | .returned t => (l ++ [info "Got device time" [("time", .str (isoformat t))]], .returned t, w)
  | o => (l, o, w)

/-- `write_time` client.py:77-84. -/
def World.writeTimeL (p : Printing) (look : Look) (C : BlockCipher) (w : World) (t : DateTime) (cryout : Bool) :
    List Record × Outcome3 Unit × World :=
  let (l, o, w) := w.exchangeL p look C (.writeTimeRequest { password := w.password, deviceTime := t, cryout })
  let l := [info "Writing time to device" [("time", .str (isoformat t))]] ++ l
  match o.andThen fun _ => .returned () with
  | .returned () => (l ++ [info "Finished writing time to device"], .returned (), w)
  | o => (l, o, w)

/-- `read_archive` client.py:109-120 (logs nothing itself). -/
def World.readArchiveL (p : Printing) (look : Look) (C : BlockCipher) (w : World)
    (archive amount oldestRecordId : Int) : List Record × Outcome3 Event × World :=
  w.exchangeL p look C (.readArchiveRequest { password := w.password, archive, amount, oldestRecordId })

/-- `read_archive_by_time` client.py:122-133 (logs nothing itself). -/
def World.readArchiveByTimeL (p : Printing) (look : Look) (C : BlockCipher) (w : World) (archive amount : Int)
    (oldestTimestamp : DateTime) : List Record × Outcome3 Event × World :=
  w.exchangeL p look C (.readArchiveByTimeRequest { password := w.password, archive, amount, oldestTimestamp })

/-- The loop of `read_parameters` client.py:91-103. -/
def World.readPagesL (p : Printing) (look : Look) (C : BlockCipher) (w : World) (objectCount : Int) (total : Bytes) :
    List Record × Outcome3 Bytes × World :=
  let ask := [info "Requesting device parameters" [("object_count", .int objectCount)]]
  match _h : w.exchangeL p look C (.readDeviceParametersRequest
      { password := w.password, objectCount, bufferLength := 1024 }) with
  | (l, .raised e, w') => (ask ++ l, .raised e, w')
  | (l, .pending, w') => (ask ++ l, .pending, w')
  | (l, .returned (.readDeviceParametersResponse r), w') =>
    let l := ask ++ l ++ [info "Received device parameters" [("object_amount", .int r.objectAmount)]]
    if r.isEnd then (l, .returned (total ++ r.data), w')
    else
      let (l', o) := w'.readPagesL p look C (objectCount + r.objectAmount) (total ++ r.data)
      (l ++ [info "More parameters available" [("next_object_count", .int (objectCount + r.objectAmount))]] ++ l', o)
  | (l, .returned _, w') => (ask ++ l, .raised .attribute, w')
termination_by weight w.unread
decreasing_by
  have h := worldExchangeL_erase p look C w (.readDeviceParametersRequest
      { password := w.password, objectCount, bufferLength := 1024 })
  rw [_h] at h
  exact world_exchange_weight h.symm

/-- `read_parameters` client.py:86-107. -/
def World.readParametersL (p : Printing) (look : Look) (C : BlockCipher) (w : World) (readFrom : Int) :
    List Record × Outcome3 (List PObj) × World :=
  let (l, o, w) := w.readPagesL p look C readFrom []
  let l := [info "Reading device parameters" [("read_from", .int readFrom)]] ++ l
  match o with
  | .returned d =>
    (l ++ [debug "Received total parameters data" [("data", .bytes d)]], .ofRes (parseParameters none (some d)), w)
  | .raised e => (l, .raised e, w)
  | .pending => (l, .pending, w)

theorem worldReadInstantaneousValuesL_erase (p : Printing) (look : Look) (C : BlockCipher) (w : World) :
    (w.readInstantaneousValuesL p look C).2 = w.readInstantaneousValues C := by
  unfold World.readInstantaneousValuesL World.readInstantaneousValues
  rw [← worldExchangeL_erase p look]
  cases w.exchangeL p look C _ with
  | mk l o => obtain ⟨o, w⟩ := o; cases o <;> rfl

theorem worldReadTimeL_erase (p : Printing) (look : Look) (C : BlockCipher) (w : World) :
    (w.readTimeL p look C).2 = w.readTime C := by
  unfold World.readTimeL World.readTime
  rw [← worldExchangeL_erase p look]
  cases w.exchangeL p look C _ with
  | mk l o => obtain ⟨o, w⟩ := o; dsimp only; cases o.andThen timeOf <;> rfl

theorem worldWriteTimeL_erase (p : Printing) (look : Look) (C : BlockCipher) (w : World) (t : DateTime) (b : Bool) :
    (w.writeTimeL p look C t b).2 = w.writeTime C t b := by
  unfold World.writeTimeL World.writeTime
  rw [← worldExchangeL_erase p look]
  cases w.exchangeL p look C _ with
  | mk l o => obtain ⟨o, w⟩ := o; cases o <;> rfl

end Elgas
