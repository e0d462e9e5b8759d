import Verif.Model.ProgramLog
/-!
The texts of exceptions: `str(e)`.

The functions of the model that raise are repeated here with the text of the exception; `*_erase` shows that dropping
the texts gives back the function without them.  A text is `said` when the repository writes it (or leaves it empty), or
when it is that of an attrs validator or of the Latin-1 codec; the texts of the interpreter, of other libraries and of
the operating system are `foreign`.
-/
namespace Elgas

/-- `str(e)` of a raised exception. E.g. state.py:89-91. -/
inductive Text
  | said (s : PyStr)
  | foreign
  deriving DecidableEq, Repr

/-- The result of a call whose exceptions carry a text. E.g. state.py:89-91. -/
abbrev ResT := Except (PyErr × Text)

/-- Forget the text. E.g. state.py:89-91. -/
def ResT.erase {α : Type} : ResT α → Res α
  | .ok a => .ok a
  | .error x => .error x.1

/-- `raise X(text)`. E.g. state.py:89-91. -/
def say {α : Type} (e : PyErr) (s : String) : ResT α := .error (e, .said s.toList)

/-- A call whose exceptions are those of the interpreter or of another library. E.g. frames.py:55. -/
def foreign {α : Type} : Res α → ResT α
  | .ok a => .ok a
  | .error e => .error (e, .foreign)

/-- An integer in an f-string. E.g. frames.py:59. -/
def shown (n : Int) : String := String.ofList (pyStrInt n)

/-! ### state.py -/

/-- The `__name__` of the class of an event. application.py:24, 37, 80, 94, 128, 154, 170, 191, 218, 241, 265, 286,
308, 382. -/
def EventType.className : EventType → String
  | .readInstantaneousValuesRequest => "ReadInstantaneousValuesRequest"
  | .readTimeRequest => "ReadTimeRequest"
  | .writeTimeRequest => "WriteTimeRequest"
  | .readDeviceParametersRequest => "ReadDeviceParametersRequest"
  | .readArchiveByTimeRequest => "ReadArchiveByTimeRequest"
  | .readArchiveRequest => "ReadArchiveRequest"
  | .readInstantaneousValuesResponse => "ReadInstantaneousValuesResponse"
  | .readTimeResponse => "ReadTimeResponse"
  | .writeTimeResponse => "WriteTimeResponse"
  | .readDeviceParametersResponse => "ReadDeviceParametersResponse"
  | .readArchiveByTimeResponse => "ReadArchiveByTimeResponse"
  | .readArchiveResponse => "ReadArchiveResponse"
  | .callRequest => "CallRequest"
  | .callResponse => "CallResponse"

/-- `process_event` state.py:82-94: the text is that of line 90 (`{event_type}` prints the class, `{self.current_state}`
the name of the sentinel). -/
def processEventT (s : PState) (e : Event) : ResT PState :=
  match transitions s e.type with
  | some s' => .ok s'
  | none => say (.elgas .localProtocol)
      ("Can't handle <class 'elgas.application." ++ e.type.className ++ "'> when state=" ++ s.name)

/-! ### utils.py -/

/-- `escape_characters` utils.py:114-132. -/
def escapeCharactersT (data : Bytes) : ResT Bytes :=
  if !endsWith data [0x0D] then say .value "Data does not end with end-char 0x0D"
  else foreign (escapeCharacters data)

/-- `bytes_to_datetime` utils.py:182-208; `data` is `bytes`, and `{data!r}` prints it as such. -/
def bytesToDatetimeT (data : Bytes) : ResT (DateTime × Bool × Bool) :=
  if data.length ≠ 6 then say .value (String.ofList (bytesRepr data) ++ " is not a BCD encoded datetime")
  else foreign (bytesToDatetime data)

/-- `parse_ip_address` utils.py:272-276. -/
def parseIpAddressT (data : Bytes) : ResT PyStr :=
  if data.length ≠ 4 then say .value ("IP addreess data should be 4 bytes, got " ++ shown data.length)
  else foreign (parseIpAddress data)

/-- `pop_many` utils.py:248-254. -/
def popManyT (amount : Nat) (array : Bytes) : ResT (Bytes × Bytes) :=
  if amount < 2 then say .value "Only use pop_many if you need to get more than 1 byte"
  else foreign (popMany amount array)

/-- A character in the text of a `UnicodeEncodeError`: `\xNN`, `\uNNNN` or `\UNNNNNNNN` (CPython). application.py:34. -/
def encodeErrorChar (c : Char) : PyStr :=
  if c.toNat < 0x100 then ['\\', 'x'] ++ hexDigits 2 c.toNat
  else if c.toNat < 0x10000 then ['\\', 'u'] ++ hexDigits 4 c.toNat
  else ['\\', 'U'] ++ hexDigits 8 c.toNat

/-- The text of the `UnicodeEncodeError` of `s.encode("latin-1")`: the codec reports the first run of characters that it
cannot encode (CPython). application.py:34, 144, 184, 233, 278. -/
def encodeErrorText (s : PyStr) : PyStr :=
  let before := s.takeWhile fun c => c.toNat < 256
  let bad := (s.drop before.length).takeWhile fun c => 256 ≤ c.toNat
  match bad with
  | [c] => "'latin-1' codec can't encode character '".toList ++ encodeErrorChar c ++ "' in position ".toList ++
      pyStrInt before.length ++ ": ordinal not in range(256)".toList
  | _ => "'latin-1' codec can't encode characters in position ".toList ++ pyStrInt before.length ++ ['-'] ++
      pyStrInt ((before.length : Int) + bad.length - 1) ++ ": ordinal not in range(256)".toList

/-- `utils.pad_password(self.password).encode("latin-1")` application.py:34, 144, 184, 233, 278. -/
def passwordBlockT (password : PyStr) (r : PwRand) : ResT Bytes :=
  match passwordBlock password r with
  | .ok b => .ok b
  | .error e => .error (e, .said (encodeErrorText (padPassword password r)))

/-! ### frames.py -/

/-- `Request.from_bytes` frames.py:49-91 and `Response.from_bytes` frames.py:131-173; `name` is the class that line 52
or 134 names. -/
def frameFromBytesT (name : String) (ty : UInt8) (inBytes : Bytes) : ResT Frame :=
  if !startsWith inBytes [0x02, 0xFE, ty] then say .value ("Not a " ++ name ++ " frame")
  else if !endsWith inBytes [0x0D] then say .value "Data does not end with end char"
  else do
    let service ← foreign (ServiceNumber.ofValue (fromLE (slice inBytes 3 4)))
    let length := fromLE (slice inBytes 4 6)
    if (length : Int) ≠ (inBytes.length : Int) - 1 then
      say .value ("Length field does not correspond to length of data. Got " ++ shown ((inBytes.length : Int) - 1) ++
        ", should be " ++ shown length ++ " ")
    else do
      let da1 := fromLE (slice inBytes 6 8)
      let da2 := fromLE (slice inBytes 8 9)
      let sa1 := fromLE (slice inBytes 9 11)
      let sa2 := fromLE (slice inBytes 11 12)
      let data := slice inBytes 12 (-4)
      let redundancySource := slice inBytes 1 (-4)
      let lrc ← foreign (pyGet inBytes (-4))
      if lrc.toNat ≠ calculateLrc redundancySource then
        say .value ("Incorrect LRC. Got " ++ shown lrc.toNat ++ ", should be " ++ shown (calculateLrc redundancySource))
      else do
        let checksum ← foreign (pyGet inBytes (-3))
        if checksum.toNat ≠ calculateChecksum redundancySource then
          say .value ("Incorrect CHECKSUM. Got " ++ shown checksum.toNat ++ ", should be " ++
            shown (calculateChecksum redundancySource))
        else do
          let drc ← foreign (pyGet inBytes (-2))
          if drc.toNat ≠ calculateDrc redundancySource then
            say .value ("Incorrect DRC. Got " ++ shown drc.toNat ++ ", should be " ++ shown drc.toNat)
          else return { service, da1 := da1, da2 := da2, sa1 := sa1, sa2 := sa2, data }

/-- `ResponseFactory.from_bytes` frames.py:186-195. -/
def responseFactoryT (inData : Bytes) : ResT (Bool × Frame) :=
  if startsWith inData [0x02, 0xFE, 0x86] then do
    let f ← frameFromBytesT "Response" responseType inData
    return (false, f)
  else if startsWith inData [0x02, 0xFE, 0x87] then do
    let f ← frameFromBytesT "Response" encryptedResponseType inData
    return (true, f)
  else say .value "Data is not a response frame"

/-! ### security.py -/

/-- `CipherContext.decrypt` security.py:71-90; `crc` and `correct_crc` are `bytes`, as the library returns them. -/
def CipherContext.decryptT (C : BlockCipher) (c : CipherContext) (inData : Bytes) : ResT Bytes := do
  let header := sliceTo inData 3
  let encrypted := sliceFrom inData 3
  let originalLength := fromLE (sliceTo header 2)
  let keyId ← foreign (pyGet header 2)
  if (keyId.toNat : Int) ≠ c.keyId then say .assertion ""
  else do
    let decryptedData ← foreign (aesCbcDecrypt C encrypted c.key c.key)
    let len ← foreign (toBytesLE 2 originalLength)
    let forCrc := len ++ [keyId] ++ sliceTo decryptedData (-2)
    let crc ← foreign (toBytesBE 2 (calculateCrc forCrc))
    let correctCrc := sliceFrom decryptedData (-2)
    if crc ≠ correctCrc then
      say .value ("Incorrect CRC in encrypted data. Got " ++ String.ofList (bytesRepr crc) ++ " should be " ++
        String.ofList (bytesRepr correctCrc) ++ " ")
    else return sliceTo decryptedData (originalLength : Int)

/-! ### Erasing -/

theorem erase_bind {α β : Type} (x : ResT α) (f : α → ResT β) :
    ResT.erase (x >>= f) = (ResT.erase x >>= fun a => ResT.erase (f a)) := by
  cases x <;> rfl

theorem res_bind_congr {α β : Type} {x : Res α} {f g : α → Res β} (h : ∀ a, f a = g a) : (x >>= f) = (x >>= g) := by
  cases x with
  | error e => rfl
  | ok a => exact h a

theorem erase_foreign {α : Type} (x : Res α) : ResT.erase (foreign x) = x := by cases x <;> rfl

theorem erase_say {α : Type} (e : PyErr) (s : String) : ResT.erase (say e s : ResT α) = raise e := rfl

theorem erase_pure {α : Type} (a : α) : ResT.erase (pure a : ResT α) = (pure a : Res α) := rfl

theorem processEventT_erase (s : PState) (e : Event) : (processEventT s e).erase = processEvent s e := by
  unfold processEventT processEvent
  cases transitions s e.type <;> rfl

theorem escapeCharactersT_erase (d : Bytes) : (escapeCharactersT d).erase = escapeCharacters d := by
  unfold escapeCharactersT
  split
  · next h => unfold escapeCharacters; rw [if_pos h]; rfl
  · exact erase_foreign _

theorem bytesToDatetimeT_erase (d : Bytes) : (bytesToDatetimeT d).erase = bytesToDatetime d := by
  unfold bytesToDatetimeT
  split
  · next h => unfold bytesToDatetime; rw [if_pos h]; rfl
  · exact erase_foreign _

theorem parseIpAddressT_erase (d : Bytes) : (parseIpAddressT d).erase = parseIpAddress d := by
  unfold parseIpAddressT
  split
  · next h => unfold parseIpAddress; rw [if_pos h]; rfl
  · exact erase_foreign _

theorem popManyT_erase (n : Nat) (d : Bytes) : (popManyT n d).erase = popMany n d := by
  unfold popManyT
  split
  · next h => unfold popMany; rw [if_pos h]; rfl
  · exact erase_foreign _

theorem passwordBlockT_erase (s : PyStr) (r : PwRand) : (passwordBlockT s r).erase = passwordBlock s r := by
  unfold passwordBlockT
  cases passwordBlock s r <;> rfl

theorem frameFromBytesT_erase (name : String) (ty : UInt8) (d : Bytes) :
    (frameFromBytesT name ty d).erase = frameFromBytes ty d := by
  unfold frameFromBytesT frameFromBytes
  by_cases h1 : (!startsWith d [0x02, 0xFE, ty]) = true
  · rw [if_pos h1, if_pos h1]; rfl
  rw [if_neg h1, if_neg h1]
  by_cases h2 : (!endsWith d [0x0D]) = true
  · rw [if_pos h2]; dsimp only [pure_bind]; rw [if_pos h2]; rfl
  rw [if_neg h2]
  rw [erase_bind, erase_foreign]
  try dsimp only [pure_bind]
  rw [if_neg h2]
  try dsimp only [pure_bind]
  refine res_bind_congr fun s => ?_
  by_cases h3 : ((fromLE (slice d 4 6) : Nat) : Int) ≠ (d.length : Int) - 1
  · rw [if_pos h3, if_pos h3]; rfl
  rw [if_neg h3, if_neg h3]
  try dsimp only [pure_bind]
  rw [erase_bind, erase_foreign]
  refine res_bind_congr fun lrc => ?_
  split
  · rfl
  try dsimp only [pure_bind]
  rw [erase_bind, erase_foreign]
  refine res_bind_congr fun ck => ?_
  split
  · rfl
  try dsimp only [pure_bind]
  rw [erase_bind, erase_foreign]
  refine res_bind_congr fun drc => ?_
  split
  · rfl
  · rfl

theorem responseFactoryT_erase (d : Bytes) : (responseFactoryT d).erase = responseFactory d := by
  unfold responseFactoryT responseFactory
  split
  · rw [erase_bind, frameFromBytesT_erase]; rfl
  split
  · rw [erase_bind, frameFromBytesT_erase]; rfl
  · rfl

theorem decryptT_erase (C : BlockCipher) (c : CipherContext) (d : Bytes) : (c.decryptT C d).erase = c.decrypt C d := by
  unfold CipherContext.decryptT CipherContext.decrypt
  rw [erase_bind, erase_foreign]
  dsimp only
  refine res_bind_congr fun k => ?_
  by_cases h1 : (k.toNat : Int) ≠ c.keyId
  · rw [if_pos h1, if_pos h1]; rfl
  rw [if_neg h1, if_neg h1]
  try dsimp only [pure_bind]
  rw [erase_bind, erase_foreign]
  refine res_bind_congr fun dec => ?_
  rw [erase_bind, erase_foreign]
  refine res_bind_congr fun len => ?_
  rw [erase_bind, erase_foreign]
  refine res_bind_congr fun crc => ?_
  split
  · rfl
  · rfl

/-! ### application.py and connection.py -/

/-- `event.to_bytes()` connection.py:112: every request with a password encodes it first (application.py:34, 144, 184,
233, 278); the other exceptions are the interpreter's. -/
def Event.toBytesT (e : Event) (r : Rand) : ResT Bytes :=
  match e with
  | .readInstantaneousValuesRequest q => do let _ ← passwordBlockT q.password r.pw; foreign (e.toBytes r)
  | .writeTimeRequest q => do let _ ← passwordBlockT q.password r.pw; foreign (e.toBytes r)
  | .readDeviceParametersRequest q => do let _ ← passwordBlockT q.password r.pw; foreign (e.toBytes r)
  | .readArchiveByTimeRequest q => do let _ ← passwordBlockT q.password r.pw; foreign (e.toBytes r)
  | .readArchiveRequest q => do let _ ← passwordBlockT q.password r.pw; foreign (e.toBytes r)
  | _ => foreign (e.toBytes r)

/-- One validator `ge(bound)` of attrs: `'name' must be >= bound: value`. connection.py:80-96. -/
def geT (name : String) (bound value : Int) : ResT Unit :=
  if bound ≤ value then .ok ()
  else say .value ("'" ++ name ++ "' must be >= " ++ shown bound ++ ": " ++ shown value)

/-- One validator `le(bound)` of attrs. connection.py:80-96. -/
def leT (name : String) (bound value : Int) : ResT Unit :=
  if value ≤ bound then .ok ()
  else say .value ("'" ++ name ++ "' must be <= " ++ shown bound ++ ": " ++ shown value)

/-- One validator `max_len(bound)` of attrs: the text shows the length of the value. connection.py:93. -/
def maxLenT (name : String) (bound : Nat) (value : PyStr) : ResT Unit :=
  if value.length ≤ bound then .ok ()
  else say .value ("Length of '" ++ name ++ "' must be <= " ++ shown bound ++ ": " ++ shown value.length)

/-- `ElgasConnection(...)` connection.py:80-106. -/
def mkConnT (a : ConnArgs) : ResT Conn := do
  geT "source_address_1" 0 a.sourceAddress1
  leT "source_address_1" 65535 a.sourceAddress1
  geT "source_address_2" 0 a.sourceAddress2
  leT "source_address_2" 255 a.sourceAddress2
  geT "destination_address_1" 0 a.destinationAddress1
  leT "destination_address_1" 65535 a.destinationAddress1
  geT "destination_address_2" 0 a.destinationAddress2
  leT "destination_address_2" 255 a.destinationAddress2
  maxLenT "password" 6 a.password
  geT "password_id" 801 a.passwordId
  leT "password_id" 849 a.passwordId
  return { args := a, buffer := [], state := .idle, cipherContext := createCipherContext a }

/-- `send` after the state change: connection.py:112-139. -/
def Conn.serialiseT (C : BlockCipher) (c : Conn) (e : Event) (r : Rand) : ResT Bytes := do
  let applicationData ← e.toBytesT r
  match c.cipherContext with
  | some ctx => do
    let service ← foreign e.service
    let data ← foreign (ctx.encrypt C applicationData r.pad)
    let frameData ← foreign (requestToBytes encryptedRequestType
      { service, da1 := c.args.destinationAddress1, da2 := c.args.destinationAddress2,
        sa1 := c.args.sourceAddress1, sa2 := c.args.sourceAddress2, data })
    escapeCharactersT frameData
  | none => do
    let service ← foreign e.service
    let frameData ← foreign (requestToBytes requestType
      { service, da1 := c.args.destinationAddress1, da2 := c.args.destinationAddress2,
        sa1 := c.args.sourceAddress1, sa2 := c.args.sourceAddress2, data := applicationData })
    escapeCharactersT frameData

/-- `ElgasConnection.send` connection.py:108-139. -/
def Conn.sendT (C : BlockCipher) (c : Conn) (e : Event) (r : Rand) : Conn × ResT Bytes :=
  match processEventT c.state e with
  | .error x => (c, .error x)
  | .ok s' =>
    let c' := { c with state := s' }
    (c', c'.serialiseT C e r)

/-- `raise_error` connection.py:48-65: the exceptions are raised without a text (`exceptions.X()`). -/
def raiseErrorT (data : Bytes) : ResT Unit := do
  let _ ← foreign (pyGet data 0)
  match raiseError data with
  | .ok () => .ok ()
  | .error e => say e ""

/-- The `try` block connection.py:175-185. -/
def Conn.interpretT (C : BlockCipher) (c : Conn) (data : Bytes) : ResT Frame := do
  let raw ← foreign (returnCharacters data)
  let (encrypted, response) ← responseFactoryT raw
  let response ←
    if encrypted then
      match c.cipherContext with
      | none => .error (.attribute, .foreign)   -- None.decrypt
      | some ctx => do
        let d ← ctx.decryptT C response.data
        pure { response with data := d }
    else pure response
  if response.data.length = 1 then do
    raiseErrorT response.data
    return response
  else return response

/-- `ResponsePduFactory.from_response` connection.py:13-31: two of the classes read a time first
(application.py:58, 118); the other exceptions are the interpreter's. -/
def pduFromResponseT (f : Frame) : ResT Event :=
  match f.service with
  | .readValues => do let _ ← bytesToDatetimeT (sliceTo f.data 6); foreign (pduFromResponse f)
  | .readDeviceTime => do let _ ← bytesToDatetimeT (sliceTo f.data 6); foreign (pduFromResponse f)
  | _ => foreign (pduFromResponse f)

/-- `next_event` connection.py:160-197; `none` is `NEED_DATA`. -/
def Conn.nextEventT (C : BlockCipher) (c : Conn) : Conn × ResT (Option Event) :=
  if c.buffer.isEmpty then (c, .ok none)
  else
    match indexEnd c.buffer with
    | none => (c, .ok none)
    | some i =>
      let data := sliceTo c.buffer ((i : Int) + 1)
      match c.interpretT C data with
      | .error e => if e.1.isValueError then (c, .ok none) else (c, .error e)
      | .ok response =>
        match pduFromResponseT response with
        | .error e => (c, .error e)
        | .ok pdu =>
          match processEventT c.state pdu with
          | .error e => (c, .error e)
          | .ok s' => ({ c with state := s', buffer := [] }, .ok (some pdu))

/-- A guard with a text stands for a guard without one. -/
theorem guard_erase {α : Type} {P : Prop} [Decidable P] (t : String) (k : ResT α) (k' : Res α) (h : k.erase = k') :
    ResT.erase ((if P then (.ok () : ResT Unit) else say .value t) >>= fun _ => k) =
    (if ¬ P then (do raise .value; k') else k') := by
  by_cases hp : P
  · rw [if_pos hp, if_neg (fun hn => hn hp)]; exact h
  · rw [if_neg hp, if_pos hp]; rfl

theorem mkConnT_erase (a : ConnArgs) : (mkConnT a).erase = mkConn a := by
  unfold mkConnT mkConn geT leT maxLenT
  repeat' refine guard_erase _ _ _ ?_
  rfl

theorem toBytesT_erase (e : Event) (r : Rand) : (e.toBytesT r).erase = e.toBytes r := by
  have h : ∀ (s : PyStr) (x : Res Bytes), (∀ err, passwordBlock s r.pw = .error err → x = .error err) →
      ResT.erase (do let _ ← passwordBlockT s r.pw; foreign x) = x := by
    intro s x hx
    rw [erase_bind, passwordBlockT_erase, erase_foreign]
    cases hp : passwordBlock s r.pw with
    | error err => rw [hx err hp]; rfl
    | ok b => rfl
  unfold Event.toBytesT
  split
  all_goals first
    | exact erase_foreign _
    | (refine h _ _ fun err he => ?_
       first
       | exact he
       | (simp only [Event.toBytes, WriteTimeRequest.toBytes, ReadDeviceParametersRequest.toBytes,
            ReadArchiveByTimeRequest.toBytes, ReadArchiveRequest.toBytes]; rw [he]; rfl))

theorem serialiseT_erase (C : BlockCipher) (c : Conn) (e : Event) (r : Rand) :
    (c.serialiseT C e r).erase = c.serialise C e r := by
  unfold Conn.serialiseT Conn.serialise
  rw [erase_bind, toBytesT_erase]
  refine res_bind_congr fun d => ?_
  cases c.cipherContext with
  | none =>
    dsimp only
    rw [erase_bind, erase_foreign]
    refine res_bind_congr fun s => ?_
    rw [erase_bind, erase_foreign]
    exact res_bind_congr fun f => escapeCharactersT_erase f
  | some ctx =>
    dsimp only
    rw [erase_bind, erase_foreign]
    refine res_bind_congr fun s => ?_
    rw [erase_bind, erase_foreign]
    refine res_bind_congr fun x => ?_
    rw [erase_bind, erase_foreign]
    exact res_bind_congr fun f => escapeCharactersT_erase f

theorem connSendT_erase (C : BlockCipher) (c : Conn) (e : Event) (r : Rand) :
    ((c.sendT C e r).1, (c.sendT C e r).2.erase) = c.send C e r := by
  unfold Conn.sendT Conn.send
  rw [← processEventT_erase]
  cases processEventT c.state e with
  | error x => rfl
  | ok s => dsimp only [ResT.erase]; rw [← serialiseT_erase]; rfl

theorem raiseErrorT_erase (d : Bytes) : (raiseErrorT d).erase = raiseError d := by
  unfold raiseErrorT
  cases h : pyGet d 0 with
  | error e => unfold raiseError; rw [h]; rfl
  | ok b =>
    have : (foreign (.ok b : Res UInt8) >>= fun _ => match raiseError d with
      | .ok () => (.ok () : ResT Unit)
      | .error e => say e "") = match raiseError d with
      | .ok () => (.ok () : ResT Unit)
      | .error e => say e "" := rfl
    rw [this]
    cases raiseError d <;> rfl

theorem interpretT_erase (C : BlockCipher) (c : Conn) (d : Bytes) : (c.interpretT C d).erase = c.interpret C d := by
  unfold Conn.interpretT Conn.interpret
  rw [erase_bind, erase_foreign]
  refine res_bind_congr fun raw => ?_
  rw [erase_bind, responseFactoryT_erase]
  refine res_bind_congr fun x => ?_
  obtain ⟨b, f⟩ := x
  have hk : ∀ f : Frame, ResT.erase (if f.data.length = 1 then do
      raiseErrorT f.data
      return f
    else return f) = (do
      if f.data.length = 1 then raiseError f.data
      return f) := by
    intro f
    by_cases h : f.data.length = 1
    · rw [if_pos h, if_pos h, erase_bind, raiseErrorT_erase]; rfl
    · rw [if_neg h, if_neg h]; rfl
  cases b with
  | false => exact hk f
  | true =>
    cases c.cipherContext with
    | none => rfl
    | some ctx =>
      dsimp only
      rw [if_pos rfl, if_pos rfl, erase_bind, decryptT_erase]
      cases ctx.decrypt C f.data with
      | error e => rfl
      | ok p => exact hk { f with data := p }

theorem pduFromResponseT_erase (f : Frame) : (pduFromResponseT f).erase = pduFromResponse f := by
  unfold pduFromResponseT
  split
  · next h =>
    rw [erase_bind, bytesToDatetimeT_erase, erase_foreign]
    cases ht : bytesToDatetime (sliceTo f.data 6) with
    | ok t => rfl
    | error e =>
      unfold pduFromResponse ReadInstantaneousValuesResponse.fromBytes
      rw [h]
      dsimp only
      rw [ht]
      rfl
  · next h =>
    rw [erase_bind, bytesToDatetimeT_erase, erase_foreign]
    cases ht : bytesToDatetime (sliceTo f.data 6) with
    | ok t => rfl
    | error e =>
      unfold pduFromResponse ReadTimeResponse.fromBytes
      rw [h]
      dsimp only
      rw [ht]
      rfl
  · exact erase_foreign _

theorem connNextEventT_erase (C : BlockCipher) (c : Conn) :
    ((c.nextEventT C).1, (c.nextEventT C).2.erase) = c.nextEvent C := by
  unfold Conn.nextEventT Conn.nextEvent
  split
  · rfl
  cases indexEnd c.buffer with
  | none => rfl
  | some i =>
    dsimp only
    rw [← interpretT_erase]
    cases c.interpretT C (sliceTo c.buffer ((i : Int) + 1)) with
    | error e =>
      dsimp only [ResT.erase]
      split <;> rfl
    | ok f =>
      dsimp only [ResT.erase]
      rw [← pduFromResponseT_erase]
      cases pduFromResponseT f with
      | error e => rfl
      | ok pdu =>
        dsimp only [ResT.erase]
        rw [← processEventT_erase]
        cases processEventT c.state pdu <;> rfl

/-! ### transport.py -/

/-- The outcome of a call whose exceptions carry a text. E.g. transport.py:131-138. -/
inductive OutcomeT (α : Type)
  | returned (a : α)
  | raised (e : PyErr) (t : Text)
  | pending
  deriving DecidableEq, Repr

/-- Forget the text. E.g. transport.py:131-138. -/
def OutcomeT.erase {α : Type} : OutcomeT α → Outcome3 α
  | .returned a => .returned a
  | .raised e _ => .raised e
  | .pending => .pending

/-- The outcome of a call that comes back. E.g. client.py:41. -/
def OutcomeT.ofRes {α : Type} : ResT α → OutcomeT α
  | .ok a => .returned a
  | .error x => .raised x.1 x.2

/-- `except (OSError, ...) as e: raise CommunicationError(text)`; every other exception passes, with its own text.
transport.py:95-102, 115-117, 128-129, 136-137 and 201-206, 218-220, 231-232, 239-240. -/
def wrapOsT (text : String) (e : PyErr) : PyErr × Text :=
  if e = .os then (.elgas .communication, .said text.toList) else (e, .foreign)

/-- `connect` transport.py:84-103 and 188-207. -/
def Transport.connectT (p : Printing) (look : Look) (t : Transport) (os : Res Handle) :
    Transport × List OsCall × ResT Unit :=
  match t.socket with
  | some _ => (t, [], say .runtime (match t.kind with
      | .tcp => "There is already an active socket to " ++ look.address p
      | .serial => "There is already an active serial port"))
  | none =>
    match os with
    | .ok h => ({ t with socket := some h }, [.create (some h)], .ok ())
    | .error e => (t, [.create none], .error (wrapOsT "Unable to connect socket" e))

/-- `disconnect` transport.py:105-119 and 209-222: `raise exceptions.CommunicationError from e` gives no text. -/
def Transport.disconnectT (t : Transport) (osShutdown osClose : Res Unit) : Transport × List OsCall × ResT Unit :=
  match t.disconnect osShutdown osClose with
  | (t', calls, .ok ()) => (t', calls, .ok ())
  | (t', calls, .error e) =>
    (t', calls, match t'.socket with
      | none => say e ""
      | some _ => .error (e, .foreign))

/-- `send` transport.py:121-129 and 224-232. -/
def Transport.sendT (t : Transport) (data : Bytes) (os : Res Unit) : List OsCall × ResT Unit :=
  match t.socket with
  | none => ([], say .runtime (match t.kind with
      | .tcp => "TCP transport not connected."
      | .serial => "Serial transport not connected."))
  | some h =>
    match os with
    | .ok () => ([.write h data], .ok ())
    | .error e => ([.write h data], .error (wrapOsT "Could no send data" e))

/-- `recv` transport.py:131-138 and 234-241.  `_recv_bytes` says `TCP` also of a serial port (lines 146 and 249); it is
the first that looks at the handle. -/
def Transport.recvT (t : Transport) (s : List Delivery) (c : Clock) : OutcomeT Bytes × List Delivery × Clock :=
  match t.recvUntil [0x0D] none s c with
  | (.returned d, s, c) => (.returned d, s, c)
  | (.raised e, s, c) =>
    (match t.socket with
      | none => .ofRes (say e "TCP transport not connected.")
      | some _ => .ofRes (.error (wrapOsT "Could not receive data" e)), s, c)
  | (.pending, s, c) => (.pending, s, c)

theorem wrapOsT_erase (s : String) (e : PyErr) : (wrapOsT s e).1 = wrapOs e := by
  unfold wrapOsT wrapOs
  split <;> rfl

theorem connectT_erase' (p : Printing) (look : Look) (t : Transport) (os : Res Handle) :
    ((t.connectT p look os).1, (t.connectT p look os).2.1, (t.connectT p look os).2.2.erase) = t.connect os := by
  unfold Transport.connectT Transport.connect
  cases t.socket with
  | some h => rfl
  | none =>
    cases os with
    | ok h => rfl
    | error e => dsimp only [ResT.erase]; rw [wrapOsT_erase]

theorem disconnectT_erase' (t : Transport) (a b : Res Unit) :
    ((t.disconnectT a b).1, (t.disconnectT a b).2.1, (t.disconnectT a b).2.2.erase) = t.disconnect a b := by
  unfold Transport.disconnectT
  cases h : t.disconnect a b with | mk t' r =>
  obtain ⟨calls, r⟩ := r
  cases r with
  | ok u => rfl
  | error e => dsimp only; cases t'.socket <;> rfl

theorem sendT_erase' (t : Transport) (d : Bytes) (os : Res Unit) :
    ((t.sendT d os).1, (t.sendT d os).2.erase) = t.send d os := by
  unfold Transport.sendT Transport.send
  cases t.socket with
  | none => rfl
  | some h =>
    cases os with
    | ok u => rfl
    | error e => dsimp only [ResT.erase]; rw [wrapOsT_erase]

theorem recvT_erase (t : Transport) (s : List Delivery) (c : Clock) :
    ((t.recvT s c).1.erase, (t.recvT s c).2) = t.recv s c := by
  have hcl := recv_closed t s c
  unfold Transport.recv at hcl ⊢
  unfold Transport.recvT
  cases h : t.recvUntil [0x0D] none s c with | mk o r =>
  obtain ⟨s', c'⟩ := r
  rw [h] at hcl
  cases o with
  | returned d => rfl
  | pending => rfl
  | raised e =>
    dsimp only at hcl ⊢
    cases hs : t.socket with
    | none =>
      have := hcl hs
      injection this with this
      rw [this]
      have he : e = .runtime := by
        unfold wrapOs at this
        split at this
        · cases this
        · exact this
      rw [he]; rfl
    | some h => dsimp only [OutcomeT.ofRes, OutcomeT.erase]; rw [wrapOsT_erase]

/-! ### client.py -/

/-- `connect` client.py:40-41. -/
def World.connectT (p : Printing) (look : Look) (w : World) : OutcomeT Unit × World :=
  match w.transport.socket, w.opens with
  | none, [] => (.pending, w)
  | none, os :: opens =>
    let r := w.transport.connectT p look os
    (.ofRes r.2.2, { w with transport := r.1, os := w.os ++ r.2.1, opens })
  | some _, _ => (.ofRes (w.transport.connectT p look (.error .os)).2.2, w)

/-- `disconnect` client.py:43-44. -/
def World.disconnectT (w : World) : OutcomeT Unit × World :=
  match w.transport.socket, w.transport.kind, w.shutdowns, w.closes with
  | none, _, _, _ => (.returned (), w)
  | some _, .tcp, [], _ => (.pending, w)
  | some h, .tcp, .ok () :: shutdowns, [] =>
    (.pending, { w with shutdowns, os := w.os ++ [.shutdown h] })
  | some _, .tcp, .ok () :: shutdowns, c :: closes =>
    let r := w.transport.disconnectT (.ok ()) c
    (.ofRes r.2.2, { w with transport := r.1, os := w.os ++ r.2.1, shutdowns, closes })
  | some _, .tcp, .error e :: shutdowns, _ =>
    let r := w.transport.disconnectT (.error e) (.ok ())
    (.ofRes r.2.2, { w with transport := r.1, os := w.os ++ r.2.1, shutdowns })
  | some _, .serial, _, [] => (.pending, w)
  | some _, .serial, _, c :: closes =>
    let r := w.transport.disconnectT (.ok ()) c
    (.ofRes r.2.2, { w with transport := r.1, os := w.os ++ r.2.1, closes })

/-- `self.transport.send(data)` client.py:49. -/
def World.writeT (w : World) (data : Bytes) : OutcomeT Unit × World :=
  match w.transport.socket, w.writes with
  | some h, [] => (.pending, { w with os := w.os ++ [.write h data] })
  | some _, os :: writes =>
    let r := w.transport.sendT data os
    (.ofRes r.2, { w with os := w.os ++ r.1, writes })
  | none, _ => (.ofRes (w.transport.sendT data (.ok ())).2, w)

/-- `self.elgas_connection.receive_data(self.transport.recv())` client.py:50-51, 57. -/
def World.receiveT (w : World) : OutcomeT Unit × World :=
  match w.transport.recvT w.unread w.clock with
  | (.returned d, s, c) => (.returned (), { w.setUnread s c with conn := w.conn.receiveData d })
  | (.raised e t, s, c) => (.raised e t, w.setUnread s c)
  | (.pending, s, c) => (.pending, w.setUnread s c)

/-- `self.send(event)` client.py:46-51 for one event. -/
def World.sendT (C : BlockCipher) (w : World) (e : Event) : OutcomeT Unit × World :=
  match w.conn.sendT C e (w.rands w.draws) with
  | (c, .error x) => (.raised x.1 x.2, { w with conn := c, draws := w.draws + 1 })
  | (c, .ok data) =>
    match ({ w with conn := c, draws := w.draws + 1 } : World).writeT data with
    | (.returned (), w) => w.receiveT
    | r => r

/-- `self.send(*events)` client.py:46-51. -/
def World.sendAllT (C : BlockCipher) (w : World) : List Event → OutcomeT Unit × World
  | [] => (.returned (), w)
  | e :: es =>
    match w.sendT C e with
    | (.returned (), w) => w.sendAllT C es
    | r => r

theorem recvT_weight {t : Transport} {s s' : List Delivery} {c c' : Clock} {d : Bytes}
    (h : t.recvT s c = (.returned d, s', c')) : weight s' < weight s := by
  have := recvT_erase t s c
  rw [h] at this
  exact recv_weight this.symm

/-- The loop of `next_event` client.py:53-59. -/
def worldLoopT (C : BlockCipher) (t : Transport) (c : Conn) (s : List Delivery) (k : Clock) :
    OutcomeT Event × Conn × List Delivery × Clock :=
  match c.nextEventT C with
  | (c, .error x) => (.raised x.1 x.2, c, s, k)
  | (c, .ok (some ev)) => (.returned ev, c, s, k)
  | (c, .ok none) =>
    match _h : t.recvT s k with
    | (.returned d, s, k) => worldLoopT C t (c.receiveData d) s k
    | (.raised e x, s, k) => (.raised e x, c, s, k)
    | (.pending, s, k) => (.pending, c, s, k)
termination_by weight s
decreasing_by exact recvT_weight _h

/-- `next_event` client.py:53-59. -/
def World.nextEventT (C : BlockCipher) (w : World) : OutcomeT Event × World :=
  let (o, c, s, k) := worldLoopT C w.transport w.conn w.unread w.clock
  (o, { w.setUnread s k with conn := c })

/-- `self.send(request); response = self.next_event()` client.py:63-65, 71-73, 79-83, 93-97, 112-120, 125-133. -/
def World.exchangeT (C : BlockCipher) (w : World) (e : Event) : OutcomeT Event × World :=
  match w.sendT C e with
  | (.returned (), w) => w.nextEventT C
  | (.raised x t, w) => (.raised x t, w)
  | (.pending, w) => (.pending, w)

theorem ofRes_erase {α : Type} (r : ResT α) :
    (OutcomeT.ofRes r).erase = match r.erase with | .ok a => .returned a | .error e => .raised e := by
  cases r <;> rfl

theorem connectT_erase (p : Printing) (look : Look) (w : World) :
    ((w.connectT p look).1.erase, (w.connectT p look).2) = w.connect := by
  unfold World.connectT World.connect
  cases hs : w.transport.socket with
  | some h => dsimp only; unfold Transport.connectT; rw [hs]; rfl
  | none =>
    cases w.opens with
    | nil => rfl
    | cons os opens =>
      dsimp only
      rw [ofRes_erase, ← connectT_erase' p look]; dsimp only; generalize ResT.erase _ = x; cases x <;> rfl

theorem disconnectT_erase (w : World) : (w.disconnectT.1.erase, w.disconnectT.2) = w.disconnect := by
  unfold World.disconnectT World.disconnect
  cases w.transport.socket with
  | none => rfl
  | some h =>
    cases w.transport.kind with
    | serial =>
      cases w.closes with
      | nil => rfl
      | cons c closes => dsimp only; rw [ofRes_erase, ← disconnectT_erase']; dsimp only; generalize ResT.erase _ = x; cases x <;> rfl
    | tcp =>
      cases w.shutdowns with
      | nil => rfl
      | cons x shutdowns =>
        cases x with
        | error e => dsimp only; rw [ofRes_erase, ← disconnectT_erase']; dsimp only; generalize ResT.erase _ = x; cases x <;> rfl
        | ok u =>
          cases w.closes with
          | nil => rfl
          | cons c closes => dsimp only; rw [ofRes_erase, ← disconnectT_erase']; dsimp only; generalize ResT.erase _ = x; cases x <;> rfl

theorem writeT_erase (w : World) (d : Bytes) : ((w.writeT d).1.erase, (w.writeT d).2) = w.write d := by
  unfold World.writeT World.write
  cases hs : w.transport.socket with
  | none => dsimp only; unfold Transport.sendT; rw [hs]; rfl
  | some h =>
    cases w.writes with
    | nil => rfl
    | cons os writes => dsimp only; rw [ofRes_erase, ← sendT_erase']; dsimp only; generalize ResT.erase _ = x; cases x <;> rfl

theorem receiveT_erase (w : World) : (w.receiveT.1.erase, w.receiveT.2) = w.receive := by
  unfold World.receiveT World.receive
  rw [← recvT_erase]
  cases w.transport.recvT w.unread w.clock with | mk o r =>
  obtain ⟨s, c⟩ := r
  cases o <;> rfl

theorem sendT_erase (C : BlockCipher) (w : World) (e : Event) :
    ((w.sendT C e).1.erase, (w.sendT C e).2) = w.send C e := by
  unfold World.sendT World.send
  rw [← connSendT_erase]
  cases w.conn.sendT C e (w.rands w.draws) with | mk c o =>
  cases o with
  | error x => rfl
  | ok data =>
    dsimp only [ResT.erase]
    rw [← writeT_erase]
    cases ({ w with conn := c, draws := w.draws + 1 } : World).writeT data with | mk o w1 =>
    cases o with
    | returned u => exact receiveT_erase w1
    | raised x t => rfl
    | pending => rfl

theorem sendAllT_erase (C : BlockCipher) (w : World) (es : List Event) :
    ((w.sendAllT C es).1.erase, (w.sendAllT C es).2) = w.sendAll C es := by
  induction es generalizing w with
  | nil => rfl
  | cons e es ih =>
    unfold World.sendAllT World.sendAll
    rw [← sendT_erase]
    cases w.sendT C e with | mk o w1 =>
    cases o with
    | returned u => exact ih w1
    | raised x t => rfl
    | pending => rfl

theorem worldLoopT_erase (C : BlockCipher) (t : Transport) (c : Conn) (s : List Delivery) (k : Clock) :
    ((worldLoopT C t c s k).1.erase, (worldLoopT C t c s k).2) = worldLoop C t c s k := by
  fun_induction worldLoopT C t c s k with
  | case1 c s k c1 x hn => unfold worldLoop; rw [← connNextEventT_erase, hn]; rfl
  | case2 c s k c1 ev hn => unfold worldLoop; rw [← connNextEventT_erase, hn]; rfl
  | case3 c s k c1 hn d s1 k1 hr ih =>
    unfold worldLoop
    rw [← connNextEventT_erase, hn]
    dsimp only [ResT.erase]
    have hr' := recvT_erase t s k
    rw [hr] at hr'
    split
    · next h' => rw [← hr'] at h'; cases h'; exact ih
    · next h' => rw [← hr'] at h'; cases h'
    · next h' => rw [← hr'] at h'; cases h'
  | case4 c s k c1 hn e x s1 k1 hr =>
    unfold worldLoop
    rw [← connNextEventT_erase, hn]
    dsimp only [ResT.erase]
    have hr' := recvT_erase t s k
    rw [hr] at hr'
    split
    · next h' => rw [← hr'] at h'; cases h'
    · next h' => rw [← hr'] at h'; cases h'; rfl
    · next h' => rw [← hr'] at h'; cases h'
  | case5 c s k c1 hn s1 k1 hr =>
    unfold worldLoop
    rw [← connNextEventT_erase, hn]
    dsimp only [ResT.erase]
    have hr' := recvT_erase t s k
    rw [hr] at hr'
    split
    · next h' => rw [← hr'] at h'; cases h'
    · next h' => rw [← hr'] at h'; cases h'
    · next h' => rw [← hr'] at h'; cases h'; rfl

theorem nextEventT_erase (C : BlockCipher) (w : World) :
    ((w.nextEventT C).1.erase, (w.nextEventT C).2) = w.nextEvent C := by
  unfold World.nextEventT World.nextEvent
  rw [← worldLoopT_erase]

theorem exchangeT_erase (C : BlockCipher) (w : World) (e : Event) :
    ((w.exchangeT C e).1.erase, (w.exchangeT C e).2) = w.exchange C e := by
  unfold World.exchangeT World.exchange
  rw [← sendT_erase]
  cases w.sendT C e with | mk o w1 =>
  cases o with
  | returned u => exact nextEventT_erase C w1
  | raised x t => rfl
  | pending => rfl

/-- What is done with a returned value; exceptions of that are the interpreter's (the `AttributeError` of
`response.time`, client.py:74). -/
def OutcomeT.andThen {α β : Type} (o : OutcomeT α) (f : α → OutcomeT β) : OutcomeT β :=
  match o with
  | .returned a => f a
  | .raised e t => .raised e t
  | .pending => .pending

/-- A call whose exceptions are those of the interpreter. E.g. client.py:74. -/
def Outcome3.foreign {α : Type} : Outcome3 α → OutcomeT α
  | .returned a => .returned a
  | .raised e => .raised e .foreign
  | .pending => .pending

/-- The loop of `read_parameters` client.py:91-103. -/
def World.readPagesT (C : BlockCipher) (w : World) (objectCount : Int) (total : Bytes) : OutcomeT Bytes × World :=
  match _h : w.exchangeT C (.readDeviceParametersRequest
      { password := w.password, objectCount, bufferLength := 1024 }) with
  | (.raised e t, w') => (.raised e t, w')
  | (.pending, w') => (.pending, w')
  | (.returned (.readDeviceParametersResponse p), w') =>
    if p.isEnd then (.returned (total ++ p.data), w')
    else w'.readPagesT C (objectCount + p.objectAmount) (total ++ p.data)
  | (.returned _, w') => (.raised .attribute .foreign, w')
termination_by weight w.unread
decreasing_by
  have h := exchangeT_erase C w (.readDeviceParametersRequest
      { password := w.password, objectCount, bufferLength := 1024 })
  rw [_h] at h
  exact world_exchange_weight h.symm

/-- `ScadaParameterParser().parse(data)` parser.py:24-44, client.py:105-107.  An `assert` of a parameter class (e.g.
parameters/binary.py:64) has no text; the other exceptions there are the interpreter's. -/
def parseParametersT (d : Bytes) : ResT (List PObj) :=
  if d.isEmpty then say .value "No data to parse"
  else match parseParameters none (some d) with
    | .ok os => .ok os
    | .error .assertion => say .assertion ""
    | .error e => .error (e, .foreign)

theorem parseParametersT_erase (d : Bytes) : (parseParametersT d).erase = parseParameters none (some d) := by
  unfold parseParametersT
  split
  · next h => unfold parseParameters; dsimp only; rw [if_pos h]; rfl
  · split
    · next h => rw [h]; rfl
    · next h => rw [h]; rfl
    · next h => rw [h]; rfl

theorem andThenT_erase {α β : Type} (o : OutcomeT α) (f : α → OutcomeT β) (g : α → Outcome3 β)
    (h : ∀ a, (f a).erase = g a) : (o.andThen f).erase = o.erase.andThen g := by
  cases o with
  | returned a => exact h a
  | raised e t => rfl
  | pending => rfl

theorem outcomeForeign_erase {α : Type} (o : Outcome3 α) : o.foreign.erase = o := by cases o <;> rfl

theorem readPagesT_erase (C : BlockCipher) (w : World) (n : Int) (total : Bytes) :
    ((w.readPagesT C n total).1.erase, (w.readPagesT C n total).2) = w.readPages C n total := by
  fun_induction World.readPagesT C w n total with
  | case1 w n total e t w1 h =>
    unfold World.readPages
    rw [← exchangeT_erase, h]
    rfl
  | case2 w n total w1 h =>
    unfold World.readPages
    rw [← exchangeT_erase, h]
    rfl
  | case3 w n total r w1 h he =>
    unfold World.readPages
    rw [← exchangeT_erase, h]
    dsimp only [OutcomeT.erase]
    rw [if_pos he]
  | case4 w n total r w1 h he ih =>
    unfold World.readPages
    rw [← exchangeT_erase, h]
    dsimp only [OutcomeT.erase]
    rw [if_neg he]
    exact ih
  | case5 w n total r hr w1 h =>
    unfold World.readPages
    rw [← exchangeT_erase, h]
    dsimp only [OutcomeT.erase]
    cases hr <;> first | rfl | simp_all

end Elgas
