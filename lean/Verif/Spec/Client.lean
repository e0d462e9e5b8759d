import Verif.Model.Client
import Verif.Spec.Protocol
import Verif.Spec.Frame
/-!
Specification vocabulary for the client: what a device has to deliver for a call to return, pages of
parameters, histories of calls.
-/
namespace Spec
open Elgas

/-- No request pending and nothing left over from earlier. -/
def Ready (c : Conn) : Prop := c.state = .idle ∧ c.buffer = []

/-- What a sequence of `recv()` results amounts to: empty results and single end characters in front of
everything else are ignored, the rest is joined. -/
def gathered (ps : List Bytes) : Bytes :=
  (ps.dropWhile fun p => decide (p = [] ∨ p = [0x0D])).flatten

/-- `line` is a complete response (with end character) that means `pdu`. -/
def Response (C : BlockCipher) (cc : Option CipherContext) (line : Bytes) (pdu : Event) : Prop :=
  ∃ w svc data, line = w ++ [0x0D] ∧ 0x0D ∉ w ∧ Delivers C cc line svc data ∧
    (∀ b, data = [b] → ¬ OneBit b) ∧ Decodes svc data pdu

/-- One successful exchange of the client: the request frame `req` is handed to the transport once, the
transport sends it, `recv()` returns `init` and then `last`; the first line in this data is complete
with `last` only, it is a response to the request, and means `pdu`. -/
structure Exchanged (C : BlockCipher) (s : Sys) (e : Event) (req : Bytes) (pdu : Event) (s' : Sys) : Prop where
  request : (s.conn.send C e (s.rands s.draws)).2 = .ok req
  sent : s.sends = .ok () :: s'.sends
  data : ∃ init last w extra, s.recvs = (init ++ [last]).map .ok ++ s'.recvs ∧
    0x0D ∉ gathered init ∧ gathered (init ++ [last]) = w ++ 0x0D :: extra ∧ 0x0D ∉ w ∧
    Response C s.conn.cipherContext (w ++ [0x0D]) pdu
  fits : responseOf e.type = some pdu.type
  handed : s'.handed = s.handed ++ [req]
  conn : s'.conn = s.conn
  draws : s'.draws = s.draws + 1
  rands : s'.rands = s.rands
  password : s'.password = s.password

/-- The request for a page of parameters. -/
def pageRequest (password : PyStr) (count : Int) : Event :=
  .readDeviceParametersRequest { password, objectCount := count, bufferLength := 1024 }

/-- The client has read the pages `ps`, none of them the last, and would ask for object `count'` next. -/
inductive Partly (C : BlockCipher) : Sys → Int → List ReadDeviceParametersResponse → Sys → Int → Prop
  | nil (s count) : Partly C s count [] s count
  | page (s s1 s' count count' p ps req) :
      Exchanged C s (pageRequest s.password count) req (.readDeviceParametersResponse p) s1 →
      p.isEnd = false → Partly C s1 (count + p.objectAmount) ps s' count' →
      Partly C s count (p :: ps) s' count'

/-- The client has read pages `ps` up to and including the last one. -/
def Paged (C : BlockCipher) (s : Sys) (count : Int) (ps : List ReadDeviceParametersResponse) (s' : Sys) : Prop :=
  ∃ init last s1 count1 req, ps = init ++ [last] ∧ Partly C s count init s1 count1 ∧
    Exchanged C s1 (pageRequest s.password count1) req (.readDeviceParametersResponse last) s' ∧
    last.isEnd = true

/-- The read and write calls of the client. -/
inductive Call
  | readInstantaneousValues
  | readTime
  | writeTime (t : DateTime) (cryout : Bool)
  | readParameters (readFrom : Int)
  | readArchive (archive amount oldestRecordId : Int)
  | readArchiveByTime (archive amount : Int) (oldestTimestamp : DateTime)

/-- How a call ended, without the value. -/
inductive Ended
  | returned
  | raised (e : PyErr)
  | pending
  deriving DecidableEq

def ended {α : Type} : Outcome3 α → Ended
  | .returned _ => .returned
  | .raised e => .raised e
  | .pending => .pending

/-- Perform a call. -/
def call (C : BlockCipher) (s : Sys) : Call → Ended × Sys
  | .readInstantaneousValues => (ended (s.readInstantaneousValues C).1, (s.readInstantaneousValues C).2)
  | .readTime => (ended (s.readTime C).1, (s.readTime C).2)
  | .writeTime t b => (ended (s.writeTime C t b).1, (s.writeTime C t b).2)
  | .readParameters n => (ended (s.readParameters C n).1, (s.readParameters C n).2)
  | .readArchive a n i => (ended (s.readArchive C a n i).1, (s.readArchive C a n i).2)
  | .readArchiveByTime a n t => (ended (s.readArchiveByTime C a n t).1, (s.readArchiveByTime C a n t).2)

/-- Perform calls one after the other. -/
def calls (C : BlockCipher) (s : Sys) : List Call → List Ended × Sys
  | [] => ([], s)
  | k :: ks => ((call C s k).1 :: (calls C (call C s k).2 ks).1, (calls C (call C s k).2 ks).2)

/-- `e` is a request that the call `k` of a client with this password makes: one fixed request, or, for
`read_parameters`, a request for a page. -/
def RequestOf (password : PyStr) : Call → Event → Prop
  | .readInstantaneousValues, e => e = .readInstantaneousValuesRequest { password }
  | .readTime, e => e = .readTimeRequest {}
  | .writeTime t cryout, e => e = .writeTimeRequest { password, deviceTime := t, cryout }
  | .readParameters _, e => ∃ count, e = pageRequest password count
  | .readArchive archive amount oldestRecordId, e =>
    e = .readArchiveRequest { password, archive, amount, oldestRecordId }
  | .readArchiveByTime archive amount oldestTimestamp, e =>
    e = .readArchiveByTimeRequest { password, archive, amount, oldestTimestamp }

/-- The client has been given a (non-empty) key and a key id. -/
def Encrypting (a : ClientArgs) : Prop :=
  (∃ key, a.encryptionKey = some key ∧ key ≠ []) ∧ ∃ keyId, a.encryptionKeyId = some keyId

/-- `w` is the request `e` as a client created with `a` should put it on the wire: escaped, to address 0
from address 0, of type 0x85 and encrypted with the key of the client if it has a key and a key id, and
of type 0x84 and in the clear if not. -/
def OnWire (C : BlockCipher) (a : ClientArgs) (e : Event) (w : Bytes) : Prop :=
  ∃ r code body, requestCode e.type = some code ∧ e.toBytes r = .ok body ∧
    (¬ Encrypting a → returnCharacters w = .ok (frame 0x84 code [0, 0, 0, 0, 0, 0] body)) ∧
    (∀ key keyId, a.encryptionKey = some key → key ≠ [] → a.encryptionKeyId = some keyId →
      ∃ ct, returnCharacters w = .ok (frame 0x85 code [0, 0, 0, 0, 0, 0] ct) ∧
        (⟨keyId, key⟩ : CipherContext).decrypt C ct = .ok body)

/-- The data `ws` consists of what the calls `ks` wrote, in order: each wrote some pieces that satisfy
`P`, at most one unless it is `read_parameters`. -/
inductive Written (P : Call → Bytes → Prop) : List Call → List Bytes → Prop
  | nil : Written P [] []
  | call (k : Call) (ks : List Call) (ws rest : List Bytes) : (∀ w ∈ ws, P k w) →
      (2 ≤ ws.length → ∃ n, k = .readParameters n) → Written P ks rest → Written P (k :: ks) (ws ++ rest)

/-- Send requests one after the other, each followed by waiting for its response. -/
def exchanges (C : BlockCipher) (s : Sys) : List Event → List (Outcome3 Event) × Sys
  | [] => ([], s)
  | e :: es =>
    ((s.exchange C e).1 :: (exchanges C (s.exchange C e).2 es).1, (exchanges C (s.exchange C e).2 es).2)

end Spec
