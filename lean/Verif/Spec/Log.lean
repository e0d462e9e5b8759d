import Verif.Model.Log
import Verif.Spec.Client
/-!
Specification vocabulary for `repr` and the log: secrets, what a text reveals, what a log may show.
-/
namespace Spec
open Elgas

mutual
/-- The value with the text `<SECRET>` in place of every secret. -/
def censored : PyVal → PyVal
  | .secretStr _ => .foreign "<SECRET>".toList
  | .secretBytes _ => .foreign "<SECRET>".toList
  | .obj cls attrs => .obj cls (censoredAttrs attrs)
  | v => v
def censoredAttrs : Attrs → Attrs
  | .nil => .nil
  | .cons name v rest => .cons name (censored v) (censoredAttrs rest)
end

/-- The password in a request. -/
def passwordOf : Event → Option PyStr
  | .readInstantaneousValuesRequest q => some q.password
  | .writeTimeRequest q => some q.password
  | .readDeviceParametersRequest q => some q.password
  | .readArchiveByTimeRequest q => some q.password
  | .readArchiveRequest q => some q.password
  | _ => none

/-- The same request with another password. -/
def withPassword (e : Event) (pw : PyStr) : Event :=
  match e with
  | .readInstantaneousValuesRequest q => .readInstantaneousValuesRequest { q with password := pw }
  | .writeTimeRequest q => .writeTimeRequest { q with password := pw }
  | .readDeviceParametersRequest q => .readDeviceParametersRequest { q with password := pw }
  | .readArchiveByTimeRequest q => .readArchiveByTimeRequest { q with password := pw }
  | .readArchiveRequest q => .readArchiveRequest { q with password := pw }
  | e => e

/-- The client has been given a (non-empty) key. -/
def HasKey (a : ClientArgs) : Prop := ∃ key, a.encryptionKey = some key ∧ key ≠ []

/-- Two clients that differ at most in password and key. -/
def SamePublic (a a' : ClientArgs) : Prop :=
  a.passwordId = a'.passwordId ∧ a.encryptionKeyId = a'.encryptionKeyId ∧ (HasKey a ↔ HasKey a')

/-- A printable ASCII character that `repr` prints as it is: neither `'` nor `\`. -/
def Literal (c : Char) : Prop := 0x20 ≤ c.toNat ∧ c.toNat < 0x7F ∧ c ≠ '\'' ∧ c ≠ '\\'

/-- Some record in the log prints a text that contains `s`. -/
def Reveals (p : Printing) (stack : List String) (log : List Record) (s : PyStr) : Prop :=
  ∃ r ∈ log, ∃ t ∈ r.texts p stack, s <:+: t

/-- Perform a call, with its log. -/
def callL (p : Printing) (tr : PyVal) (C : BlockCipher) (s : Sys) : Call → List Record × Ended × Sys
  | .readInstantaneousValues =>
    let x := s.readInstantaneousValuesL p tr C
    (x.1, ended x.2.1, x.2.2)
  | .readTime =>
    let x := s.readTimeL p tr C
    (x.1, ended x.2.1, x.2.2)
  | .writeTime t b =>
    let x := s.writeTimeL p tr C t b
    (x.1, ended x.2.1, x.2.2)
  | .readParameters n =>
    let x := s.readParametersL p tr C n
    (x.1, ended x.2.1, x.2.2)
  | .readArchive a n i =>
    let x := s.readArchiveL p tr C a n i
    (x.1, ended x.2.1, x.2.2)
  | .readArchiveByTime a n t =>
    let x := s.readArchiveByTimeL p tr C a n t
    (x.1, ended x.2.1, x.2.2)

/-- Perform calls one after the other, with the log of all of them. -/
def callsL (p : Printing) (tr : PyVal) (C : BlockCipher) (s : Sys) : List Call → List Record × List Ended × Sys
  | [] => ([], [], s)
  | k :: ks =>
    let x := callL p tr C s k
    let y := callsL p tr C x.2.2 ks
    (x.1 ++ y.1, x.2.1 :: y.2.1, y.2.2)

/-- The data that `recv()` has returned. -/
def inputs (recvs : List (Res Bytes)) : List Bytes := recvs.filterMap fun r => r.toOption

/-- `line` was received: it starts with one of the pieces and goes on in the pieces after it. -/
def Arrived (ins : List Bytes) (line : Bytes) : Prop := ∃ ds rest, ds <:+: ins ∧ ds.flatten = line ++ rest

/-- A response frame that arrived (`enc`: of type 0x87). -/
def FrameIn (ins : List Bytes) (enc : Bool) (f : Frame) : Prop :=
  ∃ line raw, Arrived ins line ∧ returnCharacters line = .ok raw ∧ responseFactory raw = .ok (enc, f)

/-- A response frame that arrived in the clear, or that arrived encrypted, with its data decrypted. -/
def OpenFrameIn (C : BlockCipher) (cc : Option CipherContext) (ins : List Bytes) (f : Frame) : Prop :=
  FrameIn ins false f ∨
  ∃ f0 ctx d, FrameIn ins true f0 ∧ cc = some ctx ∧ ctx.decrypt C f0.data = .ok d ∧ f = { f0 with data := d }

/-- The values a log of an encrypting client may show: numbers, times, the transport object, requests without their
password, encrypted data, frames as they were written to the transport, and what the device sent. -/
inductive Shown (C : BlockCipher) (ctx : CipherContext) (p : Printing) (tr : PyVal) (handed ins : List Bytes) :
    PyVal → Prop
  | number (n : Int) : Shown C ctx p tr handed ins (.int n)
  | time (t : DateTime) : Shown C ctx p tr handed ins (.str (isoformat t))
  | transport : Shown C ctx p tr handed ins tr
  | request (e : Event) : passwordOf e = none ∨ passwordOf e = some [] →
      Shown C ctx p tr handed ins (eventVal p true e)
  | encrypted (svc : ServiceNumber) (body ct : Bytes) (pad : PadRand) : ctx.encrypt C body pad = .ok ct →
      Shown C ctx p tr handed ins (frameVal "EncryptedRequest" ⟨svc, 0, 0, 0, 0, ct⟩ .bytearray)
  | sent (w : Bytes) : w ∈ handed → Shown C ctx p tr handed ins (.bytes w)
  | received (d : Bytes) : d ∈ ins → Shown C ctx p tr handed ins (.bytes d)
  | buffer (ds : List Bytes) : ds <:+: ins → Shown C ctx p tr handed ins (.bytearray ds.flatten)
  | response (enc : Bool) (f : Frame) : FrameIn ins enc f →
      Shown C ctx p tr handed ins (frameVal (if enc then "EncryptedResponse" else "Response") f .bytes)
  | decrypted (f : Frame) : OpenFrameIn C (some ctx) ins f →
      Shown C ctx p tr handed ins (frameVal "EncryptedResponse" f .bytes)
  | pdu (f : Frame) (e : Event) : OpenFrameIn C (some ctx) ins f → pduFromResponse f = .ok e →
      Shown C ctx p tr handed ins (eventVal p false e)
  | pages (rs : List ReadDeviceParametersResponse) :
      (∀ r ∈ rs, ∃ f, OpenFrameIn C (some ctx) ins f ∧ pduFromResponse f = .ok (.readDeviceParametersResponse r)) →
      Shown C ctx p tr handed ins (.bytes (rs.map (·.data)).flatten)

/-- The fixed event texts of the log. -/
def eventTexts : List String :=
  ["Sending request PDU", "Sending ELGAS request", "Added data to connection buffer",
   "Received an end char when read buffer was empty. This is a known issue and data is ignored.",
   "Received ELGAS response", "Decrypted ELGAS response", "Buffer empty. Need more data",
   "No end char in data. Need more data", "Cannot interpret data as frame. Need more data", "Received PDU",
   "Sent data", "Received data", "Reading instantaneous values", "Received instantaneous values",
   "Reading device time", "Got device time", "Writing time to device", "Finished writing time to device",
   "Reading device parameters", "Requesting device parameters", "Received device parameters",
   "More parameters available", "Received total parameters data"]

/-- The text of a record: a fixed one, or that of a change of state. -/
def IsEventText (event : String) : Prop :=
  event ∈ eventTexts ∨
  ∃ old new : PState, event = "Elgas state transitioned from " ++ old.name ++ " to " ++ new.name

/-- The data (first argument) in the records of a log with a given event text. -/
def dataOf (event : String) (log : List Record) : List Bytes :=
  log.filterMap fun r =>
    if r.event = event then
      match r.args with
      | (_, .bytes d) :: _ => some d
      | _ => none
    else none

/-- The data that the log says was sent. -/
def sentData (log : List Record) : List Bytes := dataOf "Sent data" log

/-- The data that the log says was received. -/
def receivedData (log : List Record) : List Bytes := dataOf "Received data" log

/-- The frames handed to the transport that it sent: those whose `transport.send` returned. -/
def sentOf (handed : List Bytes) (sends : List (Res Unit)) : List Bytes :=
  (handed.zip sends).filterMap fun x => match x.2 with | .ok () => some x.1 | .error _ => none

/-- The texts of the records that the methods of `ElgasClient` log themselves. -/
def methodTexts : List String :=
  ["Reading instantaneous values", "Received instantaneous values", "Reading device time", "Got device time",
   "Writing time to device", "Finished writing time to device", "Reading device parameters",
   "Requesting device parameters", "Received device parameters", "More parameters available",
   "Received total parameters data"]

end Spec
