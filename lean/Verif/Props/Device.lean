import Verif.Props.CallLog
import Verif.Spec.Device
/-!
Property C79: the client against the reference device of Spec/Device.lean.
-/
namespace Elgas
open Spec

/-- The cipher context that belongs to the key of a device. -/
def contextOf (key : Option (UInt8 × Bytes)) : Option CipherContext :=
  key.map fun k => ⟨(k.1.toNat : Int), k.2⟩

theorem le2_inj {a b : Nat} (ha : a < 65536) (hb : b < 65536) (h : le2 a = le2 b) : a = b := by
  unfold le2 at h
  simp only [List.cons.injEq, and_true] at h
  have h1 := congrArg UInt8.toNat h.1
  have h2 := congrArg UInt8.toNat h.2
  rw [u8_ofNat_toNat_lt (by omega), u8_ofNat_toNat_lt (by omega)] at h1 h2
  omega

theorem be2_crc (d : Bytes) : be2 (calculateCrc d) = le2 (crc16Modbus d) := by
  rw [calculateCrc_eq]
  have := crc16Modbus_lt d
  unfold be2 le2 swapBytes
  simp only [List.cons.injEq, and_true]
  constructor <;> congr 1 <;> omega

theorem leAt_le2 (n : Nat) (hn : n < 65536) (rest : Bytes) : leAt (le2 n ++ rest) 0 2 = n := by
  unfold leAt le2
  simp only [List.drop_zero, List.cons_append, List.nil_append, List.take_succ_cons, List.take_zero,
    List.foldr_cons, List.foldr_nil]
  rw [u8_ofNat_toNat_lt (by omega), u8_ofNat_toNat_lt (by omega)]
  omega

theorem take3_of {b : Bytes} {k : UInt8} (hl : 3 ≤ b.length) (hk : b[2]? = some k) :
    b.take 3 = le2 (leAt b 0 2) ++ [k] := by
  match b, hl with
  | x :: y :: z :: rest, _ =>
    simp at hk
    subst hk
    have hx := x.toNat_lt
    have hy := y.toNat_lt
    simp only [leAt, le2, List.drop_zero, List.take_succ_cons, List.take_zero, List.foldr_cons, List.foldr_nil,
      List.cons_append, List.nil_append, List.cons.injEq, and_true]
    constructor
    · rw [show (x.toNat + 256 * (y.toNat + 256 * 0)) % 256 = x.toNat by omega]; simp
    · rw [show (x.toNat + 256 * (y.toNat + 256 * 0)) / 256 = y.toNat by omega]; simp

theorem encrypt_sealed {C : BlockCipher} {keyId : UInt8} {key body data : Bytes} {r : PadRand}
    (h : (⟨(keyId.toNat : Int), key⟩ : CipherContext).encrypt C body r = .ok data) : Sealed C keyId key body data := by
  obtain ⟨h1, h2, ⟨k, h3, h4⟩, pad, _, _, h5⟩ := C30_encrypt_shape C _ _ _ _ h
  have hk : k = keyId := by
    have : k.toNat = keyId.toNat := Int.ofNat.inj h4
    exact UInt8.toNat_inj.1 this
  subst hk
  refine ⟨?_, ?_, pad, ?_⟩
  · rw [← h2]; exact take3_of (by omega) h3
  · have := C30_encrypt_outcome C ⟨(k.toNat : Int), key⟩ body r
    rcases Classical.em (key.length = 16) with hl | hl
    · exact hl
    · rcases Classical.em (65535 < body.length) with hb | hb
      · rw [this.1 hb] at h; cases h
      · rw [this.2.1 (by omega) (.inr (.inr hl))] at h; cases h
  · rw [← be2_crc]; exact h5

theorem sealed_decrypt {C : BlockCipher} {keyId : UInt8} {key body data : Bytes}
    (h : Sealed C keyId key body data) (hl : data.length ≤ 65520) :
    (⟨(keyId.toNat : Int), key⟩ : CipherContext).decrypt C data = .ok body := by
  obtain ⟨h1, h2, pad, h3⟩ := h
  have hlen := h3.len_eq
  simp only [List.length_append, List.length_drop, le2, List.length_cons, List.length_nil] at hlen
  rw [C31_decrypt_iff]
  have hd : data = le2 body.length ++ ([keyId] ++ data.drop 3) := by
    rw [← List.append_assoc, ← h1, List.take_append_drop]
  refine ⟨h2, ⟨keyId, ?_, rfl⟩, body ++ pad, ?_, ?_⟩
  · rw [hd]; rfl
  · rw [be2_crc, ← List.append_assoc (data.take 3)]; exact h3
  · rw [show leAt data 0 2 = body.length by rw [hd]; exact leAt_le2 _ (by omega) _]
    rw [List.append_assoc, List.take_left]

theorem line_frame {ty svc : UInt8} {a d : Bytes} {line : Bytes}
    (h : line = escBytes (frame ty svc a d).dropLast ++ [0x0D]) :
    returnCharacters line = .ok (frame ty svc a d) := by
  have e : (frame ty svc a d).dropLast ++ [0x0D] = frame ty svc a d := by
    unfold frame
    dsimp only
    rw [List.dropLast_append_of_ne_nil (by simp)]
    simp
  rw [h, returnCharacters_escBytes _ [0x0D] [0x0D] (by decide), e]

/-- A line carries only one thing. -/
theorem carries_unique {C : BlockCipher} {key : Option (UInt8 × Bytes)} {ty s s' : UInt8} {b b' line : Bytes}
    (h : Carries C key ty s b line) (h' : Carries C key ty s' b' line) : s = s' ∧ b = b' := by
  obtain ⟨ad, d, h1, h2, h3⟩ := h
  obtain ⟨ad', d', h1', h2', h3'⟩ := h'
  cases key with
  | none =>
    have e := line_frame h3.2
    rw [line_frame h3'.2] at e
    obtain ⟨e1, e2⟩ := frame_inj h1' h1 (Except.ok.inj e)
    rw [← h3.1, ← h3'.1]
    exact ⟨e1.symm, e2.symm⟩
  | some k =>
    have e := line_frame h3.2
    rw [line_frame h3'.2] at e
    obtain ⟨e1, e2⟩ := frame_inj h1' h1 (Except.ok.inj e)
    have g := sealed_decrypt h3.1 h2
    have g' := sealed_decrypt h3'.1 h2'
    rw [e2, g] at g'
    exact ⟨e1.symm, Except.ok.inj g'⟩

/-- The line of a response frame delivers what it carries. -/
theorem carries_delivers {C : BlockCipher} {key : Option (UInt8 × Bytes)} {s : UInt8} {b line : Bytes}
    (h : Carries C key 0x86 s b line) (svc : ServiceNumber) (hs : s = UInt8.ofNat svc.value) :
    ∃ w, line = w ++ [0x0D] ∧ 0x0D ∉ w ∧ w ≠ [] ∧ Delivers C (contextOf key) line svc b := by
  obtain ⟨ad, d, h1, h2, h3⟩ := h
  have hsv : ServiceNumber.ofValue s.toNat = .ok svc := by
    rw [hs, u8_ofNat_toNat_lt (service_value_lt svc)]; exact service_ofValue_value svc
  match ad, h1 with
  | [a0, a1, a2, a3, a4, a5], _ =>
    have shape : ∀ ty, line = escBytes (frame ty s [a0, a1, a2, a3, a4, a5] d).dropLast ++ [0x0D] →
        ∃ w, line = w ++ [0x0D] ∧ 0x0D ∉ w ∧ w ≠ [] := by
      intro ty hl
      refine ⟨_, hl, (escBytes_no_end _).1, fun h0 => ?_⟩
      have := escBytes_length_le (frame ty s [a0, a1, a2, a3, a4, a5] d).dropLast
      rw [h0] at this
      simp [frame, frameBody] at this
    have acc : ∀ ty, Accepted ty (frame ty s [a0, a1, a2, a3, a4, a5] d) _ :=
      fun ty => accepted_frame ty s a0 a1 a2 a3 a4 a5 d svc hsv h2
    cases key with
    | none =>
      obtain ⟨w, g1, g2, g3⟩ := shape _ h3.2
      refine ⟨w, g1, g2, g3, _, false, _, line_frame h3.2, factory_of_accepted false (acc 0x86), rfl, ?_⟩
      exact h3.1
    | some k =>
      obtain ⟨w, g1, g2, g3⟩ := shape _ h3.2
      refine ⟨w, g1, g2, g3, _, true, _, line_frame h3.2, factory_of_accepted true (acc 0x87), rfl, ?_⟩
      exact ⟨_, rfl, sealed_decrypt h3.1 h2⟩

/-- What `send` puts on the wire, for the device. -/
theorem send_carries {C : BlockCipher} {a : ConnArgs} {c : Conn} (hc : Reachable C a c) {e : Event} {r : Rand}
    {wire : Bytes} (h : (c.send C e r).2 = .ok wire) {key : Option (UInt8 × Bytes)}
    (hk : createCipherContext a = contextOf key) :
    ∃ code body, requestCode e.type = some code ∧ e.toBytes r = .ok body ∧ Carries C key 0x84 code body wire := by
  obtain ⟨_, ha, hcc⟩ := reachable_config hc
  rw [hk] at hcc
  have fin : ∀ ty f fd, requestToBytes ty f = .ok fd → escapeCharacters fd = .ok wire →
      ∃ address : Bytes, address.length = 6 ∧ f.data.length ≤ 65520 ∧
        wire = escBytes (frame ty (UInt8.ofNat f.service.value) address f.data).dropLast ++ [0x0D] := by
    intro ty f fd hf hw
    have hl := C10_request_layout _ _ _ hf
    obtain ⟨x, hx1, hx2⟩ := escapeCharacters_eq_ok hw
    refine ⟨be2 f.da1.toNat ++ [UInt8.ofNat f.da2.toNat] ++ be2 f.sa1.toNat ++ [UInt8.ofNat f.sa2.toNat], rfl,
      ((C14_request_range ty f).1.1 ⟨fd, hf⟩).2.2.2.2, ?_⟩
    rw [← hl, hx2, hx1]; simp
  cases hp : processEvent c.state e with
  | error x => rw [send_refused hp] at h; simp at h
  | ok s' =>
    rw [send_accepted hp] at h
    unfold Conn.serialise at h
    cases key with
    | none =>
      simp only [hcc, contextOf, Option.map_none] at h
      rw [bind_eq_ok] at h
      obtain ⟨body, hb, h⟩ := h
      rw [bind_eq_ok] at h
      obtain ⟨svc, hs, h⟩ := h
      rw [bind_eq_ok] at h
      obtain ⟨fd, hf, h⟩ := h
      obtain ⟨ad, g1, g2, g3⟩ := fin _ _ _ hf h
      exact ⟨_, body, requestCode_of hs hb, hb, ad, body, g1, g2, rfl, g3⟩
    | some k =>
      simp only [hcc, contextOf, Option.map_some] at h
      rw [bind_eq_ok] at h
      obtain ⟨body, hb, h⟩ := h
      rw [bind_eq_ok] at h
      obtain ⟨svc, hs, h⟩ := h
      rw [bind_eq_ok] at h
      obtain ⟨ct, hct, h⟩ := h
      rw [bind_eq_ok] at h
      obtain ⟨fd, hf, h⟩ := h
      obtain ⟨ad, g1, g2, g3⟩ := fin _ _ _ hf h
      exact ⟨_, body, requestCode_of hs hb, hb, ad, ct, g1, g2, encrypt_sealed hct, g3⟩

/-! ### What a device finds in a request -/

/-- What a request asks for. -/
def askedOf : Event → Asked
  | .readInstantaneousValuesRequest q => .values (latin1 q.password)
  | .writeTimeRequest q => .setTime (latin1 q.password) { q.deviceTime with microsecond := 0 }
  | .readDeviceParametersRequest q => .parameters (latin1 q.password) q.objectCount.toNat q.bufferLength.toNat
  | .readArchiveRequest q => .archive (latin1 q.password) q.archive.toNat q.amount.toNat q.oldestRecordId.toNat
  | .readArchiveByTimeRequest q =>
    .archiveSince (latin1 q.password) q.archive.toNat q.amount.toNat { q.oldestTimestamp with microsecond := 0 }
  | _ => .time

/-- The password in a request. -/
def passwordIn : Event → Option PyStr
  | .readInstantaneousValuesRequest q => some q.password
  | .writeTimeRequest q => some q.password
  | .readDeviceParametersRequest q => some q.password
  | .readArchiveRequest q => some q.password
  | .readArchiveByTimeRequest q => some q.password
  | _ => none

/-- The time in the request, if there is one, can be expressed. -/
def TimeFits : Event → Prop
  | .writeTimeRequest q => Expressible q.deviceTime
  | .readArchiveByTimeRequest q => Expressible q.oldestTimestamp
  | _ => True

theorem time_six {t : DateTime} (h : Expressible t) {b : Bytes} (hb : datetimeToBytes t = .ok b) :
    b.length = 6 ∧ Denotes b { t with microsecond := 0 } false false := by
  obtain ⟨b', h1, h2, h3⟩ := C16_roundtrip t h.1 h.2.1 h.2.2
  rw [hb] at h1; cases h1
  exact ⟨h2, (C17_decode_iff _ _ _ _).1 h3⟩

theorem denotes_unique {d : Bytes} {t t' : DateTime} {x y x' y' : Bool} (h : Denotes d t x y) (h' : Denotes d t' x' y') :
    t = t' := by
  have e := (C17_decode_iff _ _ _ _).2 h
  rw [(C17_decode_iff _ _ _ _).2 h'] at e
  cases e; rfl

/-- What the device finds in the body of a request is what the request asks for; it finds something exactly
if the password has six characters. -/
theorem reads_iff {e : Event} {r : Rand} {body : Bytes} {code : UInt8} (hr : PadOk r.pw) (ht : TimeFits e)
    (hc : requestCode e.type = some code) (h : e.toBytes r = .ok body) (x : Asked) :
    Reads code body x ↔ (∀ pw, passwordIn e = some pw → pw.length = 6) ∧ x = askedOf e := by
  cases e <;> simp only [Event.type, requestCode, Option.some.injEq, reduceCtorEq] at hc <;> subst hc <;>
    simp only [Event.toBytes] at h
  case readInstantaneousValuesRequest q =>
    have hb := ((C21_read_values q r.pw hr body).1 h).2
    have hl : body.length = q.password.length + 4 := by rw [hb, pwBytes_length]
    have hp : q.password.length = 6 → bytesAt body 0 6 = latin1 q.password := fun h6 => by
      rw [hb]; unfold pwBytes bytesAt
      rw [List.append_assoc, List.drop_zero, ← show (latin1 q.password).length = 6 by simp [latin1, h6], List.take_left]
    constructor
    · intro hx
      cases hx with
      | values _ h1 =>
        have h6 : q.password.length = 6 := by omega
        exact ⟨fun pw hpw => by (cases hpw; exact h6), by rw [hp h6]; rfl⟩
    · rintro ⟨h6, rfl⟩
      have h6 := h6 _ rfl
      have := Reads.values body (by omega)
      rw [hp h6] at this
      exact this
  case readTimeRequest q =>
    have hb : body = [] := (Except.ok.inj h).symm
    subst hb
    constructor
    · intro hx; cases hx; exact ⟨fun pw hpw => by (cases hpw), rfl⟩
    · rintro ⟨_, rfl⟩; exact .time
  case writeTimeRequest q =>
    obtain ⟨_, t, h2, h3⟩ := (C21_write_time q r.pw hr body).1 h
    have h4 := time_six ht h2
    have hl : body.length = q.password.length + 11 := by
      rw [h3]; simp [pwBytes_length, h4.1]
    have hd := fun h6 => C21_write_time_decoded q r.pw hr body h6 ht.1 ht.2.2 h
    constructor
    · intro hx
      cases hx with
      | setTime _ t' x y h1 h7 h8 =>
        have h6 : q.password.length = 6 := by omega
        obtain ⟨_, g1, g2, _⟩ := hd h6
        refine ⟨fun pw hpw => by (cases hpw; exact h6), ?_⟩
        rw [g1, denotes_unique h7 ((C17_decode_iff _ _ _ _).1 g2)]; rfl
    · rintro ⟨h6, rfl⟩
      obtain ⟨g0, g1, g2, g3⟩ := hd (h6 _ rfl)
      have := Reads.setTime body _ _ _ g0 ((C17_decode_iff _ _ _ _).1 g2) g3
      rw [g1] at this
      exact this
  case readDeviceParametersRequest q =>
    obtain ⟨_, _, _, h3⟩ := (C21_read_parameters q r.pw hr body).1 h
    have hl : body.length = q.password.length + 8 := by
      rw [h3]; simp [pwBytes_length, leOf_length]
    have hd := fun h6 => C21_read_parameters_decoded q r.pw hr body h6 h
    have e : ∀ h6, Asked.parameters (bytesAt body 0 6) (leAt body 10 2) (leAt body 12 2) =
        askedOf (.readDeviceParametersRequest q) := fun h6 => by
      obtain ⟨_, g1, g2, g3⟩ := hd h6
      rw [g1, askedOf, ← g2, ← g3]; rfl
    constructor
    · intro hx
      cases hx with
      | parameters _ h1 =>
        have h6 : q.password.length = 6 := by omega
        exact ⟨fun pw hpw => by (cases hpw; exact h6), e h6⟩
    · rintro ⟨h6, rfl⟩
      have := Reads.parameters body (hd (h6 _ rfl)).1
      rw [e (h6 _ rfl)] at this
      exact this
  case readArchiveRequest q =>
    obtain ⟨_, _, _, _, h3⟩ := (C21_read_archive q r.pw hr body).1 h
    have hl : body.length = q.password.length + 11 := by
      rw [h3]; simp [pwBytes_length, leOf_length]
    have hd := fun h6 => C21_read_archive_decoded q r.pw hr body h6 h
    have e : ∀ h6, Asked.archive (bytesAt body 0 6) (leAt body 10 1) (leAt body 15 2) (leAt body 11 4) =
        askedOf (.readArchiveRequest q) := fun h6 => by
      obtain ⟨_, g1, g2, g3, g4⟩ := hd h6
      rw [g1, askedOf, ← g2, ← g3, ← g4]; rfl
    constructor
    · intro hx
      cases hx with
      | archive _ h1 =>
        have h6 : q.password.length = 6 := by omega
        exact ⟨fun pw hpw => by (cases hpw; exact h6), e h6⟩
    · rintro ⟨h6, rfl⟩
      have := Reads.archive body (hd (h6 _ rfl)).1
      rw [e (h6 _ rfl)] at this
      exact this
  case readArchiveByTimeRequest q =>
    obtain ⟨_, _, _, t, h2, h3⟩ := (C21_read_archive_by_time q r.pw hr body).1 h
    have h4 := time_six ht h2
    have hl : body.length = q.password.length + 13 := by
      rw [h3]; simp [pwBytes_length, leOf_length, h4.1]
    have hd := fun h6 => C21_read_archive_by_time_decoded q r.pw hr body h6 ht.1 ht.2.2 h
    have e : ∀ h6, Asked.archiveSince (bytesAt body 0 6) (leAt body 10 1) (leAt body 11 2)
          { q.oldestTimestamp with microsecond := 0 } = askedOf (.readArchiveByTimeRequest q) := fun h6 => by
      obtain ⟨_, g1, g2, g3, _⟩ := hd h6
      rw [g1, askedOf, ← g2, ← g3]; rfl
    constructor
    · intro hx
      cases hx with
      | archiveSince _ t' x y h1 h7 =>
        have h6 : q.password.length = 6 := by omega
        refine ⟨fun pw hpw => by (cases hpw; exact h6), ?_⟩
        rw [denotes_unique h7 ((C17_decode_iff _ _ _ _).1 (hd h6).2.2.2.2)]
        exact e h6
    · rintro ⟨h6, rfl⟩
      have := Reads.archiveSince body _ _ _ (hd (h6 _ rfl)).1 ((C17_decode_iff _ _ _ _).1 (hd (h6 _ rfl)).2.2.2.2)
      rw [e (h6 _ rfl)] at this
      exact this

/-! ### One exchange with a device -/

/-- Waiting for a line that is refused: the exception is raised as soon as the line is complete. -/
theorem loop_refused (C : BlockCipher) (x : PyErr) (w : Bytes) (hw : 0x0D ∉ w) (hw0 : w ≠ []) (last : Bytes)
    (hl : last ≠ []) (rest : List (Res Bytes)) : ∀ (pieces : List Bytes) (c : Conn),
    c.buffer ++ (pieces.flatten ++ last) = w ++ [0x0D] →
    ({ c with buffer := w ++ [0x0D] } : Conn).nextEvent C = ({ c with buffer := w ++ [0x0D] }, .error x) →
    nextEventLoop C c ((pieces ++ [last]).map .ok ++ rest) = (.raised x, { c with buffer := w ++ [0x0D] }, rest) := by
  have clean : ∀ (p q : Bytes), q ≠ [] → p ++ q = w ++ [0x0D] → 0x0D ∉ p := by
    intro p q hq h
    rcases eq_nil_or_snoc q with rfl | ⟨q', b, rfl⟩
    · exact absurd rfl hq
    · rw [← List.append_assoc] at h
      have := (List.append_inj' h rfl).1
      exact fun hm => hw (this ▸ List.mem_append_left _ hm)
  intro pieces
  induction pieces with
  | nil =>
    intro c hb hn
    have h0 : 0x0D ∉ c.buffer := clean _ _ hl hb
    have hrec : c.receiveData last = { c with buffer := w ++ [0x0D] } := by
      rw [receiveData_append]
      · simp only [List.flatten_nil, List.nil_append] at hb; rw [hb]
      · intro h1 h2
        rw [h1, h2] at hb
        cases w with
        | nil => exact hw0 rfl
        | cons y ys => simp at hb
    simp only [List.nil_append, List.map_cons, List.map_nil, List.cons_append]
    rw [nextEventLoop.eq_def, nextEvent_none h0]
    dsimp only
    rw [hrec, nextEventLoop.eq_def, hn]
  | cons p ps ih =>
    intro c hb hn
    have h0 : 0x0D ∉ c.buffer := clean _ _ (by simp [hl]) hb
    have hrec : c.receiveData p = { c with buffer := c.buffer ++ p } := by
      apply receiveData_append
      intro h1 h2
      have h3 : 0x0D ∉ c.buffer ++ p := clean _ (ps.flatten ++ last) (by simp [hl]) (by
        rw [← hb]; simp)
      rw [h1] at h3
      exact h3 (by simp)
    simp only [List.cons_append, List.map_cons]
    rw [nextEventLoop.eq_def, nextEvent_none h0]
    dsimp only
    rw [hrec]
    exact ih { c with buffer := c.buffer ++ p } (by rw [← hb]; simp) hn

/-- A client in the middle of a session with a device: nothing pending, the key of the device. -/
structure Fit (C : BlockCipher) (ca : ConnArgs) (D : Device) (s : Sys) : Prop where
  reach : Reachable C ca s.conn
  ready : Ready s.conn
  context : createCipherContext ca = contextOf D.key
  pads : ∀ k, PadOk (s.rands k).pw

theorem fit_cc {C : BlockCipher} {ca : ConnArgs} {D : Device} {s : Sys} (h : Fit C ca D s) :
    s.conn.cipherContext = contextOf D.key := by
  rw [(reachable_config h.reach).2.2, h.context]

theorem service_code {e : Event} {u : EventType} {svc : ServiceNumber} {code : UInt8} (h1 : responseOf e.type = some u)
    (h2 : serviceOf u = some svc) (h3 : requestCode e.type = some code) : code = UInt8.ofNat svc.value := by
  revert h1 h2 h3
  generalize e.type = t
  cases t <;> simp only [responseOf, requestCode, reduceCtorEq, Option.some.injEq, false_implies] <;>
    (rintro rfl h2 rfl; simp only [serviceOf, Option.some.injEq] at h2; subst h2; rfl)

/-- The answer of the device is what the client works on. -/
theorem exchange_reply {C : BlockCipher} {ca : ConnArgs} {D : Device} {s : Sys} (hf : Fit C ca D s) {e : Event}
    {u : EventType} {svc : ServiceNumber} (hu : responseOf e.type = some u)
    (hsvc : serviceOf u = some svc) {w : Bytes}
    (hw : (s.conn.send C e (s.rands s.draws)).2 = .ok w) {ss : List (Res Unit)} (hss : s.sends = .ok () :: ss)
    {pieces : List Bytes} {last : Bytes} (hl : last ≠ []) {rest : List (Res Bytes)}
    (hr : s.recvs = (pieces ++ [last]).map .ok ++ rest) {code : UInt8} (h1 : requestCode e.type = some code)
    {reply : Bytes} (g4 : Carries C D.key 0x86 code reply (pieces.flatten ++ last)) :
      (∀ pdu, (∀ b, reply = [b] → ¬ OneBit b) → Decodes svc reply pdu → s.exchange C e = (.returned pdu,
        { s with sends := ss, recvs := rest, draws := s.draws + 1, handed := s.handed ++ [w] })) ∧
      (reply = [0x01] → (s.exchange C e).1 = .raised (.elgas .wrongPassword) ∧
        (s.exchange C e).2.handed = s.handed ++ [w] ∧ (s.exchange C e).2.recvs = rest) := by
  obtain ⟨l, k1, k2, k3, k4⟩ := carries_delivers g4 svc (service_code hu hsvc h1)
  refine ⟨?_, ?_⟩
  · intro pdu hone hdec
    rw [C52_exchange_iff C s _ e pdu (isRequest_of hu) hf.ready]
    obtain ⟨j1, j2⟩ := gathered_line pieces last l hl k3 k2 [] last hl (by simp) k1
    refine ⟨w, hw, hss, ⟨pieces, last, l, [], hr, j1, j2, k2, l, svc, reply, rfl, k2, ?_, hone, hdec⟩, ?_, rfl, rfl, rfl,
      rfl, rfl⟩
    · rw [fit_cc hf, ← k1]; exact k4
    · rw [hu, serviceOf_inj (decodes_type hdec) hsvc]
  · rintro rfl
    have hsf := send_frame C s.conn e (s.rands s.draws)
    have hcc : (s.conn.send C e (s.rands s.draws)).1.cipherContext = contextOf D.key := by
      rw [hsf.2.1, fit_cc hf]
    obtain ⟨x, hx, hn, _⟩ := C40_error_raised C
      { (s.conn.send C e (s.rands s.draws)).1 with buffer := l ++ [0x0D] } l [] svc 0x01 0 [] k2 rfl
      (by rw [← k1]; exact hcc ▸ k4) (by omega) (by decide)
    have hx : x = .wrongPassword := by
      simp [errorOfBit] at hx; exact hx.symm
    subst hx
    rw [exchange_loop C s e w ss hf.ready.2 hw hss, hr,
      loop_refused C _ l k2 k3 last hl rest pieces (s.conn.send C e (s.rands s.draws)).1
        (by rw [hsf.2.2, hf.ready.2, ← k1]; rfl) hn]
    exact ⟨rfl, rfl, rfl⟩

/-- The device finds in the line what the request asks for. -/
theorem exchange_device {C : BlockCipher} {ca : ConnArgs} {D D1 : Device} {s : Sys} (hf : Fit C ca D s) {e : Event}
    (ht : TimeFits e) {u : EventType} {svc : ServiceNumber} (hu : responseOf e.type = some u)
    (hsvc : serviceOf u = some svc) {w : Bytes}
    (hw : (s.conn.send C e (s.rands s.draws)).2 = .ok w) {ss : List (Res Unit)} (hss : s.sends = .ok () :: ss)
    {pieces : List Bytes} {last : Bytes} (hl : last ≠ []) {rest : List (Res Bytes)}
    (hr : s.recvs = (pieces ++ [last]).map .ok ++ rest) (hrep : Replies C D w D1 (pieces.flatten ++ last)) :
    ∃ reply, Does D (askedOf e) D1 reply ∧
      (∀ pdu, (∀ b, reply = [b] → ¬ OneBit b) → Decodes svc reply pdu → s.exchange C e = (.returned pdu,
        { s with sends := ss, recvs := rest, draws := s.draws + 1, handed := s.handed ++ [w] })) ∧
      (reply = [0x01] → (s.exchange C e).1 = .raised (.elgas .wrongPassword) ∧
        (s.exchange C e).2.handed = s.handed ++ [w] ∧ (s.exchange C e).2.recvs = rest) := by
  obtain ⟨code, body, h1, h2, h3⟩ := send_carries hf.reach hw hf.context
  obtain ⟨service, body', a, reply, g1, g2, g3, g4⟩ := hrep
  obtain ⟨rfl, rfl⟩ := carries_unique h3 g1
  have ha := ((reads_iff (hf.pads _) ht h1 h2 a).1 g2).2
  subst ha
  exact ⟨reply, g3, exchange_reply hf hu hsvc hw hss hl hr h1 g4⟩

/-! ### Calls of a client that knows the device -/

theorem send_fits {C : BlockCipher} {ca : ConnArgs} {D : Device} {s : Sys} (hf : Fit C ca D s) (hd : D.Ok) {e : Event}
    (he : IsRequest e) {r : Rand} {body : Bytes} (hb : e.toBytes r = .ok body) (hl : body.length ≤ 65500) :
    ∃ w, (s.conn.send C e r).2 = .ok w := by
  have h := C46_send_succeeds C ca s.conn hf.reach hf.ready.1 e he r body hb
  have hc := hf.context
  unfold createCipherContext contextOf at hc
  cases hk : D.key with
  | none =>
    rw [hk] at hc
    refine h.1 ?_ (by omega)
    cases h1 : ca.encryptionKey with
    | none => exact .inl rfl
    | some key =>
      cases h2 : ca.encryptionKeyId with
      | none => exact .inr rfl
      | some id => rw [h1, h2] at hc; cases hc
  | some k =>
    rw [hk] at hc
    cases h1 : ca.encryptionKey with
    | none => rw [h1] at hc; cases hc
    | some key =>
      cases h2 : ca.encryptionKeyId with
      | none => rw [h1, h2] at hc; cases hc
      | some id =>
        rw [h1, h2] at hc
        simp only [Option.map_some, Option.some.injEq, CipherContext.mk.injEq] at hc
        have := k.1.toNat_lt
        refine h.2 key id h1 h2 (by rw [hc.2]; exact hd.key k.1 k.2 (by rw [hk])) (by omega) (by omega) hl

/-- The part of a session that one exchange takes up. -/
theorem exchange_fed {C : BlockCipher} {ca : ConnArgs} {D D' : Device} {s : Sys} (hf : Fit C ca D s) {e : Event}
    (ht : TimeFits e) {u : EventType} {svc : ServiceNumber} (hu : responseOf e.type = some u)
    (hsvc : serviceOf u = some svc) {w : Bytes} (hw : (s.conn.send C e (s.rands s.draws)).2 = .ok w) {n : Nat}
    (hss : s.sends = List.replicate n (.ok ())) {more ws ws2 rs : List Bytes}
    (hh : (s.exchange C e).2.handed ++ more = s.handed ++ ws) (hn : ws.length ≤ n) {rest : List (Res Bytes)}
    (hr : s.recvs = rs.map .ok ++ rest) (hfeed : Feeds C D (ws ++ ws2) rs D') :
    ∃ D1 rs2 m reply, n = m + 1 ∧ ws = w :: more ∧ Feeds C D1 (more ++ ws2) rs2 D' ∧ Does D (askedOf e) D1 reply ∧
      (∀ pdu, (∀ b, reply = [b] → ¬ OneBit b) → Decodes svc reply pdu → s.exchange C e = (.returned pdu,
        { s with sends := List.replicate m (.ok ()), recvs := rs2.map .ok ++ rest, draws := s.draws + 1,
                 handed := s.handed ++ [w] })) ∧
      (reply = [0x01] → (s.exchange C e).1 = .raised (.elgas .wrongPassword) ∧
        (s.exchange C e).2.recvs = rs2.map .ok ++ rest) := by
  have hws : ws = w :: more := by
    have hx : (s.exchange C e).2.handed = s.handed ++ [w] := by
      cases n with
      | zero => rw [(exchange_untransmitted C s e w hw).1 hss]
      | succ m => rw [exchange_loop C s e w _ hf.ready.2 hw hss]
    rw [hx, List.append_assoc] at hh
    exact (List.append_cancel_left hh).symm
  subst hws
  cases n with
  | zero => simp at hn
  | succ m =>
    cases hfeed with
    | request _ D1 _ _ _ pieces last rs2 h1 h2 h3 =>
      obtain ⟨reply, g1, g2, g3⟩ := exchange_device (rest := rs2.map .ok ++ rest) hf ht hu hsvc hw
        (ss := List.replicate m (.ok ())) hss h2 (by rw [hr]; simp) h1
      exact ⟨D1, rs2, m, reply, rfl, rfl, h3, g1, g2, fun h => ⟨(g3 h).1, (g3 h).2.2⟩⟩

theorem not_oneBit {b : Bytes} (h : b.length ≠ 1) : ∀ x, b = [x] → ¬ OneBit x := by
  rintro x rfl; exact absurd rfl h

theorem denotes_length {d : Bytes} {t : DateTime} {x y : Bool} (h : Denotes d t x y) : d.length = 6 := by
  obtain ⟨_, _, _, _, _, _, rfl, _⟩ := h; rfl

theorem decode_values {D : Device} (hd : D.Ok) {tb : Bytes} (h : Denotes tb D.clock D.isDst D.supportsDst) :
    ReadInstantaneousValuesResponse.fromBytes (tb ++ D.values ++ [D.access] ++ D.status ++ D.summary ++ D.crc) =
      .ok { currentTime := D.clock, isDst := D.isDst, supportsDst := D.supportsDst, data := D.values,
            dataAccess := D.access, status := D.status, summaryStatus := D.summary, parameterCrc := D.crc } := by
  generalize hb : tb ++ D.values ++ [D.access] ++ D.status ++ D.summary ++ D.crc = b
  have h6 := denotes_length h
  have ht : b.take 6 = tb := by rw [← hb]; simp only [List.append_assoc]; rw [← h6, List.take_left]
  have hl : 25 ≤ b.length := by
    rw [← hb]; simp only [List.length_append, List.length_cons, List.length_nil, hd.status, hd.summary, hd.crc, h6]; omega
  obtain ⟨r, hr⟩ := (C23_accepts_iff b).2 ⟨hl, _, _, _, ht ▸ h⟩
  obtain ⟨e1, e2, e3, e4, e5⟩ := C23_lossless b r hr
  rw [ht] at e1 e5
  rw [(C17_decode_iff _ _ _ _).2 h] at e5
  rw [← hb] at e1
  obtain ⟨e1, f1⟩ := List.append_inj' e1 (by rw [hd.crc, e4])
  obtain ⟨e1, f2⟩ := List.append_inj' e1 (by rw [hd.summary, e3])
  obtain ⟨e1, f3⟩ := List.append_inj' e1 (by rw [hd.status, e2])
  obtain ⟨e1, f4⟩ := List.append_inj' e1 rfl
  have f5 := List.append_cancel_left e1
  rw [hr]
  cases r
  simp only [Except.ok.injEq, Prod.mk.injEq, List.cons.injEq, and_true] at e5 f1 f2 f3 f4 f5
  obtain ⟨g1, g2, g3⟩ := e5
  subst f1 f2 f3 f4 f5 g1 g2 g3
  rfl

theorem decode_record {x : Int} (hx : 0 ≤ x ∧ x ≤ 10) {id : Nat} (hid : id < 2 ^ 32) (data : Bytes) :
    (∃ p, ReadArchiveResponse.fromBytes ([UInt8.ofNat x.toNat] ++ leOf id 4 ++ data) = .ok p ∧
      (p.archive.value : Int) = x ∧ p.data = data ∧ p.oldestRecordId = id % 2 ^ 24) ∧
    (∃ p, ReadArchiveByTimeResponse.fromBytes ([UInt8.ofNat x.toNat] ++ leOf id 4 ++ data) = .ok p ∧
      (p.archive.value : Int) = x ∧ p.data = data ∧ p.oldestRecordId = id % 2 ^ 24) := by
  have hx' : (UInt8.ofNat x.toNat).toNat = x.toNat := u8_ofNat_toNat_lt (by omega)
  have hacc := (C26_accepts ([UInt8.ofNat x.toNat] ++ leOf id 4 ++ data)).2.1 (UInt8.ofNat x.toNat) (leOf id 4 ++ data)
    (by simp) (by rw [hx']; omega)
  have hl : 5 ≤ ([UInt8.ofNat x.toNat] ++ leOf id 4 ++ data).length := by
    simp only [List.length_append, leOf_length, List.length_cons, List.length_nil]; omega
  have hrec := C26_record_id _ hl
  have e1 : leAt ([UInt8.ofNat x.toNat] ++ leOf id 4 ++ data) 0 1 = x.toNat := by
    unfold leAt; simp [hx']
  have e2 : sentRecordId ([UInt8.ofNat x.toNat] ++ leOf id 4 ++ data) = id := by
    unfold sentRecordId
    exact leAt_leOf [UInt8.ofNat x.toNat] data id 1 4 rfl (by omega)
  have e3 : ([UInt8.ofNat x.toNat] ++ leOf id 4 ++ data).drop 5 = data := by
    rw [show 5 = ([UInt8.ofNat x.toNat] ++ leOf id 4).length by simp [leOf_length], List.drop_left]
  obtain ⟨⟨p, hp⟩, q, hq⟩ := hacc
  obtain ⟨a1, a2, a3, _⟩ := hrec.1 p hp
  obtain ⟨b1, b2, b3, _⟩ := hrec.2 q hq
  rw [e1] at a1 b1
  rw [e2] at a3 b3
  rw [e3] at a2 b2
  exact ⟨⟨p, hp, by omega, a2, a3⟩, q, hq, by omega, b2, b3⟩

theorem does_values {D D1 : Device} {p reply : Bytes} (h : Does D (.values p) D1 reply) (hp : p = D.password) :
    D1 = D ∧ ∃ tb, Denotes tb D.clock D.isDst D.supportsDst ∧
      reply = tb ++ D.values ++ [D.access] ++ D.status ++ D.summary ++ D.crc := by
  cases h with
  | denied _ q h1 h2 => cases h1; exact absurd hp h2
  | values tb h1 => exact ⟨rfl, tb, h1, rfl⟩

theorem does_time {D D1 : Device} {reply : Bytes} (h : Does D .time D1 reply) :
    D1 = D ∧ ∃ tb extra, Denotes tb D.clock D.isDst D.supportsDst ∧ reply = tb ++ [D.access] ++ extra ++ D.crc := by
  cases h with
  | denied _ q h1 h2 => cases h1
  | time tb extra h1 => exact ⟨rfl, tb, extra, h1, rfl⟩

theorem does_setTime {D D1 : Device} {p reply : Bytes} {t : DateTime} (h : Does D (.setTime p t) D1 reply)
    (hp : p = D.password) : D1 = { D with clock := t } ∧ ∀ b, reply = [b] → ¬ OneBit b := by
  cases h with
  | denied _ q h1 h2 => cases h1; exact absurd hp h2
  | setTime _ _ h1 => exact ⟨rfl, h1⟩

theorem does_parameters {D D1 : Device} {p reply : Bytes} {first room : Nat}
    (h : Does D (.parameters p first room) D1 reply) (hp : p = D.password) :
    D1 = D ∧ ∃ (k : Nat) (flag : UInt8), k ≤ D.objects.length - first ∧
      (flag ≠ 0 ↔ D.objects.length ≤ first + k) ∧
      reply = le2 first ++ le2 k ++ [flag] ++ ((D.objects.drop first).take k).flatten := by
  cases h with
  | denied _ q h1 h2 => cases h1; exact absurd hp h2
  | parameters _ _ k flag h1 h2 h3 => exact ⟨rfl, k, flag, h1, h3, rfl⟩

theorem does_archive {D D1 : Device} {p reply : Bytes} {x n i : Nat} (h : Does D (.archive p x n i) D1 reply)
    (hp : p = D.password) :
    D1 = D ∧ reply = [UInt8.ofNat x] ++ leOf (D.records x n i).1 4 ++ (D.records x n i).2 := by
  cases h with
  | denied _ q h1 h2 => cases h1; exact absurd hp h2
  | archive => exact ⟨rfl, rfl⟩

theorem does_archiveSince {D D1 : Device} {p reply : Bytes} {x n : Nat} {t : DateTime}
    (h : Does D (.archiveSince p x n t) D1 reply) (hp : p = D.password) :
    D1 = D ∧ reply = [UInt8.ofNat x] ++ leOf (D.recordsSince x n t).1 4 ++ (D.recordsSince x n t).2 := by
  cases h with
  | denied _ q h1 h2 => cases h1; exact absurd hp h2
  | archiveSince => exact ⟨rfl, rfl⟩

/-- The page a device answers with, as the client reads it. -/
theorem decode_page {first k : Nat} (hf : first < 65536) (hk : k < 65536) (flag : UInt8) (data : Bytes) :
    ReadDeviceParametersResponse.fromBytes (le2 first ++ le2 k ++ [flag] ++ data) =
      .ok { objectNumber := first, objectAmount := k, isEnd := decide (flag ≠ 0), data := data } := by
  have hl : 5 ≤ (le2 first ++ le2 k ++ [flag] ++ data).length := by simp [le2]
  rw [(C25_read_parameters _).1 hl]
  have e1 : leAt (le2 first ++ le2 k ++ [flag] ++ data) 0 2 = first := by
    simp only [List.append_assoc]; exact leAt_le2 _ hf _
  have e2 : leAt (le2 first ++ le2 k ++ [flag] ++ data) 2 2 = k := by
    have : leAt (le2 first ++ le2 k ++ [flag] ++ data) 2 2 = leAt (le2 k ++ ([flag] ++ data)) 0 2 := by
      unfold leAt le2; simp
    rw [this]; exact leAt_le2 _ hk _
  have e3 : leAt (le2 first ++ le2 k ++ [flag] ++ data) 4 1 = flag.toNat := by
    unfold leAt le2; simp
  have e4 : (le2 first ++ le2 k ++ [flag] ++ data).drop 5 = data := by
    unfold le2; simp
  rw [e1, e2, e3, e4]
  congr 2
  have : flag.toNat ≠ 0 ↔ flag ≠ 0 := by
    constructor
    · rintro h rfl; exact h rfl
    · intro h h0; exact h (UInt8.toNat_inj.1 (by simpa using h0))
  simp only [decide_eq_decide]
  exact this

/-- How a call leaves the client: as it was, further on in the session. -/
structure Onward (s s' : Sys) (n : Nat) (ws rs : List Bytes) (rest : List (Res Bytes)) : Prop where
  conn : s'.conn = s.conn
  password : s'.password = s.password
  rands : s'.rands = s.rands
  room : ws.length ≤ n
  sends : s'.sends = List.replicate (n - ws.length) (.ok ())
  recvs : s'.recvs = rs.map .ok ++ rest
  handed : s'.handed = s.handed ++ ws

theorem pages_more {C : BlockCipher} {ca : ConnArgs} {s : Sys} (hs : Reachable C ca s.conn) (count : Int) (total : Bytes) :
    ∃ more, (s.readPages C count total).2.handed =
      (s.exchange C (pageRequest s.password count)).2.handed ++ more := by
  cases he : s.exchange C (pageRequest s.password count) with | mk o s1 =>
  have h2 := (exchange_effect hs (pageRequest s.password count)).2.1
  rw [he] at h2
  cases o with
  | raised e => rw [readPages_raised he]; exact ⟨[], by simp⟩
  | pending => rw [readPages_pending he]; exact ⟨[], by simp⟩
  | returned ev =>
    by_cases hev : ∃ p, ev = .readDeviceParametersResponse p
    · obtain ⟨p, rfl⟩ := hev
      rw [readPages_page he]
      split
      · exact ⟨[], by simp⟩
      · obtain ⟨_, _, ws', g3, _⟩ := pages_effect (fun _ => True) s1 s1.password (count + p.objectAmount)
          (total ++ p.data) h2 rfl (fun _ _ _ _ _ _ => trivial)
        exact ⟨ws', g3⟩
    · have : s.readPages C count total = (.raised .attribute, s1) := by
        unfold Sys.readPages
        split
        · next h => change s.exchange C (pageRequest s.password count) = _ at h; rw [he] at h; cases h
        · next h => change s.exchange C (pageRequest s.password count) = _ at h; rw [he] at h; cases h
        · next p s2 h => change s.exchange C (pageRequest s.password count) = _ at h; rw [he] at h; injection h with h; injection h with h; exact absurd ⟨p, h⟩ hev
        · next h => change s.exchange C (pageRequest s.password count) = _ at h; rw [he] at h; injection h with _ h; rw [h]
      rw [this]; exact ⟨[], by simp⟩

theorem pageBody_ok {pw : PyStr} (hp : IsLatin1 pw) (h6 : pw.length = 6) {count : Int} (hc : 0 ≤ count ∧ count ≤ 65535) {r : Rand}
    (hr : PadOk r.pw) : ∃ b, (pageRequest pw count).toBytes r = .ok b ∧ b.length ≤ 65500 := by
  refine ⟨_, (C21_read_parameters _ r.pw hr _).2 ⟨hp, hc, ⟨by simp, by simp⟩, rfl⟩, ?_⟩
  simp [pwBytes_length, leOf_length, h6]

/-- Reading all pages. -/
theorem pages_fed {C : BlockCipher} {ca : ConnArgs} {D D' : Device} (hd : D.Ok) {rest : List (Res Bytes)} :
    ∀ (m : Nat) (s : Sys) (count : Int) (total : Bytes) (n : Nat) (ws more rs : List Bytes), ws.length = m →
    Fit C ca D s → IsLatin1 s.password → latin1 s.password = D.password → 0 ≤ count ∧ count ≤ 65535 →
    s.sends = List.replicate n (.ok ()) →
    (s.readPages C count total).2.handed ++ more = s.handed ++ ws → ws.length ≤ n →
    s.recvs = rs.map .ok ++ rest → Feeds C D ws rs D' →
    ∃ rs2 ws1, ws = ws1 ++ more ∧ Feeds C D more rs2 D' ∧
      (s.readPages C count total).1 = .returned (total ++ (D.objects.drop count.toNat).flatten) ∧
      Onward s (s.readPages C count total).2 n ws1 rs2 rest := by
  intro m
  induction m using Nat.strongRecOn with
  | _ m ih =>
    intro s count total n ws more rs hm hf hp hpw hc hss hh hn hr hfeed
    have h6 : s.password.length = 6 := by
      have := congrArg List.length hpw
      rw [hd.password] at this
      simpa [latin1] using this
    obtain ⟨b, hb, hbl⟩ := pageBody_ok hp h6 hc (hf.pads s.draws)
    obtain ⟨w, hw⟩ := send_fits hf hd (isRequest_of rfl) hb hbl
    obtain ⟨more1, hmore⟩ := pages_more hf.reach count total
    obtain ⟨D1, rs2, n', reply, hn', rfl, g1, g2, g3, _⟩ := exchange_fed (ws2 := []) (more := more1 ++ more) hf
      (show TimeFits (pageRequest s.password count) from trivial) rfl rfl hw hss
      (by rw [← List.append_assoc, ← hmore]; exact hh) hn hr (by simpa using hfeed)
    rw [List.append_nil] at g1
    subst hn'
    obtain ⟨rfl, k, flag, k1, k2, rfl⟩ := does_parameters g2 hpw
    have hobj := hd.objects
    have hdec := decode_page (first := count.toNat) (k := k) (by omega) (by omega) flag
      ((D1.objects.drop count.toNat).take k).flatten
    have hx := g3 _ (not_oneBit (by simp [le2])) (.parameters _ _ hdec)
    have hstep := readPages_page (total := total) hx
    dsimp only at hstep
    have hsplit : ((D1.objects.drop count.toNat).take k).flatten ++ (D1.objects.drop (count.toNat + k)).flatten =
        (D1.objects.drop count.toNat).flatten := by
      rw [← List.flatten_append, ← List.drop_drop, List.take_append_drop]
    by_cases hflag : flag = 0
    · rw [if_neg (by simp [hflag])] at hstep
      have hlt : ¬ D1.objects.length ≤ count.toNat + k := fun h => (k2.2 h) hflag
      rw [hstep] at hh ⊢
      rw [List.length_cons] at hm hn
      have hh' : (Sys.readPages C { s with sends := List.replicate n' (.ok ()), recvs := rs2.map .ok ++ rest, draws := s.draws + 1,
                                           handed := s.handed ++ [w] } (count + (k : Int)) (total ++
            ((D1.objects.drop count.toNat).take k).flatten)).2.handed ++ more =
          (s.handed ++ [w]) ++ (more1 ++ more) := by rw [List.append_assoc]; exact hh
      obtain ⟨rs3, ws1, j1, j2, j3, j4⟩ := ih (more1 ++ more).length (by omega)
        { s with sends := List.replicate n' (.ok ()), recvs := rs2.map .ok ++ rest, draws := s.draws + 1,
                 handed := s.handed ++ [w] } (count + (k : Int)) _ n' (more1 ++ more)
        more rs2 rfl ⟨hf.reach, hf.ready, hf.context, hf.pads⟩ hp hpw (by omega) rfl hh' (by omega) rfl g1
      refine ⟨rs3, w :: ws1, by rw [j1]; rfl, j2, ?_, ?_⟩
      · rw [j3, List.append_assoc, show (count + (k : Int)).toNat = count.toNat + k by omega, hsplit]
      · exact ⟨j4.conn, j4.password, j4.rands, by have := j4.room; simp; omega,
          by rw [j4.sends]; simp, j4.recvs, by rw [j4.handed]; simp⟩
    · rw [if_pos (by simp [hflag])] at hstep
      have hge := k2.1 hflag
      rw [hstep] at hh ⊢
      dsimp only at hh
      have hm1 : more1 = [] := by
        rw [List.append_assoc] at hh
        have := List.append_cancel_left hh
        simp at this
        simpa using this
      subst hm1
      refine ⟨rs2, [w], rfl, g1, ?_, ⟨rfl, rfl, rfl, by simp, by simp, rfl, rfl⟩⟩
      · rw [List.drop_of_length_le hge] at hsplit
        rw [← hsplit]; simp

theorem bodies_fit {pw : PyStr} (hp : IsLatin1 pw) (h6 : pw.length = 6) {r : Rand} (hr : PadOk r.pw) :
    (∃ b, (Event.readInstantaneousValuesRequest { password := pw }).toBytes r = .ok b ∧ b.length ≤ 65500) ∧
    (∃ b, (Event.readTimeRequest {}).toBytes r = .ok b ∧ b.length ≤ 65500) ∧
    (∀ t c, Expressible t →
      ∃ b, (Event.writeTimeRequest { password := pw, deviceTime := t, cryout := c }).toBytes r = .ok b ∧ b.length ≤ 65500) ∧
    (∀ x n i, (Call.readArchive x n i).InRange →
      ∃ b, (Event.readArchiveRequest { password := pw, archive := x, amount := n, oldestRecordId := i }).toBytes r = .ok b ∧
        b.length ≤ 65500) ∧
    (∀ x n t, (Call.readArchiveByTime x n t).InRange →
      ∃ b, (Event.readArchiveByTimeRequest { password := pw, archive := x, amount := n, oldestTimestamp := t }).toBytes r =
        .ok b ∧ b.length ≤ 65500) := by
  refine ⟨⟨_, (C21_read_values _ r.pw hr _).2 ⟨hp, rfl⟩, ?_⟩, ⟨[], rfl, by simp⟩, ?_, ?_, ?_⟩
  · simp [pwBytes_length, h6]
  · intro t c ht
    obtain ⟨b, h1, h2, _⟩ := C16_roundtrip t ht.1 ht.2.1 ht.2.2
    refine ⟨_, (C21_write_time _ r.pw hr _).2 ⟨hp, b, h1, rfl⟩, ?_⟩
    simp [pwBytes_length, h6, h2]
  · intro x n i ⟨h1, h2, h3⟩
    refine ⟨_, (C21_read_archive _ r.pw hr _).2 ⟨hp, ⟨h1.1, by dsimp only; omega⟩, h3, h2, rfl⟩, ?_⟩
    simp [pwBytes_length, leOf_length, h6]
  · intro x n t ⟨h1, h2, ht⟩
    obtain ⟨b, g1, g2, _⟩ := C16_roundtrip t ht.1 ht.2.1 ht.2.2
    refine ⟨_, (C21_read_archive_by_time _ r.pw hr _).2 ⟨hp, ⟨h1.1, by dsimp only; omega⟩, h2, b, g1, rfl⟩, ?_⟩
    simp [pwBytes_length, leOf_length, h6, g2]

theorem callV_call (C : BlockCipher) (s : Sys) (k : Call) : (callV C s k).2 = (call C s k).2 := by cases k <;> rfl

theorem callsV_calls (C : BlockCipher) (ks : List Call) : ∀ s, (callsV C s ks).2 = (calls C s ks).2 := by
  induction ks with
  | nil => intro s; rfl
  | cons k ks ih => intro s; simp only [callsV, calls]; rw [callV_call, ih]

/-- One call of a client that knows the device. -/
theorem call_fed {C : BlockCipher} {ca : ConnArgs} {D D' : Device} (hd : D.Ok) {s : Sys} (hf : Fit C ca D s)
    (hp : IsLatin1 s.password) (hpw : latin1 s.password = D.password) {k : Call} (hk : k.InRange) {n : Nat}
    (hss : s.sends = List.replicate n (.ok ())) {ws more rs : List Bytes}
    (hh : (callV C s k).2.handed ++ more = s.handed ++ ws) (hn : ws.length ≤ n) {rest : List (Res Bytes)}
    (hr : s.recvs = rs.map .ok ++ rest) (hfeed : Feeds C D ws rs D') :
    ∃ D1 rs2 ws1, ws = ws1 ++ more ∧ Feeds C D1 more rs2 D' ∧ Ideal D k (callV C s k).1 D1 ∧
      (D1 = D ∨ ∃ t, Expressible t ∧ D1 = { D with clock := { t with microsecond := 0 } }) ∧
      Onward s (callV C s k).2 n ws1 rs2 rest := by
  have h6 : s.password.length = 6 := by
    have := congrArg List.length hpw
    rw [hd.password] at this
    simpa [latin1] using this
  obtain ⟨v1, v2, v3, v4, v5⟩ := bodies_fit hp h6 (hf.pads s.draws)
  have hfeed' : Feeds C D (ws ++ []) rs D' := by simpa using hfeed
  cases k with
  | readInstantaneousValues =>
    obtain ⟨b, hb, hbl⟩ := v1
    obtain ⟨w, hw⟩ := send_fits hf hd (isRequest_of rfl) hb hbl
    obtain ⟨D1, rs2, m, reply, rfl, rfl, g1, g2, g3, _⟩ := exchange_fed (ws2 := []) (more := more) hf
      (show TimeFits (.readInstantaneousValuesRequest { password := s.password }) from trivial) rfl rfl hw hss hh hn hr hfeed'
    rw [List.append_nil] at g1
    obtain ⟨rfl, tb, t1, rfl⟩ := does_values g2 hpw
    have hx := g3 _ (not_oneBit (by simp [denotes_length t1]; omega)) (.values _ _ (decode_values hd t1))
    simp only [callV, Sys.readInstantaneousValues, hx, Outcome3.andThen]
    exact ⟨_, rs2, [w], rfl, g1, .values, .inl rfl, ⟨rfl, rfl, rfl, by simp, by simp, rfl, rfl⟩⟩
  | readTime =>
    obtain ⟨b, hb, hbl⟩ := v2
    obtain ⟨w, hw⟩ := send_fits hf hd (isRequest_of rfl) hb hbl
    obtain ⟨D1, rs2, m, reply, rfl, rfl, g1, g2, g3, _⟩ := exchange_fed (ws2 := []) (more := more) hf
      (show TimeFits (.readTimeRequest {}) from trivial) rfl rfl hw hss hh hn hr hfeed'
    rw [List.append_nil] at g1
    obtain ⟨rfl, tb, extra, t1, rfl⟩ := does_time g2
    have ht : (tb ++ [D1.access] ++ extra ++ D1.crc).take 6 = tb := by
      simp only [List.append_assoc]; rw [← denotes_length t1, List.take_left]
    have hdec := (C24_read_time (tb ++ [D1.access] ++ extra ++ D1.crc)).1 _ _ _ (ht.symm ▸ t1)
    have hx := g3 _ (not_oneBit (by simp [denotes_length t1]; omega)) (.time _ _ hdec)
    simp only [callV, Sys.readTime, timeOf, hx, Outcome3.andThen]
    exact ⟨_, rs2, [w], rfl, g1, .time, .inl rfl, ⟨rfl, rfl, rfl, by simp, by simp, rfl, rfl⟩⟩
  | writeTime t c =>
    obtain ⟨b, hb, hbl⟩ := v3 t c hk
    obtain ⟨w, hw⟩ := send_fits hf hd (isRequest_of rfl) hb hbl
    obtain ⟨D1, rs2, m, reply, rfl, rfl, g1, g2, g3, _⟩ := exchange_fed (ws2 := []) (more := more) hf
      (show TimeFits (.writeTimeRequest { password := s.password, deviceTime := t, cryout := c }) from hk)
      rfl rfl hw hss hh hn hr hfeed'
    rw [List.append_nil] at g1
    obtain ⟨rfl, t1⟩ := does_setTime g2 hpw
    have hx := g3 _ t1 (.writeTime _ _ rfl)
    simp only [callV, Sys.writeTime, hx, Outcome3.andThen]
    exact ⟨_, rs2, [w], rfl, g1, .writeTime t c, .inr ⟨t, hk, rfl⟩, ⟨rfl, rfl, rfl, by simp, by simp, rfl, rfl⟩⟩
  | readParameters i =>
    obtain ⟨rs2, ws1, g1, g2, g3, g4⟩ := pages_fed hd _ s i [] n ws more rs rfl hf hp hpw hk hss hh hn hr hfeed
    refine ⟨D, rs2, ws1, g1, g2, ?_, .inl rfl, g4⟩
    have e : (callV C s (.readParameters i)).1 = ((Outcome3.ofRes (parseParameters none
        (some (D.objects.drop i.toNat).flatten))).andThen (.returned ∘ .objects)) := by
      show (((s.readPages C i []).1.andThen _).andThen _) = _
      rw [g3]; rfl
    rw [e]
    cases hparse : parseParameters none (some (D.objects.drop i.toNat).flatten) with
    | ok os => exact .parameters i os hparse
    | error x => exact .unparsable i x hparse
  | readArchive x i j =>
    obtain ⟨b, hb, hbl⟩ := v4 x i j hk
    obtain ⟨w, hw⟩ := send_fits hf hd (isRequest_of rfl) hb hbl
    obtain ⟨D1, rs2, m, reply, rfl, rfl, g1, g2, g3, _⟩ := exchange_fed (ws2 := []) (more := more) hf
      (show TimeFits (.readArchiveRequest { password := s.password, archive := x, amount := i, oldestRecordId := j })
        from trivial) rfl rfl hw hss hh hn hr hfeed'
    rw [List.append_nil] at g1
    obtain ⟨rfl, rfl⟩ := does_archive g2 hpw
    obtain ⟨p, p1, p2, p3, p4⟩ := (decode_record hk.1 (hd.records x.toNat i.toNat j.toNat) (D1.records x.toNat i.toNat j.toNat).2).1
    have hx := g3 _ (not_oneBit (by simp [leOf_length])) (.archive _ _ p1)
    simp only [callV, Sys.readArchive, hx, Outcome3.andThen]
    exact ⟨_, rs2, [w], rfl, g1, .archive x i j p p2 p3 p4, .inl rfl, ⟨rfl, rfl, rfl, by simp, by simp, rfl, rfl⟩⟩
  | readArchiveByTime x i t =>
    obtain ⟨b, hb, hbl⟩ := v5 x i t hk
    obtain ⟨w, hw⟩ := send_fits hf hd (isRequest_of rfl) hb hbl
    obtain ⟨D1, rs2, m, reply, rfl, rfl, g1, g2, g3, _⟩ := exchange_fed (ws2 := []) (more := more) hf
      (show TimeFits (.readArchiveByTimeRequest
        { password := s.password, archive := x, amount := i, oldestTimestamp := t }) from hk.2.2) rfl rfl hw hss hh hn hr hfeed'
    rw [List.append_nil] at g1
    obtain ⟨rfl, rfl⟩ := does_archiveSince g2 hpw
    obtain ⟨p, p1, p2, p3, p4⟩ := (decode_record hk.1 (hd.recordsSince x.toNat i.toNat { t with microsecond := 0 })
      (D1.recordsSince x.toNat i.toNat { t with microsecond := 0 }).2).2
    have hx := g3 _ (not_oneBit (by simp [leOf_length])) (.archiveByTime _ _ p1)
    simp only [callV, Sys.readArchiveByTime, hx, Outcome3.andThen]
    exact ⟨_, rs2, [w], rfl, g1, .archiveSince x i t p p2 p3 p4, .inl rfl, ⟨rfl, rfl, rfl, by simp, by simp, rfl, rfl⟩⟩


/-! ### Sessions -/

theorem shares_context {a : ClientArgs} {D : Device} (h : SharesKey a D)
    (hk : ∀ keyId key, D.key = some (keyId, key) → key.length = 16) {ca : ConnArgs}
    (hca : ca = ⟨0, 0, 0, 0, toSecretStr a.password, a.passwordId, toSecretByte a.encryptionKey, a.encryptionKeyId⟩) :
    createCipherContext ca = contextOf D.key := by
  subst hca
  unfold SharesKey at h
  unfold createCipherContext contextOf
  cases hd : D.key with
  | none =>
    rw [hd] at h
    dsimp only at h ⊢
    cases h1 : a.encryptionKey with
    | none => rfl
    | some key =>
      cases h2 : a.encryptionKeyId with
      | none =>
        simp only [toSecretByte]
        cases key <;> rfl
      | some id =>
        cases key with
        | nil => rfl
        | cons x xs => exact absurd ⟨⟨_, h1, by simp⟩, _, h2⟩ h
  | some k =>
    rw [hd] at h
    dsimp only at h ⊢
    have hl := hk k.1 k.2 (by rw [hd])
    rw [h.1, h.2]
    simp only [toSecretByte]
    rw [if_neg]
    · rfl
    · intro h0
      rw [List.isEmpty_iff] at h0
      rw [h0] at hl; cases hl

theorem mkClient_start {C : BlockCipher} {a : ClientArgs} {sends : List (Res Unit)} {recvs : List (Res Bytes)}
    {rands : Nat → Rand} {s : Sys} (hm : mkClient a sends recvs rands = .ok s) :
    Reachable C ⟨0, 0, 0, 0, toSecretStr a.password, a.passwordId, toSecretByte a.encryptionKey, a.encryptionKeyId⟩
      s.conn ∧ Ready s.conn ∧ s.password = a.password ∧ s.sends = sends ∧ s.recvs = recvs ∧ s.rands = rands ∧
      s.handed = [] := by
  unfold mkClient at hm
  rw [bind_eq_ok] at hm
  obtain ⟨conn, hc, hm⟩ := hm
  replace hm := (Except.ok.inj hm).symm
  subst hm
  refine ⟨⟨conn, [], hc, rfl⟩, ?_, rfl, rfl, rfl, rfl, rfl⟩
  unfold clientConn at hc
  rw [mkConn_eq] at hc
  split at hc
  · rw [← Except.ok.inj hc]; exact ⟨rfl, rfl⟩
  · cases hc

theorem calls_more {C : BlockCipher} {ca : ConnArgs} (ks : List Call) : ∀ s : Sys, Reachable C ca s.conn →
    ∃ ws, (calls C s ks).2.handed = s.handed ++ ws := by
  induction ks with
  | nil => intro s _; exact ⟨[], by simp [calls]⟩
  | cons k ks ih =>
    intro s h
    obtain ⟨_, g2, ws, g3, _⟩ := call_effect (fun _ _ => True) s s.password h rfl (fun _ _ _ _ _ _ => trivial) k
    obtain ⟨ws', g4⟩ := ih (call C s k).2 g2
    exact ⟨ws ++ ws', by show (calls C (call C s k).2 ks).2.handed = _; rw [g4, g3, List.append_assoc]⟩

theorem session_fed {C : BlockCipher} {ca : ConnArgs} {D' : Device} (ks : List Call) (hks : ∀ k ∈ ks, k.InRange) :
    ∀ (s : Sys) (D : Device) (n : Nat) (ws rs : List Bytes) (rest : List (Res Bytes)), D.Ok → Fit C ca D s →
    IsLatin1 s.password → latin1 s.password = D.password → s.sends = List.replicate n (.ok ()) →
    (calls C s ks).2.handed = s.handed ++ ws → ws.length ≤ n → s.recvs = rs.map .ok ++ rest → Feeds C D ws rs D' →
    Ideals D ks (callsV C s ks).1 D' ∧ (calls C s ks).2.recvs = rest ∧ (calls C s ks).2.conn = s.conn := by
  induction ks with
  | nil =>
    intro s D n ws rs rest hd hf hp hpw hss hh hn hr hfeed
    have : ws = [] := by simpa [calls] using hh.symm
    subst this
    generalize hw : ([] : List Bytes) = ws at hfeed
    cases hfeed with
    | nil => exact ⟨.nil _, by simpa [calls] using hr, rfl⟩
    | request => cases hw
  | cons k ks ih =>
    intro s D n ws rs rest hd hf hp hpw hss hh hn hr hfeed
    obtain ⟨_, hreach, ws0, hws0, _⟩ :=
      call_effect (fun _ _ => True) s s.password hf.reach rfl (fun _ _ _ _ _ _ => trivial) k
    obtain ⟨more, hmore⟩ := calls_more ks (call C s k).2 hreach
    have hh' : (calls C (call C s k).2 ks).2.handed = s.handed ++ ws := hh
    obtain ⟨D1, rs2, ws1, g1, g2, g3, g4, g5⟩ := call_fed hd hf hp hpw (hks k (by simp)) hss
      (by rw [callV_call, ← hmore]; exact hh') hn hr hfeed
    have hk1 : D1.key = D.key := by rcases g4 with rfl | ⟨t, _, rfl⟩ <;> rfl
    have hd1 : D1.Ok := by
      rcases g4 with rfl | ⟨t, ht, rfl⟩
      · exact hd
      · refine ⟨hd.password, ⟨⟨?_, ht.2.1, ht.2.2⟩, rfl⟩, hd.key, hd.status, hd.summary, hd.crc, hd.objects, hd.records,
          hd.recordsSince⟩
        have := ht.1
        unfold DateTime.Valid at this ⊢
        simp_all
    have hp1 : D1.password = D.password := by rcases g4 with rfl | ⟨t, _, rfl⟩ <;> rfl
    rw [callV_call] at g5
    have hlen : ws.length = ws1.length + more.length := by rw [g1]; simp
    obtain ⟨i1, i2, i3⟩ := ih (fun k hk => hks k (by simp [hk])) (call C s k).2 D1 (n - ws1.length) more rs2 rest hd1
      ⟨g5.conn ▸ hf.reach, g5.conn ▸ hf.ready, hk1 ▸ hf.context, g5.rands ▸ hf.pads⟩ (g5.password ▸ hp)
      (by rw [g5.password, hp1]; exact hpw) g5.sends hmore (by omega) g5.recvs g2
    refine ⟨?_, i2, i3.trans g5.conn⟩
    simp only [callsV, callV_call]
    exact .call D D1 D' k ks _ _ g3 i1

/-- C79. A new client that knows the password and the key of a device is used for any calls the protocol can
express, and `recv()` returns what the device answers to the lines handed to the transport, cut in any way.  Then
each call gives back what the device held at that moment, `write_time` sets the clock of the device and nothing
else, all answers are consumed, and the client is ready for more. -/
theorem C79_session (C : BlockCipher) (a : ClientArgs) (n : Nat) (rs : List Bytes) (rands : Nat → Rand) (s : Sys)
    (hm : mkClient a (List.replicate n (.ok ())) (rs.map .ok) rands = .ok s) (hr : ∀ i, PadOk (rands i).pw)
    (D D' : Device) (hd : D.Ok) (hk : SharesKey a D) (hp : KnowsPassword a D) (ks : List Call)
    (hks : ∀ k ∈ ks, k.InRange) (hn : (calls C s ks).2.handed.length ≤ n)
    (hf : Feeds C D (calls C s ks).2.handed rs D') :
    Ideals D ks (callsV C s ks).1 D' ∧ (calls C s ks).2.recvs = [] ∧ Ready (calls C s ks).2.conn := by
  obtain ⟨h1, h2, h3, h4, h5, h6, h7⟩ := mkClient_start (C := C) hm
  obtain ⟨g1, g2, g3⟩ := session_fed ks hks s D n _ rs [] hd
    ⟨h1, h2, shares_context hk hd.key rfl, h6 ▸ hr⟩ (h3 ▸ hp.1) (h3 ▸ hp.2) h4 (by rw [h7]; rfl) hn (by simp [h5]) hf
  exact ⟨g1, g2, g3 ▸ h2⟩

/-! ### What the device sees -/

theorem inRange_fits {pw : PyStr} {k : Call} (hk : k.InRange) {e : Event} (he : RequestOf pw k e) : TimeFits e := by
  cases k with
  | readInstantaneousValues => rw [show e = _ from he]; trivial
  | readTime => rw [show e = _ from he]; trivial
  | writeTime t c => rw [show e = _ from he]; exact hk
  | readParameters n => obtain ⟨c, rfl⟩ := he; trivial
  | readArchive x n i => rw [show e = _ from he]; trivial
  | readArchiveByTime x n t => rw [show e = _ from he]; exact hk.2.2

theorem means_asked {pw : PyStr} {k : Call} {e : Event} (he : RequestOf pw k e) : Means pw k (askedOf e) := by
  cases k with
  | readParameters n => obtain ⟨c, rfl⟩ := he; exact ⟨_, rfl⟩
  | _ => rw [show e = _ from he]; rfl

theorem passwordIn_request {pw : PyStr} {k : Call} {e : Event} (he : RequestOf pw k e) :
    ∀ p, passwordIn e = some p → p = pw := by
  cases k with
  | readParameters n => obtain ⟨c, rfl⟩ := he; intro p hp; cases hp; rfl
  | readTime => rw [show e = _ from he]; intro p hp; cases hp
  | _ => rw [show e = _ from he]; intro p hp; cases hp; rfl

theorem asked_password (e : Event) : (askedOf e).password = (passwordIn e).map latin1 := by
  cases e <;> rfl

theorem encodable {e : Event} {r : Rand} {body : Bytes} (hr : PadOk r.pw) (h : e.toBytes r = .ok body) :
    ∀ p, passwordIn e = some p → IsLatin1 p := by
  intro p hp
  cases e <;> simp only [passwordIn, Option.some.injEq, reduceCtorEq] at hp <;> subst hp
  · exact ((C21_read_values _ _ hr _).1 h).1
  · exact ((C21_write_time _ _ hr _).1 h).1
  · exact ((C21_read_parameters _ _ hr _).1 h).1
  · exact ((C21_read_archive_by_time _ _ hr _).1 h).1
  · exact ((C21_read_archive _ _ hr _).1 h).1

theorem finds_sent {C : BlockCipher} {ca : ConnArgs} {c : Conn} (hc : Reachable C ca c) {D : Device}
    (hx : createCipherContext ca = contextOf D.key) {e : Event} {r : Rand} (hr : PadOk r.pw) {w : Bytes}
    (hw : (c.send C e r).2 = .ok w) (ht : TimeFits e) :
    (∀ p, passwordIn e = some p → IsLatin1 p) ∧
    ∀ x, Finds C D w x ↔ (∀ pw, passwordIn e = some pw → pw.length = 6) ∧ x = askedOf e := by
  obtain ⟨code, body, h1, h2, h3⟩ := send_carries hc hw hx
  refine ⟨encodable hr h2, fun x => ⟨?_, fun h => ⟨code, body, h3, (reads_iff hr ht h1 h2 x).2 h⟩⟩⟩
  rintro ⟨service, body', g1, g2⟩
  obtain ⟨rfl, rfl⟩ := carries_unique h3 g1
  exact (reads_iff hr ht h1 h2 x).1 g2

theorem written_found {C : BlockCipher} {ca : ConnArgs} {D : Device} (hx : createCipherContext ca = contextOf D.key)
    (ks : List Call) (hks : ∀ k ∈ ks, k.InRange) : ∀ s : Sys, Reachable C ca s.conn → (∀ i, PadOk (s.rands i).pw) →
    ∃ ws, (calls C s ks).2.handed = s.handed ++ ws ∧
      Written (fun k w => ∃ e, RequestOf s.password k e ∧ (∀ p, passwordIn e = some p → IsLatin1 p) ∧
        ∀ x, Finds C D w x ↔ (∀ pw, passwordIn e = some pw → pw.length = 6) ∧ x = askedOf e) ks ws := by
  induction ks with
  | nil => intro s _ _; exact ⟨[], by simp [calls], .nil⟩
  | cons k ks ih =>
    intro s hs hr
    obtain ⟨h1, h2, ws, h3, h4, h5⟩ := call_effect (fun e w => TimeFits e → (∀ p, passwordIn e = some p → IsLatin1 p) ∧
        ∀ x, Finds C D w x ↔ (∀ pw, passwordIn e = some pw → pw.length = 6) ∧ x = askedOf e) s s.password hs rfl
      (fun c e j w hc hw ht => finds_sent hc hx (hr j) hw ht) k
    obtain ⟨ws', g1, g2⟩ := ih (fun k hk => hks k (by simp [hk])) (call C s k).2 h2 (by rw [call_rands]; exact hr)
    rw [h1] at g2
    refine ⟨ws ++ ws', by show (calls C (call C s k).2 ks).2.handed = _; rw [g1, h3, List.append_assoc],
      .call k ks ws ws' (fun w hw => ?_) h5 g2⟩
    obtain ⟨e, he, hP⟩ := h4 w hw
    exact ⟨e, he, hP (inRange_fits (hks k (by simp)) he)⟩

/-- C79. Whatever the transport does: everything a client with a six-character password and the key of the device
hands to the transport has exactly one meaning to the device, and it is that of the call that wrote it. -/
theorem C79_understood (C : BlockCipher) (a : ClientArgs) (sends : List (Res Unit)) (recvs : List (Res Bytes))
    (rands : Nat → Rand) (s : Sys) (hm : mkClient a sends recvs rands = .ok s) (hr : ∀ i, PadOk (rands i).pw)
    (h6 : a.password.length = 6) (D : Device) (hd : D.Ok) (hk : SharesKey a D) (ks : List Call)
    (hks : ∀ k ∈ ks, k.InRange) :
    Written (fun k w => ∃ x, Means a.password k x ∧ ∀ y, Finds C D w y ↔ y = x) ks (calls C s ks).2.handed := by
  obtain ⟨h1, _, h3, _, _, h7, h8⟩ := mkClient_start (C := C) hm
  obtain ⟨ws, g1, g2⟩ := written_found (shares_context hk hd.key rfl) ks hks s h1 (h7 ▸ hr)
  rw [g1, h8, List.nil_append]
  rw [h3] at g2
  clear hks g1
  induction g2 with
  | nil => exact .nil
  | call k ks ws rest i1 i2 _ ih =>
    refine .call k ks ws rest (fun w hw => ?_) i2 ih
    obtain ⟨e, he, _, hf⟩ := i1 w hw
    refine ⟨_, means_asked he, fun y => ?_⟩
    rw [hf y]
    exact ⟨fun h => h.2, fun h => ⟨fun p hp => by rw [passwordIn_request he p hp]; exact h6, h⟩⟩

theorem does_denied {D D1 : Device} {x : Asked} {reply : Bytes} (h : Does D x D1 reply)
    (hx : ∀ p, x.password = some p → p ≠ D.password) : D1 = D := by
  cases h with
  | setTime t reply _ => exact absurd rfl (hx _ rfl)
  | _ => rfl

/-- C79. Without the password nothing changes: whichever of the lines a client hands over reach the device, in
whatever order and however often, the device stays as it is. -/
theorem C79_unchanged (C : BlockCipher) (a : ClientArgs) (sends : List (Res Unit)) (recvs : List (Res Bytes))
    (rands : Nat → Rand) (s : Sys) (hm : mkClient a sends recvs rands = .ok s) (hr : ∀ i, PadOk (rands i).pw)
    (D D' : Device) (hd : D.Ok) (hk : SharesKey a D) (hp : ¬ KnowsPassword a D) (ks : List Call)
    (hks : ∀ k ∈ ks, k.InRange) (ws rs : List Bytes) (hws : ∀ w ∈ ws, w ∈ (calls C s ks).2.handed)
    (hf : Feeds C D ws rs D') : D' = D := by
  obtain ⟨h1, _, h3, _, _, h7, h8⟩ := mkClient_start (C := C) hm
  obtain ⟨ws', g1, g2⟩ := written_found (shares_context hk hd.key rfl) ks hks s h1 (h7 ▸ hr)
  rw [g1, h8, List.nil_append] at hws
  rw [h3] at g2
  have one : ∀ w ∈ ws', ∀ x, Finds C D w x → ∀ p, x.password = some p → p ≠ D.password := by
    clear hks g1 hws
    induction g2 with
    | nil => intro w hw; cases hw
    | call k ks ws rest i1 i2 _ ih =>
      intro w hw
      rcases List.mem_append.1 hw with hw | hw
      · obtain ⟨e, he, hl, hfd⟩ := i1 w hw
        intro x hx p hpx heq
        rw [((hfd x).1 hx).2, asked_password] at hpx
        cases hpi : passwordIn e with
        | none => rw [hpi] at hpx; cases hpx
        | some q =>
          rw [hpi] at hpx
          have hq := passwordIn_request he q hpi
          subst hq
          exact hp ⟨hl _ hpi, (Option.some.inj hpx).trans heq⟩
      · exact ih w hw
  clear g1 g2
  induction hf with
  | nil => rfl
  | request D D1 D' w ws pieces last rs hrep hl hf ih =>
    obtain ⟨service, body, x, reply, j1, j2, j3, _⟩ := hrep
    have : D1 = D := does_denied j3 (one w (hws w (by simp)) x ⟨service, body, j1, j2⟩)
    subst this
    exact ih hd hk hp (fun w hw => hws w (by simp [hw])) one

/-! ### A client with a wrong password -/

/-- The first request of a call. -/
def firstOf (password : PyStr) : Call → Event
  | .readInstantaneousValues => .readInstantaneousValuesRequest { password }
  | .readTime => .readTimeRequest {}
  | .writeTime t cryout => .writeTimeRequest { password, deviceTime := t, cryout }
  | .readParameters n => pageRequest password n
  | .readArchive archive amount oldestRecordId => .readArchiveRequest { password, archive, amount, oldestRecordId }
  | .readArchiveByTime archive amount oldestTimestamp =>
    .readArchiveByTimeRequest { password, archive, amount, oldestTimestamp }

theorem first_request (pw : PyStr) (k : Call) : RequestOf pw k (firstOf pw k) := by
  cases k with
  | readParameters n => exact ⟨n, rfl⟩
  | _ => rfl

theorem first_service (pw : PyStr) (k : Call) :
    ∃ u svc, responseOf (firstOf pw k).type = some u ∧ serviceOf u = some svc := by
  cases k <;> exact ⟨_, _, rfl, rfl⟩

theorem first_body {pw : PyStr} (hp : IsLatin1 pw) (h6 : pw.length = 6) {r : Rand} (hr : PadOk r.pw) {k : Call}
    (hk : k.InRange) : ∃ b, (firstOf pw k).toBytes r = .ok b ∧ b.length ≤ 65500 := by
  obtain ⟨v1, v2, v3, v4, v5⟩ := bodies_fit hp h6 hr
  cases k with
  | readInstantaneousValues => exact v1
  | readTime => exact v2
  | writeTime t c => exact v3 t c hk
  | readParameters n => exact pageBody_ok hp h6 hk hr
  | readArchive x n i => exact v4 x n i hk
  | readArchiveByTime x n t => exact v5 x n t hk

theorem call_first {C : BlockCipher} {ca : ConnArgs} {s : Sys} (hs : Reachable C ca s.conn) (k : Call) :
    ∃ more, (call C s k).2.handed = (s.exchange C (firstOf s.password k)).2.handed ++ more := by
  cases k with
  | readParameters n => exact pages_more hs n []
  | _ => exact ⟨[], (List.append_nil _).symm⟩

theorem call_raised {C : BlockCipher} {s : Sys} {k : Call} {x : PyErr}
    (h : (s.exchange C (firstOf s.password k)).1 = .raised x) :
    call C s k = (.raised x, (s.exchange C (firstOf s.password k)).2) := by
  have h' : s.exchange C (firstOf s.password k) = (.raised x, (s.exchange C (firstOf s.password k)).2) :=
    Prod.ext h rfl
  generalize (s.exchange C (firstOf s.password k)).2 = s1 at h'
  cases k with
  | readInstantaneousValues => simp only [firstOf] at h'; simp only [call, Sys.readInstantaneousValues, h', ended]
  | readArchive a n i => simp only [firstOf] at h'; simp only [call, Sys.readArchive, h', ended]
  | readArchiveByTime a n t => simp only [firstOf] at h'; simp only [call, Sys.readArchiveByTime, h', ended]
  | readTime => simp only [firstOf] at h'; simp only [call, Sys.readTime, h', ended, Outcome3.andThen]
  | writeTime t b => simp only [firstOf] at h'; simp only [call, Sys.writeTime, h', ended, Outcome3.andThen]
  | readParameters n =>
    dsimp only [call, Sys.readParameters]
    rw [readPages_raised h']
    rfl

/-- A call with a password the device does not accept. -/
theorem call_denied {C : BlockCipher} {ca : ConnArgs} {D D' : Device} (hd : D.Ok) {s : Sys} (hf : Fit C ca D s)
    (hp : IsLatin1 s.password) (h6 : s.password.length = 6) (hpw : latin1 s.password ≠ D.password) {k : Call}
    (hk : k.InRange) (hkt : k ≠ .readTime) {n : Nat}
    (hss : s.sends = List.replicate n (.ok ())) {ws more rs : List Bytes}
    (hh : (call C s k).2.handed ++ more = s.handed ++ ws) (hn : ws.length ≤ n) {rest : List (Res Bytes)}
    (hr : s.recvs = rs.map .ok ++ rest) (hfeed : Feeds C D ws rs D') :
    (call C s k).1 = .raised (.elgas .wrongPassword) ∧ (call C s k).2.conn.state ≠ .idle ∧
      ∃ w rs2, ws = w :: more ∧ (call C s k).2.handed = s.handed ++ [w] ∧ Feeds C D more rs2 D' := by
  obtain ⟨b, hb, hbl⟩ := first_body hp h6 (hf.pads s.draws) hk
  obtain ⟨u, svc, hu, hsvc⟩ := first_service s.password k
  obtain ⟨w, hw⟩ := send_fits hf hd (isRequest_of hu) hb hbl
  obtain ⟨more1, hmore⟩ := call_first hf.reach k
  obtain ⟨D1, rs2, m, reply, hm, hws, g1, g2, _, g3⟩ := exchange_fed (ws2 := []) (more := more1 ++ more) hf
    (inRange_fits hk (first_request s.password k)) hu hsvc hw hss
    (by rw [← List.append_assoc, ← hmore]; exact hh) hn hr (by simpa using hfeed)
  have hden : D1 = D ∧ reply = [0x01] := by
    have hx : (askedOf (firstOf s.password k)).password = some (latin1 s.password) := by
      cases k <;> first | rfl | exact absurd rfl hkt
    generalize askedOf (firstOf s.password k) = x at g2 hx
    cases g2 with
    | denied _ _ _ _ => exact ⟨rfl, rfl⟩
    | time => cases hx
    | _ => exact absurd (Option.some.inj hx).symm hpw
  obtain ⟨rfl, rfl⟩ := hden
  have hx := (g3 rfl).1
  have hc := call_raised hx
  have hst : (s.exchange C (firstOf s.password k)).2.conn.state ≠ .idle := by
    rcases C55_exchange C s (firstOf s.password k) (isRequest_of hu) hf.ready with ⟨pdu, j, _⟩ | ⟨_, _, j⟩
    · rw [hx] at j; cases j
    · exact j
  have hm1 : more1 = [] := by
    rw [hc] at hmore
    have := congrArg List.length hmore
    simp at this
    exact this
  subst hm1
  rw [hc] at hh ⊢
  refine ⟨rfl, hst, w, rs2, hws, ?_, by simpa using g1⟩
  rw [hws] at hh
  dsimp only at hh ⊢
  rw [List.nil_append, ← List.singleton_append, ← List.append_assoc] at hh
  exact List.append_cancel_right hh

/-- `read_time` needs no password. -/
theorem time_fed {C : BlockCipher} {ca : ConnArgs} {D D' : Device} (hd : D.Ok) {s : Sys} (hf : Fit C ca D s) {n : Nat}
    (hss : s.sends = List.replicate n (.ok ())) {ws more rs : List Bytes}
    (hh : (call C s .readTime).2.handed ++ more = s.handed ++ ws) (hn : ws.length ≤ n) {rest : List (Res Bytes)}
    (hr : s.recvs = rs.map .ok ++ rest) (hfeed : Feeds C D ws rs D') :
    ∃ rs2 ws1, ws = ws1 ++ more ∧ Feeds C D more rs2 D' ∧ ws1.length = 1 ∧
      (callV C s .readTime).1 = .returned (.time D.clock) ∧ (call C s .readTime).1 = .returned ∧
      Onward s (call C s .readTime).2 n ws1 rs2 rest := by
  obtain ⟨w, hw⟩ := send_fits (e := .readTimeRequest {}) (r := s.rands s.draws) (body := []) hf hd (isRequest_of rfl) rfl
    (by simp)
  obtain ⟨D1, rs2, m, reply, rfl, rfl, g1, g2, g3, _⟩ := exchange_fed (ws2 := []) (more := more) hf
    (show TimeFits (.readTimeRequest {}) from trivial) rfl rfl hw hss hh hn hr (by simpa using hfeed)
  rw [List.append_nil] at g1
  obtain ⟨rfl, tb, extra, t1, rfl⟩ := does_time g2
  have ht : (tb ++ [D1.access] ++ extra ++ D1.crc).take 6 = tb := by
    simp only [List.append_assoc]; rw [← denotes_length t1, List.take_left]
  have hdec := (C24_read_time (tb ++ [D1.access] ++ extra ++ D1.crc)).1 _ _ _ (ht.symm ▸ t1)
  have hx := g3 _ (not_oneBit (by simp [denotes_length t1]; omega)) (.time _ _ hdec)
  simp only [call, callV, Sys.readTime, timeOf, hx, Outcome3.andThen]
  exact ⟨rs2, [w], rfl, g1, rfl, rfl, rfl, ⟨rfl, rfl, rfl, by simp, by simp, rfl, rfl⟩⟩

/-- C79. With a wrong password of six characters, reading the time works, the first other call raises
`WrongPassword`, each later one `LocalProtocolError`, nothing more is handed to the transport, and the device
stays as it is. -/
theorem C79_wrong_password (C : BlockCipher) (a : ClientArgs) (n : Nat) (rs : List Bytes) (rands : Nat → Rand) (s : Sys)
    (hm : mkClient a (List.replicate n (.ok ())) (rs.map .ok) rands = .ok s) (hr : ∀ i, PadOk (rands i).pw)
    (D D' : Device) (hd : D.Ok) (hk : SharesKey a D) (hl : IsLatin1 a.password) (h6 : a.password.length = 6)
    (hp : latin1 a.password ≠ D.password) (m : Nat) (k : Call) (later : List Call) (hkr : k.InRange)
    (hkt : k ≠ .readTime)
    (hn : (calls C s (List.replicate m .readTime ++ k :: later)).2.handed.length ≤ n)
    (hf : Feeds C D (calls C s (List.replicate m .readTime ++ k :: later)).2.handed rs D') :
    (calls C s (List.replicate m .readTime ++ k :: later)).1 =
      List.replicate m .returned ++ .raised (.elgas .wrongPassword) ::
        List.replicate later.length (.raised (.elgas .localProtocol)) ∧
    (calls C s (List.replicate m .readTime ++ k :: later)).2.handed.length = m + 1 ∧ D' = D := by
  obtain ⟨h1, h2, h3, h4, h5, h7, h8⟩ := mkClient_start (C := C) hm
  have hfit : Fit C _ D s := ⟨h1, h2, shares_context hk hd.key rfl, h7 ▸ hr⟩
  rw [← h3] at hl h6 hp
  suffices H : ∀ (m : Nat) (s : Sys) (n : Nat) (ws rs : List Bytes) (rest : List (Res Bytes)), Fit C _ D s →
      IsLatin1 s.password → s.password.length = 6 → latin1 s.password ≠ D.password →
      s.sends = List.replicate n (.ok ()) →
      (calls C s (List.replicate m .readTime ++ k :: later)).2.handed = s.handed ++ ws → ws.length ≤ n →
      s.recvs = rs.map .ok ++ rest → Feeds C D ws rs D' →
      (calls C s (List.replicate m .readTime ++ k :: later)).1 =
        List.replicate m .returned ++ .raised (.elgas .wrongPassword) ::
          List.replicate later.length (.raised (.elgas .localProtocol)) ∧
      ws.length = m + 1 ∧ D' = D by
    obtain ⟨g1, g2, g3⟩ := H m s n _ rs [] hfit hl h6 hp h4 (by rw [h8]; rfl) hn (by simp [h5]) hf
    exact ⟨g1, g2, g3⟩
  clear hm h1 h2 h3 h4 h5 h7 h8 hl h6 hp hn hf m hfit
  intro m
  induction m with
  | zero =>
    intro s n ws rs rest hfit hl h6 hp hss hh hn hr hfeed
    simp only [List.replicate_zero, List.nil_append] at hh ⊢
    obtain ⟨_, hreach, _⟩ :=
      call_effect (fun _ _ => True) s s.password hfit.reach rfl (fun _ _ _ _ _ _ => trivial) k
    obtain ⟨more, hmore⟩ := calls_more later (call C s k).2 hreach
    obtain ⟨g1, g2, w, rs2, g3, g4, g5⟩ := call_denied hd hfit hl h6 hp hkr hkt hss (more := more)
      (by rw [← hmore]; exact hh) hn hr hfeed
    have hst := C55_stuck C (call C s k).2 later g2
    have hm0 : more = [] := by
      rw [hst] at hmore
      have := congrArg List.length hmore
      simp at this
      exact this
    subst hm0
    refine ⟨?_, by simp [g3], ?_⟩
    · simp only [calls]; rw [g1, hst]
    · generalize hw : ([] : List Bytes) = ws at g5
      cases g5 with
      | nil => rfl
      | request => cases hw
  | succ m ih =>
    intro s n ws rs rest hfit hl h6 hp hss hh hn hr hfeed
    simp only [List.replicate_succ, List.cons_append] at hh ⊢
    obtain ⟨_, hreach, _⟩ :=
      call_effect (fun _ _ => True) s s.password hfit.reach rfl (fun _ _ _ _ _ _ => trivial) .readTime
    obtain ⟨more, hmore⟩ := calls_more (List.replicate m .readTime ++ k :: later) (call C s .readTime).2 hreach
    obtain ⟨rs2, ws1, g1, g2, g3, g4, g5, g6⟩ := time_fed hd hfit hss (more := more) (by rw [← hmore]; exact hh) hn hr hfeed
    have hlen : ws.length = ws1.length + more.length := by rw [g1]; simp
    obtain ⟨i1, i2, i3⟩ := ih (call C s .readTime).2 (n - ws1.length) more rs2 rest
      ⟨g6.conn ▸ hfit.reach, g6.conn ▸ hfit.ready, hfit.context, g6.rands ▸ hfit.pads⟩ (g6.password ▸ hl)
      (g6.password ▸ h6) (g6.password ▸ hp) g6.sends hmore (by omega) g6.recvs g2
    refine ⟨?_, by omega, i3⟩
    simp only [calls]
    rw [g5, i1]

/-! ### A device that answers -/

theorem carries_exists (C : BlockCipher) {D : Device} (hd : D.Ok) (ty svc : UInt8) (body : Bytes)
    (hl : body.length ≤ 65490) : ∃ line, Carries C D.key ty svc body line ∧ line ≠ [] := by
  have hz : (List.replicate 6 0 : Bytes).length = 6 := rfl
  cases hk : D.key with
  | none => exact ⟨_, ⟨_, body, hz, by omega, rfl, rfl⟩, by simp⟩
  | some k =>
    have hlt := k.1.toNat_lt
    obtain ⟨data, hdata⟩ := (C30_encrypt_outcome C ⟨(k.1.toNat : Int), k.2⟩ body (fun _ => 0)).2.2 (by omega)
      (by dsimp only; omega) (by dsimp only; omega) (hd.key k.1 k.2 hk)
    have hlen := (C30_encrypt_shape C _ _ _ _ hdata).1
    refine ⟨_, ⟨_, data, hz, ?_, encrypt_sealed hdata, rfl⟩, by simp⟩
    rw [hlen]; unfold paddedLength; omega

theorem flags_exist (h : UInt8) (a b : Bool) :
    ∃ h' : UInt8, h' &&& 0x3F = h &&& 0x3F ∧ a = h'.toNat.testBit 7 ∧ b = h'.toNat.testBit 6 := by
  have key : ∀ (x : Fin 256) (a b : Bool),
      ((UInt8.ofNat x.1 &&& 0x3F) ||| (if a then 0x80 else 0) ||| (if b then 0x40 else 0)) &&& 0x3F =
        UInt8.ofNat x.1 &&& 0x3F ∧
      a = ((UInt8.ofNat x.1 &&& 0x3F) ||| (if a then 0x80 else 0) ||| (if b then 0x40 else 0) : UInt8).toNat.testBit 7 ∧
      b = ((UInt8.ofNat x.1 &&& 0x3F) ||| (if a then 0x80 else 0) ||| (if b then 0x40 else 0) : UInt8).toNat.testBit 6 := by
    decide +kernel
  have := key ⟨h.toNat, h.toNat_lt⟩ a b
  simp only [UInt8.ofNat_toNat] at this
  exact ⟨_, this⟩

theorem denotes_exists {t : DateTime} (ht : Expressible t ∧ t.microsecond = 0) (a b : Bool) : ∃ tb, Denotes tb t a b := by
  obtain ⟨d, h1, h2, h3⟩ := C16_roundtrip t ht.1.1 ht.1.2.1 ht.1.2.2
  obtain ⟨s, mi, h, da, mo, y, rfl, g1, g2, g3, g4, g5, g6, g7, g8, _⟩ := (C17_decode_iff _ _ _ _).1 h3
  obtain ⟨h', k1, k2, k3⟩ := flags_exist h a b
  have e : ({ t with microsecond := 0 } : DateTime) = t := by
    cases t; simp only [DateTime.mk.injEq, true_and]; exact ht.2.symm
  rw [e] at g7 g8
  exact ⟨_, s, mi, h', da, mo, y, rfl, g1, g2, k1 ▸ g3, g4, g5, g6, by rw [k1]; exact g7, g8, k2, k3⟩

/-- A client in the middle of a session, with the rest of it. -/
def Sys.with (s : Sys) (n : Nat) (rs : List Bytes) : Sys :=
  { s with sends := List.replicate n (.ok ()), recvs := rs.map .ok }

/-- The device can answer the call `k`, whatever comes after that. -/
def Served (C : BlockCipher) (s : Sys) (D : Device) (k : Sys → Sys) (D1 : Device) : Prop :=
  ∃ ws rs : List Bytes, ws.length = rs.length ∧
    (∀ ws2 rs2 D', Feeds C D1 ws2 rs2 D' → Feeds C D (ws ++ ws2) (rs ++ rs2) D') ∧
    ∀ n tail, k (s.with (ws.length + n) (rs ++ tail)) =
      ({ s with draws := s.draws + ws.length, handed := s.handed ++ ws } : Sys).with n tail

theorem exchange_served {C : BlockCipher} {ca : ConnArgs} {D D1 : Device} (hd : D.Ok) {s : Sys} (hf : Fit C ca D s) {e : Event}
    (ht : TimeFits e) {u : EventType} {svc : ServiceNumber} (hu : responseOf e.type = some u)
    (hsvc : serviceOf u = some svc) {body : Bytes} (hb : e.toBytes (s.rands s.draws) = .ok body)
    (hl : body.length ≤ 65500) (h6 : ∀ pw, passwordIn e = some pw → pw.length = 6)
    {reply : Bytes} (hdo : Does D (askedOf e) D1 reply) (hrl : reply.length ≤ 65490)
    (hone : ∀ b, reply = [b] → ¬ OneBit b) {pdu : Event} (hdec : Decodes svc reply pdu) :
    ∃ w line, Replies C D w D1 line ∧ line ≠ [] ∧
      ∀ n tail, (s.with (n + 1) (line :: tail)).exchange C e =
        (.returned pdu, ({ s with draws := s.draws + 1, handed := s.handed ++ [w] } : Sys).with n tail) := by
  obtain ⟨w, hw⟩ := send_fits hf hd (isRequest_of hu) hb hl
  obtain ⟨code, body', h1, h2, h3⟩ := send_carries hf.reach hw hf.context
  have hread := (reads_iff (hf.pads _) ht h1 h2 (askedOf e)).2 ⟨h6, rfl⟩
  obtain ⟨line, hc, hne⟩ := carries_exists C hd 0x86 code reply hrl
  refine ⟨w, line, ⟨code, body', _, reply, h3, hread, hdo, hc⟩, hne, fun n tail => ?_⟩
  exact (exchange_reply (s := s.with (n + 1) (line :: tail)) (pieces := []) (last := line) (rest := tail.map .ok)
    (ss := List.replicate n (.ok ())) ⟨hf.reach, hf.ready, hf.context, hf.pads⟩ hu hsvc hw rfl hne rfl h1
    (by simpa using hc)).1 pdu hone hdec

theorem served_one {C : BlockCipher} {s : Sys} {D D1 : Device} {k : Sys → Sys} {w line : Bytes}
    (h : Replies C D w D1 line) (hne : line ≠ [])
    (hx : ∀ n tail, k (s.with (n + 1) (line :: tail)) =
      ({ s with draws := s.draws + 1, handed := s.handed ++ [w] } : Sys).with n tail) : Served C s D k D1 := by
  refine ⟨[w], [line], rfl, fun ws2 rs2 D' hf => ?_, fun n tail => ?_⟩
  · exact .request D D1 D' w ws2 [] line rs2 (by simpa using h) hne hf
  · rw [List.length_singleton, Nat.add_comm]; exact hx n tail

theorem pages_served {C : BlockCipher} {ca : ConnArgs} {D : Device} (hd : D.Ok) (hz : D.Sizes) :
    ∀ (j : Nat) (s : Sys) (count : Int) (total : Bytes), D.objects.length - count.toNat = j → Fit C ca D s →
    IsLatin1 s.password → latin1 s.password = D.password → 0 ≤ count ∧ count ≤ 65535 →
    Served C s D (fun s => (s.readPages C count total).2) D := by
  intro j
  induction j with
  | zero =>
    intro s count total hj hf hp hpw hc
    have h6 : s.password.length = 6 := by
      have := congrArg List.length hpw
      rw [hd.password] at this
      simpa [latin1] using this
    obtain ⟨b, hb, hbl⟩ := pageBody_ok hp h6 hc (hf.pads s.draws)
    have hdo := Does.parameters (D := D) count.toNat 1024 0 1 (by omega) (by simp) (by simp; omega)
    rw [← hpw] at hdo
    have hdec := decode_page (first := count.toNat) (k := 0) (by omega) (by omega) 1
      ((D.objects.drop count.toNat).take 0).flatten
    obtain ⟨w, line, h1, h2, h3⟩ := exchange_served hd hf (e := pageRequest s.password count) trivial rfl rfl hb hbl
      (fun pw h => by cases h; exact h6) hdo (by simp [le2]) (not_oneBit (by simp [le2])) (.parameters _ _ hdec)
    refine served_one h1 h2 fun n tail => ?_
    rw [readPages_page (h3 n tail)]
    rfl
  | succ j ih =>
    intro s count total hj hf hp hpw hc
    have h6 : s.password.length = 6 := by
      have := congrArg List.length hpw
      rw [hd.password] at this
      simpa [latin1] using this
    have hobj := hd.objects
    obtain ⟨b, hb, hbl⟩ := pageBody_ok hp h6 hc (hf.pads s.draws)
    have hsz : ((D.objects.drop count.toNat).take 1).flatten.length ≤ 1024 := by
      cases hdr : D.objects.drop count.toNat with
      | nil => simp
      | cons o os =>
        simp only [List.take_succ_cons, List.take_zero, List.flatten_cons, List.flatten_nil, List.append_nil]
        exact hz.objects o (List.mem_of_mem_drop (by rw [hdr]; simp))
    by_cases hlast : D.objects.length ≤ count.toNat + 1
    · have hdo := Does.parameters (D := D) count.toNat 1024 1 1 (by omega) hsz (by simp; omega)
      rw [← hpw] at hdo
      have hdec := decode_page (first := count.toNat) (k := 1) (by omega) (by omega) 1
        ((D.objects.drop count.toNat).take 1).flatten
      obtain ⟨w, line, h1, h2, h3⟩ := exchange_served hd hf (e := pageRequest s.password count) trivial rfl rfl hb hbl
        (fun pw h => by cases h; exact h6) hdo
        (by simp only [List.length_append, le2, List.length_cons, List.length_nil]; omega)
        (not_oneBit (by simp [le2])) (.parameters _ _ hdec)
      refine served_one h1 h2 fun n tail => ?_
      rw [readPages_page (h3 n tail)]
      rfl
    · have hdo := Does.parameters (D := D) count.toNat 1024 1 0 (by omega) hsz (by simp; omega)
      rw [← hpw] at hdo
      have hdec := decode_page (first := count.toNat) (k := 1) (by omega) (by omega) 0
        ((D.objects.drop count.toNat).take 1).flatten
      obtain ⟨w, line, h1, h2, h3⟩ := exchange_served hd hf (e := pageRequest s.password count) trivial rfl rfl hb hbl
        (fun pw h => by cases h; exact h6) hdo
        (by simp only [List.length_append, le2, List.length_cons, List.length_nil]; omega)
        (not_oneBit (by simp [le2])) (.parameters _ _ hdec)
      obtain ⟨ws, rs, i1, i2, i3⟩ := ih { s with draws := s.draws + 1, handed := s.handed ++ [w] } (count + ((1 : Nat) : Int))
        (total ++ ((D.objects.drop count.toNat).take 1).flatten) (by omega)
        ⟨hf.reach, hf.ready, hf.context, hf.pads⟩ hp hpw (by omega)
      refine ⟨w :: ws, line :: rs, by simp [i1], fun ws2 rs2 D' hfeed => ?_, fun n tail => ?_⟩
      · exact .request D D D' w (ws ++ ws2) [] line (rs ++ rs2) (by simpa using h1) h2 (i2 _ _ _ hfeed)
      · dsimp only
        have := i3 n tail
        dsimp only at this
        rw [show (w :: ws).length + n = ws.length + n + 1 by simp; omega, List.cons_append,
          readPages_page (h3 (ws.length + n) (rs ++ tail))]
        dsimp only
        rw [if_neg (by simp), this]
        simp only [Sys.with, List.length_cons, List.append_assoc, List.singleton_append]
        congr 1
        omega

theorem call_served {C : BlockCipher} {ca : ConnArgs} {D : Device} (hd : D.Ok) (hz : D.Sizes) {s : Sys} (hf : Fit C ca D s)
    (hp : IsLatin1 s.password) (hpw : latin1 s.password = D.password) {k : Call} (hk : k.InRange) :
    ∃ D1, Served C s D (fun s => (call C s k).2) D1 ∧
      (D1 = D ∨ ∃ t, Expressible t ∧ D1 = { D with clock := { t with microsecond := 0 } }) := by
  have h6 : s.password.length = 6 := by
    have := congrArg List.length hpw
    rw [hd.password] at this
    simpa [latin1] using this
  have hpi : ∀ pw, passwordIn (firstOf s.password k) = some pw → pw.length = 6 := fun pw h => by
    rw [passwordIn_request (first_request s.password k) pw h]; exact h6
  obtain ⟨b, hb, hbl⟩ := first_body hp h6 (hf.pads s.draws) hk
  have hfits := inRange_fits hk (first_request s.password k)
  obtain ⟨tb, htb⟩ := denotes_exists hd.clock D.isDst D.supportsDst
  have htl := denotes_length htb
  have hst := hd.status
  have hsu := hd.summary
  have hcr := hd.crc
  cases k with
  | readInstantaneousValues =>
    have hdo := Does.values (D := D) tb htb
    rw [← hpw] at hdo
    have hv := hz.values
    obtain ⟨w, line, h1, h2, h3⟩ := exchange_served hd hf hfits rfl rfl hb hbl hpi hdo
      (by simp [htl, hst, hsu, hcr]; omega) (not_oneBit (by simp [htl]; omega)) (.values _ _ (decode_values hd htb))
    exact ⟨D, served_one h1 h2 fun n tail => congrArg Prod.snd (h3 n tail), .inl rfl⟩
  | readTime =>
    have hdo := Does.time (D := D) tb [] htb
    have ht : (tb ++ [D.access] ++ [] ++ D.crc).take 6 = tb := by
      simp only [List.append_assoc]; rw [← htl, List.take_left]
    have hdec := (C24_read_time (tb ++ [D.access] ++ [] ++ D.crc)).1 _ _ _ (ht.symm ▸ htb)
    obtain ⟨w, line, h1, h2, h3⟩ := exchange_served hd hf hfits rfl rfl hb hbl hpi hdo
      (by simp [htl, hcr]) (not_oneBit (by simp [htl]; omega)) (.time _ _ hdec)
    exact ⟨D, served_one h1 h2 fun n tail => congrArg Prod.snd (h3 n tail), .inl rfl⟩
  | writeTime t c =>
    have hdo := Does.setTime (D := D) { t with microsecond := 0 } [] (fun _ h => by cases h)
    rw [← hpw] at hdo
    obtain ⟨w, line, h1, h2, h3⟩ := exchange_served hd hf hfits rfl rfl hb hbl hpi hdo
      (by simp) (fun _ h => by cases h) (.writeTime _ _ rfl)
    exact ⟨_, served_one h1 h2 fun n tail => congrArg Prod.snd (h3 n tail), .inr ⟨t, hk, by rw [hpw]⟩⟩
  | readParameters i => exact ⟨D, pages_served hd hz _ s i [] rfl hf hp hpw hk, .inl rfl⟩
  | readArchive x i j =>
    have hdo := Does.archive (D := D) x.toNat i.toNat j.toNat
    rw [← hpw] at hdo
    have hv := hz.records x.toNat i.toNat j.toNat
    obtain ⟨p, p1, _⟩ := (decode_record hk.1 (hd.records x.toNat i.toNat j.toNat) (D.records x.toNat i.toNat j.toNat).2).1
    obtain ⟨w, line, h1, h2, h3⟩ := exchange_served hd hf hfits rfl rfl hb hbl hpi hdo
      (by simp [leOf_length]; omega) (not_oneBit (by simp [leOf_length])) (.archive _ _ p1)
    exact ⟨D, served_one h1 h2 fun n tail => congrArg Prod.snd (h3 n tail), .inl rfl⟩
  | readArchiveByTime x i t =>
    have hdo := Does.archiveSince (D := D) x.toNat i.toNat { t with microsecond := 0 }
    rw [← hpw] at hdo
    have hv := hz.recordsSince x.toNat i.toNat { t with microsecond := 0 }
    obtain ⟨p, p1, _⟩ := (decode_record hk.1 (hd.recordsSince x.toNat i.toNat { t with microsecond := 0 })
      (D.recordsSince x.toNat i.toNat { t with microsecond := 0 }).2).2
    obtain ⟨w, line, h1, h2, h3⟩ := exchange_served hd hf hfits rfl rfl hb hbl hpi hdo
      (by simp [leOf_length]; omega) (not_oneBit (by simp [leOf_length])) (.archiveByTime _ _ p1)
    exact ⟨D, served_one h1 h2 fun n tail => congrArg Prod.snd (h3 n tail), .inl rfl⟩

theorem clock_ok {D : Device} (hd : D.Ok) {t : DateTime} (ht : Expressible t) :
    ({ D with clock := { t with microsecond := 0 } } : Device).Ok := by
  refine ⟨hd.password, ⟨⟨?_, ht.2.1, ht.2.2⟩, rfl⟩, hd.key, hd.status, hd.summary, hd.crc, hd.objects, hd.records,
    hd.recordsSince⟩
  have := ht.1
  unfold DateTime.Valid at this ⊢
  simp_all

theorem session_served {C : BlockCipher} {ca : ConnArgs} (ks : List Call) (hks : ∀ k ∈ ks, k.InRange) :
    ∀ (s : Sys) (D : Device), D.Ok → D.Sizes → Fit C ca D s → IsLatin1 s.password → latin1 s.password = D.password →
    ∃ D', Served C s D (fun s => (calls C s ks).2) D' := by
  induction ks with
  | nil =>
    intro s D _ _ _ _ _
    exact ⟨D, [], [], rfl, fun _ _ _ h => h, fun n tail => by simp [calls, Sys.with]⟩
  | cons k ks ih =>
    intro s D hd hz hf hp hpw
    obtain ⟨D1, ⟨ws, rs, h1, h2, h3⟩, hD⟩ := call_served hd hz hf hp hpw (hks k (by simp))
    have hk1 : D1.key = D.key := by rcases hD with rfl | ⟨t, _, rfl⟩ <;> rfl
    have hp1 : D1.password = D.password := by rcases hD with rfl | ⟨t, _, rfl⟩ <;> rfl
    have hd1 : D1.Ok := by
      rcases hD with rfl | ⟨t, ht, rfl⟩
      · exact hd
      · exact clock_ok hd ht
    have hz1 : D1.Sizes := by
      rcases hD with rfl | ⟨t, ht, rfl⟩
      · exact hz
      · exact ⟨hz.values, hz.objects, hz.records, hz.recordsSince⟩
    obtain ⟨D', ws', rs', g1, g2, g3⟩ := ih (fun k hk => hks k (by simp [hk]))
      { s with draws := s.draws + ws.length, handed := s.handed ++ ws } D1 hd1 hz1
      ⟨hf.reach, hf.ready, hk1 ▸ hf.context, hf.pads⟩ hp (hp1 ▸ hpw)
    refine ⟨D', ws ++ ws', rs ++ rs', by simp [h1, g1], fun ws2 rs2 D'' h => ?_, fun n tail => ?_⟩
    · rw [List.append_assoc, List.append_assoc]; exact h2 _ _ _ (g2 _ _ _ h)
    · have e1 := h3 (ws'.length + n) (rs' ++ tail)
      have e2 := g3 n tail
      dsimp only at e1 e2 ⊢
      simp only [calls]
      rw [List.length_append, Nat.add_assoc, List.append_assoc, e1, e2]
      simp [Sys.with, Nat.add_assoc]

/-- C79. For every device whose data fits into frames, every client with its secrets and all calls the protocol
can express, there are answers with which the session of `C79_session` takes place. -/
theorem C79_served (C : BlockCipher) (a : ClientArgs) (ha : 801 ≤ a.passwordId ∧ a.passwordId ≤ 849)
    (rands : Nat → Rand) (hr : ∀ i, PadOk (rands i).pw)
    (D : Device) (hd : D.Ok) (hz : D.Sizes) (hk : SharesKey a D) (hp : KnowsPassword a D) (ks : List Call)
    (hks : ∀ k ∈ ks, k.InRange) :
    ∃ n rs s D', mkClient a (List.replicate n (.ok ())) (rs.map .ok) rands = .ok s ∧
      (calls C s ks).2.handed.length ≤ n ∧ Feeds C D (calls C s ks).2.handed rs D' ∧
      Ideals D ks (callsV C s ks).1 D' := by
  have h6 : a.password.length = 6 := by
    have := congrArg List.length hp.2
    rw [hd.password] at this
    simpa [latin1] using this
  obtain ⟨s, hm, _⟩ := (C55_constructor a [] [] rands).1 ⟨by omega, ha⟩
  obtain ⟨h1, h2, h3, _, _, h7, h8⟩ := mkClient_start (C := C) hm
  obtain ⟨D', ws, rs, g1, g2, g3⟩ := session_served ks hks s D hd hz
    ⟨h1, h2, shares_context hk hd.key rfl, h7 ▸ hr⟩ (h3 ▸ hp.1) (h3 ▸ hp.2)
  have hm' : mkClient a (List.replicate ws.length (.ok ())) (rs.map .ok) rands = .ok (s.with ws.length rs) := by
    unfold mkClient at hm ⊢
    rw [bind_eq_ok] at hm ⊢
    obtain ⟨conn, hc, hm⟩ := hm
    refine ⟨conn, hc, ?_⟩
    rw [← Except.ok.inj hm]
    rfl
  have g3 := g3 0 []
  simp only [Nat.add_zero, List.append_nil, h8, List.nil_append] at g3
  have hh : (calls C (s.with ws.length rs) ks).2.handed = ws := by rw [g3]; rfl
  have hfeed : Feeds C D ws rs D' := by simpa using g2 [] [] D' (.nil D')
  refine ⟨ws.length, rs, _, D', hm', by rw [hh]; exact Nat.le_refl _, by rw [hh]; exact hfeed, ?_⟩
  exact (C79_session C a _ rs rands _ hm' hr D D' hd hk hp ks hks (by rw [hh]; exact Nat.le_refl _)
    (by rw [hh]; exact hfeed)).1

/-! ### The hypotheses can be met -/

/-- A client with a wrong password and a device that answers it. -/
theorem denied_served (C : BlockCipher) (a : ClientArgs) (ha : 801 ≤ a.passwordId ∧ a.passwordId ≤ 849)
    (rands : Nat → Rand) (hr : ∀ i, PadOk (rands i).pw) (D : Device) (hd : D.Ok) (hk : SharesKey a D)
    (hl : IsLatin1 a.password) (h6 : a.password.length = 6) (hp : latin1 a.password ≠ D.password) (k : Call)
    (hkr : k.InRange) (hkt : k ≠ .readTime) :
    ∃ rs s, mkClient a [.ok ()] (rs.map .ok) rands = .ok s ∧ (calls C s [k]).2.handed.length = 1 ∧
      Feeds C D (calls C s [k]).2.handed rs D := by
  obtain ⟨s, hm, _⟩ := (C55_constructor a [] [] rands).1 ⟨by omega, ha⟩
  obtain ⟨h1, h2, h3, _, _, h7, h8⟩ := mkClient_start (C := C) hm
  have hf : Fit C _ D s := ⟨h1, h2, shares_context hk hd.key rfl, h7 ▸ hr⟩
  rw [← h3] at hl h6 hp
  obtain ⟨b, hb, hbl⟩ := first_body hl h6 (hf.pads s.draws) hkr
  obtain ⟨u, svc, hu, hsvc⟩ := first_service s.password k
  obtain ⟨w, hw⟩ := send_fits hf hd (isRequest_of hu) hb hbl
  obtain ⟨code, body', j1, j2, j3⟩ := send_carries hf.reach hw hf.context
  have hread := (reads_iff (hf.pads _) (inRange_fits hkr (first_request s.password k)) j1 j2 _).2
    ⟨fun pw h => by rw [passwordIn_request (first_request s.password k) pw h]; exact h6, rfl⟩
  obtain ⟨line, hc, hne⟩ := carries_exists C hd 0x86 code [0x01] (by simp)
  have hx : (askedOf (firstOf s.password k)).password = some (latin1 s.password) := by
    cases k <;> first | rfl | exact absurd rfl hkt
  have hm' : mkClient a [.ok ()] ([line].map .ok) rands = .ok (s.with 1 [line]) := by
    unfold mkClient at hm ⊢
    rw [bind_eq_ok] at hm ⊢
    obtain ⟨conn, hc, hm⟩ := hm
    refine ⟨conn, hc, ?_⟩
    rw [← Except.ok.inj hm]
    rfl
  have hraise := (exchange_reply (s := s.with 1 [line]) (pieces := []) (last := line) (rest := [])
    (ss := []) ⟨hf.reach, hf.ready, hf.context, hf.pads⟩ hu hsvc hw rfl hne rfl j1 (by simpa using hc)).2 rfl
  have hcall := call_raised (s := s.with 1 [line]) hraise.1
  have hh : (calls C (s.with 1 [line]) [k]).2.handed = [w] := by
    simp only [calls]
    rw [hcall]
    refine hraise.2.1.trans ?_
    show s.handed ++ [w] = [w]
    rw [h8]; rfl
  refine ⟨[line], _, hm', by rw [hh]; rfl, ?_⟩
  rw [hh]
  exact .request D D D w [] [] line [] ⟨code, body', _, _, j3, hread, .denied _ _ hx hp, by simpa using hc⟩ hne (.nil D)

/-- A device with a given key and password. -/
def exDevice (key : Option (UInt8 × Bytes)) (password : Bytes) : Device :=
  { key, password, clock := ⟨2020, 2, 29, 23, 59, 59, 0⟩, isDst := true,
    supportsDst := true, access := 0x0F, values := [1, 2, 3], status := List.replicate 8 0xAA,
    summary := List.replicate 8 0xBB, crc := [0x12, 0x34], objects := [[1, 2], [3, 4, 5], [6]],
    records := fun x n i => (i % 1000, List.replicate (min n 100) (UInt8.ofNat x)),
    recordsSince := fun _ n t => (t.day % 32, List.replicate (min n 100) 7) }

theorem exDevice_ok (key : Option (UInt8 × Bytes)) (hk : ∀ i k, key = some (i, k) → k.length = 16) (pw : Bytes)
    (hp : pw.length = 6) : (exDevice key pw).Sizes ∧ (exDevice key pw).Ok := by
  have h1 : Expressible ⟨2020, 2, 29, 23, 59, 59, 0⟩ := by unfold Expressible; decide
  have h2 : ∀ o ∈ ([[1, 2], [3, 4, 5], [6]] : List Bytes), o.length ≤ 1024 := by decide
  have h3 : ([1, 2, 3] : Bytes).length ≤ 65000 := by decide
  have h4 : ([[1, 2], [3, 4, 5], [6]] : List Bytes).length ≤ 65535 := by decide
  refine ⟨⟨h3, h2, fun _ _ _ => ?_, fun _ _ _ => ?_⟩,
    ⟨hp, ⟨h1, rfl⟩, hk, rfl, rfl, rfl, h4, fun _ _ _ => ?_, fun _ _ _ => ?_⟩⟩ <;> simp [exDevice] <;> omega

/-- In the clear, and with a key. -/
example : SharesKey exArgs (exDevice none (List.replicate 6 0x30)) ∧ KnowsPassword exArgs (exDevice none (List.replicate 6 0x30)) ∧
    ¬ KnowsPassword exArgs (exDevice none (List.replicate 6 0x31)) :=
  ⟨fun ⟨⟨_, h, _⟩, _⟩ => by (cases h), ⟨by decide, by decide⟩, fun h => absurd h.2 (by decide)⟩
example : SharesKey exSecretArgs (exDevice (some (1, List.replicate 16 7)) (List.replicate 6 0x30)) ∧
    KnowsPassword exSecretArgs (exDevice (some (1, List.replicate 16 7)) (List.replicate 6 0x30)) :=
  ⟨⟨rfl, rfl⟩, by decide, by decide⟩

/-- A session with all kinds of calls. -/
def exSession : List Call :=
  [.readTime, .readInstantaneousValues, .writeTime ⟨2031, 1, 2, 3, 4, 5, 678⟩ false, .readTime, .readParameters 1,
    .readArchive 2 10 77, .readArchiveByTime 3 5 ⟨2022, 3, 4, 5, 6, 7, 0⟩]

example : ∀ k ∈ exSession, k.InRange := by
  simp [exSession, Call.InRange, Expressible]; decide

example (C : BlockCipher) : ∃ n rs s D', mkClient exSecretArgs (List.replicate n (.ok ())) (rs.map .ok)
      (fun _ => ⟨('a', 'b'), fun _ => 0⟩) = .ok s ∧ (calls C s exSession).2.handed.length ≤ n ∧
    Feeds C (exDevice (some (1, List.replicate 16 7)) (List.replicate 6 0x30)) (calls C s exSession).2.handed rs D' ∧
    Ideals (exDevice (some (1, List.replicate 16 7)) (List.replicate 6 0x30)) exSession (callsV C s exSession).1 D' :=
  C79_served C exSecretArgs (by decide) _ (fun _ => by decide +kernel)
    (exDevice (some (1, List.replicate 16 7)) (List.replicate 6 0x30)) (exDevice_ok _ (fun _ _ h => by cases h; rfl) _ rfl).2 (exDevice_ok _ (fun _ _ h => by cases h; rfl) _ rfl).1
    ⟨rfl, rfl⟩ ⟨by decide, by decide⟩ exSession (by simp [exSession, Call.InRange, Expressible]; decide)

example (C : BlockCipher) : ∃ rs s, mkClient exArgs [.ok ()] (rs.map .ok) (fun _ => ⟨('a', 'b'), fun _ => 0⟩) = .ok s ∧
    (calls C s [.readParameters 0]).2.handed.length = 1 ∧
    Feeds C (exDevice none (List.replicate 6 0x31)) (calls C s [.readParameters 0]).2.handed rs
      (exDevice none (List.replicate 6 0x31)) :=
  denied_served C exArgs (by decide) _ (fun _ => by decide +kernel) (exDevice none (List.replicate 6 0x31))
    (exDevice_ok _ (fun _ _ h => by cases h) _ rfl).2
    (fun ⟨⟨_, h, _⟩, _⟩ => by cases h) (by decide) rfl (by decide) (.readParameters 0) ⟨by decide, by decide⟩
    (fun h => by cases h)

end Elgas
