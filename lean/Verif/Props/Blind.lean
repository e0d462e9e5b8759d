import Verif.Spec.Blind
import Verif.Props.Texts
import Verif.Props.Assign
/-!
C100: clients that differ in their password only.
-/
namespace Elgas
open Spec

theorem sameCalls_append {C : BlockCipher} {a : ClientArgs} {pw pw' : PyStr} {l l' m m' : List OsCall}
    (h : SameCalls C a pw pw' l l') (k : SameCalls C a pw pw' m m') : SameCalls C a pw pw' (l ++ m) (l' ++ m') := by
  refine ⟨by rw [List.length_append, List.length_append, h.1, k.1], ?_⟩
  intro i c c' hc hc'
  by_cases hi : i < l.length
  · rw [List.getElem?_append_left hi] at hc
    rw [List.getElem?_append_left (by rw [← h.1]; exact hi)] at hc'
    exact h.2 i c c' hc hc'
  · rw [List.getElem?_append_right (by omega)] at hc
    rw [List.getElem?_append_right (by rw [← h.1]; omega), ← h.1] at hc'
    exact k.2 _ c c' hc hc'

theorem sameCalls_refl (C : BlockCipher) (a : ClientArgs) (pw pw' : PyStr) (l : List OsCall) :
    SameCalls C a pw pw' l l :=
  ⟨rfl, fun i c c' h h' => by rw [h] at h'; injection h' with h'; rw [h']; exact .same _⟩

theorem sameCalls_one {C : BlockCipher} {a : ClientArgs} {pw pw' : PyStr} {c c' : OsCall}
    (h : SameCall C a pw pw' c c') : SameCalls C a pw pw' [c] [c'] := by
  refine ⟨rfl, fun i x x' hx hx' => ?_⟩
  match i with
  | 0 => injection hx with hx; injection hx' with hx'; rw [← hx, ← hx']; exact h
  | n + 1 => cases hx

/-- The connection with another password. -/
def reconn (q : PyStr) (c : Conn) : Conn := { c with args := { c.args with password := q } }

/-- The client with another password, and other calls behind it. -/
def reworld (pw' q : PyStr) (os' : List OsCall) (w : World) : World :=
  { w with password := pw', conn := reconn q w.conn, os := os' }

theorem interpretT_reconn (C : BlockCipher) (q : PyStr) (c : Conn) (d : Bytes) :
    (reconn q c).interpretT C d = c.interpretT C d := rfl

theorem nextEventT_reconn (C : BlockCipher) (q : PyStr) (c : Conn) :
    (reconn q c).nextEventT C = (reconn q (c.nextEventT C).1, (c.nextEventT C).2) := by
  unfold Conn.nextEventT
  rw [show (reconn q c).buffer = c.buffer from rfl]
  split
  · rfl
  · cases indexEnd c.buffer with
    | none => rfl
    | some i =>
      dsimp only
      rw [interpretT_reconn]
      cases c.interpretT C (sliceTo c.buffer ((i : Int) + 1)) with
      | error e => dsimp only; split <;> rfl
      | ok f =>
        dsimp only
        cases pduFromResponseT f with
        | error e => rfl
        | ok pdu =>
          dsimp only
          rw [show (reconn q c).state = c.state from rfl]
          cases processEventT c.state pdu <;> rfl

theorem receiveData_reconn (q : PyStr) (c : Conn) (d : Bytes) :
    (reconn q c).receiveData d = reconn q (c.receiveData d) := by
  unfold Conn.receiveData
  rw [show (reconn q c).buffer = c.buffer from rfl]
  split
  · rfl
  · split <;> rfl

theorem loop_reconn (C : BlockCipher) (q : PyStr) (t : Transport) : ∀ (n : Nat) (c : Conn) (s : List Delivery) (k : Clock),
    weight s = n → worldLoopT C t (reconn q c) s k =
      ((worldLoopT C t c s k).1, reconn q (worldLoopT C t c s k).2.1, (worldLoopT C t c s k).2.2) := by
  intro n
  induction n using Nat.strongRecOn with
  | _ n ih =>
    intro c s k hn
    conv => lhs; unfold worldLoopT
    conv => rhs; unfold worldLoopT
    rw [nextEventT_reconn]
    cases hc : c.nextEventT C with | mk c1 o =>
    dsimp only
    cases o with
    | error x => rfl
    | ok o =>
      cases o with
      | some ev => rfl
      | none =>
        dsimp only
        split
        · next d s1 k1 hr =>
          rw [receiveData_reconn]
          exact ih (weight s1) (by rw [← hn]; exact recvT_weight hr) _ _ _ rfl
        · rfl
        · rfl

/-! ### Sending -/

theorem erase_ok {α : Type} {x : ResT α} {a : α} (h : x.erase = .ok a) : x = .ok a := by
  cases x with
  | ok b => injection h with h; rw [h]
  | error e => cases h

/-- What a request with a password says after the password and its padding. -/
def tailOf : Event → Res Bytes
  | .readInstantaneousValuesRequest _ => .ok []
  | .writeTimeRequest q => do
    let t ← datetimeToBytes q.deviceTime
    let fl ← toByte (0b00000100 &&& 0xff : Nat)
    return t ++ [fl]
  | .readDeviceParametersRequest q => do
    let oc ← toBytesLE 2 q.objectCount
    let bl ← toBytesLE 2 q.bufferLength
    return oc ++ bl
  | .readArchiveByTimeRequest q => do
    let a ← toByte q.archive
    let n ← toBytesLE 2 q.amount
    let t ← datetimeToBytes q.oldestTimestamp
    return [a] ++ n ++ t
  | .readArchiveRequest q => do
    let a ← toByte q.archive
    let i ← toBytesLE 4 q.oldestRecordId
    let n ← toBytesLE 2 q.amount
    return [a] ++ i ++ n
  | _ => .error .value


/-- The padding of a password. -/
def padBytes (r : PwRand) : Bytes := latin1 ['!', '\x03', r.1, r.2]

theorem block_eq {pw : PyStr} {r : PwRand} (hr : PadOk r) (h : IsLatin1 pw) :
    passwordBlock pw r = .ok (latin1 pw ++ padBytes r) := by
  rw [passwordBlock_ok hr h]
  unfold pwBytes padBytes latin1
  simp

theorem pad_length (r : PwRand) : (padBytes r).length = 4 := rfl

theorem toBytes_tail {e : Event} {pw0 pw : PyStr} (h0 : passwordOf e = some pw0) (h : IsLatin1 pw) {r : Rand}
    (hr : PadOk r.pw) : (withPassword e pw).toBytes r =
      (tailOf e).map fun b => latin1 pw ++ (padBytes r.pw ++ b) := by
  have hb := block_eq hr h
  cases e with
  | readInstantaneousValuesRequest q =>
    show passwordBlock pw r.pw = _
    rw [hb]; simp [tailOf, Except.map]
  | writeTimeRequest q =>
    show (passwordBlock pw r.pw >>= _) = _
    rw [hb, bind_ok]
    unfold tailOf
    dsimp only
    cases datetimeToBytes q.deviceTime with
    | error x => rfl
    | ok t =>
      rw [bind_ok, bind_ok]
      cases toByte (0b00000100 &&& 0xff : Nat) with
      | error x => rfl
      | ok f => simp [bind_ok, pure_res, Except.map]
  | readDeviceParametersRequest q =>
    show (passwordBlock pw r.pw >>= _) = _
    rw [hb, bind_ok]
    unfold tailOf
    dsimp only
    cases toBytesLE 2 q.objectCount with
    | error x => rfl
    | ok t =>
      rw [bind_ok, bind_ok]
      cases toBytesLE 2 q.bufferLength with
      | error x => rfl
      | ok f => simp [bind_ok, pure_res, Except.map]
  | readArchiveByTimeRequest q =>
    show (passwordBlock pw r.pw >>= _) = _
    rw [hb, bind_ok]
    unfold tailOf
    dsimp only
    cases toByte q.archive with
    | error x => rfl
    | ok t =>
      rw [bind_ok, bind_ok]
      cases toBytesLE 2 q.amount with
      | error x => rfl
      | ok f =>
        rw [bind_ok, bind_ok]
        cases datetimeToBytes q.oldestTimestamp with
        | error x => rfl
        | ok f => simp [bind_ok, pure_res, Except.map]
  | readArchiveRequest q =>
    show (passwordBlock pw r.pw >>= _) = _
    rw [hb, bind_ok]
    unfold tailOf
    dsimp only
    cases toByte q.archive with
    | error x => rfl
    | ok t =>
      rw [bind_ok, bind_ok]
      cases toBytesLE 4 q.oldestRecordId with
      | error x => rfl
      | ok f =>
        rw [bind_ok, bind_ok]
        cases toBytesLE 2 q.amount with
        | error x => rfl
        | ok f => simp [bind_ok, pure_res, Except.map]
  | _ => cases h0

theorem toBytesT_tail {e : Event} {pw0 pw : PyStr} (h0 : passwordOf e = some pw0) (h : IsLatin1 pw) {r : Rand}
    (hr : PadOk r.pw) : (withPassword e pw).toBytesT r =
      foreign ((tailOf e).map fun b => latin1 pw ++ (padBytes r.pw ++ b)) := by
  rw [← toBytes_tail h0 h hr]
  have hb : passwordBlockT pw r.pw = .ok (latin1 pw ++ padBytes r.pw) := by
    unfold passwordBlockT; rw [block_eq hr h]
  cases e with
  | readInstantaneousValuesRequest q =>
    show (passwordBlockT pw r.pw >>= _) = _; rw [hb]; rfl
  | writeTimeRequest q =>
    show (passwordBlockT pw r.pw >>= _) = _; rw [hb]; rfl
  | readDeviceParametersRequest q =>
    show (passwordBlockT pw r.pw >>= _) = _; rw [hb]; rfl
  | readArchiveByTimeRequest q =>
    show (passwordBlockT pw r.pw >>= _) = _; rw [hb]; rfl
  | readArchiveRequest q =>
    show (passwordBlockT pw r.pw >>= _) = _; rw [hb]; rfl
  | _ => cases h0

/-- The dates of the event are dates of Python. -/
def EventDated : Event → Prop
  | .writeTimeRequest q => q.deviceTime.Valid
  | .readArchiveByTimeRequest q => q.oldestTimestamp.Valid
  | _ => True

theorem bdc_length {n : Int} {b : Bytes} (hn : n ≤ 9999) (h : toBdc n = .ok b) : b.length ≤ 2 := by
  by_cases h0 : n < 0
  · rw [toBdc_neg h0] at h; cases h
  · obtain ⟨m, rfl⟩ := Int.eq_ofNat_of_zero_le (Int.not_lt.1 h0)
    rw [toBdc_nat] at h
    injection h with h
    rw [← h]
    by_cases h1 : m < 100
    · rw [bcdEnc_lt h1]; simp
    · rw [bcdEnc_ge h1, bcdEnc_lt (by omega)]; simp

theorem date_length {t : DateTime} {b : Bytes} (ht : t.Valid) (h : datetimeToBytes t = .ok b) : b.length ≤ 12 := by
  obtain ⟨y1, y2, m1, m2, d1, d2, h2, mi2, s2, _⟩ := ht
  have hd : t.day ≤ 9999 := by
    unfold daysInMonth at d2
    split at d2 <;> (try split at d2) <;> omega
  unfold datetimeToBytes at h
  simp only [bind_eq_ok] at h
  obtain ⟨a1, e1, a2, e2, a3, e3, a4, e4, a5, e5, a6, e6, h⟩ := h
  injection h with h
  have l1 := bdc_length (by omega) e1
  have l2 := bdc_length (by omega) e2
  have l3 := bdc_length (by omega) e3
  have l4 := bdc_length (by omega) e4
  have l5 := bdc_length (by omega) e5
  have l6 := bdc_length (by omega) e6
  rw [← h]
  simp only [List.length_append]
  omega

theorem tail_length {e : Event} {b : Bytes} (hd : EventDated e) (h : tailOf e = .ok b) : b.length ≤ 100 := by
  have hle : ∀ {n : Nat} {x : Int} {d : Bytes}, toBytesLE n x = .ok d → d.length = n := by
    intro n x d h
    rcases toBytesLE_cases n x with ⟨_, _, g⟩ | ⟨_, g⟩
    · rw [g] at h; injection h with h; rw [← h, leOf_length]
    · rw [g] at h; cases h
  cases e with
  | readInstantaneousValuesRequest q => injection h with h; rw [← h]; simp
  | writeTimeRequest q =>
    unfold tailOf at h
    simp only [bind_eq_ok] at h
    obtain ⟨a1, e1, a2, e2, h⟩ := h
    injection h with h
    have := date_length hd e1
    rw [← h]; simp; omega
  | readDeviceParametersRequest q =>
    unfold tailOf at h
    simp only [bind_eq_ok] at h
    obtain ⟨a1, e1, a2, e2, h⟩ := h
    injection h with h
    have := hle e1
    have := hle e2
    rw [← h]; simp; omega
  | readArchiveByTimeRequest q =>
    unfold tailOf at h
    simp only [bind_eq_ok] at h
    obtain ⟨a1, e1, a2, e2, a3, e3, h⟩ := h
    injection h with h
    have := hle e2
    have := date_length hd e3
    rw [← h]; simp; omega
  | readArchiveRequest q =>
    unfold tailOf at h
    simp only [bind_eq_ok] at h
    obtain ⟨a1, e1, a2, e2, a3, e3, h⟩ := h
    injection h with h
    have := hle e2
    have := hle e3
    rw [← h]; simp; omega
  | _ => cases h


/-- What is known of a client's connection. -/
structure Plainly (a : ClientArgs) (c : Conn) : Prop where
  zero : c.args.sourceAddress1 = 0 ∧ c.args.sourceAddress2 = 0 ∧ c.args.destinationAddress1 = 0 ∧
    c.args.destinationAddress2 = 0
  context : c.cipherContext = contextFor a

theorem contextFor_none {a : ClientArgs} (h : contextFor a = none) : ¬ Encrypting a := by
  rintro ⟨⟨key, h1, h2⟩, keyId, h3⟩
  unfold contextFor at h
  rw [h1, h3] at h
  cases key with
  | nil => exact h2 rfl
  | cons x l => cases h

theorem contextFor_some {a : ClientArgs} {x : CipherContext} (h : contextFor a = some x) : Encrypting a ∧
    ∀ key keyId, a.encryptionKey = some key → key ≠ [] → a.encryptionKeyId = some keyId → x = ⟨keyId, key⟩ := by
  unfold contextFor at h
  split at h
  · next y key keyId h1 h2 =>
    injection h with h
    refine ⟨⟨⟨_, h1, by simp⟩, _, h2⟩, ?_⟩
    intro key' keyId' g1 _ g2
    rw [h1] at g1; rw [h2] at g2
    injection g1 with g1; injection g2 with g2
    rw [← h, g1, g2]
  · cases h

/-- The rest of `send` on a body of moderate length. -/
theorem frame_line {svc : ServiceNumber} {ty : UInt8} {body : Bytes} (hl : body.length ≤ 65520) :
    ∃ raw line, requestToBytes ty { service := svc, da1 := 0, da2 := 0, sa1 := 0, sa2 := 0, data := body } = .ok raw ∧
      raw = frame ty (UInt8.ofNat svc.value) [0, 0, 0, 0, 0, 0] body ∧
      escapeCharactersT raw = .ok line ∧ returnCharacters line = .ok raw := by
  have hr := requestToBytes_ok ty { service := svc, da1 := 0, da2 := 0, sa1 := 0, sa2 := 0, data := body }
    ⟨⟨by simp, by simp⟩, ⟨by simp, by simp⟩, ⟨by simp, by simp⟩, ⟨by simp, by simp⟩, hl⟩
  have hl : (frame ty (UInt8.ofNat svc.value) [0, 0, 0, 0, 0, 0] body).getLast? = some 0x0D := by
    unfold frame; dsimp only; rw [List.getLast?_append]; rfl
  obtain ⟨line, h1, h2⟩ := C01_unescape_escape _ hl
  have ha : requestAddress { service := svc, da1 := 0, da2 := 0, sa1 := 0, sa2 := 0, data := body } = [0, 0, 0, 0, 0, 0] := by
    show be2 0 ++ [UInt8.ofNat 0] ++ be2 0 ++ [UInt8.ofNat 0] = _
    decide
  rw [ha] at hr
  exact ⟨_, line, hr, rfl, erase_ok (by rw [escapeCharactersT_erase, h1]), h2⟩

/-- A key that can be used. -/
def KeyFits (a : ClientArgs) : Prop :=
  ∀ x, contextFor a = some x → x.key.length = 16 ∧ 0 ≤ x.keyId ∧ x.keyId ≤ 255

theorem okT_bind {α β : Type} (x : α) (f : α → ResT β) : ((.ok x : ResT α) >>= f) = f x := rfl
theorem errT_bind {α β : Type} (x : PyErr) (f : α → ResT β) : (foreign (.error x : Res α) >>= f) = .error (x, .foreign) :=
  rfl

theorem serialise_body {C : BlockCipher} {a : ClientArgs} {c : Conn} (hc : Plainly a c) {e : Event} {svc : ServiceNumber}
    (hs : e.service = .ok svc) {r : Rand} {body : Bytes} (hb : e.toBytesT r = .ok body) (hl : body.length ≤ 200) :
    (KeyFits a → ∃ line, c.serialiseT C e r = .ok line ∧ LineOf C a (UInt8.ofNat svc.value) body line) ∧
    (¬ KeyFits a → c.serialiseT C e r = .error (.value, .foreign)) := by
  obtain ⟨z1, z2, z3, z4⟩ := hc.zero
  unfold Conn.serialiseT
  rw [hb, hs, z1, z2, z3, z4, hc.context, okT_bind]
  cases hx : contextFor a with
  | none =>
    refine ⟨fun _ => ?_, fun hu => absurd (fun x h => ?_) hu⟩
    · obtain ⟨raw, line, h1, h2, h3, h4⟩ := frame_line (svc := svc) (ty := requestType) (body := body) (by omega)
      refine ⟨line, ?_, fun _ => by rw [h4, h2]; rfl, fun key keyId g1 g2 g3 => ?_⟩
      · dsimp only; rw [foreign_bind, h1, foreign_bind]; exact h3
      · exact absurd ⟨⟨key, g1, g2⟩, keyId, g3⟩ (contextFor_none hx)
    · rw [hx] at h; cases h
  | some x =>
    obtain ⟨henc, hx2⟩ := contextFor_some hx
    refine ⟨fun hu => ?_, fun hu => ?_⟩
    · obtain ⟨u1, u2, u3⟩ := hu x hx
      obtain ⟨ct, hct⟩ := (C30_encrypt_outcome C x body r.pad).2.2 (by omega) u2 u3 u1
      have hlen := (C30_encrypt_shape C _ _ _ _ hct).1
      unfold paddedLength at hlen
      obtain ⟨raw, line, h1, h2, h3, h4⟩ := frame_line (svc := svc) (ty := encryptedRequestType) (body := ct) (by omega)
      refine ⟨line, ?_, fun hn => absurd henc hn, fun key keyId g1 g2 g3 => ?_⟩
      · dsimp only; rw [foreign_bind, hct, foreign_bind, h1, foreign_bind]; exact h3
      · rw [← hx2 key keyId g1 g2 g3]
        exact ⟨ct, by rw [h4, h2]; rfl, C29_decrypt_encrypt C x body r.pad ct hct⟩
    · have : x.keyId < 0 ∨ 255 < x.keyId ∨ x.key.length ≠ 16 := by
        by_cases k1 : x.keyId < 0
        · exact .inl k1
        by_cases k2 : 255 < x.keyId
        · exact .inr (.inl k2)
        by_cases k3 : x.key.length ≠ 16
        · exact .inr (.inr k3)
        exact absurd (fun y hy => by
          rw [hx] at hy; injection hy with hy; rw [← hy]
          exact ⟨Decidable.not_not.1 k3, by omega, by omega⟩) hu
      dsimp only
      rw [foreign_bind, (C30_encrypt_outcome C x body r.pad).2.1 (by omega) this, errT_bind]

theorem serialise_blind {C : BlockCipher} {a : ClientArgs} {c : Conn} (hc : Plainly a c) {e : Event} {pw pw' : PyStr}
    (h0 : passwordOf e = some pw) (hpw : IsLatin1 pw) (hpw' : IsLatin1 pw') (hl : pw.length ≤ 6) (hl' : pw'.length ≤ 6)
    (hd : EventDated e) {r : Rand} (hr : PadOk r.pw) :
    (∃ x, c.serialiseT C e r = .error x ∧ c.serialiseT C (withPassword e pw') r = .error x) ∨
    (∃ code tail line line', c.serialiseT C e r = .ok line ∧ c.serialiseT C (withPassword e pw') r = .ok line' ∧
      LineOf C a code (latin1 pw ++ tail) line ∧ LineOf C a code (latin1 pw' ++ tail) line') := by
  have hself : withPassword e pw = e := by
    cases e <;> first | (injection h0 with h0; subst h0; rfl) | cases h0
  have t1 := toBytesT_tail h0 hpw hr
  rw [hself] at t1
  have t2 := toBytesT_tail h0 hpw' hr
  have hs : ∃ svc, e.service = .ok svc ∧ (withPassword e pw').service = .ok svc := by
    cases e <;> first | exact ⟨_, rfl, rfl⟩ | cases h0
  obtain ⟨svc, s1, s2⟩ := hs
  obtain ⟨z1, z2, z3, z4⟩ := hc.zero
  cases ht : tailOf e with
  | error x =>
    rw [ht] at t1 t2
    refine .inl ⟨(x, .foreign), ?_, ?_⟩
    · unfold Conn.serialiseT; rw [t1]; rfl
    · unfold Conn.serialiseT; rw [t2]; rfl
  | ok b =>
    rw [ht] at t1 t2
    have hb := tail_length hd ht
    change e.toBytesT r = .ok (latin1 pw ++ (padBytes r.pw ++ b)) at t1
    change (withPassword e pw').toBytesT r = .ok (latin1 pw' ++ (padBytes r.pw ++ b)) at t2
    have l1 : (latin1 pw ++ (padBytes r.pw ++ b)).length ≤ 200 := by
      simp only [List.length_append, latin1, List.length_map, pad_length]; omega
    have l2 : (latin1 pw' ++ (padBytes r.pw ++ b)).length ≤ 200 := by
      simp only [List.length_append, latin1, List.length_map, pad_length]; omega
    obtain ⟨p1, p2⟩ := serialise_body (C := C) hc s1 t1 l1
    obtain ⟨q1, q2⟩ := serialise_body (C := C) hc s2 t2 l2
    by_cases hu : KeyFits a
    · obtain ⟨line, g1, g2⟩ := p1 hu
      obtain ⟨line', g3, g4⟩ := q1 hu
      exact .inr ⟨_, _, line, line', g1, g3, g2, g4⟩
    · exact .inl ⟨_, p2 hu, q2 hu⟩

/-! ### The client -/

/-- Two clients in the same situation, with different passwords. -/
structure Blind (C : BlockCipher) (a : ClientArgs) (pw pw' q : PyStr) (w w' : World) : Prop where
  eq : w' = reworld pw' q w'.os w
  calls : SameCalls C a pw pw' w.os w'.os
  password : w.password = pw
  plain : Plainly a w.conn
  pads : ∀ n, PadOk (w.rands n).pw

/-- What the two do. -/
def Both {α : Type} (C : BlockCipher) (a : ClientArgs) (pw pw' q : PyStr) (x x' : OutcomeT α × World) : Prop :=
  x.1 = x'.1 ∧ Blind C a pw pw' q x.2 x'.2

variable {C : BlockCipher} {a : ClientArgs} {pw pw' q : PyStr}

theorem connectT_blind (p : Printing) (look : Look) {w w' : World} (h : Blind C a pw pw' q w w') :
    Both C a pw pw' q (w.connectT p look) (w'.connectT p look) := by
  obtain ⟨he, hc, hp, hpl, hr⟩ := h
  generalize w'.os = os' at he hc
  subst he
  unfold World.connectT
  rw [show (reworld pw' q os' w).transport = w.transport from rfl, show (reworld pw' q os' w).opens = w.opens from rfl]
  cases w.transport.socket with
  | none =>
    cases w.opens with
    | nil => exact ⟨rfl, rfl, hc, hp, hpl, hr⟩
    | cons o os => exact ⟨rfl, rfl, sameCalls_append hc (sameCalls_refl _ _ _ _ _), hp, hpl, hr⟩
  | some k => exact ⟨rfl, rfl, hc, hp, hpl, hr⟩

theorem disconnectT_blind {w w' : World} (h : Blind C a pw pw' q w w') :
    Both C a pw pw' q w.disconnectT w'.disconnectT := by
  obtain ⟨he, hc, hp, hpl, hr⟩ := h
  generalize w'.os = os' at he hc
  subst he
  have k : ∀ l, SameCalls C a pw pw' (w.os ++ l) (os' ++ l) := fun l => sameCalls_append hc (sameCalls_refl _ _ _ _ _)
  unfold World.disconnectT
  rw [show (reworld pw' q os' w).transport = w.transport from rfl,
    show (reworld pw' q os' w).shutdowns = w.shutdowns from rfl, show (reworld pw' q os' w).closes = w.closes from rfl]
  cases w.transport.socket with
  | none => exact ⟨rfl, rfl, hc, hp, hpl, hr⟩
  | some h =>
    cases w.transport.kind with
    | tcp =>
      cases w.shutdowns with
      | nil => exact ⟨rfl, rfl, hc, hp, hpl, hr⟩
      | cons o os =>
        cases o with
        | error e => exact ⟨rfl, rfl, k _, hp, hpl, hr⟩
        | ok u =>
          cases w.closes with
          | nil => exact ⟨rfl, rfl, k _, hp, hpl, hr⟩
          | cons c cs => exact ⟨rfl, rfl, k _, hp, hpl, hr⟩
    | serial =>
      cases w.closes with
      | nil => exact ⟨rfl, rfl, hc, hp, hpl, hr⟩
      | cons c cs => exact ⟨rfl, rfl, k _, hp, hpl, hr⟩

theorem writeT_blind {w w' : World} (h : Blind C a pw pw' q w w') {d d' : Bytes}
    (hd : ∀ h, SameCall C a pw pw' (.write h d) (.write h d')) :
    Both C a pw pw' q (w.writeT d) (w'.writeT d') := by
  obtain ⟨he, hc, hp, hpl, hr⟩ := h
  generalize w'.os = os' at he hc
  subst he
  have k : ∀ h, SameCalls C a pw pw' (w.os ++ [.write h d]) (os' ++ [.write h d']) :=
    fun h => sameCalls_append hc (sameCalls_one (hd h))
  unfold World.writeT
  rw [show (reworld pw' q os' w).transport = w.transport from rfl, show (reworld pw' q os' w).writes = w.writes from rfl]
  cases hs : w.transport.socket with
  | none =>
    refine ⟨?_, rfl, hc, hp, hpl, hr⟩
    dsimp only
    unfold Transport.sendT
    rw [hs]
  | some h =>
    cases w.writes with
    | nil => exact ⟨rfl, rfl, k h, hp, hpl, hr⟩
    | cons o os =>
      dsimp only
      unfold Transport.sendT
      rw [hs]
      cases o with
      | ok u => exact ⟨rfl, rfl, k h, hp, hpl, hr⟩
      | error x => exact ⟨rfl, rfl, k h, hp, hpl, hr⟩

theorem setUnread_reworld (os' : List OsCall) (w : World) (s : List Delivery) (k : Clock) :
    (reworld pw' q os' w).setUnread s k = reworld pw' q os' (w.setUnread s k) := by
  unfold World.setUnread
  rw [show (reworld pw' q os' w).transport = w.transport from rfl]
  cases w.transport.socket <;> rfl

theorem setUnread_parts (w : World) (s : List Delivery) (k : Clock) : (w.setUnread s k).os = w.os ∧
    (w.setUnread s k).password = w.password ∧ (w.setUnread s k).rands = w.rands ∧ (w.setUnread s k).conn = w.conn := by
  unfold World.setUnread
  cases w.transport.socket <;> exact ⟨rfl, rfl, rfl, rfl⟩

theorem plain_receive {c : Conn} (h : Plainly a c) (d : Bytes) : Plainly a (c.receiveData d) := by
  obtain ⟨h1, h2, _⟩ := receiveData_frame c d
  exact ⟨by rw [h1]; exact h.zero, by rw [h2]; exact h.context⟩

theorem plain_next {c : Conn} (h : Plainly a c) : Plainly a (c.nextEventT C).1 := by
  have e := congrArg Prod.fst (connNextEventT_erase C c)
  dsimp only at e
  rw [e]
  obtain ⟨h1, h2⟩ := nextEvent_frame C c
  exact ⟨by rw [h1]; exact h.zero, by rw [h2]; exact h.context⟩

theorem plain_loop (t : Transport) : ∀ (n : Nat) (c : Conn) (s : List Delivery) (k : Clock), weight s = n →
    Plainly a c → Plainly a (worldLoopT C t c s k).2.1 := by
  intro n
  induction n using Nat.strongRecOn with
  | _ n ih =>
    intro c s k hn hp
    have hp := plain_next (C := C) hp
    unfold worldLoopT
    cases hc : c.nextEventT C with | mk c1 o =>
    rw [hc] at hp
    dsimp only at hp ⊢
    cases o with
    | error x => exact hp
    | ok o =>
      cases o with
      | some ev => exact hp
      | none =>
        dsimp only
        split
        · next d s1 k1 hr =>
          exact ih (weight s1) (by rw [← hn]; exact recvT_weight hr) _ _ _ rfl (plain_receive hp d)
        · exact hp
        · exact hp

/-- Reading changes no more than the connection, the clock and the inbox. -/
theorem read_blind {α : Type} {w : World} {os' : List OsCall} (hc : SameCalls C a pw pw' w.os os')
    (hp : w.password = pw) (hr : ∀ n, PadOk (w.rands n).pw) {c : Conn} (hpl : Plainly a c) (o : OutcomeT α)
    (s : List Delivery) (k : Clock) : Both C a pw pw' q (o, { w.setUnread s k with conn := c })
      (o, { (reworld pw' q os' w).setUnread s k with conn := reconn q c }) := by
  obtain ⟨e1, e2, e3, e4⟩ := setUnread_parts w s k
  refine ⟨rfl, ?_, ?_, ?_, hpl, ?_⟩
  · rw [setUnread_reworld]; rfl
  · rw [setUnread_reworld]; dsimp only; rw [e1]; exact hc
  · dsimp only; rw [e2]; exact hp
  · dsimp only; rw [e3]; exact hr

theorem receiveT_blind {w w' : World} (h : Blind C a pw pw' q w w') : Both C a pw pw' q w.receiveT w'.receiveT := by
  obtain ⟨he, hc, hp, hpl, hr⟩ := h
  generalize w'.os = os' at he hc
  subst he
  unfold World.receiveT
  rw [show (reworld pw' q os' w).transport = w.transport from rfl, show (reworld pw' q os' w).unread = w.unread from rfl,
    show (reworld pw' q os' w).clock = w.clock from rfl]
  cases hx : w.transport.recvT w.unread w.clock with | mk o r =>
  obtain ⟨s, k⟩ := r
  cases o with
  | returned d =>
    dsimp only
    rw [show (reworld pw' q os' w).conn = reconn q w.conn from rfl, receiveData_reconn]
    exact read_blind hc hp hr (plain_receive hpl d) _ _ _
  | raised e t =>
    have := read_blind (q := q) hc hp hr hpl (.raised e t : OutcomeT Unit) s k
    dsimp only
    rw [setUnread_sameT w, setUnread_sameT (reworld pw' q os' w)]
    exact this
  | pending =>
    have := read_blind (q := q) hc hp hr hpl (.pending : OutcomeT Unit) s k
    dsimp only
    rw [setUnread_sameT w, setUnread_sameT (reworld pw' q os' w)]
    exact this

theorem nextEventT_blind {w w' : World} (h : Blind C a pw pw' q w w') :
    Both C a pw pw' q (w.nextEventT C) (w'.nextEventT C) := by
  obtain ⟨he, hc, hp, hpl, hr⟩ := h
  generalize w'.os = os' at he hc
  subst he
  unfold World.nextEventT
  rw [show (reworld pw' q os' w).transport = w.transport from rfl, show (reworld pw' q os' w).unread = w.unread from rfl,
    show (reworld pw' q os' w).clock = w.clock from rfl, show (reworld pw' q os' w).conn = reconn q w.conn from rfl,
    loop_reconn C q _ _ _ _ _ rfl]
  have hpl' := plain_loop (C := C) w.transport _ w.conn w.unread w.clock rfl hpl
  revert hpl'
  cases worldLoopT C w.transport w.conn w.unread w.clock with | mk o r =>
  intro hpl'
  obtain ⟨c, s, k⟩ := r
  exact read_blind hc hp hr hpl' o s k

/-- The event that the second client sends for that of the first. -/
def Counterpart (pw pw' : PyStr) (e e' : Event) : Prop :=
  e' = e ∨ (passwordOf e = some pw ∧ EventDated e ∧ e' = withPassword e pw')

theorem type_withPassword (e : Event) (pw : PyStr) : (withPassword e pw).type = e.type := by cases e <;> rfl

theorem sendT_blind (hpw : IsLatin1 pw) (hpw' : IsLatin1 pw') (hl : pw.length ≤ 6) (hl' : pw'.length ≤ 6)
    {w w' : World} (h : Blind C a pw pw' q w w') {e e' : Event} (hee : Counterpart pw pw' e e') :
    Both C a pw pw' q (w.sendT C e) (w'.sendT C e') := by
  have key : ∀ s', (∃ x, ({ w.conn with state := s' } : Conn).serialiseT C e (w.rands w.draws) = .error x ∧
      ({ w.conn with state := s' } : Conn).serialiseT C e' (w.rands w.draws) = .error x) ∨
    (∃ line line', ({ w.conn with state := s' } : Conn).serialiseT C e (w.rands w.draws) = .ok line ∧
      ({ w.conn with state := s' } : Conn).serialiseT C e' (w.rands w.draws) = .ok line' ∧
      ∀ h, SameCall C a pw pw' (.write h line) (.write h line')) := by
    intro s'
    rcases hee with rfl | ⟨h1, h2, rfl⟩
    · cases hs : ({ w.conn with state := s' } : Conn).serialiseT C e' (w.rands w.draws) with
      | error x => exact .inl ⟨x, rfl, rfl⟩
      | ok line => exact .inr ⟨line, line, rfl, rfl, fun h => .same _⟩
    · rcases serialise_blind (C := C) (c := { w.conn with state := s' }) ⟨h.plain.zero, h.plain.context⟩ h1 hpw hpw' hl hl'
        h2 (h.pads w.draws) with ⟨x, g1, g2⟩ | ⟨code, tail, line, line', g1, g2, g3, g4⟩
      · exact .inl ⟨x, g1, g2⟩
      · exact .inr ⟨line, line', g1, g2, fun h => .request h code tail line line' g3 g4⟩
  have hproc : processEventT w.conn.state e' = (match processEventT w.conn.state e with
      | .ok s => .ok s | .error x => .error x : ResT PState) := by
    have : e'.type = e.type := by
      rcases hee with rfl | ⟨_, _, rfl⟩
      · rfl
      · exact type_withPassword e pw'
    unfold processEventT
    rw [this]
    cases transitions w.conn.state e.type <;> rfl
  obtain ⟨he, hc, hp, hpl, hr⟩ := h
  generalize w'.os = os' at he hc
  subst he
  unfold World.sendT Conn.sendT
  rw [show (reworld pw' q os' w).conn.state = w.conn.state from rfl, hproc]
  cases processEventT w.conn.state e with
  | error x => exact ⟨rfl, rfl, hc, hp, hpl, hr⟩
  | ok s' =>
    have e2 : ({ (reworld pw' q os' w).conn with state := s' } : Conn).serialiseT C e'
        ((reworld pw' q os' w).rands (reworld pw' q os' w).draws) =
        ({ w.conn with state := s' } : Conn).serialiseT C e' (w.rands w.draws) := rfl
    dsimp only
    rw [e2]
    rcases key s' with ⟨x, g1, g2⟩ | ⟨line, line', g1, g2, g3⟩
    · rw [g1, g2]
      exact ⟨rfl, rfl, hc, hp, ⟨hpl.zero, hpl.context⟩, hr⟩
    · rw [g1, g2]
      dsimp only
      have hb : Blind C a pw pw' q { w with conn := { w.conn with state := s' }, draws := w.draws + 1 }
          { reworld pw' q os' w with conn := { (reworld pw' q os' w).conn with state := s' },
                                     draws := (reworld pw' q os' w).draws + 1 } :=
        ⟨rfl, hc, hp, ⟨hpl.zero, hpl.context⟩, hr⟩
      have k := writeT_blind hb g3
      revert k
      generalize World.writeT _ line = x1
      generalize World.writeT _ line' = x2
      intro k
      obtain ⟨o1, w1⟩ := x1
      obtain ⟨o2, w2⟩ := x2
      obtain ⟨k1, k2⟩ := k
      dsimp only at k1 k2
      subst k1
      cases o1 with
      | returned u => exact receiveT_blind k2
      | raised x t => exact ⟨rfl, k2⟩
      | pending => exact ⟨rfl, k2⟩

theorem sendAllT_blind (hpw : IsLatin1 pw) (hpw' : IsLatin1 pw') (hl : pw.length ≤ 6) (hl' : pw'.length ≤ 6)
    (es : List Event) : ∀ {w w' : World}, Blind C a pw pw' q w w' →
    Both C a pw pw' q (w.sendAllT C es) (w'.sendAllT C es) := by
  induction es with
  | nil => intro w w' h; exact ⟨rfl, h⟩
  | cons e es ih =>
    intro w w' h
    have k := sendT_blind hpw hpw' hl hl' h (.inl rfl : Counterpart pw pw' e e)
    unfold World.sendAllT
    revert k
    generalize World.sendT C w e = x1
    generalize World.sendT C w' e = x2
    intro k
    obtain ⟨o1, w1⟩ := x1
    obtain ⟨o2, w2⟩ := x2
    obtain ⟨k1, k2⟩ := k
    dsimp only at k1 k2
    subst k1
    cases o1 with
    | returned u => exact ih k2
    | raised x t => exact ⟨rfl, k2⟩
    | pending => exact ⟨rfl, k2⟩

theorem exchangeT_blind (hpw : IsLatin1 pw) (hpw' : IsLatin1 pw') (hl : pw.length ≤ 6) (hl' : pw'.length ≤ 6)
    {w w' : World} (h : Blind C a pw pw' q w w') {e e' : Event} (hee : Counterpart pw pw' e e') :
    Both C a pw pw' q (w.exchangeT C e) (w'.exchangeT C e') := by
  have k := sendT_blind hpw hpw' hl hl' h hee
  unfold World.exchangeT
  revert k
  generalize World.sendT C w e = x1
  generalize World.sendT C w' e' = x2
  intro k
  obtain ⟨o1, w1⟩ := x1
  obtain ⟨o2, w2⟩ := x2
  obtain ⟨k1, k2⟩ := k
  dsimp only at k1 k2
  subst k1
  cases o1 with
  | returned u => exact nextEventT_blind k2
  | raised x t => exact ⟨rfl, k2⟩
  | pending => exact ⟨rfl, k2⟩

theorem readPagesT_blind (hpw : IsLatin1 pw) (hpw' : IsLatin1 pw') (hl : pw.length ≤ 6) (hl' : pw'.length ≤ 6) :
    ∀ (n : Nat) (w w' : World) (count : Int) (total : Bytes), weight w.unread = n → Blind C a pw pw' q w w' →
    Both C a pw pw' q (w.readPagesT C count total) (w'.readPagesT C count total) := by
  intro n
  induction n using Nat.strongRecOn with
  | _ n ih =>
    intro w w' count total hn h
    have hp' : w'.password = pw' := by rw [h.eq]; rfl
    have k := exchangeT_blind (e := .readDeviceParametersRequest
        { password := w.password, objectCount := count, bufferLength := 1024 }) (e' := .readDeviceParametersRequest
        { password := w'.password, objectCount := count, bufferLength := 1024 }) hpw hpw' hl hl' h
        (.inr ⟨by rw [h.password]; rfl, trivial, by rw [hp']; rfl⟩)
    have hw : ∀ o w1, w.exchangeT C (.readDeviceParametersRequest
        { password := w.password, objectCount := count, bufferLength := 1024 }) = (.returned o, w1) →
        weight w1.unread < weight w.unread := by
      intro o w1 hx
      have h := exchangeT_erase C w (.readDeviceParametersRequest
        { password := w.password, objectCount := count, bufferLength := 1024 })
      rw [hx] at h
      exact world_exchange_weight h.symm
    conv => arg 6; unfold World.readPagesT
    conv => arg 7; unfold World.readPagesT
    revert k hw
    generalize w.exchangeT C (.readDeviceParametersRequest
        { password := w.password, objectCount := count, bufferLength := 1024 }) = x1
    generalize w'.exchangeT C (.readDeviceParametersRequest
        { password := w'.password, objectCount := count, bufferLength := 1024 }) = x2
    intro k hw
    obtain ⟨o1, w1⟩ := x1
    obtain ⟨o2, w2⟩ := x2
    obtain ⟨k1, k2⟩ := k
    dsimp only at k1 k2
    subst k1
    cases o1 with
    | raised x t => exact ⟨rfl, k2⟩
    | pending => exact ⟨rfl, k2⟩
    | returned ev =>
      cases ev with
      | readDeviceParametersResponse p =>
        dsimp only
        split
        · exact ⟨rfl, k2⟩
        · exact ih _ (by rw [← hn]; exact hw _ _ rfl) _ _ _ _ rfl k2
      | _ => exact ⟨rfl, k2⟩

theorem both_then {α β : Type} {x x' : OutcomeT α × World} (h : Both C a pw pw' q x x') (f : α → OutcomeT β) :
    Both C a pw pw' q (x.1.andThen f, x.2) (x'.1.andThen f, x'.2) :=
  ⟨by rw [h.1], h.2⟩

theorem wcallT_blind (hpw : IsLatin1 pw) (hpw' : IsLatin1 pw') (hl : pw.length ≤ 6) (hl' : pw'.length ≤ 6)
    {w w' : World} (h : Blind C a pw pw' q w w') {k : Call} (hd : (Action.call k).Dated) :
    Both C a pw pw' q (wcallT C w k) (wcallT C w' k) := by
  have hp' : w'.password = pw' := by rw [h.eq]; rfl
  have hp := h.password
  have hq : ∀ e, passwordOf e = some w.password → EventDated e →
      Both C a pw pw' q (w.exchangeT C e) (w'.exchangeT C (withPassword e w'.password)) := fun e h1 h2 =>
    exchangeT_blind hpw hpw' hl hl' h (.inr ⟨by rw [h1, hp], h2, by rw [hp']⟩)
  cases k with
  | readInstantaneousValues =>
    exact both_then (hq (.readInstantaneousValuesRequest { password := w.password }) rfl trivial) _
  | readTime =>
    exact both_then (both_then (exchangeT_blind hpw hpw' hl hl' h (e := .readTimeRequest {}) (.inl rfl)) _) _
  | writeTime t b =>
    exact both_then (hq (.writeTimeRequest { password := w.password, deviceTime := t, cryout := b }) rfl hd) _
  | readParameters n => exact both_then (both_then (readPagesT_blind hpw hpw' hl hl' _ w w' n [] rfl h) _) _
  | readArchive x n i =>
    exact both_then (hq (.readArchiveRequest { password := w.password, archive := x, amount := n, oldestRecordId := i })
      rfl trivial) _
  | readArchiveByTime x n t =>
    exact both_then (hq (.readArchiveByTimeRequest
      { password := w.password, archive := x, amount := n, oldestTimestamp := t }) rfl hd) _

theorem actT_blind (p : Printing) (look : Look) (hpw : IsLatin1 pw) (hpw' : IsLatin1 pw') (hl : pw.length ≤ 6)
    (hl' : pw'.length ≤ 6) {w w' : World} (h : Blind C a pw pw' q w w') {x : Action} (hd : x.Dated) :
    Both C a pw pw' q (actT p look C w x) (actT p look C w' x) := by
  cases x with
  | connect => exact both_then (connectT_blind p look h) _
  | disconnect => exact both_then (disconnectT_blind h) _
  | call k => exact wcallT_blind hpw hpw' hl hl' h hd
  | send es => exact both_then (sendAllT_blind hpw hpw' hl hl' es h) _
  | nextEvent => exact both_then (nextEventT_blind h) _

theorem actsT_blind (p : Printing) (look : Look) (hpw : IsLatin1 pw) (hpw' : IsLatin1 pw') (hl : pw.length ≤ 6)
    (hl' : pw'.length ≤ 6) (as : List Action) : ∀ {w w' : World}, Blind C a pw pw' q w w' → (∀ x ∈ as, x.Dated) →
    (actsT p look C w as).1 = (actsT p look C w' as).1 ∧
    Blind C a pw pw' q (actsT p look C w as).2 (actsT p look C w' as).2 := by
  induction as with
  | nil => intro w w' h _; exact ⟨rfl, h⟩
  | cons x as ih =>
    intro w w' h hd
    obtain ⟨h1, h2⟩ := actT_blind p look hpw hpw' hl hl' h (hd x List.mem_cons_self)
    obtain ⟨h3, h4⟩ := ih h2 fun y hy => hd y (List.mem_cons_of_mem _ hy)
    exact ⟨by simp only [actsT]; rw [h1, h3], h4⟩

/-- C100. Take two clients made with the same arguments except for their passwords, both in Latin-1, on the same
operating system.  Whatever is done with them, the same is returned and raised, with the same texts, and the operating
system is asked the same in the same order; only where the one writes a request with its password does the other write
the same request with its own. -/
theorem C100_password (p : Printing) (look : Look) (C : BlockCipher) (kind : Kind) (timeout : Option Int)
    (a : ClientArgs) (pw pw' : PyStr) (env : OsEnv) (w w' : World)
    (h : mkWorld kind timeout { a with password := pw } env = .ok w)
    (h' : mkWorld kind timeout { a with password := pw' } env = .ok w')
    (hpw : IsLatin1 pw) (hpw' : IsLatin1 pw') (hr : ∀ n, PadOk (env.rands n).pw)
    (program : List Action) (hd : ∀ x ∈ program, x.Dated) :
    (actsT p look C w program).1 = (actsT p look C w' program).1 ∧
    SameCalls C a pw pw' (actsT p look C w program).2.os (actsT p look C w' program).2.os := by
  unfold mkWorld at h h'
  rw [bind_eq_ok] at h h'
  obtain ⟨c, hc, h⟩ := h
  obtain ⟨c', hc', h'⟩ := h'
  obtain ⟨ok, rfl⟩ := mkConn_ok hc
  obtain ⟨ok', rfl⟩ := mkConn_ok hc'
  have hb : Blind C a pw pw' pw' w w' := by
    rw [← Except.ok.inj h, ← Except.ok.inj h']
    exact ⟨rfl, sameCalls_refl _ _ _ _ _, rfl, ⟨⟨rfl, rfl, rfl, rfl⟩, created_context { a with password := pw }⟩, hr⟩
  obtain ⟨h1, h2⟩ := actsT_blind p look hpw hpw' ok.2.2.2.2.1 ok'.2.2.2.2.1 program hb hd
  exact ⟨h1, h2.calls⟩

/-! ### Concrete cases -/

/-- A program with all kinds of actions. -/
def exMixed : List Action :=
  [.nextEvent, .connect, .call .readInstantaneousValues, .call (.readParameters 0), .connect, .disconnect,
    .send [.readTimeRequest {}], .call (.readArchiveByTime 1 2 ⟨2024, 2, 30, 0, 0, 0, 0⟩)]

/-- What a client with this password does in that program. -/
def exBlind (pw : PyStr) : List (Outcome3 Unit) × List OsCall :=
  match mkWorld .tcp (some 0) { exArgs with password := pw } exEnv with
  | .ok w =>
    let x := actsT exPrint exLook idCipher w exMixed
    (x.1.map fun o => match o with | .returned _ => .returned () | .raised e _ => .raised e | .pending => .pending, x.2.os)
  | .error _ => ([], [])

-- the hypotheses of C100_password, for passwords of different lengths
example : ∃ w w', mkWorld .tcp (some 0) { exArgs with password := "000000".toList } exEnv = .ok w ∧
    mkWorld .tcp (some 0) { exArgs with password := "aé".toList } exEnv = .ok w' ∧
    IsLatin1 "000000".toList ∧ IsLatin1 "aé".toList ∧ (∀ n, PadOk (exEnv.rands n).pw) ∧
    ∀ x ∈ exMixed.dropLast, x.Dated :=
  ⟨_, _, rfl, rfl, by decide +kernel, by decide +kernel, fun n => by show PadOk ('a', 'b'); decide +kernel,
    fun x hx => by
      simp only [exMixed, List.dropLast, List.mem_cons, List.not_mem_nil, or_false] at hx
      rcases hx with rfl | rfl | rfl | rfl | rfl | rfl | rfl <;> exact trivial⟩
-- the outcomes are the same, the lines written are not
example : (exBlind "000000".toList).1 = (exBlind "aé".toList).1 ∧ (exBlind "000000".toList).2 ≠ (exBlind "aé".toList).2 ∧
    (exBlind "000000".toList).1.take 4 = [.raised .runtime, .returned (), .raised (.elgas .localProtocol),
      .raised (.elgas .localProtocol)] := by decide +kernel
-- it matters that the passwords are in Latin-1
example : (exBlind "000000".toList).1 ≠ (exBlind "a€".toList).1 := by decide +kernel

end Elgas
