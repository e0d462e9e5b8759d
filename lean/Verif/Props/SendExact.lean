import Verif.Props.Connection
/-!
C46, continued: exactly when a request can be sent, and what is raised otherwise (connection.py:108-139,
security.py:55-69, frames.py).
-/
namespace Elgas
open Spec

/-- What comes after the body of the request: encryption, if there is a key, and the frame. -/
theorem send_idle (C : BlockCipher) (a : ConnArgs) (c : Conn) (hc : Reachable C a c)
    (hidle : c.state = .idle) (e : Event) (he : IsRequest e) (r : Rand) :
    ∃ svc, e.service = .ok svc ∧ ArgsOk a ∧ (c.send C e r).2 = (do
      let body ← e.toBytes r
      let (ty, data) ← match createCipherContext a with
        | some ctx => do
          let data ← ctx.encrypt C body r.pad
          pure (encryptedRequestType, data)
        | none => pure (requestType, body)
      let frameData ← requestToBytes ty
        { service := svc, da1 := a.destinationAddress1, da2 := a.destinationAddress2,
          sa1 := a.sourceAddress1, sa2 := a.sourceAddress2, data := data }
      escapeCharacters frameData) := by
  obtain ⟨hok, ha, hcc⟩ := reachable_config hc
  obtain ⟨s', hs, _⟩ := C34_idle_accepts e he
  rw [← hidle] at hs
  have hsvc : ∃ svc, e.service = .ok svc := by
    unfold IsRequest at he
    cases e <;> simp [Event.type, responseOf] at he <;> exact ⟨_, rfl⟩
  obtain ⟨svc, hsvc⟩ := hsvc
  refine ⟨svc, hsvc, hok, ?_⟩
  rw [send_accepted hs]
  obtain ⟨args, buffer, state, cc⟩ := c
  dsimp only at ha hcc
  subst ha hcc
  unfold Conn.serialise
  dsimp only
  cases e.toBytes r with
  | error x => exact Eq.trans (b := .error x) rfl rfl
  | ok body =>
    simp only [bind_ok, hsvc]
    cases createCipherContext args with
    | none => simp only [pure, Except.pure, bind_ok]
    | some ctx =>
      dsimp only
      cases ctx.encrypt C body r.pad with
      | error x => exact Eq.trans (b := .error x) rfl rfl
      | ok d => simp only [pure, Except.pure, bind_ok]

/-- A frame whose addresses are valid can be made exactly if the data are not too long. -/
theorem frame_exact {a : ConnArgs} (hok : ArgsOk a) (svc : ServiceNumber) (ty : UInt8) (data : Bytes) :
    (data.length ≤ 65520 → ∃ wire, (do
      let frameData ← requestToBytes ty
        { service := svc, da1 := a.destinationAddress1, da2 := a.destinationAddress2,
          sa1 := a.sourceAddress1, sa2 := a.sourceAddress2, data := data }
      escapeCharacters frameData) = Except.ok wire) ∧
    (65520 < data.length → (do
      let frameData ← requestToBytes ty
        { service := svc, da1 := a.destinationAddress1, da2 := a.destinationAddress2,
          sa1 := a.sourceAddress1, sa2 := a.sourceAddress2, data := data }
      escapeCharacters frameData) = Except.error .overflow) := by
  unfold ArgsOk at hok
  obtain ⟨h1, h2, h3, h4, _⟩ := hok
  constructor
  · intro hd
    obtain ⟨fd, hf⟩ := (C14_request_range ty
      { service := svc, da1 := a.destinationAddress1, da2 := a.destinationAddress2,
        sa1 := a.sourceAddress1, sa2 := a.sourceAddress2, data := data }).1.2 ⟨h3, h4, h1, h2, hd⟩
    have hlay := C10_request_layout _ _ _ hf
    rw [hf, bind_ok]
    have : fd.getLast? = some 0x0D := by
      rw [hlay]; unfold frame; dsimp only; rw [List.getLast?_append]; rfl
    obtain ⟨w, hw, _⟩ := C01_unescape_escape fd this
    exact ⟨w, hw⟩
  · intro hd
    have hsv : ∃ b, toByte svc.value = .ok b := by cases svc <;> exact ⟨_, rfl⟩
    obtain ⟨b, hb⟩ := hsv
    have hlen : toBytesLE 2 (Frame.length ⟨svc, a.destinationAddress1, a.destinationAddress2,
        a.sourceAddress1, a.sourceAddress2, data⟩) = .error .overflow := by
      refine toBytesLE2_err ?_
      unfold Frame.length
      dsimp only
      omega
    unfold requestToBytes
    dsimp only
    rw [hb, bind_ok, hlen]
    rfl

/-- C46. On a created connection in the idle state a request is sent exactly if its body can be built and is short
enough: at most 65520 bytes without encryption; with encryption at most 65502 bytes, and the key must have 16 bytes and
the key id must be a byte. -/
theorem C46_send_exactly (C : BlockCipher) (a : ConnArgs) (c : Conn) (hc : Reachable C a c)
    (hidle : c.state = .idle) (e : Event) (he : IsRequest e) (r : Rand) :
    (∃ wire, (c.send C e r).2 = .ok wire) ↔ ∃ body, e.toBytes r = .ok body ∧
      (a.encryptionKey = none ∨ a.encryptionKeyId = none → body.length ≤ 65520) ∧
      (∀ key keyId, a.encryptionKey = some key → a.encryptionKeyId = some keyId →
        key.length = 16 ∧ 0 ≤ keyId ∧ keyId ≤ 255 ∧ body.length ≤ 65502) := by
  obtain ⟨svc, hsvc, hok, hsend⟩ := send_idle C a c hc hidle e he r
  rw [hsend]
  cases hb : e.toBytes r with
  | error x => exact ⟨fun ⟨_, h⟩ => (by cases h), fun ⟨_, h, _⟩ => (by cases h)⟩
  | ok body =>
    simp only [bind_ok]
    cases hcc : createCipherContext a with
    | none =>
      have hn : a.encryptionKey = none ∨ a.encryptionKeyId = none := by
        unfold createCipherContext at hcc
        cases hk : a.encryptionKey <;> cases hi : a.encryptionKeyId <;> simp_all
      dsimp only
      rw [show ((pure (requestType, body) : Res (UInt8 × Bytes))) = .ok (requestType, body) from rfl, bind_ok]
      dsimp only
      constructor
      · rintro ⟨wire, h⟩
        refine ⟨body, rfl, fun _ => ?_, fun key keyId hk hi => ?_⟩
        · refine Nat.le_of_not_lt fun hl => ?_
          rw [(frame_exact hok svc requestType body).2 hl] at h
          cases h
        · rcases hn with hn | hn
          · rw [hn] at hk; cases hk
          · rw [hn] at hi; cases hi
      · rintro ⟨body', h, hl, _⟩
        cases h
        exact (frame_exact hok svc requestType body).1 (hl hn)
    | some ctx =>
      obtain ⟨kid, k⟩ := ctx
      have hn : a.encryptionKey = some k ∧ a.encryptionKeyId = some kid := by
        unfold createCipherContext at hcc
        cases hk : a.encryptionKey <;> cases hi : a.encryptionKeyId <;> simp_all
      dsimp only
      obtain ⟨o1, o2, o3⟩ := C30_encrypt_outcome C ⟨kid, k⟩ body r.pad
      dsimp only at o1 o2 o3
      have hlen : ∀ d, CipherContext.encrypt C ⟨kid, k⟩ body r.pad = .ok d → (d.length ≤ 65520 ↔ body.length ≤ 65502) := by
        intro d hd
        have := (C30_encrypt_shape C _ _ _ _ hd).1
        rw [this]; unfold paddedLength; omega
      constructor
      · rintro ⟨wire, h⟩
        cases hd : CipherContext.encrypt C ⟨kid, k⟩ body r.pad with
        | error x => rw [hd] at h; cases h
        | ok d =>
          rw [hd] at h
          simp only [bind_ok, pure, Except.pure] at h
          have hl : d.length ≤ 65520 := by
            refine Nat.le_of_not_lt fun hl => ?_
            rw [(frame_exact hok svc encryptedRequestType d).2 hl] at h
            cases h
          refine ⟨body, rfl, fun hk => ?_, fun key keyId hk hi => ?_⟩
          · rcases hk with hk | hk
            · rw [hn.1] at hk; cases hk
            · rw [hn.2] at hk; cases hk
          · rw [hn.1] at hk; rw [hn.2] at hi
            cases hk; cases hi
            have hl' := (hlen d hd).1 hl
            have : ¬ (kid < 0 ∨ 255 < kid ∨ k.length ≠ 16) := by
              intro hbad
              rw [o2 (by omega) hbad] at hd
              cases hd
            omega
      · rintro ⟨body', h, _, hl⟩
        cases h
        obtain ⟨h16, h0, h1, hl⟩ := hl k kid hn.1 hn.2
        obtain ⟨d, hd⟩ := o3 (by omega) h0 h1 h16
        rw [hd]
        simp only [bind_ok, pure, Except.pure]
        exact (frame_exact hok svc encryptedRequestType d).1 ((hlen d hd).2 hl)

/-- C46. And what is raised if a request cannot be sent: what building its body raises; OverflowError if the body is
too long; ValueError if key or key id are not valid (unless the body is longer than 65535 bytes, which comes first). -/
theorem C46_send_raises (C : BlockCipher) (a : ConnArgs) (c : Conn) (hc : Reachable C a c)
    (hidle : c.state = .idle) (e : Event) (he : IsRequest e) (r : Rand) :
    (∀ x, e.toBytes r = .error x → (c.send C e r).2 = .error x) ∧
    (∀ body, e.toBytes r = .ok body → (a.encryptionKey = none ∨ a.encryptionKeyId = none) → 65520 < body.length →
      (c.send C e r).2 = .error .overflow) ∧
    (∀ body key keyId, e.toBytes r = .ok body → a.encryptionKey = some key → a.encryptionKeyId = some keyId →
      (65535 < body.length → (c.send C e r).2 = .error .overflow) ∧
      (body.length ≤ 65535 → key.length ≠ 16 ∨ keyId < 0 ∨ 255 < keyId → (c.send C e r).2 = .error .value) ∧
      (65502 < body.length → body.length ≤ 65535 → key.length = 16 → 0 ≤ keyId → keyId ≤ 255 →
        (c.send C e r).2 = .error .overflow)) := by
  obtain ⟨svc, hsvc, hok, hsend⟩ := send_idle C a c hc hidle e he r
  rw [hsend]
  refine ⟨fun x hx => by rw [hx]; rfl, fun body hb hk hl => ?_, fun body key keyId hb hk hi => ?_⟩
  · have hcc : createCipherContext a = none := by
      unfold createCipherContext
      rcases hk with hk | hk
      · rw [hk]
      · rw [hk]; cases a.encryptionKey <;> rfl
    rw [hb, hcc]
    simp only [bind_ok, pure, Except.pure]
    exact (frame_exact hok svc requestType body).2 hl
  · have hcc : createCipherContext a = some ⟨keyId, key⟩ := by
      unfold createCipherContext; rw [hk, hi]
    rw [hb, hcc]
    simp only [bind_ok]
    obtain ⟨o1, o2, o3⟩ := C30_encrypt_outcome C ⟨keyId, key⟩ body r.pad
    dsimp only at o1 o2 o3
    refine ⟨fun hl => ?_, fun hl hbad => ?_, fun hl hl' h16 h0 h1 => ?_⟩
    · rw [o1 hl]; rfl
    · rw [o2 hl (by omega)]; rfl
    · obtain ⟨d, hd⟩ := o3 hl' h0 h1 h16
      rw [hd]
      simp only [bind_ok, pure, Except.pure]
      refine (frame_exact hok svc encryptedRequestType d).2 ?_
      have := (C30_encrypt_shape C _ _ _ _ hd).1
      rw [this]; unfold paddedLength; omega

/-! Examples -/

/-- A request with a password of `n` characters. -/
def exLong (n : Nat) : Event := .readInstantaneousValuesRequest { password := List.replicate n 'x' }

theorem exLong_body (n : Nat) : ∃ body, (exLong n).toBytes exRand = .ok body ∧ body.length = n + 4 :=
  ⟨_, passwordBlock_ok (by decide) (fun c hc => by rw [List.eq_of_mem_replicate hc]; decide), by
    rw [pwBytes_length, List.length_replicate]⟩

-- at the limits, without and with a key
example : (∃ wire, (exConn.send idCipher (exLong 65516) exRand).2 = .ok wire) ∧
    (exConn.send idCipher (exLong 65517) exRand).2 = .error .overflow := by
  have hr : Reachable idCipher exConn.args exConn := ⟨exConn, [], by decide, rfl⟩
  have hreq : ∀ n, IsRequest (exLong n) := fun n => by simp [exLong, IsRequest, Event.type, responseOf]
  obtain ⟨b1, hb1, hl1⟩ := exLong_body 65516
  obtain ⟨b2, hb2, hl2⟩ := exLong_body 65517
  refine ⟨(C46_send_exactly idCipher _ _ hr rfl _ (hreq _) _).2 ⟨b1, hb1, fun _ => by omega, fun _ _ h => by cases h⟩,
    (C46_send_raises idCipher _ _ hr rfl _ (hreq _) _).2.1 b2 hb2 (.inl rfl) (by omega)⟩
example : (∃ wire, (exSec.send idCipher (exLong 65498) exRand).2 = .ok wire) ∧
    (exSec.send idCipher (exLong 65499) exRand).2 = .error .overflow := by
  have hr : Reachable idCipher exSec.args exSec := ⟨exSec, [], by decide +kernel, rfl⟩
  have hreq : ∀ n, IsRequest (exLong n) := fun n => by simp [exLong, IsRequest, Event.type, responseOf]
  obtain ⟨b1, hb1, hl1⟩ := exLong_body 65498
  obtain ⟨b2, hb2, hl2⟩ := exLong_body 65499
  refine ⟨(C46_send_exactly idCipher _ _ hr rfl _ (hreq _) _).2 ⟨b1, hb1, fun h => ?_, fun k i hk hi => ?_⟩,
    ((C46_send_raises idCipher _ _ hr rfl _ (hreq _) _).2.2 b2 _ _ hb2 rfl rfl).2.2 (by omega) (by omega) rfl
      (by decide) (by decide)⟩
  · rcases h with h | h <;> cases h
  · cases hk; cases hi
    exact ⟨rfl, by decide, by decide, by omega⟩

-- a key of 15 bytes
example : mkConn { exSec.args with encryptionKey := some (List.replicate 15 7) } =
      .ok { exSec with args := { exSec.args with encryptionKey := some (List.replicate 15 7) },
                       cipherContext := some ⟨1, List.replicate 15 7⟩ } ∧
    (({ exSec with args := { exSec.args with encryptionKey := some (List.replicate 15 7) },
                   cipherContext := some ⟨1, List.replicate 15 7⟩ } : Conn).send idCipher (exLong 6) exRand).2 =
      .error .value := by
  decide +kernel

end Elgas
