import Verif.Props.Repr
/-! Properties C76 - C78: the log (state.py, connection.py, transport.py, client.py). -/
namespace Elgas
open Spec

/-! ### C76: the password in the log -/

theorem latin1_of_encode {s : PyStr} {b : Bytes} (h : encodeLatin1 s = .ok b) : b = latin1 s := by
  by_cases hl : IsLatin1 s
  · rw [encodeLatin1_ok hl] at h; exact (Except.ok.inj h).symm
  · rw [encodeLatin1_err hl] at h; cases h

theorem block_prefix {pw : PyStr} {r : PwRand} {b : Bytes} (h : passwordBlock pw r = .ok b) : latin1 pw <+: b := by
  unfold passwordBlock padPassword at h
  rw [latin1_of_encode h]
  unfold latin1
  rw [List.append_assoc, List.map_append]
  exact List.prefix_append _ _

/-- The body of a request starts with its password. -/
theorem body_password {e : Event} {r : Rand} {body : Bytes} {pw : PyStr} (hb : e.toBytes r = .ok body)
    (hp : passwordOf e = some pw) : latin1 pw <+: body := by
  have pre : ∀ {a b c : Bytes}, a <+: b → a <+: b ++ c := fun h => h.trans (List.prefix_append _ _)
  cases e <;> simp only [passwordOf, Option.some.injEq, reduceCtorEq] at hp <;> subst hp <;>
    simp only [Event.toBytes] at hb
  · exact block_prefix hb
  · unfold WriteTimeRequest.toBytes at hb
    simp only [bind_eq_ok, pure_res, Except.ok.injEq] at hb
    obtain ⟨b, h, _, _, _, _, rfl⟩ := hb
    exact pre (pre (block_prefix h))
  · unfold ReadDeviceParametersRequest.toBytes at hb
    simp only [bind_eq_ok, pure_res, Except.ok.injEq] at hb
    obtain ⟨b, h, _, _, _, _, rfl⟩ := hb
    exact pre (pre (block_prefix h))
  · unfold ReadArchiveByTimeRequest.toBytes at hb
    simp only [bind_eq_ok, pure_res, Except.ok.injEq] at hb
    obtain ⟨b, h, _, _, _, _, _, _, rfl⟩ := hb
    exact pre (pre (pre (block_prefix h)))
  · unfold ReadArchiveRequest.toBytes at hb
    simp only [bind_eq_ok, pure_res, Except.ok.injEq] at hb
    obtain ⟨b, h, _, _, _, _, _, _, rfl⟩ := hb
    exact pre (pre (pre (block_prefix h)))

theorem latin1_decode {pw : PyStr} (h : IsLatin1 pw) : decodeLatin1 (latin1 pw) = pw := by
  unfold decodeLatin1 latin1
  rw [List.map_map]
  conv => rhs; rw [← List.map_id pw]
  apply List.map_congr_left
  intro c hc
  have := h c hc
  simp only [Function.comp, UInt8.toNat_ofNat', id]
  rw [Nat.mod_eq_of_lt (by omega), Char.ofNat_toNat]

theorem literal_byte {c : Char} (h : Literal c) {q : Char} (hq : c ≠ q) : byteChar q (UInt8.ofNat c.toNat) = [c] := by
  obtain ⟨h1, h2, _, h4⟩ := h
  have e : (UInt8.ofNat c.toNat).toNat = c.toNat := by
    rw [UInt8.toNat_ofNat', Nat.mod_eq_of_lt (by omega)]
  have ne : ∀ d : Char, d.toNat < 0x20 → c ≠ d := by
    intro d hd hc; rw [hc] at h1; omega
  unfold byteChar
  simp only [e, Char.ofNat_toNat]
  rw [if_neg (by rintro (h | h); exact hq h; exact h4 h), if_neg (ne _ (by decide)), if_neg (ne _ (by decide)),
    if_neg (ne _ (by decide)), if_neg (by omega)]

/-- `repr` of data that contains a literal text contains that text. -/
theorem literal_bytesRepr {pw : PyStr} (hl : ∀ c ∈ pw, Literal c) {b : Bytes} (h : latin1 pw <:+: b) :
    pw <:+: bytesRepr b := by
  obtain ⟨x, y, rfl⟩ := h
  have hlat : IsLatin1 pw := fun c hc => by have := (hl c hc).2.1; omega
  have hq : ∀ c ∈ pw, c ≠ quoteOf (decodeLatin1 (x ++ latin1 pw ++ y)) := by
    intro c hc
    unfold quoteOf
    split
    · next h =>
      intro he
      apply h.2
      rw [← he]
      have : decodeLatin1 (x ++ latin1 pw ++ y) = decodeLatin1 x ++ decodeLatin1 (latin1 pw) ++ decodeLatin1 y := by
        simp [decodeLatin1]
      rw [this, latin1_decode hlat]
      simp [hc]
    · exact (hl c hc).2.2.1
  unfold bytesRepr
  dsimp only
  rw [List.flatMap_append, List.flatMap_append]
  generalize quoteOf (decodeLatin1 (x ++ latin1 pw ++ y)) = q at hq
  have e : (latin1 pw).flatMap (byteChar q) = pw := by
    clear hlat
    induction pw with
    | nil => rfl
    | cons c pw ih =>
      show byteChar q _ ++ (latin1 pw).flatMap (byteChar q) = _
      rw [ih (fun c hc => hl c (List.mem_cons_of_mem _ hc)) (fun c hc => hq c (List.mem_cons_of_mem _ hc)),
        literal_byte (hl c (List.mem_cons_self ..)) (hq c (List.mem_cons_self ..))]
      rfl
  rw [e]
  exact infix_right _ (infix_left _ (infix_right _ (infix_left _ List.infix_rfl)))

/-- An argument of a record is in its texts. -/
theorem reveals_arg {p : Printing} {stack : List String} {log : List Record} {r : Record} {n : String} {v : PyVal}
    {s : PyStr} (hr : r ∈ log) (ha : (n, v) ∈ r.args) (hs : s <:+: v.repr p stack) : Reveals p stack log s :=
  ⟨r, hr, _, List.mem_cons_of_mem _ (List.mem_map.2 ⟨_, ha, rfl⟩), infix_left _ hs⟩

theorem reveals_mono {p : Printing} {stack : List String} {l l' : List Record} {s : PyStr} (h : Reveals p stack l s)
    (hs : ∀ r ∈ l, r ∈ l') : Reveals p stack l' s := by
  obtain ⟨r, hr, t⟩ := h
  exact ⟨r, hs r hr, t⟩

/-- The first record of `send`. -/
theorem sendL_head (p : Printing) (secret : Bool) (C : BlockCipher) (c : Conn) (e : Event) (r : Rand) :
    ∃ l, (c.sendL p secret C e r).1 = debug "Sending request PDU" [("pdu", eventVal p secret e)] :: l := by
  unfold Conn.sendL
  dsimp only
  cases processEventL c.state e with
  | mk l o => cases o <;> exact ⟨_, rfl⟩

/-- C76. A request that was given a plain `str` as password puts it into the log on every attempt to send it: on any
connection, encrypting or not, and also when the request is refused. -/
theorem C76_plain_password (p : Printing) (stack : List String) (C : BlockCipher) (c : Conn) (e : Event) (r : Rand)
    (pw : PyStr) (hp : passwordOf e = some pw) :
    Reveals p stack (c.sendL p false C e r).1 ("password=".toList ++ strRepr p pw) := by
  obtain ⟨l, hl⟩ := sendL_head p false C c e r
  refine reveals_arg (r := debug "Sending request PDU" [("pdu", eventVal p false e)]) (n := "pdu")
    (v := eventVal p false e) (by rw [hl]; exact List.mem_cons_self ..) (List.mem_cons_self ..) ?_
  cases e <;> simp only [passwordOf, Option.some.injEq, reduceCtorEq] at hp <;> subst hp <;>
    exact obj_infix p stack _ _ "password" (.str _) (by simp [passwordVal])

theorem sendL_ok {p : Printing} {secret : Bool} {C : BlockCipher} {c : Conn} {e : Event} {r : Rand} {wire : Bytes}
    (h : (c.send C e r).2 = .ok wire) : ∃ s' enc f, processEvent c.state e = .ok s' ∧
      c.requestObject C e r = .ok (enc, f) ∧
      (c.sendL p secret C e r).1 = [debug "Sending request PDU" [("pdu", eventVal p secret e)],
        debug ("Elgas state transitioned from " ++ c.state.name ++ " to " ++ s'.name),
        debug "Sending ELGAS request" [("request",
          if enc then frameVal "EncryptedRequest" f .bytearray else frameVal "Request" f .bytes)]] ∧
      (requestToBytes (if enc then encryptedRequestType else requestType) f >>= escapeCharacters) = .ok wire := by
  rw [← sendL_erase p secret] at h
  unfold Conn.sendL processEventL at h ⊢
  unfold processEvent
  dsimp only at h ⊢
  cases ht : transitions c.state e.type with
  | none => rw [ht] at h; cases h
  | some s' =>
    rw [ht] at h
    dsimp only at h ⊢
    unfold Conn.serialiseL at h ⊢
    have ho : ({ c with state := s' } : Conn).requestObject C e r = c.requestObject C e r := rfl
    rw [ho] at h ⊢
    cases hx : c.requestObject C e r with
    | error x => rw [hx] at h; cases h
    | ok x =>
      obtain ⟨enc, f⟩ := x
      rw [hx] at h
      exact ⟨s', enc, f, rfl, rfl, rfl, h⟩

theorem requestObject_plain {C : BlockCipher} {c : Conn} {e : Event} {r : Rand} {enc : Bool} {f : Frame}
    (hc : c.cipherContext = none) (h : c.requestObject C e r = .ok (enc, f)) :
    enc = false ∧ e.toBytes r = .ok f.data := by
  unfold Conn.requestObject at h
  rw [hc] at h
  simp only [bind_eq_ok, pure_res, Except.ok.injEq, Prod.mk.injEq] at h
  obtain ⟨b, hb, s, _, rfl, rfl⟩ := h
  exact ⟨rfl, hb⟩

/-- C76. Without encryption every request that is sent puts its whole body, and with it the password, into the log,
even if the password object is a `SecretStr`: on any connection created without key or key id, whatever was done with
it before, the log of a successful send shows the `repr` of the body, and for a password of printable ASCII characters
(without quote and backslash) the password itself. -/
theorem C76_unencrypted (p : Printing) (stack : List String) (secret : Bool) (C : BlockCipher) (a : ConnArgs) (c : Conn)
    (hc : Reachable C a c) (hk : a.encryptionKey = none ∨ a.encryptionKeyId = none) (e : Event) (r : Rand)
    (wire : Bytes) (h : (c.send C e r).2 = .ok wire) :
    (∃ body, e.toBytes r = .ok body ∧
      Reveals p stack (c.sendL p secret C e r).1 ("data=".toList ++ bytesRepr body)) ∧
    ∀ pw, passwordOf e = some pw → (∀ ch ∈ pw, Literal ch) → Reveals p stack (c.sendL p secret C e r).1 pw := by
  obtain ⟨_, _, hcc⟩ := reachable_config hc
  have hcc : c.cipherContext = none := by
    rw [hcc]; unfold createCipherContext
    rcases hk with hk | hk
    · rw [hk]
    · rw [hk]; cases a.encryptionKey <;> rfl
  obtain ⟨s', enc, f, _, ho, hlog, _⟩ := sendL_ok (p := p) (secret := secret) h
  obtain ⟨rfl, hb⟩ := requestObject_plain hcc ho
  have key : Reveals p stack (c.sendL p secret C e r).1 ("data=".toList ++ bytesRepr f.data) := by
    refine reveals_arg (r := debug "Sending ELGAS request" [("request", frameVal "Request" f .bytes)])
      (n := "request") (v := frameVal "Request" f .bytes) (by rw [hlog]; simp) (List.mem_cons_self ..) ?_
    exact obj_infix p stack _ _ "data" (.bytes f.data) (by simp)
  refine ⟨⟨f.data, hb, key⟩, fun pw hp hl => ?_⟩
  obtain ⟨rec, hr, t, ht, hs⟩ := key
  refine ⟨rec, hr, t, ht, List.IsInfix.trans ?_ hs⟩
  exact infix_left _ (literal_bytesRepr hl (body_password hb hp).isInfix)

theorem literal_escaped {pw : PyStr} (hl : ∀ c ∈ pw, Literal c) {b : Bytes} (h : latin1 pw <:+: b) :
    latin1 pw <:+: escBytes b := by
  obtain ⟨x, y, rfl⟩ := h
  have e : escBytes (latin1 pw) = latin1 pw := by
    induction pw with
    | nil => rfl
    | cons c pw ih =>
      show escBytes (UInt8.ofNat c.toNat :: latin1 pw) = _
      rw [escBytes_cons, ih (fun c hc => hl c (List.mem_cons_of_mem _ hc))]
      obtain ⟨h1, h2, _, _⟩ := hl c (List.mem_cons_self ..)
      have n : ∀ b : UInt8, (b.toNat < 0x20 ∨ 0x7F ≤ b.toNat) → UInt8.ofNat c.toNat ≠ b := by
        intro b hb hc
        have := congrArg UInt8.toNat hc
        rw [UInt8.toNat_ofNat', Nat.mod_eq_of_lt (by omega)] at this
        omega
      have : escByte (UInt8.ofNat c.toNat) = [UInt8.ofNat c.toNat] := by
        unfold escByte
        rw [if_neg (n _ (by decide)), if_neg (n _ (by decide)), if_neg (n _ (by decide))]
      rw [this]; rfl
  unfold escBytes at e ⊢
  rw [List.flatMap_append, List.flatMap_append, e]
  exact ⟨_, _, rfl⟩

/-- C76. The record "Sent data" of the transport shows the password, too: without encryption the bytes that `send`
returns contain it, and so does their `repr`. -/
theorem C76_sent (p : Printing) (stack : List String) (C : BlockCipher) (a : ConnArgs) (c : Conn)
    (hc : Reachable C a c) (hk : a.encryptionKey = none ∨ a.encryptionKeyId = none) (e : Event) (r : Rand)
    (wire : Bytes) (h : (c.send C e r).2 = .ok wire) (pw : PyStr) (hp : passwordOf e = some pw)
    (hl : ∀ ch ∈ pw, Literal ch) (tr : PyVal) : Reveals p stack (sentL tr wire (.ok ())) pw := by
  obtain ⟨_, _, hcc⟩ := reachable_config hc
  have hcc : c.cipherContext = none := by
    rw [hcc]; unfold createCipherContext
    rcases hk with hk | hk
    · rw [hk]
    · rw [hk]; cases a.encryptionKey <;> rfl
  obtain ⟨s', enc, f, _, ho, _, hw⟩ := sendL_ok (p := p) (secret := false) h
  obtain ⟨rfl, hb⟩ := requestObject_plain hcc ho
  rw [bind_eq_ok] at hw
  obtain ⟨raw, hraw, hw⟩ := hw
  obtain ⟨d, hd, rfl⟩ := escapeCharacters_eq_ok hw
  have h1 := C10_request_layout _ _ _ hraw
  have h2 : f.data <:+: d := by
    have : raw.dropLast = d := by rw [hd, List.dropLast_concat]
    rw [← this, h1]
    unfold frame frameBody
    dsimp only
    rw [List.dropLast_append_of_ne_nil (by simp)]
    exact infix_right _ (infix_left _ (infix_left _ List.infix_rfl))
  refine reveals_arg (r := debug "Sent data" [("data", .bytes (escBytes d ++ [0x0D])), ("transport", tr)]) (n := "data")
    (List.mem_cons_self ..) (List.mem_cons_self ..) ?_
  exact literal_bytesRepr hl (infix_right _ (literal_escaped hl ((body_password hb hp).isInfix.trans h2)))

theorem exchangeL_head (p : Printing) (tr : PyVal) (C : BlockCipher) (s : Sys) (e : Event) :
    ∃ l, (s.exchangeL p tr C e).1 = (s.conn.sendL p true C e (s.rands s.draws)).1 ++ l := by
  unfold Sys.exchangeL Sys.sendL
  cases s.conn.sendL p true C e (s.rands s.draws) with
  | mk l o =>
    obtain ⟨c, o⟩ := o
    cases o with
    | error x => exact ⟨[], by simp⟩
    | ok d =>
      dsimp only
      cases s.sends with
      | nil => exact ⟨[], by simp⟩
      | cons x rest =>
        cases x with
        | error x => exact ⟨_, rfl⟩
        | ok u =>
          dsimp only
          cases Sys.receiveL tr _ with
          | mk l' o =>
            obtain ⟨o, s'⟩ := o
            cases o with
            | returned u =>
              dsimp only
              cases s'.nextEventL p tr C with
              | mk l'' o => exact ⟨_, by simp only [List.append_assoc]; rfl⟩
            | raised x => exact ⟨_, by simp only [List.append_assoc]; rfl⟩
            | pending => exact ⟨_, by simp only [List.append_assoc]; rfl⟩

/-- An exchange that hands over nothing: `send` of the connection has raised. -/
theorem exchange_unhanded {C : BlockCipher} {s : Sys} {e : Event} {x : PyErr}
    (h : (s.conn.send C e (s.rands s.draws)).2 = .error x) :
    (s.exchange C e).1 = .raised x ∧ (s.exchange C e).2.handed = s.handed := by
  unfold Sys.exchange Sys.send
  cases hc : s.conn.send C e (s.rands s.draws) with
  | mk c o =>
    rw [hc] at h
    cases o with
    | ok d => cases h
    | error y => cases h; exact ⟨rfl, rfl⟩

theorem calls_reachable {C : BlockCipher} {ca : ConnArgs} (ks : List Call) : ∀ s : Sys, Reachable C ca s.conn →
    Reachable C ca (calls C s ks).2.conn ∧ (calls C s ks).2.password = s.password := by
  induction ks with
  | nil => intro s h; exact ⟨h, rfl⟩
  | cons k ks ih =>
    intro s h
    obtain ⟨g1, g2, _⟩ := call_effect (fun _ _ => True) s s.password h rfl (fun _ _ _ _ _ _ => trivial) k
    obtain ⟨i1, i2⟩ := ih (call C s k).2 g2
    exact ⟨i1, i2.trans g1⟩

/-- C76. On a client without key or key id, whatever calls were made before: every call but `read_time` that gets as
far as handing a frame to the transport has put the password (of printable ASCII characters without quote and
backslash) into the log, although the client keeps it as a secret. -/
theorem C76_history (p : Printing) (stack : List String) (tr : PyVal) (C : BlockCipher) (a : ClientArgs)
    (sends : List (Res Unit)) (recvs : List (Res Bytes)) (rands : Nat → Rand) (s0 : Sys)
    (hm : mkClient a sends recvs rands = .ok s0) (hk : ¬ Encrypting a) (hl : ∀ ch ∈ a.password, Literal ch)
    (before : List Call) (k : Call) (hk1 : k ≠ .readTime)
    (hh : (call C (calls C s0 before).2 k).2.handed ≠ (calls C s0 before).2.handed) :
    Reveals p stack (callL p tr C (calls C s0 before).2 k).1 a.password := by
  -- the state before the call
  have hs : ∃ ca : ConnArgs, (ca.encryptionKey = none ∨ ca.encryptionKeyId = none) ∧
      Reachable C ca (calls C s0 before).2.conn ∧ (calls C s0 before).2.password = a.password := by
    unfold mkClient at hm
    rw [bind_eq_ok] at hm
    obtain ⟨conn, hc, hm⟩ := hm
    replace hm := (Except.ok.inj hm).symm
    refine ⟨{ sourceAddress1 := 0, sourceAddress2 := 0, destinationAddress1 := 0, destinationAddress2 := 0,
              password := toSecretStr a.password, passwordId := a.passwordId,
              encryptionKey := toSecretByte a.encryptionKey, encryptionKeyId := a.encryptionKeyId }, ?_, ?_⟩
    · dsimp only
      apply Classical.byContradiction
      intro hn
      apply hk
      cases hkey : a.encryptionKey with
      | none => rw [hkey] at hn; exact absurd (.inl rfl) hn
      | some key =>
        cases hid : a.encryptionKeyId with
        | none => rw [hid] at hn; exact absurd (.inr rfl) hn
        | some kid =>
          cases key with
          | nil => rw [hkey] at hn; exact absurd (.inl rfl) hn
          | cons b key => exact ⟨⟨b :: key, hkey, by simp⟩, kid, hid⟩
    · have := calls_reachable (C := C) before s0 (by rw [hm]; exact ⟨conn, [], hc, rfl⟩)
      rw [this.2]
      exact ⟨this.1, by rw [hm]; rfl⟩
  obtain ⟨ca, hca, hr, hpw⟩ := hs
  revert hr hpw hh
  generalize (calls C s0 before).2 = s
  intro hh hr hpw
  -- one exchange
  have key : ∀ e, passwordOf e = some a.password →
      (∃ x, (s.exchange C e).1 = .raised x ∧ (s.exchange C e).2.handed = s.handed) ∨
      Reveals p stack (s.exchangeL p tr C e).1 a.password := by
    intro e he
    cases hsend : (s.conn.send C e (s.rands s.draws)).2 with
    | error x => exact .inl ⟨x, exchange_unhanded hsend⟩
    | ok wire =>
      right
      obtain ⟨l, hl'⟩ := exchangeL_head p tr C s e
      rw [hl']
      exact reveals_mono ((C76_unencrypted p stack true C ca s.conn hr hca e _ wire hsend).2 _ he hl)
        (fun r h => List.mem_append_left _ h)
  cases k with
  | readTime => exact absurd rfl hk1
  | readInstantaneousValues =>
    rcases key (.readInstantaneousValuesRequest { password := s.password }) (by rw [← hpw]; rfl) with ⟨x, _, h⟩ | h
    · exact absurd h hh
    · refine reveals_mono h fun r hr => ?_
      unfold callL Sys.readInstantaneousValuesL
      dsimp only
      revert hr
      cases s.exchangeL p tr C _ with
      | mk l o => obtain ⟨o, s'⟩ := o; intro hr; cases o <;> simp [hr]
  | writeTime t b =>
    rcases key (.writeTimeRequest { password := s.password, deviceTime := t, cryout := b }) (by rw [← hpw]; rfl)
      with ⟨x, _, h⟩ | h
    · exact absurd h hh
    · refine reveals_mono h fun r hr => ?_
      unfold callL Sys.writeTimeL
      dsimp only
      revert hr
      cases s.exchangeL p tr C _ with
      | mk l o => obtain ⟨o, s'⟩ := o; intro hr; cases o <;> simp [Outcome3.andThen, hr]
  | readArchive ar n i =>
    rcases key (.readArchiveRequest { password := s.password, archive := ar, amount := n, oldestRecordId := i })
      (by rw [← hpw]; rfl) with ⟨x, _, h⟩ | h
    · exact absurd h hh
    · exact h
  | readArchiveByTime ar n t =>
    rcases key (.readArchiveByTimeRequest { password := s.password, archive := ar, amount := n, oldestTimestamp := t })
      (by rw [← hpw]; rfl) with ⟨x, _, h⟩ | h
    · exact absurd h hh
    · exact h
  | readParameters n =>
    rcases key (.readDeviceParametersRequest { password := s.password, objectCount := n, bufferLength := 1024 })
      (by rw [← hpw]; rfl) with ⟨x, hx, h⟩ | h
    · refine absurd ?_ hh
      have e := readPages_raised (total := []) (prod_fst hx)
      unfold call Sys.readParameters
      dsimp only
      rw [e]
      exact h
    · refine reveals_mono h fun r hr => ?_
      have hp : r ∈ (s.readPagesL p tr C n []).1 := by
        unfold Sys.readPagesL
        split
        · next hx => rw [hx] at hr; simp [hr]
        · next hx => rw [hx] at hr; simp [hr]
        · next hx => rw [hx] at hr; dsimp only; split <;> simp [hr]
        · next hx => rw [hx] at hr; simp [hr]
      unfold callL Sys.readParametersL
      dsimp only
      revert hp
      cases s.readPagesL p tr C n [] with
      | mk l o => obtain ⟨o, s'⟩ := o; intro hp; cases o <;> simp [hp]

/-! Examples -/

/-- A client without key whose password has six literal characters. -/
def exOpenClient : ClientArgs := { password := "abc123".toList, passwordId := 801 }

example : (∀ c ∈ "abc123".toList, Literal c) ∧ ¬ Encrypting exOpenClient :=
  ⟨by unfold Literal; decide, fun ⟨⟨_, h, _⟩, _⟩ => by cases h⟩

/-- The texts a client has logged in a call of `read_instantaneous_values`. -/
def exTexts (a : ClientArgs) (recvs : List (Res Bytes)) : Res (List (List PyStr)) :=
  (mkClient a [.ok ()] recvs (fun _ => ⟨('a', 'b'), fun _ => 0⟩)).map fun s =>
    (s.readInstantaneousValuesL exPrint (.foreign "T".toList) idCipher).1.map (·.texts exPrint [])

-- the log of a call without encryption: the password is twice in it
example : exTexts exOpenClient [] = .ok [["Reading instantaneous values".toList],
    ["Sending request PDU".toList, "pdu=ReadInstantaneousValuesRequest(password=<SECRET>)".toList],
    ["Elgas state transitioned from IDLE to AWAITING_READ_ACTUAL_VALUES_RESPONSE".toList],
    ["Sending ELGAS request".toList, ("request=Request(service=<ServiceNumber.READ_VALUES: 100>, " ++
      "destination_address_1=0, destination_address_2=0, source_address_1=0, source_address_2=0, " ++
      "data=b'abc123!\\x03ab')").toList],
    ["Sent data".toList,
      "data=b'\\x02\\xfe\\x84d\\x19\\x00\\x00\\x00\\x00\\x00\\x00\\x00abc123!\\x03abv\\xa2\\xe5\\r'".toList,
      "transport=T".toList]] := by decide +kernel

end Elgas
