import Verif.Props.State
import Verif.Props.Security
import Verif.Props.Responses
/-!
C32, C33, C37, C39-C46: the connection.
-/
namespace Elgas
open Spec

/-! ### Configuration is fixed -/

theorem receiveData_frame (c : Conn) (d : Bytes) :
    (c.receiveData d).args = c.args ∧ (c.receiveData d).cipherContext = c.cipherContext ∧
    (c.receiveData d).state = c.state := by
  unfold Conn.receiveData
  split
  · exact ⟨rfl, rfl, rfl⟩
  · split <;> exact ⟨rfl, rfl, rfl⟩

theorem send_frame (C : BlockCipher) (c : Conn) (e : Event) (r : Rand) :
    (c.send C e r).1.args = c.args ∧ (c.send C e r).1.cipherContext = c.cipherContext ∧
    (c.send C e r).1.buffer = c.buffer := by
  unfold Conn.send
  split <;> exact ⟨rfl, rfl, rfl⟩

theorem nextEvent_frame (C : BlockCipher) (c : Conn) :
    (c.nextEvent C).1.args = c.args ∧ (c.nextEvent C).1.cipherContext = c.cipherContext := by
  obtain ⟨h1, h2, h3⟩ := C38_poll_effect C c
  cases hr : (c.nextEvent C).2 with
  | error x => rw [h2 x hr]; exact ⟨rfl, rfl⟩
  | ok o =>
    cases o with
    | none => rw [h1 hr]; exact ⟨rfl, rfl⟩
    | some e => rw [(h3 e hr).1]; exact ⟨rfl, rfl⟩

theorem run_frame (C : BlockCipher) (c : Conn) (ops : List Op) :
    (run C c ops).1.args = c.args ∧ (run C c ops).1.cipherContext = c.cipherContext := by
  induction ops generalizing c with
  | nil => exact ⟨rfl, rfl⟩
  | cons op ops ih =>
    simp only [run]
    rw [(ih _).1, (ih _).2]
    cases op with
    | send e r => exact ⟨(send_frame C c e r).1, (send_frame C c e r).2.1⟩
    | receive d => exact ⟨(receiveData_frame c d).1, (receiveData_frame c d).2.1⟩
    | poll => exact nextEvent_frame C c

/-- `c` is what a connection created with arguments `a` can have become. -/
def Reachable (C : BlockCipher) (a : ConnArgs) (c : Conn) : Prop :=
  ∃ c0 ops, mkConn a = .ok c0 ∧ (run C c0 ops).1 = c

/-! ### C46 -/

/-- The documented ranges of the constructor arguments. -/
def ArgsOk (a : ConnArgs) : Prop :=
  (0 ≤ a.sourceAddress1 ∧ a.sourceAddress1 ≤ 65535) ∧ (0 ≤ a.sourceAddress2 ∧ a.sourceAddress2 ≤ 255) ∧
  (0 ≤ a.destinationAddress1 ∧ a.destinationAddress1 ≤ 65535) ∧
  (0 ≤ a.destinationAddress2 ∧ a.destinationAddress2 ≤ 255) ∧
  a.password.length ≤ 6 ∧ (801 ≤ a.passwordId ∧ a.passwordId ≤ 849)

instance (a : ConnArgs) : Decidable (ArgsOk a) := by unfold ArgsOk; infer_instance

theorem mkConn_eq (a : ConnArgs) : mkConn a = if ArgsOk a then
    .ok { args := a, buffer := [], state := .idle, cipherContext := createCipherContext a }
    else .error .value := by
  unfold mkConn
  by_cases ha : ArgsOk a
  · rw [if_pos ha]
    unfold ArgsOk at ha
    obtain ⟨⟨h1, h2⟩, ⟨h3, h4⟩, ⟨h5, h6⟩, ⟨h7, h8⟩, h9, h10, h11⟩ := ha
    simp only [h1, h2, h3, h4, h5, h6, h7, h8, h9, h10, h11, not_true_eq_false, if_false]
    rfl
  · rw [if_neg ha]
    unfold ArgsOk at ha
    by_cases h1 : 0 ≤ a.sourceAddress1
    rotate_left
    · simp only [h1, not_false_eq_true, if_true]
      rfl
    by_cases h2 : a.sourceAddress1 ≤ 65535
    rotate_left
    · simp only [h1, h2, not_true_eq_false, not_false_eq_true, if_true, if_false]
      rfl
    by_cases h3 : 0 ≤ a.sourceAddress2
    rotate_left
    · simp only [h1, h2, h3, not_true_eq_false, not_false_eq_true, if_true, if_false]
      rfl
    by_cases h4 : a.sourceAddress2 ≤ 255
    rotate_left
    · simp only [h1, h2, h3, h4, not_true_eq_false, not_false_eq_true, if_true, if_false]
      rfl
    by_cases h5 : 0 ≤ a.destinationAddress1
    rotate_left
    · simp only [h1, h2, h3, h4, h5, not_true_eq_false, not_false_eq_true, if_true, if_false]
      rfl
    by_cases h6 : a.destinationAddress1 ≤ 65535
    rotate_left
    · simp only [h1, h2, h3, h4, h5, h6, not_true_eq_false, not_false_eq_true, if_true, if_false]
      rfl
    by_cases h7 : 0 ≤ a.destinationAddress2
    rotate_left
    · simp only [h1, h2, h3, h4, h5, h6, h7, not_true_eq_false, not_false_eq_true, if_true, if_false]
      rfl
    by_cases h8 : a.destinationAddress2 ≤ 255
    rotate_left
    · simp only [h1, h2, h3, h4, h5, h6, h7, h8, not_true_eq_false, not_false_eq_true, if_true,
        if_false]
      rfl
    by_cases h9 : a.password.length ≤ 6
    rotate_left
    · simp only [h1, h2, h3, h4, h5, h6, h7, h8, h9, not_true_eq_false, not_false_eq_true, if_true,
        if_false]
      rfl
    by_cases h10 : 801 ≤ a.passwordId
    rotate_left
    · simp only [h1, h2, h3, h4, h5, h6, h7, h8, h9, h10, not_true_eq_false, not_false_eq_true,
        if_true, if_false]
      rfl
    by_cases h11 : a.passwordId ≤ 849
    rotate_left
    · simp only [h1, h2, h3, h4, h5, h6, h7, h8, h9, h10, h11, not_true_eq_false,
        not_false_eq_true, if_true, if_false]
      rfl
    exact absurd ⟨⟨h1, h2⟩, ⟨h3, h4⟩, ⟨h5, h6⟩, ⟨h7, h8⟩, h9, h10, h11⟩ ha

/-- C46. A connection is created exactly for arguments in the documented ranges (idle, with an empty
buffer); otherwise `ValueError`. -/
theorem C46_constructor (a : ConnArgs) :
    (ArgsOk a → ∃ c, mkConn a = .ok c ∧ c.args = a ∧ c.buffer = [] ∧ c.state = .idle) ∧
    (¬ ArgsOk a → mkConn a = .error .value) := by
  rw [mkConn_eq]
  constructor
  · intro h; rw [if_pos h]; exact ⟨_, rfl, rfl, rfl, rfl⟩
  · intro h; rw [if_neg h]

theorem mkConn_ok {a : ConnArgs} {c : Conn} (h : mkConn a = .ok c) :
    ArgsOk a ∧ c = { args := a, buffer := [], state := .idle, cipherContext := createCipherContext a } := by
  rw [mkConn_eq] at h
  split at h
  · next ha => exact ⟨ha, by simpa [eq_comm] using h⟩
  · simp at h

theorem reachable_config {C : BlockCipher} {a : ConnArgs} {c : Conn} (h : Reachable C a c) :
    ArgsOk a ∧ c.args = a ∧ c.cipherContext = createCipherContext a := by
  obtain ⟨c0, ops, h0, rfl⟩ := h
  obtain ⟨h1, h2⟩ := mkConn_ok h0
  have := run_frame C c0 ops
  rw [h2] at this ⊢
  exact ⟨h1, this⟩

/-! ### What `send` puts on the wire (C32, C46) -/

/-- The six address bytes of a request frame. -/
def addressBytes (a : ConnArgs) : Bytes :=
  be2 a.destinationAddress1.toNat ++ [UInt8.ofNat a.destinationAddress2.toNat] ++
  be2 a.sourceAddress1.toNat ++ [UInt8.ofNat a.sourceAddress2.toNat]

theorem requestCode_of {e : Event} {r : Rand} {body : Bytes} {svc : ServiceNumber} (hs : e.service = .ok svc)
    (hb : e.toBytes r = .ok body) : requestCode e.type = some (UInt8.ofNat svc.value) := by
  cases e <;> first
    | (simp only [Event.service, Except.ok.injEq] at hs; subst hs; rfl)
    | (simp [Event.service, raise] at hs; done)
    | (simp [Event.toBytes, raise] at hb; done)

/-- C32. Without a key or without a key id (both absent, or only one given) a reachable connection
sends plaintext: the unescaped bytes are a frame of type 0x84 around exactly the request body. -/
theorem C32_plaintext (C : BlockCipher) (a : ConnArgs) (c : Conn) (hc : Reachable C a c) (e : Event)
    (r : Rand) (wire : Bytes) (h : (c.send C e r).2 = .ok wire)
    (hk : a.encryptionKey = none ∨ a.encryptionKeyId = none) :
    ∃ code body, requestCode e.type = some code ∧ e.toBytes r = .ok body ∧
      returnCharacters wire = .ok (frame 0x84 code (addressBytes a) body) := by
  obtain ⟨_, ha, hcc⟩ := reachable_config hc
  have hcc : c.cipherContext = none := by
    rw [hcc]; unfold createCipherContext
    rcases hk with hk | hk
    · rw [hk]
    · rw [hk]; cases a.encryptionKey <;> rfl
  cases hp : processEvent c.state e with
  | error x => rw [send_refused hp] at h; simp at h
  | ok s' =>
    rw [send_accepted hp] at h
    unfold Conn.serialise at h
    simp only [hcc] at h
    rw [bind_eq_ok] at h
    obtain ⟨body, hb, h⟩ := h
    rw [bind_eq_ok] at h
    obtain ⟨svc, hs, h⟩ := h
    rw [bind_eq_ok] at h
    obtain ⟨fd, hf, h⟩ := h
    refine ⟨_, body, requestCode_of hs hb, hb, ?_⟩
    have := C10_request_layout _ _ _ hf
    rw [ha] at this
    obtain ⟨x, hx1, hx2⟩ := escapeCharacters_eq_ok h
    rw [hx2, returnCharacters_escBytes x [0x0D] [0x0D] (by decide), ← hx1, this]
    rfl

/-- C32. With both a key and a key id a reachable connection sends only frames of type 0x85 whose
body decrypts, under that key and key id, to the request body. -/
theorem C32_encrypted (C : BlockCipher) (a : ConnArgs) (c : Conn) (hc : Reachable C a c) (e : Event)
    (r : Rand) (wire : Bytes) (h : (c.send C e r).2 = .ok wire) (key : Bytes) (keyId : Int)
    (hk : a.encryptionKey = some key) (hid : a.encryptionKeyId = some keyId) :
    ∃ code body ct, requestCode e.type = some code ∧ e.toBytes r = .ok body ∧
      returnCharacters wire = .ok (frame 0x85 code (addressBytes a) ct) ∧
      (⟨keyId, key⟩ : CipherContext).decrypt C ct = .ok body := by
  obtain ⟨_, ha, hcc⟩ := reachable_config hc
  have hcc : c.cipherContext = some ⟨keyId, key⟩ := by
    rw [hcc]; unfold createCipherContext; rw [hk, hid]
  cases hp : processEvent c.state e with
  | error x => rw [send_refused hp] at h; simp at h
  | ok s' =>
    rw [send_accepted hp] at h
    unfold Conn.serialise at h
    simp only [hcc] at h
    rw [bind_eq_ok] at h
    obtain ⟨body, hb, h⟩ := h
    rw [bind_eq_ok] at h
    obtain ⟨svc, hs, h⟩ := h
    rw [bind_eq_ok] at h
    obtain ⟨ct, hct, h⟩ := h
    rw [bind_eq_ok] at h
    obtain ⟨fd, hf, h⟩ := h
    refine ⟨_, body, ct, requestCode_of hs hb, hb, ?_, C29_decrypt_encrypt C _ _ _ _ hct⟩
    have := C10_request_layout _ _ _ hf
    rw [ha] at this
    obtain ⟨x, hx1, hx2⟩ := escapeCharacters_eq_ok h
    rw [hx2, returnCharacters_escBytes x [0x0D] [0x0D] (by decide), ← hx1, this]
    rfl

/-- C46. On a created connection an idle send of a request whose body can be built succeeds: with no
encryption whenever the body has at most 65520 bytes (addresses can never be the reason of a
failure); with encryption if in addition the key has 16 bytes and the key id is a byte. -/
theorem C46_send_succeeds (C : BlockCipher) (a : ConnArgs) (c : Conn) (hc : Reachable C a c)
    (hidle : c.state = .idle) (e : Event) (he : IsRequest e) (r : Rand) (body : Bytes)
    (hb : e.toBytes r = .ok body) :
    (a.encryptionKey = none ∨ a.encryptionKeyId = none → body.length ≤ 65520 →
      ∃ wire, (c.send C e r).2 = .ok wire) ∧
    (∀ key keyId, a.encryptionKey = some key → a.encryptionKeyId = some keyId → key.length = 16 →
      0 ≤ keyId → keyId ≤ 255 → body.length ≤ 65500 → ∃ wire, (c.send C e r).2 = .ok wire) := by
  obtain ⟨hok, ha, hcc⟩ := reachable_config hc
  obtain ⟨s', hs, _⟩ := C34_idle_accepts e he
  rw [← hidle] at hs
  have hsvc : ∃ svc, e.service = .ok svc := by
    unfold IsRequest at he
    cases e <;> simp [Event.type, responseOf] at he <;> exact ⟨_, rfl⟩
  obtain ⟨svc, hsvc⟩ := hsvc
  have key : ∀ ty data, data.length ≤ 65520 → ∃ wire, (do
      let frameData ← requestToBytes ty
        { service := svc, da1 := a.destinationAddress1, da2 := a.destinationAddress2,
          sa1 := a.sourceAddress1, sa2 := a.sourceAddress2, data := data }
      escapeCharacters frameData) = Except.ok wire := by
    intro ty data hd
    unfold ArgsOk at hok
    obtain ⟨h1, h2, h3, h4, _⟩ := hok
    obtain ⟨fd, hf⟩ := (C14_request_range ty
      { service := svc, da1 := a.destinationAddress1, da2 := a.destinationAddress2,
        sa1 := a.sourceAddress1, sa2 := a.sourceAddress2, data := data }).1.2 ⟨h3, h4, h1, h2, hd⟩
    have hlay := C10_request_layout _ _ _ hf
    rw [hf, bind_ok]
    have : fd.getLast? = some 0x0D := by
      rw [hlay]; unfold frame; dsimp only; rw [List.getLast?_append]; rfl
    obtain ⟨w, hw, _⟩ := C01_unescape_escape fd this
    exact ⟨w, hw⟩
  constructor
  · intro hk hl
    have hcc : c.cipherContext = none := by
      rw [hcc]; unfold createCipherContext
      rcases hk with hk | hk
      · rw [hk]
      · rw [hk]; cases a.encryptionKey <;> rfl
    rw [send_accepted hs]
    unfold Conn.serialise
    simp only [hb, bind_ok, hcc, hsvc, ha]
    exact key requestType body hl
  · intro k kid hk hid hkl h0 h1 hl
    have hcc : c.cipherContext = some ⟨kid, k⟩ := by
      rw [hcc]; unfold createCipherContext; rw [hk, hid]
    rw [send_accepted hs]
    unfold Conn.serialise
    obtain ⟨ct, hct⟩ := (C30_encrypt_outcome C ⟨kid, k⟩ body r.pad).2.2 (by omega) h0 h1 hkl
    simp only [hb, bind_ok, hcc, hsvc, ha, hct]
    refine key encryptedRequestType ct ?_
    have := (C30_encrypt_shape C _ _ _ _ hct).1
    rw [this]; unfold paddedLength; omega

/-! ### C33 -/

/-- C33. The outcome of polling on a plaintext response frame does not depend on the encryption
configuration: two connections that differ in nothing but that give the same result. -/
theorem C33_plaintext_accepted (C : BlockCipher) (c c' : Conn) (w rest raw : Bytes)
    (hw : 0x0D ∉ w) (hb : c.buffer = w ++ 0x0D :: rest) (hb' : c'.buffer = c.buffer)
    (hs : c'.state = c.state) (hraw : returnCharacters (w ++ [0x0D]) = .ok raw)
    (hty : raw.take 3 = [0x02, 0xFE, 0x86]) :
    (c'.nextEvent C).2 = (c.nextEvent C).2 ∧
    (c'.nextEvent C).1.buffer = (c.nextEvent C).1.buffer ∧
    (c'.nextEvent C).1.state = (c.nextEvent C).1.state := by
  have hi : c'.interpret C (w ++ [0x0D]) = c.interpret C (w ++ [0x0D]) := by
    unfold Conn.interpret
    rw [hraw, bind_ok, bind_ok]
    have hf : ∀ x, responseFactory raw = .ok x → x.1 = false := by
      intro x hx
      unfold responseFactory at hx
      have : startsWith raw [0x02, 0xFE, 0x86] = true := by
        rw [startsWith_iff, ← hty]; exact List.take_prefix 3 raw
      rw [if_pos this, bind_eq_ok] at hx
      obtain ⟨f, _, hx⟩ := hx
      simp at hx; rw [← hx]
    cases hx : responseFactory raw with
    | error e => rfl
    | ok x =>
      have := hf x hx
      obtain ⟨enc, f⟩ := x
      simp at this; subst this
      rfl
  rw [nextEvent_line hw hb, nextEvent_line hw (hb'.trans hb), hi, hs]
  cases c.interpret C (w ++ [0x0D]) with
  | error e => dsimp only; split <;> simp [hb', hs]
  | ok f =>
    dsimp only
    cases pduFromResponse f with
    | error e => simp [hb', hs]
    | ok pdu =>
      dsimp only
      cases processEvent c.state pdu with
      | error e => simp [hb', hs]
      | ok s' => simp

/-! ### C37 -/

/-- Feed the chunks one by one and poll after each of them. -/
def feedPoll (C : BlockCipher) (c : Conn) : List Bytes → Conn × List (Res (Option Event))
  | [] => (c, [])
  | d :: ds =>
    let x := (c.receiveData d).nextEvent C
    let y := feedPoll C x.1 ds
    (y.1, x.2 :: y.2)

theorem receiveData_append {c : Conn} {d : Bytes} (h : d = [0x0D] → c.buffer ≠ []) :
    c.receiveData d = { c with buffer := c.buffer ++ d } := by
  unfold Conn.receiveData
  split
  · next hd =>
    have : d = [] := by simpa using hd
    subst this; simp
  · split
    · next h2 =>
      exact absurd (List.length_eq_zero_iff.1 h2.2) (h h2.1)
    · rfl

/-- C37. Polling before the last byte of a frame has arrived: NEED_DATA for every poll, and the
connection has just collected the bytes. -/
theorem C37_incomplete (C : BlockCipher) (chunks : List Bytes) (c : Conn) (missing d wire : Bytes)
    (hwire : escapeCharacters d = .ok wire) (hm : missing ≠ [])
    (h : c.buffer ++ chunks.flatten ++ missing = wire) :
    feedPoll C c chunks =
      ({ c with buffer := c.buffer ++ chunks.flatten }, List.replicate chunks.length (.ok none)) := by
  obtain ⟨x, _, hx⟩ := escapeCharacters_eq_ok hwire
  have hno := (escBytes_no_end x).1
  induction chunks generalizing c with
  | nil => simp [feedPoll]
  | cons y ys ih =>
    have hpre : 0x0D ∉ c.buffer ++ y := by
      rw [hx, List.flatten_cons] at h
      intro hc
      have hl := congrArg List.length h
      have h' : (c.buffer ++ y) ++ (ys.flatten ++ missing) = escBytes x ++ [0x0D] := by
        rw [← h]; simp
      have hlen : (c.buffer ++ y).length ≤ (escBytes x).length := by
        have := congrArg List.length h'
        have hmp : 0 < missing.length := List.length_pos_iff.2 hm
        simp at this ⊢; omega
      have : c.buffer ++ y = (escBytes x).take (c.buffer ++ y).length := by
        have h2 := congrArg (List.take (c.buffer ++ y).length) h'
        rw [List.take_left, List.take_append_of_le_length hlen] at h2
        exact h2
      rw [this] at hc
      exact hno (List.mem_of_mem_take hc)
    have hy : c.receiveData y = { c with buffer := c.buffer ++ y } := by
      apply receiveData_append
      intro hy; rw [hy] at hpre; simp at hpre
    have hn : (c.receiveData y).nextEvent C = (c.receiveData y, .ok none) := by
      apply nextEvent_none; rw [hy]; exact hpre
    simp only [feedPoll, hn]
    have ih' := ih (c.receiveData y) (by rw [hy]; simpa using h)
    rw [ih', hy]
    simp [List.replicate_succ]

/-- C37. The chunk with the last byte gives what feeding the whole frame at once gives. -/
theorem C37_chunking (C : BlockCipher) (chunks : List Bytes) (last : Bytes) (c : Conn)
    (d wire : Bytes) (hwire : escapeCharacters d = .ok wire) (hd : d ≠ [0x0D])
    (hbuf : c.buffer = []) (hl : last ≠ []) (h : chunks.flatten ++ last = wire) :
    (feedPoll C c (chunks ++ [last])).2 =
      List.replicate chunks.length (.ok none) ++ [((c.receiveData wire).nextEvent C).2] ∧
    (feedPoll C c (chunks ++ [last])).1 = ((c.receiveData wire).nextEvent C).1 := by
  have happ : ∀ (xs : List Bytes) (c : Conn), feedPoll C c (xs ++ [last]) =
      ((((feedPoll C c xs).1.receiveData last).nextEvent C).1,
        (feedPoll C c xs).2 ++ [(((feedPoll C c xs).1.receiveData last).nextEvent C).2]) := by
    intro xs
    induction xs with
    | nil => intro c; rfl
    | cons y ys ih => intro c; simp [feedPoll, ih]
  have hinc := C37_incomplete C chunks c last d wire hwire hl (by rw [hbuf]; simpa using h)
  rw [happ, hinc, hbuf]
  have hw0 : wire ≠ [0x0D] := by
    obtain ⟨x, hx1, hx2⟩ := escapeCharacters_eq_ok hwire
    intro hw
    rw [hw] at hx2
    have hx0 : escBytes x = [] := by
      have := congrArg List.length hx2
      simp at this; exact this
    cases x with
    | nil => exact hd (by simpa using hx1)
    | cons b x =>
      have : escByte b ≠ [] := by unfold escByte; repeat' (first | split | simp)
      simp [escBytes] at hx0
      exact this hx0.1
  have e1 : ({ c with buffer := [] ++ chunks.flatten } : Conn).receiveData last =
      { c with buffer := wire } := by
    rw [receiveData_append]
    · simp [h]
    · intro h1 h2
      simp at h2
      apply hw0
      rw [← h, ← h1]
      have : chunks.flatten = [] := by simpa using h2
      rw [this]; rfl
  have e2 : c.receiveData wire = { c with buffer := wire } := by
    rw [receiveData_append (fun h1 => absurd h1 hw0), hbuf]; rfl
  rw [e1, e2]
  exact ⟨rfl, rfl⟩

example : ∃ d wire, d ≠ [0x0D] ∧ escapeCharacters d = .ok wire ∧
    wire = [[0x02], [0xFE, 0x1B], [0x0E]].flatten ++ [0x0D] :=
  ⟨[0x02, 0xFE, 0x0D, 0x0D], _, by decide, rfl, by decide +kernel⟩

/-! ### Blocked connections (C39, C40, C42) -/

/-- The result of polling depends on the first line of the buffer only. -/
theorem poll_blocked (C : BlockCipher) (c : Conn) (w rest : Bytes) (x : PyErr) (hw : 0x0D ∉ w)
    (hb : c.buffer = w ++ 0x0D :: rest) (hi : c.interpret C (w ++ [0x0D]) = .error x) :
    c.nextEvent C = (c, if x.isValueError then .ok none else .error x) := by
  rw [nextEvent_line hw hb, hi]; dsimp only; split <;> rfl

/-- A connection whose first line cannot be interpreted stays so for ever. -/
theorem run_blocked (C : BlockCipher) (c : Conn) (w rest : Bytes) (x : PyErr) (ops : List Op)
    (hw : 0x0D ∉ w) (hb : c.buffer = w ++ 0x0D :: rest)
    (hi : c.interpret C (w ++ [0x0D]) = .error x) :
    (∀ y, Outcome.polled y ∈ (run C c ops).2 → y = if x.isValueError then .ok none else .error x) ∧
    ∃ rest', (run C c ops).1.buffer = w ++ 0x0D :: (rest ++ rest') := by
  induction ops generalizing c rest with
  | nil => exact ⟨by simp [run], [], by simp [run, hb]⟩
  | cons op ops ih =>
    have hne : c.buffer ≠ [] := by rw [hb]; simp
    simp only [run]
    cases op with
    | send e r =>
      have hf := send_frame C c e r
      obtain ⟨i1, i2⟩ := ih (c.send C e r).1 rest (by rw [hf.2.2, hb])
        (by rw [interpret_congr hf.2.1]; exact hi)
      exact ⟨by simpa [step] using i1, i2⟩
    | receive d =>
      have hf := receiveData_frame c d
      obtain ⟨i1, rest', i2⟩ := ih (c.receiveData d) (rest ++ d)
        (by rw [receiveData_append (fun _ => hne), hb]; simp)
        (by rw [interpret_congr hf.2.1]; exact hi)
      exact ⟨by simpa [step] using i1, d ++ rest', by simpa [step] using i2⟩
    | poll =>
      have hp := poll_blocked C c w rest x hw hb hi
      obtain ⟨i1, i2⟩ := ih c rest hb hi
      simp only [step, hp]
      refine ⟨?_, i2⟩
      intro y hy
      rcases List.mem_cons.1 hy with h | h
      · injection h
      · exact i1 y h

/-- `line` does not unescape to anything that `ResponseFactory` accepts. -/
def BadLine (line : Bytes) : Prop :=
  ∀ raw, returnCharacters line = .ok raw → ∀ x, responseFactory raw ≠ .ok x

theorem badLine_interpret {C : BlockCipher} {c : Conn} {w : Bytes} (h : BadLine (w ++ [0x0D])) :
    c.interpret C (w ++ [0x0D]) = .error .value := by
  obtain ⟨raw, hraw⟩ := C03_unescape_line_total w
  rcases C13_factory_total raw with ⟨e, f, hf⟩ | hf
  · exact absurd hf (h raw hraw _)
  · exact interpret_factory_error hraw hf

/-- C39. Once the buffer starts with a terminated line that is not a response frame, every poll of
every later history returns NEED_DATA: no PDU is delivered whatever is received or sent. -/
theorem C39_blocked_forever (C : BlockCipher) (c : Conn) (w rest : Bytes) (ops : List Op)
    (hw : 0x0D ∉ w) (hb : c.buffer = w ++ 0x0D :: rest) (hbad : BadLine (w ++ [0x0D])) :
    ∀ y, Outcome.polled y ∈ (run C c ops).2 → y = .ok none := by
  intro y hy
  have := (run_blocked C c w rest .value ops hw hb (badLine_interpret hbad)).1 y hy
  simpa [PyErr.isValueError] using this

/-- C39. If a request was pending, no further request is accepted either. -/
theorem C39_no_more_requests (C : BlockCipher) (c : Conn) (w rest : Bytes) (ops : List Op)
    (hw : 0x0D ∉ w) (hb : c.buffer = w ++ 0x0D :: rest) (hbad : BadLine (w ++ [0x0D]))
    (hs : c.state ≠ .idle) (hr : OnlyRequests ops) : observe (run C c ops).2 = [] := by
  refine C36_stuck_until_response C c ops hs hr ?_
  intro t ht
  unfold observe at ht
  rw [List.mem_filterMap] at ht
  obtain ⟨o, ho, hob⟩ := ht
  cases o with
  | sent e x => simp only [Outcome.obs] at hob; split at hob <;> simp at hob
  | received => simp [Outcome.obs] at hob
  | polled y =>
    rw [C39_blocked_forever C c w rest ops hw hb hbad y ho] at hob
    simp [Outcome.obs] at hob

/-- C39. A damaged frame is such a line: any response frame with one byte changed (other than into
or out of an end character or escape). Here the general form: an accepted frame, one byte replaced,
escaped and received. -/
theorem C39_damaged_frame_blocks (C : BlockCipher) (c : Conn) (raw wire rest : Bytes) (x : Bool × Frame)
    (hacc : responseFactory raw = .ok x) (i : Nat) (hi : i < raw.length) (v : UInt8) (hv : v ≠ raw[i])
    (hwire : escapeCharacters (raw.set i v) = .ok wire) (hb : c.buffer = wire ++ rest) (ops : List Op) :
    ∀ y, Outcome.polled y ∈ (run C c ops).2 → y = .ok none := by
  obtain ⟨z, hz1, hz2⟩ := escapeCharacters_eq_ok hwire
  refine C39_blocked_forever C c (escBytes z) rest ops (escBytes_no_end z).1
    (by rw [hb, hz2]; simp) ?_
  intro raw' hraw' y hy
  rw [returnCharacters_escBytes z [0x0D] [0x0D] (by decide)] at hraw'
  injection hraw' with hraw'
  rw [← hraw', ← hz1, C05_single_byte_corruption_factory raw x hacc i hi v hv] at hy
  simp at hy

/-! ### C40 -/

theorem interpret_error_bit {C : BlockCipher} {c : Conn} {line : Bytes} {svc : ServiceNumber}
    {b : UInt8} {k : Nat} (h : Delivers C c.cipherContext line svc [b]) (hk : k < 8)
    (hb : b.toNat = 2 ^ k) :
    ∃ e, errorOfBit k = some e ∧ c.interpret C line = .error (.elgas e) := by
  obtain ⟨f, _, _, hi⟩ := interpret_delivers h
  obtain ⟨k', hk', hb', e, he, hr⟩ := (raiseError_single b).1 ⟨k, hk, hb⟩
  have : k' = k := by
    rw [hb] at hb'
    exact (Nat.pow_right_inj (by omega)).1 hb'.symm
  subst this
  refine ⟨e, he, ?_⟩
  rw [hi, if_pos (show [b].length = 1 from rfl), hr]; rfl

/-- C40. A response with a single error byte in which exactly bit `k` is set makes every poll of
every later history raise the exception of that bit, whatever the service number, the pending
request and later traffic. -/
theorem C40_error_raised (C : BlockCipher) (c : Conn) (w rest : Bytes) (svc : ServiceNumber) (b : UInt8)
    (k : Nat) (ops : List Op) (hw : 0x0D ∉ w) (hb : c.buffer = w ++ 0x0D :: rest)
    (h : Delivers C c.cipherContext (w ++ [0x0D]) svc [b]) (hk : k < 8) (hbit : b.toNat = 2 ^ k) :
    ∃ e, errorOfBit k = some e ∧ c.nextEvent C = (c, .error (.elgas e)) ∧
      ∀ y, Outcome.polled y ∈ (run C c ops).2 → y = .error (.elgas e) := by
  obtain ⟨e, he, hi⟩ := interpret_error_bit h hk hbit
  refine ⟨e, he, ?_, ?_⟩
  · rw [poll_blocked C c w rest _ hw hb hi]; rfl
  · intro y hy
    have := (run_blocked C c w rest _ ops hw hb hi).1 y hy
    simpa [PyErr.isValueError] using this

/-- C40. After a device error every further request is refused. -/
theorem C40_poisoned (C : BlockCipher) (c : Conn) (w rest : Bytes) (svc : ServiceNumber) (b : UInt8)
    (ops : List Op) (hw : 0x0D ∉ w) (hb : c.buffer = w ++ 0x0D :: rest)
    (h : Delivers C c.cipherContext (w ++ [0x0D]) svc [b]) (hbit : OneBit b)
    (hs : c.state ≠ .idle) (hr : OnlyRequests ops) : observe (run C c ops).2 = [] := by
  obtain ⟨k, hk, hbk⟩ := hbit
  obtain ⟨e, _, _, hp⟩ := C40_error_raised C c w rest svc b k ops hw hb h hk hbk
  refine C36_stuck_until_response C c ops hs hr ?_
  intro t ht
  unfold observe at ht
  rw [List.mem_filterMap] at ht
  obtain ⟨o, ho, hob⟩ := ht
  cases o with
  | sent e x => simp only [Outcome.obs] at hob; split at hob <;> simp at hob
  | received => simp [Outcome.obs] at hob
  | polled y =>
    rw [hp y ho] at hob
    simp [Outcome.obs] at hob

/-! ### C44 -/

/-- C44. When exactly `next_event` returns a PDU. -/
theorem C44_returns_iff (C : BlockCipher) (c : Conn) (e : Event) :
    (c.nextEvent C).2 = .ok (some e) ↔
      ∃ w rest svc data, c.buffer = w ++ 0x0D :: rest ∧ 0x0D ∉ w ∧
        Delivers C c.cipherContext (w ++ [0x0D]) svc data ∧ (∀ b, data = [b] → ¬ OneBit b) ∧
        Decodes svc data e ∧ awaits c.state = some e.type := by
  constructor
  · intro h
    rcases line_cases c.buffer with hn | ⟨w, rest, hb, hw⟩
    · rw [nextEvent_none hn] at h; simp at h
    · have haw := ((C38_poll_effect C c).2.2 e h).2
      rw [nextEvent_line hw hb] at h
      cases hi : c.interpret C (w ++ [0x0D]) with
      | error x => rw [hi] at h; dsimp only at h; split at h <;> simp at h
      | ok f =>
        rw [hi] at h; dsimp only at h
        cases hp : pduFromResponse f with
        | error x => rw [hp] at h; simp at h
        | ok pdu =>
          rw [hp] at h; dsimp only at h
          cases hs : processEvent c.state pdu with
          | error x => rw [hs] at h; simp at h
          | ok s' =>
            rw [hs] at h; simp at h; subst h
            obtain ⟨h1, h2⟩ := interpret_ok hi
            exact ⟨w, rest, f.service, f.data, hb, hw, h1, h2, pdu_decodes.1 hp, haw⟩
  · rintro ⟨w, rest, svc, data, hb, hw, hd, h1, hdec, haw⟩
    obtain ⟨f, hf1, hf2, hi⟩ := interpret_delivers hd
    have hi' : c.interpret C (w ++ [0x0D]) = .ok f := by
      rw [hi]
      split
      · next hl =>
        match data, hl with
        | [b], _ => rw [(raiseError_single b).2 (h1 b rfl)]; rfl
      · rfl
    rw [nextEvent_line hw hb, hi']
    dsimp only
    have hp : pduFromResponse f = .ok e := by rw [pdu_decodes, hf1, hf2]; exact hdec
    rw [hp]
    dsimp only
    rw [(processEvent_iff c.state .idle e).2 (.inr ⟨haw, rfl⟩)]

/-- C44. A well-formed response to a service other than the one pending raises and leaves the
request pending: never a PDU, never NEED_DATA. -/
theorem C44_wrong_service_raises (C : BlockCipher) (c : Conn) (w rest : Bytes) (svc : ServiceNumber)
    (data : Bytes) (hb : c.buffer = w ++ 0x0D :: rest) (hw : 0x0D ∉ w)
    (hd : Delivers C c.cipherContext (w ++ [0x0D]) svc data)
    (hne : ∀ u, awaits c.state = some u → serviceOf u ≠ some svc) :
    ∃ x, c.nextEvent C = (c, .error x) := by
  obtain ⟨f, hf1, hf2, hi⟩ := interpret_delivers hd
  rw [nextEvent_line hw hb]
  cases hr : c.interpret C (w ++ [0x0D]) with
  | error x =>
    have hx : x.isValueError = false := by
      rw [hi] at hr
      split at hr
      · next hl =>
        match data, hl with
        | [b], _ =>
          by_cases ho : OneBit b
          · obtain ⟨k, _, _, e, _, he⟩ := (raiseError_single b).1 ho
            rw [he] at hr; simp at hr; rw [← hr]; rfl
          · rw [(raiseError_single b).2 ho] at hr; simp at hr
      · simp at hr
    dsimp only
    rw [if_neg (by simp [hx])]
    exact ⟨x, rfl⟩
  | ok g =>
    dsimp only
    have hg : g = f := by
      rw [hi] at hr
      split at hr
      · rw [bind_eq_ok] at hr; obtain ⟨_, _, h⟩ := hr; simp at h; exact h.symm
      · simp at hr; exact hr.symm
    subst hg
    cases hp : pduFromResponse g with
    | error x => exact ⟨x, rfl⟩
    | ok pdu =>
      dsimp only
      cases hs : processEvent c.state pdu with
      | error x => exact ⟨x, rfl⟩
      | ok s' =>
        exfalso
        have ht := decodes_type (pdu_decodes.1 hp)
        rw [hf1] at ht
        rcases (processEvent_iff _ _ _).1 hs with ⟨_, u, h2, _⟩ | ⟨h1, _⟩
        · cases pdu <;> simp_all [Event.type, responseOf, serviceOf]
        · exact hne _ h1 ht

/-- A refused PDU: exactly the cases of `Refuses`. -/
theorem pdu_refuses {f : Frame} {x : PyErr} :
    pduFromResponse f = .error x ↔ Refuses f.service f.data x := by
  obtain ⟨s, a, b, c, d, data⟩ := f
  have hm : ∀ {α : Type} (g : α → Event) (y : Res α), g <$> y = .error x ↔ y = .error x := by
    intro α g y; cases y <;> simp
  unfold pduFromResponse
  constructor
  · intro h
    cases s <;> simp only [raise_def, hm] at h ⊢
    all_goals first
      | exact .values _ _ h | exact .time _ _ h | exact .parameters _ _ h
      | exact .archive _ _ h | exact .archiveByTime _ _ h
      | (simp [WriteTimeResponse.fromBytes] at h; done)
      | (simp at h; subst h; exact .unknown _ _ (fun t => by cases t <;> decide))
  · intro h
    cases h <;> simp only [hm] <;> try assumption
    next hu =>
    cases s <;> first
      | rfl
      | (exfalso; exact hu .readInstantaneousValuesResponse rfl)
      | (exfalso; exact hu .readTimeResponse rfl)
      | (exfalso; exact hu .readDeviceParametersResponse rfl)
      | (exfalso; exact hu .readArchiveByTimeResponse rfl)
      | (exfalso; exact hu .readArchiveResponse rfl)
      | (exfalso; exact hu .writeTimeResponse rfl)

/-- A line that delivers data without an error bit is interpreted as a frame of that service and data. -/
theorem interpret_plain {C : BlockCipher} {c : Conn} {line : Bytes} {svc : ServiceNumber} {data : Bytes}
    (hd : Delivers C c.cipherContext line svc data) (h1 : ∀ b, data = [b] → ¬ OneBit b) :
    ∃ f : Frame, f.service = svc ∧ f.data = data ∧ c.interpret C line = .ok f := by
  obtain ⟨f, hf1, hf2, hi⟩ := interpret_delivers hd
  refine ⟨f, hf1, hf2, ?_⟩
  rw [hi]
  split
  · next hl =>
    match data, hl with
    | [b], _ => rw [(raiseError_single b).2 (h1 b rfl)]; rfl
  · rfl

/-- An encrypted response whose decryption fails. -/
theorem interpret_encrypted {C : BlockCipher} {c : Conn} {line raw : Bytes} {f : Frame} {x : PyErr}
    (h1 : returnCharacters line = .ok raw) (h2 : responseFactory raw = .ok (true, f))
    (h3 : (c.cipherContext = none ∧ x = .attribute) ∨
      ∃ ctx, c.cipherContext = some ctx ∧ ctx.decrypt C f.data = .error x) :
    c.interpret C line = .error x := by
  unfold Conn.interpret
  rw [h1, bind_ok, h2, bind_ok]
  rcases h3 with ⟨h3, rfl⟩ | ⟨ctx, h3, h4⟩
  · simp only [if_true, h3]; rfl
  · simp only [if_true, h3, h4]; rfl

/-- C44. The answer of `next_event` in every case: the clauses of `Answers` cover all connections and
buffers, and each determines the answer. -/
theorem C44_answers (C : BlockCipher) (c : Conn) (y : Res (Option Event)) :
    (c.nextEvent C).2 = y ↔ Answers C c.cipherContext c.state c.buffer y := by
  constructor
  · rintro rfl
    rcases line_cases c.buffer with hn | ⟨w, rest, hb, hw⟩
    · rw [nextEvent_none hn]; exact .incomplete _ hn
    rw [nextEvent_line hw hb, hb]
    obtain ⟨raw, hraw⟩ := C03_unescape_line_total w
    rcases C13_factory_total raw with ⟨enc, f, hf⟩ | hf
    · by_cases hdel : ∃ data, Delivers C c.cipherContext (w ++ [0x0D]) f.service data
      · obtain ⟨data, hdel⟩ := hdel
        by_cases hone : ∃ b, data = [b] ∧ OneBit b
        · obtain ⟨b, rfl, k, hk, hbk⟩ := hone
          obtain ⟨e, he, hi⟩ := interpret_error_bit hdel hk hbk
          rw [hi]
          exact .deviceError w rest _ b k e hw hdel hk hbk he
        · have h1 : ∀ b, data = [b] → ¬ OneBit b := fun b hb ho => hone ⟨b, hb, ho⟩
          obtain ⟨g, hg1, hg2, hi⟩ := interpret_plain hdel h1
          rw [hi]
          dsimp only
          cases hp : pduFromResponse g with
          | error x =>
            exact .refused w rest _ data x hw hdel h1 (by rw [← hg1, ← hg2]; exact pdu_refuses.1 hp)
          | ok e =>
            have hdec : Decodes f.service data e := by rw [← hg1, ← hg2]; exact pdu_decodes.1 hp
            dsimp only
            cases hs : processEvent c.state e with
            | error x =>
              have hx := processEvent_error c.state e (by rw [hs]; simp)
              rw [hs] at hx
              rw [Except.error.inj hx]
              refine .unexpected w rest _ data e hw hdel h1 hdec fun ha => ?_
              rw [(processEvent_iff c.state .idle e).2 (.inr ⟨ha, rfl⟩)] at hs
              cases hs
            | ok s' =>
              refine .response w rest _ data e hw hdel h1 hdec ?_
              rcases (processEvent_iff _ _ _).1 hs with ⟨_, u, h2, _⟩ | ⟨h, _⟩
              · exfalso
                have := decodes_type hdec
                cases e <;> simp_all [Event.type, responseOf, serviceOf]
              · exact h
      · cases enc with
        | false => exact absurd ⟨f.data, raw, false, f, hraw, hf, rfl, by simp⟩ hdel
        | true =>
          cases hcc : c.cipherContext with
          | none =>
            rw [interpret_encrypted hraw hf (.inl ⟨hcc, rfl⟩)]
            exact .noKey w rest raw f hw hraw hf rfl
          | some ctx =>
            cases hdc : ctx.decrypt C f.data with
            | ok d => exact absurd ⟨d, raw, true, f, hraw, hf, rfl, by simp [hcc, hdc]⟩ hdel
            | error x =>
              rw [interpret_encrypted hraw hf (.inr ⟨ctx, hcc, hdc⟩)]
              obtain ⟨e1, e2, e3, _⟩ := C31_decrypt_errors C ctx f.data
              by_cases hl : f.data.length < 3
              · rw [e1 hl] at hdc
                rw [← Except.error.inj hdc]
                exact .truncated w rest raw f ctx hw hraw hf rfl hl
              · have hk : f.data[2]? = some f.data[2] := List.getElem?_eq_getElem (by omega)
                by_cases hid : (f.data[2].toNat : Int) = ctx.keyId
                · rcases e3 _ hk hid with ⟨d, hd⟩ | hd
                  · rw [hd] at hdc; cases hdc
                  · have hd' := hd
                    rw [hdc] at hd
                    rw [Except.error.inj hd]
                    exact .corrupt w rest raw f ctx hw hraw hf rfl hd'
                · rw [e2 _ hk hid] at hdc
                  rw [← Except.error.inj hdc]
                  exact .otherKey w rest raw f ctx _ hw hraw hf rfl hk hid
    · rw [interpret_factory_error hraw hf]
      refine .unreadable w rest hw fun raw' x h1 h2 => ?_
      rw [hraw] at h1
      rw [← Except.ok.inj h1, hf] at h2
      cases h2
  · intro h
    generalize hb : c.buffer = b at h
    have key : ∀ w rest x, 0x0D ∉ w → c.buffer = w ++ 0x0D :: rest →
        c.interpret C (w ++ [0x0D]) = .error x →
        (c.nextEvent C).2 = if x.isValueError then .ok none else .error x := by
      intro w rest x hw hb hi
      rw [poll_blocked C c w rest x hw hb hi]
    cases h with
    | incomplete _ hn => rw [nextEvent_none (by rw [hb]; exact hn)]
    | unreadable w rest hw hbad =>
      obtain ⟨raw, hraw⟩ := C03_unescape_line_total w
      rcases C13_factory_total raw with ⟨enc, f, hf⟩ | hf
      · exact absurd hf (hbad raw _ hraw)
      · rw [key w rest _ hw hb (interpret_factory_error hraw hf)]; rfl
    | noKey w rest raw f hw hraw hf hcc =>
      rw [key w rest _ hw hb (interpret_encrypted hraw hf (.inl ⟨hcc, rfl⟩))]; rfl
    | corrupt w rest raw f ctx hw hraw hf hcc hd =>
      rw [key w rest _ hw hb (interpret_encrypted hraw hf (.inr ⟨ctx, hcc, hd⟩))]; rfl
    | truncated w rest raw f ctx hw hraw hf hcc hl =>
      rw [key w rest _ hw hb (interpret_encrypted hraw hf
        (.inr ⟨ctx, hcc, (C31_decrypt_errors C ctx f.data).1 hl⟩))]; rfl
    | otherKey w rest raw f ctx k hw hraw hf hcc hk hid =>
      rw [key w rest _ hw hb (interpret_encrypted hraw hf
        (.inr ⟨ctx, hcc, (C31_decrypt_errors C ctx f.data).2.1 k hk hid⟩))]; rfl
    | deviceError w rest svc b k e hw hdel hk hbk he =>
      obtain ⟨e', he', hi⟩ := interpret_error_bit hdel hk hbk
      rw [he] at he'
      rw [key w rest _ hw hb hi, ← Option.some.inj he']; rfl
    | refused w rest svc data x hw hdel h1 hr =>
      obtain ⟨g, hg1, hg2, hi⟩ := interpret_plain hdel h1
      rw [nextEvent_line hw hb, hi]
      dsimp only
      rw [pdu_refuses.2 (by rw [hg1, hg2]; exact hr)]
    | unexpected w rest svc data e hw hdel h1 hdec ha =>
      obtain ⟨g, hg1, hg2, hi⟩ := interpret_plain hdel h1
      rw [nextEvent_line hw hb, hi]
      dsimp only
      rw [pdu_decodes.2 (by rw [hg1, hg2]; exact hdec)]
      dsimp only
      rw [processEvent_error c.state e]
      intro s' hs
      rcases (processEvent_iff _ _ _).1 hs with ⟨_, u, h2, _⟩ | ⟨h, _⟩
      · have := decodes_type hdec
        cases e <;> simp_all [Event.type, responseOf, serviceOf]
      · exact ha h
    | response w rest svc data e hw hdel h1 hdec ha =>
      exact (C44_returns_iff C c e).2 ⟨w, rest, svc, data, hb, hw, hdel, h1, hdec, ha⟩

/-- C44. Exactly what a wrong response raises: well-formed data of a service that is not awaited raises
`LocalElgasProtocolError`, and the request stays pending. -/
theorem C44_wrong_service_error (C : BlockCipher) (c : Conn) (w rest : Bytes) (svc : ServiceNumber)
    (data : Bytes) (e : Event) (hb : c.buffer = w ++ 0x0D :: rest) (hw : 0x0D ∉ w)
    (hd : Delivers C c.cipherContext (w ++ [0x0D]) svc data) (h1 : ∀ b, data = [b] → ¬ OneBit b)
    (hdec : Decodes svc data e) (ha : awaits c.state ≠ some e.type) :
    c.nextEvent C = (c, .error (.elgas .localProtocol)) := by
  have h : (c.nextEvent C).2 = .error (.elgas .localProtocol) := by
    rw [C44_answers, hb]
    exact .unexpected w rest svc data e hw hd h1 hdec ha
  refine Prod.ext ?_ h
  exact (C38_poll_effect C c).2.1 _ h

/-! ### C41 -/

/-- C41. An error byte with no bit or several bits set raises none of the device errors... -/
theorem C41_combined_bits_not_reported (C : BlockCipher) (c : Conn) (w rest : Bytes)
    (svc : ServiceNumber) (b : UInt8) (hb : c.buffer = w ++ 0x0D :: rest) (hw : 0x0D ∉ w)
    (hd : Delivers C c.cipherContext (w ++ [0x0D]) svc [b]) (hbit : ¬ OneBit b) (k : Nat) (e : ElgasErr)
    (hk : errorOfBit k = some e) : (c.nextEvent C).2 ≠ .error (.elgas e) := by
  obtain ⟨f, hf1, hf2, hi⟩ := interpret_delivers hd
  rw [if_pos (show [b].length = 1 from rfl), (raiseError_single b).2 hbit, bind_ok] at hi
  rw [nextEvent_line hw hb, hi]
  dsimp only
  have hel : e ≠ .localProtocol := by
    rintro rfl
    have : k < 8 := by
      apply Classical.byContradiction; intro hk8
      unfold errorOfBit at hk
      rw [List.getElem?_eq_none (by simp; omega)] at hk
      simp at hk
    have : k = 0 ∨ k = 1 ∨ k = 2 ∨ k = 3 ∨ k = 4 ∨ k = 5 ∨ k = 6 ∨ k = 7 := by omega
    rcases this with rfl | rfl | rfl | rfl | rfl | rfl | rfl | rfl <;> simp [errorOfBit] at hk
  cases hp : pduFromResponse f with
  | error x =>
    simp only [ne_eq, Except.error.injEq]
    rintro rfl
    unfold pduFromResponse at hp
    rw [hf2] at hp
    have key : ∀ {α : Type} (g : α → Event) (y : Res α), (∀ x, y ≠ .error (.elgas x)) →
        g <$> y ≠ .error (.elgas e) := by
      intro α g y hy
      cases y with
      | ok _ => simp
      | error x => intro h; simp at h; exact hy e (by rw [h])
    have h23 : ∀ x, ReadInstantaneousValuesResponse.fromBytes [b] ≠ .error (.elgas x) := by
      intro x h
      rcases (C23_errors _ _).1 h with ⟨_, h⟩ | ⟨_, _, h⟩ <;> simp at h
    have h24 : ∀ x, ReadTimeResponse.fromBytes [b] ≠ .error (.elgas x) := by
      intro x h
      obtain ⟨h1, h2⟩ := C24_read_time [b]
      by_cases hden : ∃ t d s, Denotes ([b].take 6) t d s
      · obtain ⟨t, d, s, hden⟩ := hden
        rw [h1 t d s hden] at h; simp at h
      · rw [h2 (fun t d s hh => hden ⟨t, d, s, hh⟩)] at h; simp at h
    have h25 : ∀ x, ReadDeviceParametersResponse.fromBytes [b] ≠ .error (.elgas x) := by
      intro x h
      rw [(C25_read_parameters [b]).2 (by simp)] at h; simp at h
    have h26 : ∀ x, ReadArchiveResponse.fromBytes [b] ≠ .error (.elgas x) ∧
        ReadArchiveByTimeResponse.fromBytes [b] ≠ .error (.elgas x) := by
      intro x
      obtain ⟨_, h2, h3⟩ := C26_accepts [b]
      by_cases hb10 : b.toNat ≤ 10
      · obtain ⟨⟨r1, e1⟩, r2, e2⟩ := h2 b [] rfl hb10
        rw [e1, e2]; simp
      · obtain ⟨e1, e2⟩ := h3 b [] rfl (by omega)
        rw [e1, e2]; simp
    cases hsv : f.service <;> rw [hsv] at hp <;> dsimp only at hp <;> try (simp at hp; done)
    all_goals first
      | exact key _ _ h23 hp
      | exact key _ _ h24 hp
      | exact key _ _ h25 hp
      | exact key _ _ (fun x => (h26 x).1) hp
      | exact key _ _ (fun x => (h26 x).2) hp
      | exact key _ _ (fun x h => by simp [WriteTimeResponse.fromBytes] at h) hp
  | ok pdu =>
    dsimp only
    cases hs : processEvent c.state pdu with
    | error x =>
      have := processEvent_error c.state pdu (by rw [hs]; simp)
      rw [hs] at this
      injection this with this
      rw [this]
      simp only [ne_eq, Except.error.injEq, PyErr.elgas.injEq]
      exact fun h => hel h.symm
    | ok s' => simp

/-- C41. ... and when the pending request was a write of the time, it is reported as success. -/
theorem C41_write_reported_as_success (C : BlockCipher) (c : Conn) (w rest : Bytes) (b : UInt8)
    (hb : c.buffer = w ++ 0x0D :: rest) (hw : 0x0D ∉ w)
    (hd : Delivers C c.cipherContext (w ++ [0x0D]) .writeDeviceTime [b]) (hbit : ¬ OneBit b)
    (hs : c.state = .awaitingWriteTimeResponse) :
    c.nextEvent C = ({ c with buffer := [], state := .idle }, .ok (some (.writeTimeResponse {}))) := by
  have h : (c.nextEvent C).2 = .ok (some (.writeTimeResponse {})) :=
    (C44_returns_iff C c _).2 ⟨w, rest, .writeDeviceTime, [b], hb, hw, hd,
      fun x hx => by simp at hx; rw [← hx]; exact hbit, .writeTime _ _ rfl, by rw [hs]; rfl⟩
  have h1 := ((C38_poll_effect C c).2.2 _ h).1
  rw [← h1, ← h]

/-- 0xC0 (bits 6 and 7: wrong encryption keys, write error) is such a byte; so is 0. -/
example : ¬ OneBit 0xC0 ∧ ¬ OneBit 0x00 ∧ OneBit 0x40 := by
  refine ⟨?_, ?_, 6, by omega, by decide⟩ <;>
  · rintro ⟨k, hk, h⟩
    have : k = 0 ∨ k = 1 ∨ k = 2 ∨ k = 3 ∨ k = 4 ∨ k = 5 ∨ k = 6 ∨ k = 7 := by omega
    rcases this with rfl | rfl | rfl | rfl | rfl | rfl | rfl | rfl <;> simp at h

/-! ### C42 -/

/-- C42. `receive_data`: a lone end character on an empty buffer and empty data change nothing,
everything else is appended. -/
theorem C42_receive (c : Conn) (d : Bytes) :
    (d = [] → c.receiveData d = c) ∧
    (d = [0x0D] → c.buffer = [] → c.receiveData d = c) ∧
    (¬ (d = [0x0D] ∧ c.buffer = []) → c.receiveData d = { c with buffer := c.buffer ++ d }) := by
  refine ⟨?_, ?_, ?_⟩
  · rintro rfl; rfl
  · rintro rfl hb; unfold Conn.receiveData; simp [hb]
  · intro h; exact receiveData_append (fun h1 h2 => h ⟨h1, h2⟩)

/-- C42. A stray end character that arrives together with a frame blocks the connection. -/
theorem C42_stray_end_blocks (C : BlockCipher) (c : Conn) (d : Bytes) (ops : List Op)
    (hb : c.buffer = []) (hd : d ≠ []) :
    ∀ y, Outcome.polled y ∈ (run C (c.receiveData (0x0D :: d)) ops).2 → y = .ok none := by
  refine C39_blocked_forever C _ [] d ops (by simp) ?_ ?_
  · rw [receiveData_append (fun h => absurd (by simpa using h) hd), hb]
  · intro raw hraw x hx
    have : raw = [0x0D] := by
      have h : returnCharacters ([] ++ [0x0D]) = .ok [0x0D] := by decide
      rw [h] at hraw; simpa using hraw.symm
    subst this
    obtain ⟨e, f⟩ := x
    have := (factory_accepted hx).len_ge
    simp at this

/-! ### C43 -/

/-- C43. Delivering a PDU drops everything behind the first line: the outcome is the same as if
nothing had been received after it. -/
theorem C43_rest_discarded (C : BlockCipher) (c : Conn) (w rest : Bytes) (e : Event) (hw : 0x0D ∉ w)
    (hb : c.buffer = w ++ 0x0D :: rest) (h : (c.nextEvent C).2 = .ok (some e)) :
    (c.nextEvent C).1.buffer = [] ∧
    c.nextEvent C = ({ c with buffer := w ++ [0x0D] } : Conn).nextEvent C := by
  have h1 := ((C38_poll_effect C c).2.2 e h).1
  refine ⟨by rw [h1], ?_⟩
  have h2 : (({ c with buffer := w ++ [0x0D] } : Conn).nextEvent C).2 = .ok (some e) := by
    obtain ⟨w', rest', svc, data, hb', hw', r⟩ := (C44_returns_iff C c e).1 h
    rw [hb] at hb'
    obtain ⟨rfl, rfl⟩ := line_inj hw hw' hb'
    exact (C44_returns_iff C _ e).2 ⟨w, [], svc, data, rfl, hw, r⟩
  have h3 := ((C38_poll_effect C { c with buffer := w ++ [0x0D] }).2.2 e h2).1
  calc c.nextEvent C = ((c.nextEvent C).1, (c.nextEvent C).2) := rfl
    _ = _ := by rw [h1, h, ← h2]; exact Prod.ext h3.symm rfl

/-- C43. In particular a second response already in the buffer is lost: the next poll returns
NEED_DATA. -/
theorem C43_second_response_lost (C : BlockCipher) (c : Conn) (e : Event)
    (h : (c.nextEvent C).2 = .ok (some e)) :
    (c.nextEvent C).1.nextEvent C = ((c.nextEvent C).1, .ok none) := by
  have h1 := ((C38_poll_effect C c).2.2 e h).1
  apply nextEvent_none
  rw [h1]; simp

/-! ### C45 -/

/-- The wire form of a response frame delivers its data. -/
theorem delivers_wire (C : BlockCipher) (cc : Option CipherContext) (f : Frame) (enc : Bool) (raw wire : Bytes)
    (body : Bytes)
    (h1 : responseToBytes (if enc then encryptedResponseType else responseType) f = .ok raw)
    (h2 : escapeCharacters raw = .ok wire)
    (hd : if enc then ∃ ctx, cc = some ctx ∧ ctx.decrypt C f.data = .ok body else f.data = body) :
    ∃ w, wire = w ++ [0x0D] ∧ 0x0D ∉ w ∧ w ≠ [] ∧ Delivers C cc (w ++ [0x0D]) f.service body := by
  obtain ⟨z, hz1, hz2⟩ := escapeCharacters_eq_ok h2
  have hlen : 16 ≤ raw.length := by
    have := (C10_length_field _ f raw (.inr h1)).2; omega
  refine ⟨escBytes z, hz2, (escBytes_no_end z).1, ?_, ?_⟩
  · intro h0
    have := escBytes_length_le z
    rw [h0, hz1] at *
    simp at this hlen
    have : z.length = 0 := by simp [this]
    omega
  · refine ⟨raw, enc, f, ?_, ?_, rfl, hd⟩
    · rw [returnCharacters_escBytes z [0x0D] [0x0D] (by decide), hz1]
    · cases enc
      · exact (C09_factory_roundtrip f raw).1 h1
      · exact (C09_factory_roundtrip f raw).2 h1

theorem serviceOf_inj {t u : EventType} {s : ServiceNumber} (h1 : serviceOf t = some s)
    (h2 : serviceOf u = some s) : t = u := by
  cases s <;> cases t <;> first | (exfalso; revert h1; decide) | skip
  all_goals (cases u <;> first | rfl | (exfalso; revert h2; decide))

/-- C45. A complete exchange: an idle connection with an empty buffer sends a request; the peer
answers with a response frame of the right service around any body that the response class accepts
and that is not a single error byte, plain or encrypted under the shared key, from any address; the bytes
arrive in any chunks.  Then all polls but the last return NEED_DATA, the last one returns the decoded
body, and the connection is idle with an empty buffer. -/
theorem C45_exchange (C : BlockCipher) (c : Conn) (e : Event) (r : Rand) (req : Bytes)
    (hidle : c.state = .idle) (hbuf : c.buffer = []) (he : IsRequest e)
    (hsend : (c.send C e r).2 = .ok req)
    (u : EventType) (hu : responseOf e.type = some u) (svc : ServiceNumber) (hsvc : serviceOf u = some svc)
    (f : Frame) (enc : Bool) (body : Bytes) (pdu : Event) (raw wire : Bytes) (hf : f.service = svc)
    (hbody : if enc then ∃ ctx, c.cipherContext = some ctx ∧ ctx.decrypt C f.data = .ok body
      else f.data = body)
    (hone : ∀ b, body = [b] → ¬ OneBit b) (hdec : Decodes svc body pdu)
    (hraw : responseToBytes (if enc then encryptedResponseType else responseType) f = .ok raw)
    (hwire : escapeCharacters raw = .ok wire)
    (chunks : List Bytes) (last : Bytes) (hl : last ≠ []) (hch : chunks.flatten ++ last = wire) :
    feedPoll C (c.send C e r).1 (chunks ++ [last]) =
      (c, List.replicate chunks.length (.ok none) ++ [.ok (some pdu)]) := by
  rcases send_request_cases C c e r he with ⟨_, h2, h3, _⟩ | ⟨hn, _⟩
  · obtain ⟨w, hw1, hw2, hw3, hdel⟩ := delivers_wire C c.cipherContext f enc raw wire body hraw hwire hbody
    have hsf := send_frame C c e r
    have hlen : 16 ≤ raw.length := by
      have := (C10_length_field _ f raw (.inr hraw)).2; omega
    obtain ⟨g1, g2⟩ := C37_chunking C chunks last (c.send C e r).1 raw wire hwire
      (by intro h; rw [h] at hlen; simp at hlen) (by rw [hsf.2.2, hbuf]) hl hch
    have hrecv : (c.send C e r).1.receiveData wire = { (c.send C e r).1 with buffer := wire } := by
      rw [receiveData_append, hsf.2.2, hbuf]; rfl
      intro h; rw [hw1] at h
      exact absurd (by simpa using h) hw3
    have hret : (((c.send C e r).1.receiveData wire).nextEvent C).2 = .ok (some pdu) := by
      rw [C44_returns_iff, hrecv]
      refine ⟨w, [], svc, body, hw1, hw2, ?_, ?_, hdec, ?_⟩
      · show Delivers C (c.send C e r).1.cipherContext _ _ _
        rw [hsf.2.1, ← hf]; exact hdel
      · exact hone
      · show awaits (c.send C e r).1.state = _
        rw [h3, hu]
        rw [serviceOf_inj (decodes_type hdec) hsvc]
    have hst := ((C38_poll_effect C _).2.2 pdu hret).1
    rw [hret] at g1
    rw [hst] at g2
    refine Prod.ext ?_ g1
    rw [g2, hrecv, h2]
    obtain ⟨a, b, s, cc⟩ := c
    simp at hidle hbuf
    simp [hidle, hbuf]
  · exact absurd hidle hn

/-- C45. The body of an answer may be produced by the same encryption the connection uses. -/
theorem C45_encrypted_answer (C : BlockCipher) (ctx : CipherContext) (body ct : Bytes) (r : PadRand)
    (h : ctx.encrypt C body r = .ok ct) : ctx.decrypt C ct = .ok body :=
  C29_decrypt_encrypt C ctx body r ct h

/-- A concrete exchange: the hypotheses of the theorems above are met. -/
def exConn : Conn :=
  { args := ⟨0, 0, 0, 0, "000000".toList, 801, none, none⟩, buffer := [], state := .idle,
    cipherContext := none }

example : mkConn exConn.args = .ok exConn ∧ Reachable idCipher exConn.args exConn :=
  ⟨by decide, exConn, [], by decide, rfl⟩

example : ∃ req, (exConn.send idCipher (.readTimeRequest {}) ⟨('a', 'b'), fun _ => 0⟩).2 = .ok req ∧
    IsRequest (.readTimeRequest {}) ∧
    Decodes .readDeviceTime [0x00, 0x30, 0x12, 0x01, 0x01, 0x20, 0x00, 0x00, 0x00]
      (.readTimeResponse ⟨⟨2020, 1, 1, 12, 30, 0, 0⟩, [0x00], false, false, []⟩) :=
  ⟨_, rfl, by simp [IsRequest, Event.type, responseOf], .time _ _ rfl⟩

/-! ### Concrete cases of C32 - C45

A connection without and one with a key, the wire bytes of answers (whose addresses contain all four
characters that have to be escaped), and at least one case per theorem above. -/

/-- The randomness of a call in the examples. -/
def exRand : Rand := ⟨('a', 'b'), fun _ => 0⟩

/-- The wire bytes of a response frame with the given type byte, service and data. -/
def exLine (ty : UInt8) (svc : ServiceNumber) (data : Bytes) : Bytes :=
  match responseToBytes ty ⟨svc, 0x0D1B, 0x8D, 0, 0x0E, data⟩ >>= escapeCharacters with
  | .ok w => w
  | .error _ => []

/-- The body of an answer to "read time": 2020-01-01 12:30:00. -/
def exTimeBody : Bytes := [0x00, 0x30, 0x12, 0x01, 0x01, 0x20, 0x00, 0x00, 0x00]
/-- The object it stands for. -/
def exTime : Event := .readTimeResponse ⟨⟨2020, 1, 1, 12, 30, 0, 0⟩, [0x00], false, false, []⟩
/-- A request to set the clock. -/
def exWrite : Event := .writeTimeRequest { password := "000000".toList, deviceTime := ⟨2024, 2, 29, 1, 2, 3, 4⟩ }

/-- A connection with encryption key 07…07 under key id 1. -/
def exSec : Conn :=
  { args := ⟨0, 0, 7, 1, "000000".toList, 801, some (List.replicate 16 7), some 1⟩, buffer := [], state := .idle,
    cipherContext := some ⟨1, List.replicate 16 7⟩ }

/-- The encryption of `exTimeBody` under the key of `exSec`. -/
def exCipherText : Bytes :=
  match (⟨1, List.replicate 16 7⟩ : CipherContext).encrypt idCipher exTimeBody (fun _ => 0x0D) with
  | .ok b => b
  | .error _ => []

/-- The line of an answer in clear. -/
def exPlainLine : Bytes := exLine 0x86 .readDeviceTime exTimeBody
/-- The line of an encrypted answer. -/
def exSecretLine : Bytes := exLine 0x87 .readDeviceTime exCipherText

-- the two connections are what the constructor returns, and the lines are lines
example : mkConn exSec.args = .ok exSec ∧ exPlainLine.length = 28 ∧ exPlainLine.getLast? = some 0x0D ∧
    exSecretLine.length = 38 ∧ exSecretLine.getLast? = some 0x0D := by decide +kernel

-- C35: two complete exchanges, with a refused request and an incomplete answer in between
example : observe (run idCipher exConn
      [.send (.readTimeRequest {}) exRand, .send (.readTimeRequest {}) exRand, .receive (exPlainLine.take 11),
       .poll, .receive (exPlainLine.drop 11), .poll, .send exWrite exRand,
       .receive (exLine 0x86 .writeDeviceTime [0x00]), .poll, .send (.readTimeRequest {}) exRand]).2 =
    [.accepted .readTimeRequest, .returned .readTimeResponse, .accepted .writeTimeRequest,
     .returned .writeTimeResponse, .accepted .readTimeRequest] := by decide +kernel

-- C36: a request that cannot be encoded; afterwards nothing is accepted
example : (exConn.send idCipher (.readInstantaneousValuesRequest ⟨['Ā']⟩) exRand).2 = .error .unicodeEncode ∧
    (exConn.send idCipher (.readInstantaneousValuesRequest ⟨['Ā']⟩) exRand).1.state = .awaitingReadActualValuesResponse ∧
    observe (run idCipher (exConn.send idCipher (.readInstantaneousValuesRequest ⟨['Ā']⟩) exRand).1
      [.send (.readTimeRequest {}) exRand, .poll, .receive [1, 2], .poll]).2 = [] := by decide +kernel

-- C32: a request in clear and an encrypted request
example : (exConn.send idCipher (.readTimeRequest {}) exRand).2 =
    .ok [0x02, 0xFE, 0x84, 0x6C, 0x0F, 0, 0, 0, 0, 0, 0, 0, 0x19, 0xFD, 0x19, 0x0D] := by decide +kernel
example : (exSec.send idCipher exWrite exRand).2.map (·.take 16) =
    .ok [0x02, 0xFE, 0x85, 0x71, 0x32, 0, 0, 7, 1, 0, 0, 0, 17, 0, 1, 0x37] := by decide +kernel

-- C33: the same plaintext answer with and without a configured key
example : returnCharacters exPlainLine = .ok (frame 0x86 0x6C [0x1B, 0x0D, 0x8D, 0, 0, 0x0E] exTimeBody) ∧
    ((({ exSec with state := .awaitingReadTimeResponse } : Conn).receiveData exPlainLine).nextEvent idCipher).2 = .ok (some exTime) ∧
    ((({ exConn with state := .awaitingReadTimeResponse } : Conn).receiveData exPlainLine).nextEvent idCipher).2 = .ok (some exTime) := by
  decide +kernel

-- C37, C45: an encrypted answer in three pieces
example : feedPoll idCipher (exSec.send idCipher (.readTimeRequest {}) exRand).1
      [exSecretLine.take 1, (exSecretLine.drop 1).take 20, exSecretLine.drop 21] =
    (exSec, [.ok none, .ok none, .ok (some exTime)]) := by decide +kernel
-- and a plaintext one
example : feedPoll idCipher (exConn.send idCipher (.readTimeRequest {}) exRand).1
      [exPlainLine.take 1, (exPlainLine.drop 1).take 20, exPlainLine.drop 21] =
    (exConn, [.ok none, .ok none, .ok (some exTime)]) := by decide +kernel

-- C39: one flipped bit in the answer, and the connection never delivers the next, intact answer
example : ∀ y, Outcome.polled y ∈ (run idCipher
      ((exConn.send idCipher (.readTimeRequest {}) exRand).1.receiveData (exPlainLine.set 16 0x31))
      [.poll, .receive exPlainLine, .poll, .send (.readTimeRequest {}) exRand, .poll]).2 → y = .ok none :=
  C39_damaged_frame_blocks idCipher _ (frame 0x86 0x6C [0x1B, 0x0D, 0x8D, 0, 0, 0x0E] exTimeBody) (exPlainLine.set 16 0x31)
    [] (false, ⟨.readDeviceTime, 0x0D1B, 0x8D, 0, 0x0E, exTimeBody⟩) (by decide +kernel) 13 (by decide +kernel) 0x31
    (by decide +kernel) (by decide +kernel) (by decide +kernel) _

-- C40: the device reports a wrong password
example : Delivers idCipher none (exLine 0x86 .readDeviceTime [0x01]) .readDeviceTime [0x01] ∧
    ((({ exConn with state := .awaitingReadTimeResponse } : Conn).receiveData (exLine 0x86 .readDeviceTime [0x01])).nextEvent
      idCipher).2 = .error (.elgas .wrongPassword) :=
  ⟨⟨_, false, ⟨.readDeviceTime, 0x0D1B, 0x8D, 0, 0x0E, [0x01]⟩, rfl, by decide +kernel, rfl, rfl⟩, by decide +kernel⟩

-- C41: two error bits at once, for a write and for a read of the clock
example : (({ exConn with state := .awaitingWriteTimeResponse } : Conn).receiveData (exLine 0x86 .writeDeviceTime [0xC0])).nextEvent
      idCipher = (exConn, .ok (some (.writeTimeResponse {}))) ∧
    ((({ exConn with state := .awaitingReadTimeResponse } : Conn).receiveData (exLine 0x86 .readDeviceTime [0xC0])).nextEvent
      idCipher).2 = .error .value := by decide +kernel

-- C42: a stray end character before the answer
example : ∀ y, Outcome.polled y ∈ (run idCipher ((exConn.send idCipher (.readTimeRequest {}) exRand).1.receiveData
      (0x0D :: exPlainLine)) [.poll, .receive exPlainLine, .poll]).2 → y = .ok none :=
  C42_stray_end_blocks idCipher _ _ _ (by decide +kernel) (by decide +kernel)

-- C43: two answers in one piece; the second is lost
example : ((exConn.send idCipher (.readTimeRequest {}) exRand).1.receiveData (exPlainLine ++ exPlainLine)).nextEvent idCipher =
    (exConn, .ok (some exTime)) := by decide +kernel

-- C44: the ten answers of `next_event`, by the theorem
/-- `next_event` of a connection in the given state whose buffer holds the given bytes. -/
def exPoll (cc : Option CipherContext) (s : PState) (b : Bytes) : Res (Option Event) :=
  (({ exConn with cipherContext := cc, state := s, buffer := b } : Conn).nextEvent idCipher).2
example : exPoll none .awaitingReadTimeResponse (exPlainLine.take 20) = .ok none ∧
    exPoll none .awaitingReadTimeResponse (exPlainLine.set 16 0x31) = .ok none ∧
    exPoll none .awaitingReadTimeResponse exSecretLine = .error .attribute ∧
    exPoll (some ⟨1, List.replicate 16 8⟩) .awaitingReadTimeResponse exSecretLine = .ok none ∧
    exPoll (some ⟨1, List.replicate 16 7⟩) .awaitingReadTimeResponse (exLine 0x87 .readDeviceTime [9, 0]) = .error .index ∧
    exPoll (some ⟨2, List.replicate 16 7⟩) .awaitingReadTimeResponse exSecretLine = .error .assertion ∧
    exPoll none .awaitingReadTimeResponse (exLine 0x86 .readValues [0x40]) = .error (.elgas .wrongEncryptionKeys) ∧
    exPoll none .awaitingReadTimeResponse (exLine 0x86 .readArchives []) = .error .index ∧
    exPoll none .awaitingWriteTimeResponse exPlainLine = .error (.elgas .localProtocol) ∧
    exPoll (some ⟨1, List.replicate 16 7⟩) .awaitingReadTimeResponse exSecretLine = .ok (some exTime) := by decide +kernel

end Elgas
