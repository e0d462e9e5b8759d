import Verif.Props.Device
import Verif.Spec.Own
/-!
C90: connections and clients built from ready-made parts, and which of their arguments matter.
-/
namespace Elgas
open Spec

/-! ### Arguments without effect -/

/-- The connection with the password, password id, key and key id of `l`. -/
def Conn.named (c : Conn) (l : ConnArgs) : Conn :=
  { c with args := { c.args with password := l.password, passwordId := l.passwordId,
                                 encryptionKey := l.encryptionKey, encryptionKeyId := l.encryptionKeyId } }

theorem alike_named (c : Conn) (l : ConnArgs) : Alike c (c.named l) := ⟨rfl, rfl, rfl, rfl, rfl, rfl, rfl⟩

theorem named_of_alike {c c' : Conn} (h : Alike c c') : c' = c.named c'.args := by
  obtain ⟨⟨s1, s2, d1, d2, p, i, k, ki⟩, b, st, cc⟩ := c
  obtain ⟨⟨s1', s2', d1', d2', p', i', k', ki'⟩, b', st', cc'⟩ := c'
  obtain ⟨h1, h2, h3, h4, h5, h6, h7⟩ := h
  dsimp only at h1 h2 h3 h4 h5 h6 h7
  subst h1 h2 h3 h4 h5 h6 h7
  rfl

theorem send_named (C : BlockCipher) (c : Conn) (l : ConnArgs) (e : Event) (r : Rand) :
    (c.named l).send C e r = ((c.send C e r).1.named l, (c.send C e r).2) := by
  unfold Conn.send
  have hs : (c.named l).state = c.state := rfl
  rw [hs]
  cases processEvent c.state e with
  | error x => rfl
  | ok s => rfl

theorem receiveData_named (c : Conn) (l : ConnArgs) (d : Bytes) :
    (c.named l).receiveData d = (c.receiveData d).named l := by
  unfold Conn.receiveData
  have hb : (c.named l).buffer = c.buffer := rfl
  rw [hb]
  split
  · rfl
  · split <;> rfl

theorem interpret_named (C : BlockCipher) (c : Conn) (l : ConnArgs) (d : Bytes) :
    (c.named l).interpret C d = c.interpret C d := rfl

theorem nextEvent_named (C : BlockCipher) (c : Conn) (l : ConnArgs) :
    (c.named l).nextEvent C = ((c.nextEvent C).1.named l, (c.nextEvent C).2) := by
  unfold Conn.nextEvent
  have hb : (c.named l).buffer = c.buffer := rfl
  rw [hb]
  split
  · rfl
  · cases indexEnd c.buffer with
    | none => rfl
    | some i =>
      dsimp only
      rw [interpret_named]
      cases c.interpret C (sliceTo c.buffer ((i : Int) + 1)) with
      | error x => dsimp only; split <;> rfl
      | ok f =>
        dsimp only
        cases pduFromResponse f with
        | error x => rfl
        | ok pdu =>
          dsimp only
          have hs : (c.named l).state = c.state := rfl
          rw [hs]
          cases processEvent c.state pdu with
          | error x => rfl
          | ok s => rfl

theorem run_named (C : BlockCipher) (l : ConnArgs) (ops : List Op) : ∀ c : Conn,
    run C (c.named l) ops = ((run C c ops).1.named l, (run C c ops).2) := by
  induction ops with
  | nil => intro c; rfl
  | cons op ops ih =>
    intro c
    cases op with
    | send e r => simp only [run, step]; rw [send_named, ih]
    | receive d => simp only [run, step]; rw [receiveData_named, ih]
    | poll => simp only [run, step]; rw [nextEvent_named, ih]

/-- The client whose connection has the password, password id, key and key id of `l`. -/
def Sys.named (s : Sys) (l : ConnArgs) : Sys := { s with conn := s.conn.named l }

theorem receive_named (s : Sys) (l : ConnArgs) : (s.named l).receive = (s.receive.1, s.receive.2.named l) := by
  unfold Sys.receive
  have h : (s.named l).recvs = s.recvs := rfl
  rw [h]
  cases hr : s.recvs with
  | nil => rfl
  | cons x xs =>
    cases x with
    | error x => rfl
    | ok d =>
      dsimp only
      have : (s.named l).conn.receiveData d = (s.conn.receiveData d).named l := receiveData_named s.conn l d
      rw [this]
      rfl

theorem sysSend_named (C : BlockCipher) (s : Sys) (l : ConnArgs) (e : Event) :
    (s.named l).send C e = ((s.send C e).1, (s.send C e).2.named l) := by
  unfold Sys.send
  have h : (s.named l).conn.send C e ((s.named l).rands (s.named l).draws) =
    ((s.conn.send C e (s.rands s.draws)).1.named l, (s.conn.send C e (s.rands s.draws)).2) := send_named C s.conn l e _
  rw [h]
  cases hr : s.conn.send C e (s.rands s.draws) with | mk c o =>
  cases o with
  | error x => rfl
  | ok data =>
    dsimp only
    have h : (s.named l).sends = s.sends := rfl
    rw [h]
    cases hs : s.sends with
    | nil => rfl
    | cons x xs =>
      cases x with
      | error x => rfl
      | ok u =>
        exact receive_named
          { s with conn := c, draws := s.draws + 1, handed := s.handed ++ [data], sends := xs } l

theorem nextEventLoop_named (C : BlockCipher) (l : ConnArgs) (rs : List (Res Bytes)) : ∀ c : Conn,
    nextEventLoop C (c.named l) rs =
      ((nextEventLoop C c rs).1, (nextEventLoop C c rs).2.1.named l, (nextEventLoop C c rs).2.2) := by
  induction rs with
  | nil =>
    intro c
    unfold nextEventLoop
    rw [nextEvent_named]
    cases c.nextEvent C with | mk c o =>
    cases o with
    | error x => rfl
    | ok o => cases o <;> rfl
  | cons r rs ih =>
    intro c
    unfold nextEventLoop
    rw [nextEvent_named]
    cases c.nextEvent C with | mk c o =>
    cases o with
    | error x => rfl
    | ok o =>
      cases o with
      | some ev => rfl
      | none =>
        cases r with
        | error x => rfl
        | ok d =>
          dsimp only
          rw [receiveData_named, ih]

theorem exchange_named (C : BlockCipher) (s : Sys) (l : ConnArgs) (e : Event) :
    (s.named l).exchange C e = ((s.exchange C e).1, (s.exchange C e).2.named l) := by
  unfold Sys.exchange
  rw [sysSend_named]
  cases s.send C e with | mk o s =>
  cases o with
  | raised x => rfl
  | pending => rfl
  | returned u =>
    dsimp only
    unfold Sys.nextEvent
    have : nextEventLoop C (s.named l).conn (s.named l).recvs = _ := nextEventLoop_named C l s.recvs s.conn
    rw [this]
    rfl

/-- One turn of the loop of `read_parameters`. -/
theorem readPages_unfold (C : BlockCipher) (s : Sys) (n : Int) (total : Bytes) :
    s.readPages C n total =
      match s.exchange C (pageRequest s.password n) with
      | (.raised x, s) => (.raised x, s)
      | (.pending, s) => (.pending, s)
      | (.returned (.readDeviceParametersResponse p), s) =>
        if p.isEnd then (.returned (total ++ p.data), s)
        else s.readPages C (n + p.objectAmount) (total ++ p.data)
      | (.returned _, s) => (.raised .attribute, s) := by
  rw [Sys.readPages]
  split
  · next h => change s.exchange C (pageRequest s.password n) = _ at h; rw [h]
  · next h => change s.exchange C (pageRequest s.password n) = _ at h; rw [h]
  · next h => change s.exchange C (pageRequest s.password n) = _ at h; rw [h]
  · next ev _ hne h =>
    change s.exchange C (pageRequest s.password n) = _ at h
    rw [h]
    cases ev <;> first | rfl | exact absurd rfl (hne _)

theorem pages_named (C : BlockCipher) (l : ConnArgs) (k : Nat) : ∀ (s : Sys) (n : Int) (total : Bytes),
    s.recvs.length = k →
    (s.named l).readPages C n total = ((s.readPages C n total).1, (s.readPages C n total).2.named l) := by
  induction k using Nat.strongRecOn with
  | _ k ih =>
    intro s n total hk
    rw [readPages_unfold, readPages_unfold]
    have hx : (s.named l).exchange C (pageRequest (s.named l).password n) = _ :=
      exchange_named C s l (pageRequest s.password n)
    rw [hx]
    cases h : s.exchange C (pageRequest s.password n) with | mk o s1 =>
    cases o with
    | raised x => rfl
    | pending => rfl
    | returned ev =>
      have hlt := exchange_recvs h
      cases ev with
      | readDeviceParametersResponse p =>
        dsimp only
        split
        · rfl
        · exact ih s1.recvs.length (by omega) s1 _ _ rfl
      | _ => rfl

theorem callV_named (C : BlockCipher) (s : Sys) (l : ConnArgs) (k : Call) :
    callV C (s.named l) k = ((callV C s k).1, (callV C s k).2.named l) := by
  cases k with
  | readInstantaneousValues =>
    simp only [callV, Sys.readInstantaneousValues]
    rw [show (s.named l).password = s.password from rfl, exchange_named]
  | readTime => simp only [callV, Sys.readTime]; rw [exchange_named]
  | writeTime t b =>
    simp only [callV, Sys.writeTime]
    rw [show (s.named l).password = s.password from rfl, exchange_named]
  | readParameters n => simp only [callV, Sys.readParameters]; rw [pages_named C l _ s n [] rfl]
  | readArchive x n i =>
    simp only [callV, Sys.readArchive]
    rw [show (s.named l).password = s.password from rfl, exchange_named]
  | readArchiveByTime x n t =>
    simp only [callV, Sys.readArchiveByTime]
    rw [show (s.named l).password = s.password from rfl, exchange_named]

theorem callsV_named (C : BlockCipher) (l : ConnArgs) (ks : List Call) : ∀ s : Sys,
    callsV C (s.named l) ks = ((callsV C s ks).1, (callsV C s ks).2.named l) := by
  induction ks with
  | nil => intro s; rfl
  | cons k ks ih => intro s; simp only [callsV]; rw [callV_named, ih]

/-- C90. Password, password id, key and key id of a connection have no effect on it (once it has its cipher context):
connections that are alike in everything else give the same results for all calls. -/
theorem C90_unused (C : BlockCipher) (c c' : Conn) (h : Alike c c') (ops : List Op) :
    (run C c ops).2 = (run C c' ops).2 ∧ Alike (run C c ops).1 (run C c' ops).1 := by
  rw [named_of_alike h, run_named]
  exact ⟨rfl, alike_named _ _⟩

/-- C90. The same for clients: only their own password and the connection's addresses, state, buffer and cipher
context matter.  In particular the key and the key id given to a client have no effect if it is given a connection. -/
theorem C90_unused_client (C : BlockCipher) (a a' : ClientArgs) (hp : a.password = a'.password) (c c' : Conn)
    (h : Alike c c') (sends : List (Res Unit)) (recvs : List (Res Bytes)) (rands : Nat → Rand) (ks : List Call) :
    (callsV C (mkClientWith a c sends recvs rands) ks).1 = (callsV C (mkClientWith a' c' sends recvs rands) ks).1 ∧
    (callsV C (mkClientWith a c sends recvs rands) ks).2.handed =
      (callsV C (mkClientWith a' c' sends recvs rands) ks).2.handed := by
  have : mkClientWith a' c' sends recvs rands = (mkClientWith a c sends recvs rands).named c'.args := by
    unfold mkClientWith Sys.named
    rw [← hp]
    dsimp only
    rw [← named_of_alike h]
  rw [this, callsV_named]
  exact ⟨rfl, rfl⟩

/-- C90. The password id is checked and then never used: clients that differ only in it do the same. -/
theorem C90_password_id (C : BlockCipher) (a : ClientArgs) (i : Int) (sends : List (Res Unit))
    (recvs : List (Res Bytes)) (rands : Nat → Rand) (s s' : Sys) (hs : mkClient a sends recvs rands = .ok s)
    (hs' : mkClient { a with passwordId := i } sends recvs rands = .ok s') (ks : List Call) :
    (callsV C s ks).1 = (callsV C s' ks).1 ∧ (callsV C s ks).2.handed = (callsV C s' ks).2.handed := by
  unfold mkClient clientConn at hs hs'
  rw [bind_eq_ok] at hs hs'
  obtain ⟨c, hc, hs⟩ := hs
  obtain ⟨c', hc', hs'⟩ := hs'
  cases hs
  cases hs'
  have h1 := (mkConn_ok hc).2
  have h2 := (mkConn_ok hc').2
  exact C90_unused_client C a { a with passwordId := i } rfl c c' (by rw [h1, h2]; exact ⟨rfl, rfl, rfl, rfl, rfl, rfl, rfl⟩)
    sends recvs rands ks

/-! ### The constructor -/

/-- C90. The arguments are checked as ever, and only they; a given state and a given cipher context are taken as they
are, and `cipher_context=None` switches encryption off although there is a key. -/
theorem C90_constructor (a : ConnArgs) (state : Option PState) (context : Option (Option CipherContext)) :
    (∀ c, mkConnWith a state context = .ok c ↔ ArgsOk a ∧ c.args = a ∧ c.buffer = [] ∧
      (c.state = match state with | none => .idle | some s => s) ∧
      (c.cipherContext = match context with | none => createCipherContext a | some x => x)) ∧
    (∀ x, mkConnWith a state context = .error x ↔ ¬ ArgsOk a ∧ x = .value) := by
  unfold mkConnWith
  rw [mkConn_eq]
  by_cases h : ArgsOk a
  · rw [if_pos h]
    refine ⟨fun c => ⟨fun hc => ?_, fun hc => ?_⟩, fun x => ⟨fun hx => (by cases hx), fun hx => absurd h hx.1⟩⟩
    · cases hc; exact ⟨h, rfl, rfl, by cases state <;> rfl, by cases context <;> rfl⟩
    · obtain ⟨_, h1, h2, h3, h4⟩ := hc
      obtain ⟨a', b, s, cc⟩ := c
      dsimp only at h1 h2 h3 h4
      subst h1 h2 h3 h4
      cases state <;> cases context <;> rfl
  · rw [if_neg h]
    refine ⟨fun c => ⟨fun hc => (by cases hc), fun hc => absurd hc.1 h⟩, fun x => ⟨fun hx => ?_, fun hx => ?_⟩⟩
    · cases hx; exact ⟨h, rfl⟩
    · rw [hx.2]; rfl

/-- C90. A connection can be continued: a new one with the arguments, the state and the cipher context of an old one
that has nothing in its buffer gives the same results for all further calls. -/
theorem C90_continued (C : BlockCipher) (a : ConnArgs) (old : Conn) (ho : ∃ st cx, mkConnWith a st cx = .ok old)
    (before : List Op) (hb : (run C old before).1.buffer = []) :
    ∃ new, mkConnWith a (some (run C old before).1.state) (some (run C old before).1.cipherContext) = .ok new ∧
      ∀ ops, (run C new ops).2 = (run C (run C old before).1 ops).2 := by
  obtain ⟨st, cx, ho⟩ := ho
  obtain ⟨h1, h2, _⟩ := ((C90_constructor a st cx).1 old).1 ho
  refine ⟨{ args := a, buffer := [], state := (run C old before).1.state,
            cipherContext := (run C old before).1.cipherContext },
    ((C90_constructor a _ _).1 _).2 ⟨h1, rfl, rfl, rfl, rfl⟩, fun ops => ?_⟩
  refine (C90_unused C _ _ ?_ ops).1
  have := (run_frame C old before).1
  rw [h2] at this
  refine ⟨?_, ?_, ?_, ?_, hb.symm, rfl, rfl⟩ <;> rw [this]

/-! ### What is on the wire -/

/-- Every state is that of some new connection after one `send`. -/
theorem state_reached (C : BlockCipher) (c : Conn) (hc : c.state = .idle) (st : PState) :
    ∃ ops, (run C c ops).1 = { c with state := st } := by
  have one : ∀ e : Event, transitions .idle e.type = some st → ∃ ops, (run C c ops).1 = { c with state := st } := by
    intro e he
    refine ⟨[.send e ⟨('0', '0'), fun _ => 0⟩], ?_⟩
    simp only [run, step]
    unfold Conn.send processEvent
    rw [hc, he]
  cases st with
  | idle => exact ⟨[], by cases c; cases hc; rfl⟩
  | awaitingReadActualValuesResponse => exact one (.readInstantaneousValuesRequest { password := [] }) rfl
  | awaitingReadDeviceParametersResponse => exact one (pageRequest [] 0) rfl
  | awaitingReadTimeResponse => exact one (.readTimeRequest {}) rfl
  | awaitingReadArchiveByTimeResponse =>
    exact one (.readArchiveByTimeRequest
      { password := [], archive := 0, amount := 0, oldestTimestamp := ⟨2000, 1, 1, 0, 0, 0, 0⟩ }) rfl
  | awaitingReadArchiveResponse =>
    exact one (.readArchiveRequest { password := [], archive := 0, amount := 0, oldestRecordId := 0 }) rfl
  | awaitingWriteTimeResponse =>
    exact one (.writeTimeRequest { password := [], deviceTime := ⟨2000, 1, 1, 0, 0, 0, 0⟩, cryout := false }) rfl

/-- The arguments with which the default cipher context is the given one. -/
def keyed (a : ConnArgs) (cx : Option CipherContext) : ConnArgs :=
  { a with encryptionKey := cx.map (·.key), encryptionKeyId := cx.map (·.keyId) }

theorem keyed_context (a : ConnArgs) (cx : Option CipherContext) : createCipherContext (keyed a cx) = cx := by
  cases cx <;> rfl

theorem own_reachable (C : BlockCipher) {a : ConnArgs} {st : Option PState} {cx : Option (Option CipherContext)} {c : Conn}
    (h : mkConnWith a st cx = .ok c) :
    Reachable C (keyed a c.cipherContext) (c.named (keyed a c.cipherContext)) := by
  obtain ⟨h1, h2, h3, _⟩ := ((C90_constructor a st cx).1 c).1 h
  have h0 : mkConn (keyed a c.cipherContext) = .ok ⟨keyed a c.cipherContext, [], .idle, c.cipherContext⟩ := by
    rw [mkConn_eq, if_pos (show ArgsOk (keyed a c.cipherContext) from h1), keyed_context]
  obtain ⟨ops, ho⟩ := state_reached C ⟨keyed a c.cipherContext, [], .idle, c.cipherContext⟩ rfl c.state
  refine ⟨_, ops, h0, ?_⟩
  rw [ho]
  unfold Conn.named
  rw [h2, h3]
  rfl

theorem send_onLine {C : BlockCipher} {a : ConnArgs} {c : Conn} {e : Event} {r : Rand} {w : Bytes}
    (hc : Reachable C a c) (hw : (c.send C e r).2 = .ok w) : OnLine C a (createCipherContext a) e w := by
  cases hk : a.encryptionKey with
  | none =>
    obtain ⟨svc, body, h1, h2, h3⟩ := C32_plaintext C a c hc e r w hw (.inl hk)
    refine ⟨r, svc, body, h1, h2, ?_⟩
    unfold createCipherContext
    rw [hk]
    exact h3
  | some key =>
    cases hi : a.encryptionKeyId with
    | none =>
      obtain ⟨svc, body, h1, h2, h3⟩ := C32_plaintext C a c hc e r w hw (.inr hi)
      refine ⟨r, svc, body, h1, h2, ?_⟩
      unfold createCipherContext
      rw [hk, hi]
      exact h3
    | some keyId =>
      obtain ⟨svc, body, ct, h1, h2, h3, h4⟩ := C32_encrypted C a c hc e r w hw key keyId hk hi
      refine ⟨r, svc, body, h1, h2, ?_⟩
      unfold createCipherContext
      rw [hk, hi]
      exact ⟨ct, h4, h3⟩

/-- What calls write, for any predicate that holds of what is sent. -/
theorem calls_written {C : BlockCipher} {ca : ConnArgs} (P : Event → Bytes → Prop) (rands : Nat → Rand)
    (hP : ∀ c e j w, Reachable C ca c → (c.send C e (rands j)).2 = .ok w → P e w) (ks : List Call) : ∀ s : Sys,
    s.rands = rands → Reachable C ca s.conn →
    ∃ ws, (calls C s ks).2.handed = s.handed ++ ws ∧
      Written (fun k w => ∃ e, RequestOf s.password k e ∧ P e w) ks ws := by
  induction ks with
  | nil => intro s _ _; exact ⟨[], by simp [calls], .nil⟩
  | cons k ks ih =>
    intro s hr hs
    obtain ⟨h1, h2, ws, h3, h4, h5⟩ := call_effect P s s.password hs rfl (by rw [hr]; exact hP) k
    obtain ⟨ws', g1, g2⟩ := ih (call C s k).2 (by rw [call_rands, hr]) h2
    rw [h1] at g2
    exact ⟨ws ++ ws', by show (calls C (call C s k).2 ks).2.handed = _; rw [g1, h3, List.append_assoc],
      .call k ks ws ws' h4 h5 g2⟩

theorem own_named (C : BlockCipher) (a : ClientArgs) (c : Conn) (sends : List (Res Unit)) (recvs : List (Res Bytes))
    (rands : Nat → Rand) (l : ConnArgs) (ks : List Call) :
    (callsV C (mkClientWith a c sends recvs rands) ks).1 =
      (callsV C (mkClientWith a (c.named l) sends recvs rands) ks).1 ∧
    (calls C (mkClientWith a c sends recvs rands) ks).2.named l =
      (calls C (mkClientWith a (c.named l) sends recvs rands) ks).2 := by
  have := callsV_named C l ks (mkClientWith a c sends recvs rands)
  have e : (mkClientWith a c sends recvs rands).named l = mkClientWith a (c.named l) sends recvs rands := rfl
  rw [e] at this
  rw [← callsV_calls, ← callsV_calls, this]
  exact ⟨rfl, rfl⟩

/-- C90. Whatever calls are made on a client with a connection of its own and whatever the transport does, everything
handed to the transport is requests of these calls with the password of the client, to and from the addresses of the
connection and encrypted by the cipher context of the connection, if it has one. -/
theorem C90_on_the_wire (C : BlockCipher) (ca : ConnArgs) (st : Option PState) (cx : Option (Option CipherContext))
    (c : Conn) (hc : mkConnWith ca st cx = .ok c) (a : ClientArgs) (sends : List (Res Unit)) (recvs : List (Res Bytes))
    (rands : Nat → Rand) (ks : List Call) :
    Written (fun k w => ∃ e, RequestOf a.password k e ∧ OnLine C ca c.cipherContext e w) ks
      (calls C (mkClientWith a c sends recvs rands) ks).2.handed := by
  have e := (own_named C a c sends recvs rands (keyed ca c.cipherContext) ks).2
  obtain ⟨ws, h1, h2⟩ := calls_written (C := C) (ca := keyed ca c.cipherContext)
    (OnLine C (keyed ca c.cipherContext) c.cipherContext) rands
    (fun c' e j w h g => by have := send_onLine h g; rw [keyed_context] at this; exact this) ks
    (mkClientWith a (c.named (keyed ca c.cipherContext)) sends recvs rands) rfl (own_reachable C hc)
  rw [← e] at h1
  rw [show (calls C (mkClientWith a c sends recvs rands) ks).2.handed = ws from h1]
  exact h2

/-- C90. So a client that is given a key but a connection without cipher context writes in the clear. -/
theorem C90_key_ignored (C : BlockCipher) (ca : ConnArgs) (st : Option PState) (cx : Option (Option CipherContext))
    (c : Conn) (hc : mkConnWith ca st cx = .ok c) (hx : c.cipherContext = none) (a : ClientArgs)
    (sends : List (Res Unit)) (recvs : List (Res Bytes)) (rands : Nat → Rand) (ks : List Call) (w : Bytes)
    (hw : w ∈ (calls C (mkClientWith a c sends recvs rands) ks).2.handed) :
    ∃ k ∈ ks, ∃ e r body code address, RequestOf a.password k e ∧ e.toBytes r = .ok body ∧
      returnCharacters w = .ok (frame 0x84 code address body) := by
  have h := C90_on_the_wire C ca st cx c hc a sends recvs rands ks
  generalize (calls C (mkClientWith a c sends recvs rands) ks).2.handed = ws at h hw
  rw [hx] at h
  induction h with
  | nil => cases hw
  | call k ks ws rest h1 _ _ ih =>
    rcases List.mem_append.1 hw with hw | hw
    · obtain ⟨e, h2, r, code, body, _, h4, h5⟩ := h1 w hw
      exact ⟨k, by simp, e, r, body, code, _, h2, h4, h5⟩
    · obtain ⟨k', hk, r⟩ := ih hw
      exact ⟨k', by simp [hk], r⟩

/-! ### Sessions -/

theorem matches_context {cx : Option CipherContext} {D : Device} (h : Matches cx D) : cx = contextOf D.key := by
  unfold Matches at h
  unfold contextOf
  cases hd : D.key with
  | none => rw [hd] at h; exact h
  | some k => rw [hd] at h; exact h

/-- C90. A session with a device (C79) works just as well over a connection of one's own, whatever its addresses: the
cipher context of the connection has to be that of the device, and the client has to know the password. -/
theorem C90_session (C : BlockCipher) (ca : ConnArgs) (cx : Option (Option CipherContext)) (c : Conn)
    (hc : mkConnWith ca none cx = .ok c) (a : ClientArgs) (n : Nat) (rs : List Bytes) (rands : Nat → Rand)
    (hr : ∀ i, PadOk (rands i).pw) (D D' : Device) (hd : D.Ok) (hk : Matches c.cipherContext D)
    (hp : KnowsPassword a D) (ks : List Call) (hks : ∀ k ∈ ks, k.InRange)
    (hn : (calls C (mkClientWith a c (List.replicate n (.ok ())) (rs.map .ok) rands) ks).2.handed.length ≤ n)
    (hf : Feeds C D (calls C (mkClientWith a c (List.replicate n (.ok ())) (rs.map .ok) rands) ks).2.handed rs D') :
    Ideals D ks (callsV C (mkClientWith a c (List.replicate n (.ok ())) (rs.map .ok) rands) ks).1 D' ∧
    (calls C (mkClientWith a c (List.replicate n (.ok ())) (rs.map .ok) rands) ks).2.recvs = [] ∧
    Ready (calls C (mkClientWith a c (List.replicate n (.ok ())) (rs.map .ok) rands) ks).2.conn := by
  obtain ⟨_, _, h3, h4, _⟩ := ((C90_constructor ca none cx).1 c).1 hc
  obtain ⟨e1, e2⟩ := own_named C a c (List.replicate n (.ok ())) (rs.map .ok) rands (keyed ca c.cipherContext) ks
  have hh : (calls C (mkClientWith a c (List.replicate n (.ok ())) (rs.map .ok) rands) ks).2.handed =
    (calls C (mkClientWith a (c.named (keyed ca c.cipherContext)) (List.replicate n (.ok ())) (rs.map .ok) rands)
      ks).2.handed := by rw [← e2]; rfl
  rw [hh] at hn hf
  obtain ⟨g1, g2, g3⟩ := session_fed (C := C) (ca := keyed ca c.cipherContext) ks hks
    (mkClientWith a (c.named (keyed ca c.cipherContext)) (List.replicate n (.ok ())) (rs.map .ok) rands) D n _ rs [] hd
    ⟨own_reachable C hc, ⟨h4, h3⟩, by rw [keyed_context]; exact matches_context hk, hr⟩ hp.1 hp.2 rfl
    (List.nil_append _).symm hn (List.append_nil _).symm hf
  rw [← e1] at g1
  rw [← e2] at g2 g3
  refine ⟨g1, g2, ?_⟩
  have hs : (calls C (mkClientWith a c (List.replicate n (.ok ())) (rs.map .ok) rands) ks).2.conn.state = .idle := by
    have := congrArg Conn.state g3; exact this.trans h4
  have hb : (calls C (mkClientWith a c (List.replicate n (.ok ())) (rs.map .ok) rands) ks).2.conn.buffer = [] := by
    have := congrArg Conn.buffer g3; exact this.trans h3
  exact ⟨hs, hb⟩

/-- C90. The password of a client with a connection of its own is not checked.  One that does not have six characters
makes no sense to a device: it finds no question in any line but those of `read_time`. -/
theorem C90_password_length (C : BlockCipher) (ca : ConnArgs) (st : Option PState) (cx : Option (Option CipherContext))
    (c : Conn) (hc : mkConnWith ca st cx = .ok c) (a : ClientArgs) (h6 : a.password.length ≠ 6)
    (sends : List (Res Unit)) (recvs : List (Res Bytes)) (rands : Nat → Rand) (hr : ∀ i, PadOk (rands i).pw)
    (D : Device) (hk : Matches c.cipherContext D) (ks : List Call) (hks : ∀ k ∈ ks, k.InRange) :
    Written (fun k w => k ≠ .readTime → ∀ y, ¬ Finds C D w y) ks
      (calls C (mkClientWith a c sends recvs rands) ks).2.handed := by
  have e := (own_named C a c sends recvs rands (keyed ca c.cipherContext) ks).2
  obtain ⟨ws, h1, h2⟩ := written_found (C := C) (ca := keyed ca c.cipherContext) (D := D)
    (by rw [keyed_context]; exact matches_context hk) ks hks
    (mkClientWith a (c.named (keyed ca c.cipherContext)) sends recvs rands) (own_reachable C hc) hr
  rw [← e] at h1
  rw [show (calls C (mkClientWith a c sends recvs rands) ks).2.handed = ws from h1]
  clear hks h1 e
  induction h2 with
  | nil => exact .nil
  | call k ks ws rest i1 i2 _ ih =>
    refine .call k ks ws rest (fun w hw hne y hy => ?_) i2 ih
    obtain ⟨ev, he, _, hfd⟩ := i1 w hw
    have hlen := ((hfd y).1 hy).1
    have : ∃ p, passwordIn ev = some p := by
      cases k with
      | readTime => exact absurd rfl hne
      | readParameters n => obtain ⟨m, rfl⟩ := he; exact ⟨_, rfl⟩
      | _ => rw [show ev = _ from he]; exact ⟨_, rfl⟩
    obtain ⟨p, hp⟩ := this
    have hq := passwordIn_request he p hp
    subst hq
    exact h6 (hlen _ hp)

/-- C90. Such sessions exist, for every device whose data fits into frames and all calls the protocol can express. -/
theorem C90_served (C : BlockCipher) (ca : ConnArgs) (cx : Option (Option CipherContext)) (c : Conn)
    (hc : mkConnWith ca none cx = .ok c) (a : ClientArgs) (rands : Nat → Rand) (hr : ∀ i, PadOk (rands i).pw)
    (D : Device) (hd : D.Ok) (hz : D.Sizes) (hk : Matches c.cipherContext D) (hp : KnowsPassword a D) (ks : List Call)
    (hks : ∀ k ∈ ks, k.InRange) :
    ∃ n rs D', (calls C (mkClientWith a c (List.replicate n (.ok ())) (rs.map .ok) rands) ks).2.handed.length ≤ n ∧
      Feeds C D (calls C (mkClientWith a c (List.replicate n (.ok ())) (rs.map .ok) rands) ks).2.handed rs D' := by
  obtain ⟨_, _, h3, h4, _⟩ := ((C90_constructor ca none cx).1 c).1 hc
  obtain ⟨D', ws, rs, g1, g2, g3⟩ := session_served (C := C) (ca := keyed ca c.cipherContext) ks hks
    (mkClientWith a (c.named (keyed ca c.cipherContext)) [] [] rands) D hd hz
    ⟨own_reachable C hc, ⟨h4, h3⟩, by rw [keyed_context]; exact matches_context hk, hr⟩ hp.1 hp.2
  have g3 := g3 0 []
  simp only [Nat.add_zero, List.append_nil] at g3
  have e2 := (own_named C a c (List.replicate ws.length (.ok ())) (rs.map .ok) rands (keyed ca c.cipherContext) ks).2
  have hh : (calls C (mkClientWith a c (List.replicate ws.length (.ok ())) (rs.map .ok) rands) ks).2.handed = ws := by
    have e3 := congrArg Sys.handed e2
    have e4 := congrArg Sys.handed g3
    exact e3.trans e4
  refine ⟨ws.length, rs, D', ?_, ?_⟩
  · rw [hh]; exact Nat.le_refl _
  · rw [hh]; simpa using g2 [] [] D' (.nil D')

/-! ### Witnesses -/

/-- Addresses of one's own. -/
def exOwn : ConnArgs :=
  { sourceAddress1 := 258, sourceAddress2 := 3, destinationAddress1 := 65535, destinationAddress2 := 7,
    password := "x".toList, passwordId := 849 }

/-- The cipher context of the device of `exDevice` with key 7…7 and key id 1, and none although there is a key. -/
example : ∃ c, mkConnWith exOwn none (some (some ⟨1, List.replicate 16 7⟩)) = .ok c ∧
    Matches c.cipherContext (exDevice (some (1, List.replicate 16 7)) (List.replicate 6 0x30)) := ⟨_, rfl, rfl⟩
example : ∃ c, mkConnWith { exOwn with encryptionKey := some (List.replicate 16 7), encryptionKeyId := some 1 }
    (some .awaitingReadTimeResponse) (some none) = .ok c ∧ c.cipherContext = none ∧ c.state ≠ .idle :=
  ⟨_, rfl, rfl, by decide⟩

/-- Connections that are alike but not the same. -/
example : ∃ c c', mkConnWith exOwn none none = .ok c ∧ mkConnWith { exOwn with passwordId := 801 } none none = .ok c' ∧
    Alike c c' ∧ c ≠ c' := ⟨_, _, rfl, rfl, ⟨rfl, rfl, rfl, rfl, rfl, rfl, rfl⟩, by decide⟩
example : ∃ s s', mkClient exArgs [] [] (fun _ => exRand) = .ok s ∧
    mkClient { exArgs with passwordId := 849 } [] [] (fun _ => exRand) = .ok s' := ⟨_, _, rfl, rfl⟩

/-- A session over it, with a client that was given no key and answers that make it take place. -/
example (C : BlockCipher) : ∃ (c : Conn) (n : Nat) (rs : List Bytes) (D' : Device),
    mkConnWith exOwn none (some (some ⟨1, List.replicate 16 7⟩)) = .ok c ∧
    Ideals (exDevice (some (1, List.replicate 16 7)) (List.replicate 6 0x30)) exSession
      (callsV C (mkClientWith exArgs c (List.replicate n (.ok ())) (rs.map .ok) (fun _ => exRand)) exSession).1 D' := by
  have hks : ∀ k ∈ exSession, k.InRange := by simp [exSession, Call.InRange, Expressible]; decide
  have hok := exDevice_ok (some (1, List.replicate 16 7)) (fun _ _ h => by cases h; rfl) (List.replicate 6 0x30) rfl
  obtain ⟨n, rs, D', h1, h2⟩ := C90_served C exOwn (some (some ⟨1, List.replicate 16 7⟩)) _ rfl exArgs (fun _ => exRand)
    (fun _ => by decide +kernel) _ hok.2 hok.1 rfl ⟨by decide +kernel, by decide +kernel⟩ exSession hks
  exact ⟨_, n, rs, D', rfl, (C90_session C exOwn (some (some ⟨1, List.replicate 16 7⟩)) _ rfl exArgs n rs (fun _ => exRand)
    (fun _ => by decide +kernel) _ D' hok.2 rfl ⟨by decide +kernel, by decide +kernel⟩ exSession hks h1 h2).1⟩

/-- A key given to the client and a connection in the clear: the password goes out in the clear. -/
example : ∃ c, mkConnWith exOwn none none = .ok c ∧ c.cipherContext = none ∧
    (calls idCipher (mkClientWith exSecretArgs c [.ok ()] [] (fun _ => exRand)) [.readInstantaneousValues]).2.handed ≠ [] :=
  ⟨_, rfl, rfl, by decide +kernel⟩

/-- A password of eight characters, which `mkClient` refuses. -/
example : ∃ c, mkConnWith exOwn none none = .ok c ∧ ("00000000".toList).length ≠ 6 ∧
    mkClient { exArgs with password := "00000000".toList } [.ok ()] [] (fun _ => exRand) = .error .value ∧
    (calls idCipher (mkClientWith { exArgs with password := "00000000".toList } c [.ok ()] [] (fun _ => exRand))
      [.readInstantaneousValues]).2.handed ≠ [] := ⟨_, rfl, by decide, rfl, by decide +kernel⟩

/-- A connection continued after a request. -/
example : ∃ c, mkConnWith exOwn none none = .ok c ∧
    (run idCipher c [.send (.readTimeRequest {}) exRand]).1.buffer = [] ∧
    (run idCipher c [.send (.readTimeRequest {}) exRand]).1.state ≠ .idle := ⟨_, rfl, by decide +kernel, by decide +kernel⟩

end Elgas
