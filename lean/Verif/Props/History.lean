import Verif.Props.Link
import Verif.Spec.History
/-!
C70, C72, C73, C74: whole histories of calls on a connection.
-/
namespace Elgas
open Spec

/-! ### C72: the connection is a function of what happened -/

theorem gathered_nil : gathered [] = [] := rfl

theorem gathered_eq_nil {ps : List Bytes} : gathered ps = [] ↔ ∀ p ∈ ps, p = [] ∨ p = [0x0D] := by
  induction ps with
  | nil => simp [gathered]
  | cons p ps ih =>
    unfold gathered at *
    by_cases hp : p = [] ∨ p = [0x0D]
    · rw [List.dropWhile_cons_of_pos (by simpa using hp), ih]
      simp [hp]
    · rw [List.dropWhile_cons_of_neg (by simpa using hp)]
      constructor
      · intro h
        have : p = [] := by simp at h; exact h.1
        exact absurd (.inl this) hp
      · intro h
        exact absurd (h p (by simp)) hp

theorem gathered_snoc (ps : List Bytes) (d : Bytes) :
    gathered (ps ++ [d]) =
      if gathered ps = [] ∧ d = [0x0D] then [] else gathered ps ++ d := by
  by_cases h : gathered ps = []
  · have h' := gathered_eq_nil.1 h
    rw [h]
    have e : gathered (ps ++ [d]) = gathered [d] := by
      unfold gathered
      rw [List.dropWhile_append_of_pos (fun p hp => by simpa using h' p hp)]
    rw [e]
    by_cases hd : d = [0x0D]
    · rw [if_pos ⟨rfl, hd⟩, hd]; rfl
    · rw [if_neg (fun x => hd x.2)]
      by_cases hn : d = []
      · subst hn; rfl
      · unfold gathered
        rw [List.dropWhile_cons_of_neg (by simp [hd, hn])]; simp
  · rw [if_neg (fun x => h x.1)]
    unfold gathered at *
    have e : ∀ ps : List Bytes, (ps.dropWhile fun p => decide (p = [] ∨ p = [0x0D])).flatten ≠ [] →
        (ps ++ [d]).dropWhile (fun p => decide (p = [] ∨ p = [0x0D])) =
        ps.dropWhile (fun p => decide (p = [] ∨ p = [0x0D])) ++ [d] := by
      intro ps
      induction ps with
      | nil => intro h; simp at h
      | cons p ps ih =>
        intro h
        by_cases hp : p = [] ∨ p = [0x0D]
        · simp only [List.cons_append, List.dropWhile_cons, hp, decide_true, if_true] at h ⊢
          exact ih h
        · simp only [List.cons_append, List.dropWhile_cons, hp, decide_false, Bool.false_eq_true, if_false]
    rw [e ps h]; simp

theorem receive_gathered {c : Conn} {ps : List Bytes} (h : c.buffer = gathered ps) (d : Bytes) :
    (c.receiveData d).buffer = gathered (ps ++ [d]) := by
  rw [gathered_snoc, ← h]
  obtain ⟨h1, h2, h3⟩ := C42_receive c d
  by_cases hc : d = [0x0D] ∧ c.buffer = []
  · rw [if_pos ⟨hc.2, hc.1⟩, h2 hc.1 hc.2, hc.2]
  · rw [if_neg (fun x => hc ⟨x.2, x.1⟩), h3 hc]

theorem run_buffer (C : BlockCipher) (c : Conn) (ps : List Bytes) (ops : List Op) (h : c.buffer = gathered ps) :
    (run C c ops).1.buffer = gathered (chunksSince ps (history C c ops)) := by
  induction ops generalizing c ps with
  | nil => exact h
  | cons op ops ih =>
    simp only [history, run, List.zip_cons_cons]
    cases op with
    | send e r =>
      simp only [step, chunksSince]
      exact ih _ _ (by rw [(send_frame C c e r).2.2, h])
    | receive d =>
      simp only [step, chunksSince]
      exact ih _ _ (receive_gathered h d)
    | poll =>
      obtain ⟨h1, h2, h3⟩ := C38_poll_effect C c
      simp only [step]
      cases hr : (c.nextEvent C).2 with
      | error x =>
        rw [h2 x hr]; simp only [chunksSince]; exact ih _ _ h
      | ok o =>
        cases o with
        | none => rw [h1 hr]; simp only [chunksSince]; exact ih _ _ h
        | some e =>
          rw [(h3 e hr).1]; simp only [chunksSince]
          exact ih _ _ rfl

theorem pending_snoc (os : List Obs) (o : Obs) :
    pending (os ++ [o]) = match o with | .accepted t => responseOf t | .returned _ => none := by
  unfold pending; rw [List.getLast?_concat]; cases o <;> rfl

theorem run_pending (C : BlockCipher) (c : Conn) (os : List Obs) (ops : List Op) (hr : OnlyRequests ops)
    (h : awaits c.state = pending os) :
    awaits (run C c ops).1.state = pending (os ++ observe (run C c ops).2) := by
  induction ops generalizing c os with
  | nil => simpa [run, observe] using h
  | cons op ops ih =>
    have hr' : OnlyRequests ops := fun o ho => hr o (List.mem_cons_of_mem _ ho)
    simp only [run, observe, List.filterMap_cons]
    cases op with
    | send e r =>
      have hq := hr (.send e r) (by simp) e r rfl
      rcases send_request_cases C c e r hq with ⟨h1, h2, h3, h4⟩ | ⟨h1, h2⟩
      · simp only [step, Outcome.obs, if_neg h4]
        rw [ih _ (os ++ [.accepted e.type]) hr' (by rw [pending_snoc]; exact h3)]
        simp [observe]
      · simp only [step, Outcome.obs, h2, if_true]
        exact ih _ os hr' h
    | receive d =>
      simp only [step, Outcome.obs]
      exact ih _ os hr' (by rw [(receiveData_frame c d).2.2]; exact h)
    | poll =>
      obtain ⟨h1, h2, h3⟩ := C38_poll_effect C c
      simp only [step]
      cases hp : (c.nextEvent C).2 with
      | error x => rw [h2 x hp]; exact ih _ os hr' h
      | ok o =>
        cases o with
        | none => rw [h1 hp]; exact ih _ os hr' h
        | some e =>
          rw [(h3 e hp).1]
          simp only [Outcome.obs]
          rw [ih _ (os ++ [.returned e.type]) hr' (by rw [pending_snoc]; rfl)]
          simp [observe]

/-- C72. In every history of calls on a new connection the receive buffer is what has been received since
the last returned PDU; and if only requests were sent, the awaited response is that of the last accepted
request that has not been answered. -/
theorem C72_state (C : BlockCipher) (a : ConnArgs) (c : Conn) (hc : mkConn a = .ok c) (ops : List Op) :
    (run C c ops).1.buffer = gathered (chunksSince [] (history C c ops)) ∧
    (OnlyRequests ops → awaits (run C c ops).1.state = pending (observe (run C c ops).2)) := by
  obtain ⟨_, rfl⟩ := mkConn_ok hc
  exact ⟨run_buffer C _ [] ops rfl, fun hr => run_pending C _ [] ops hr rfl⟩

/-- C72. The answer of `next_event` after any history depends on nothing but the configured key, the
request that is pending and the bytes received since the last returned PDU: it is the answer that C44
lists for them. -/
theorem C72_answer (C : BlockCipher) (a : ConnArgs) (c : Conn) (hc : mkConn a = .ok c) (ops : List Op)
    (hr : OnlyRequests ops) (s : PState) (hs : awaits s = pending (observe (run C c ops).2))
    (y : Res (Option Event)) :
    ((run C c ops).1.nextEvent C).2 = y ↔
      Answers C (createCipherContext a) s (gathered (chunksSince [] (history C c ops))) y := by
  obtain ⟨h1, h2⟩ := C72_state C a c hc ops
  rw [C44_answers, h1, (run_frame C c ops).2, awaits_inj (hs.trans (h2 hr).symm)]
  obtain ⟨_, rfl⟩ := mkConn_ok hc
  rfl

/-! ### C73: noise in front of a response -/

theorem returnCharacters_head {x : UInt8} {t raw : Bytes} (hx : x ≠ 0x02)
    (h : returnCharacters (x :: t) = .ok raw) : ∃ z u, raw = z :: u ∧ z ≠ 0x02 := by
  have hu := (C03_unescape_units _ _).1.1 h
  generalize he : x :: t = l at hu
  cases hu with
  | nil => cases he
  | plain b d out hb _ => injection he with h1 h2; exact ⟨_, _, rfl, h1 ▸ hx⟩
  | pair n d out _ =>
    have : ∃ z u, unescPair n = z :: u ∧ z ≠ 0x02 := by
      unfold unescPair
      split
      · exact ⟨_, _, rfl, by decide⟩
      · split
        · exact ⟨_, _, rfl, by decide⟩
        · split <;> exact ⟨_, _, rfl, by decide⟩
    obtain ⟨z, u, h1, h2⟩ := this
    exact ⟨z, u ++ out, by rw [h1]; rfl, h2⟩

theorem factory_head {raw : Bytes} {z : UInt8} {u : Bytes} (h : raw = z :: u) (hz : z ≠ 0x02) (y : Bool × Frame) :
    responseFactory raw ≠ .ok y := by
  subst h
  have e : ∀ p : Bytes, startsWith (z :: u) (0x02 :: p) = false := by
    intro p
    rw [Bool.eq_false_iff]; intro hs
    rw [startsWith_iff] at hs
    obtain ⟨v, hv⟩ := hs
    injection hv with h1 _
    exact hz h1.symm
  unfold responseFactory
  rw [e, e]
  simp

/-- C73. A byte other than the start byte in front of a response can never be got rid of: once the buffer
starts with it, `next_event` answers NEED_DATA in every later history, whatever is received and sent. -/
theorem C73_noise (C : BlockCipher) (c : Conn) (x : UInt8) (t : Bytes) (hb : c.buffer = x :: t) (hx : x ≠ 0x02)
    (ops : List Op) :
    (∀ y, Outcome.polled y ∈ (run C c ops).2 → y = .ok none) ∧
    ∃ u, (run C c ops).1.buffer = x :: (t ++ u) := by
  induction ops generalizing c t with
  | nil => exact ⟨by simp [run], [], by simp [run, hb]⟩
  | cons op ops ih =>
    have hpoll : c.nextEvent C = (c, .ok none) := by
      rcases line_cases c.buffer with hn | ⟨w, rest, hw1, hw⟩
      · exact nextEvent_none hn
      · refine poll_blocked C c w rest .value hw hw1 (badLine_interpret ?_)
        intro raw hraw y
        have : ∃ t', w ++ [0x0D] = x :: t' := by
          rw [hb] at hw1
          cases w with
          | nil => injection hw1 with h1 _; exact ⟨[], by rw [h1]; rfl⟩
          | cons b w => injection hw1 with h1 _; exact ⟨w ++ [0x0D], by rw [h1]; rfl⟩
        obtain ⟨t', ht'⟩ := this
        rw [ht'] at hraw
        obtain ⟨z, u, h1, h2⟩ := returnCharacters_head hx hraw
        exact factory_head h1 h2 y
    simp only [run]
    cases op with
    | send e r =>
      obtain ⟨h1, u, h2⟩ := ih (c.send C e r).1 t (by rw [(send_frame C c e r).2.2, hb])
      exact ⟨fun y hy => by
        simp only [step, List.mem_cons, reduceCtorEq, false_or] at hy; exact h1 y hy, u, h2⟩
    | receive d =>
      have hd : c.receiveData d = { c with buffer := c.buffer ++ d } :=
        receiveData_append (fun _ => by rw [hb]; simp)
      obtain ⟨h1, u, h2⟩ := ih (c.receiveData d) (t ++ d) (by rw [hd]; simp [hb])
      exact ⟨fun y hy => by
        simp only [step, List.mem_cons, reduceCtorEq, false_or] at hy; exact h1 y hy,
        d ++ u, by rw [← List.append_assoc]; exact h2⟩
    | poll =>
      obtain ⟨h1, u, h2⟩ := ih c t hb
      simp only [step, hpoll]
      refine ⟨fun y hy => ?_, u, h2⟩
      simp only [List.mem_cons, Outcome.polled.injEq] at hy
      rcases hy with hy | hy
      · exact hy
      · exact h1 y hy

/-- C73. On a connection with an empty buffer, the first byte received decides: if it is not the start
byte (and did not come as a lone end character), no later `next_event` returns a PDU. -/
theorem C73_first_byte (C : BlockCipher) (c : Conn) (x : UInt8) (t : Bytes) (hb : c.buffer = []) (hx : x ≠ 0x02)
    (hd : x :: t ≠ [0x0D]) (ops : List Op) :
    ∀ y, Outcome.polled y ∈ (run C (c.receiveData (x :: t)) ops).2 → y = .ok none := by
  have h := (C42_receive c (x :: t)).2.2 (fun h => hd h.1)
  exact (C73_noise C _ x t (by rw [h, hb]; rfl) hx ops).1

/-- C73. An echo of a request on the line blocks the connection: whatever request any connection has
sent, once its bytes are received by a connection with an empty buffer, no later `next_event` returns a
PDU. -/
theorem C73_echo (C : BlockCipher) (c c' : Conn) (e : Event) (r : Rand) (wire d : Bytes)
    (hw : (c'.send C e r).2 = .ok wire) (hb : c.buffer = []) (ops : List Op) :
    ∀ y, Outcome.polled y ∈ (run C (c.receiveData (wire ++ d)) ops).2 → y = .ok none := by
  have : ∃ ty f raw, (ty = 0x84 ∨ ty = 0x85) ∧ requestToBytes ty f = .ok raw ∧ escapeCharacters raw = .ok wire := by
    unfold Conn.send at hw
    split at hw
    · cases hw
    · dsimp only at hw
      unfold Conn.serialise at hw
      rw [bind_eq_ok] at hw
      obtain ⟨ad, h1, hw⟩ := hw
      split at hw
      · rw [bind_eq_ok] at hw
        obtain ⟨svc, _, hw⟩ := hw
        rw [bind_eq_ok] at hw
        obtain ⟨ct, _, hw⟩ := hw
        rw [bind_eq_ok] at hw
        obtain ⟨raw, h2, hw⟩ := hw
        exact ⟨_, _, raw, .inr rfl, h2, hw⟩
      · rw [bind_eq_ok] at hw
        obtain ⟨svc, _, hw⟩ := hw
        rw [bind_eq_ok] at hw
        obtain ⟨raw, h2, hw⟩ := hw
        exact ⟨_, _, raw, .inl rfl, h2, hw⟩
  obtain ⟨ty, f, raw, hty, hreq, hesc⟩ := this
  obtain ⟨z, hz1, hz2⟩ := escapeCharacters_eq_ok hesc
  have hlay : ∃ u, raw = 0x02 :: 0xFE :: ty :: u := by
    rw [C10_request_layout ty f raw hreq]; exact ⟨_, rfl⟩
  obtain ⟨u, hu⟩ := hlay
  have hbuf : (c.receiveData (wire ++ d)).buffer = escBytes z ++ 0x0D :: d := by
    have := (C42_receive c (wire ++ d)).2.2 ?_
    · rw [this, hb, hz2]; simp
    · rintro ⟨h1, _⟩
      have hl := (C03_escape_length raw wire hesc).1
      have := congrArg List.length h1
      rw [hu] at hl
      simp at this hl
      omega
  refine C39_blocked_forever C _ (escBytes z) d ops (escBytes_no_end z).1 hbuf ?_
  intro raw' hraw' y hy
  rw [returnCharacters_escBytes z [0x0D] [0x0D] (by decide)] at hraw'
  rw [← hz1] at hraw'
  injection hraw' with hraw'
  subst hraw'
  subst hu
  unfold responseFactory at hy
  rcases hty with rfl | rfl <;> simp [startsWith] at hy

/-! ### C70: nothing ties a response to its request but the service number -/

/-- C70. The address fields of a response are not looked at: two response frames with the same type,
service and data but any addresses get the same answer. -/
theorem C70_addresses_ignored (C : BlockCipher) (c : Conn) (hb : c.buffer = []) (enc : Bool) (f f' : Frame)
    (hs : f'.service = f.service) (hd : f'.data = f.data) (raw raw' wire wire' : Bytes)
    (h : responseToBytes (if enc then encryptedResponseType else responseType) f = .ok raw)
    (h' : responseToBytes (if enc then encryptedResponseType else responseType) f' = .ok raw')
    (he : escapeCharacters raw = .ok wire) (he' : escapeCharacters raw' = .ok wire') :
    ((c.receiveData wire).nextEvent C).2 = ((c.receiveData wire').nextEvent C).2 := by
  -- the answer to a frame, as a function of its service and data
  have key : ∃ D : Bytes → Res Bytes, ∀ (f : Frame) (raw wire : Bytes),
      responseToBytes (if enc then encryptedResponseType else responseType) f = .ok raw →
      escapeCharacters raw = .ok wire →
      ∃ w, c.receiveData wire = { c with buffer := w ++ [0x0D] } ∧ 0x0D ∉ w ∧
        c.interpret C (w ++ [0x0D]) = (D f.data >>= fun d => .ok { f with data := d }) := by
    refine ⟨fun x => (if enc then (match c.cipherContext with
            | none => raise .attribute
            | some ctx => ctx.decrypt C x) else pure x : Res Bytes) >>= fun d =>
          (if d.length = 1 then raiseError d else .ok ()) >>= fun _ => .ok d, ?_⟩
    intro f raw wire h he
    obtain ⟨z, hz1, hz2⟩ := escapeCharacters_eq_ok he
    have hlen : 16 ≤ raw.length := by
      have := (C10_length_field _ f raw (.inr h)).2; omega
    have hl := (C03_escape_length raw wire he).1
    refine ⟨escBytes z, ?_, (escBytes_no_end z).1, ?_⟩
    · rw [receiveData_append (fun hw => by rw [hw] at hl; simp at hl; omega), hb, hz2]; rfl
    · have hraw : returnCharacters (escBytes z ++ [0x0D]) = .ok raw := by
        rw [returnCharacters_escBytes z [0x0D] [0x0D] (by decide), hz1]
      have hfac : responseFactory raw = .ok (enc, f) := by
        cases enc
        · exact (C09_factory_roundtrip f raw).1 h
        · exact (C09_factory_roundtrip f raw).2 h
      have fin : ∀ d : Bytes, (if d.length = 1 then raiseError d else .ok ()) >>= (fun _ => .ok { f with data := d }) =
          ((if d.length = 1 then raiseError d else .ok ()) >>= fun _ => Except.ok d) >>=
            fun d => (.ok { f with data := d } : Res Frame) := by
        intro d
        cases (if d.length = 1 then raiseError d else .ok () : Res Unit) <;> rfl
      unfold Conn.interpret
      rw [hraw, bind_ok, hfac, bind_ok]
      cases enc
      · simp only [Bool.false_eq_true, if_false, pure_res, bind_ok]
        rw [← fin]
        split <;> simp [*]
      · simp only [if_true]
        cases c.cipherContext with
        | none => rfl
        | some ctx =>
          dsimp only
          cases ctx.decrypt C f.data with
          | error x => rfl
          | ok d =>
            simp only [pure_res, bind_ok]
            rw [← fin]
            split <;> simp [*]
  obtain ⟨D, key⟩ := key
  obtain ⟨w, h1, h2, h3⟩ := key f raw wire h he
  obtain ⟨w', h1', h2', h3'⟩ := key f' raw' wire' h' he'
  rw [h1, h1', nextEvent_line h2 rfl, nextEvent_line h2' rfl,
    interpret_congr (c := { c with buffer := w ++ [0x0D] }) (c' := c) rfl,
    interpret_congr (c := { c with buffer := w' ++ [0x0D] }) (c' := c) rfl, h3, h3', hd]
  cases D f.data with
  | error x =>
    simp only [bind_error]
    split <;> rfl
  | ok d =>
    have hp : pduFromResponse { f' with data := d } = pduFromResponse { f with data := d } := by
      unfold pduFromResponse; rw [hs]
    simp only [bind_ok, hp]
    cases pduFromResponse { f with data := d } with
    | error x => rfl
    | ok pdu =>
      dsimp only
      cases processEvent c.state pdu <;> rfl

theorem delivers_ne {C : BlockCipher} {cc : Option CipherContext} {w : Bytes} {svc : ServiceNumber} {data : Bytes}
    (h : Delivers C cc (w ++ [0x0D]) svc data) : w ++ [0x0D] ≠ [0x0D] := by
  intro hw
  obtain ⟨raw, enc, f, h1, h2, _⟩ := h
  rw [hw] at h1
  have : raw = [0x0D] := (Except.ok.inj ((by decide : returnCharacters [0x0D] = .ok [0x0D]).symm.trans h1)).symm
  subst this
  exact absurd h2 (factory_head rfl (by decide) _)

/-- C70. A response that was received before its request was sent is taken for the answer. -/
theorem C70_stale_accepted (C : BlockCipher) (c : Conn) (hidle : c.state = .idle) (hb : c.buffer = [])
    (line : Bytes) (pdu : Event) (hl : Response C c.cipherContext line pdu) (q : Event) (r : Rand) (wire : Bytes)
    (hq : responseOf q.type = some pdu.type) (hsend : (c.send C q r).2 = .ok wire) :
    ∃ c', run C c [.receive line, .send q r, .poll] =
      (c', [.received, .sent q (.ok wire), .polled (.ok (some pdu))]) ∧ Ready c' := by
  obtain ⟨w, svc, data, rfl, hw, hd, h1, hdec⟩ := hl
  have hr : c.receiveData (w ++ [0x0D]) = { c with buffer := w ++ [0x0D] } := by
    rw [receiveData_append (fun h => absurd h (delivers_ne hd)), hb]; rfl
  obtain ⟨s', hs1, hs2⟩ := C34_idle_accepts q (by unfold IsRequest; rw [hq]; rfl)
  have hs : (({ c with buffer := w ++ [0x0D] } : Conn).send C q r) =
      ({ c with buffer := w ++ [0x0D], state := s' }, .ok wire) := by
    rw [send_accepted (s' := s') (by rw [hidle]; exact hs1)]
    rw [send_accepted (s' := s') (by rw [hidle]; exact hs1)] at hsend
    exact Prod.ext rfl hsend
  have hp : (({ c with buffer := w ++ [0x0D], state := s' } : Conn).nextEvent C).2 = .ok (some pdu) :=
    (C44_returns_iff C _ pdu).2 ⟨w, [], svc, data, rfl, hw, hd, h1, hdec, hs2.trans hq⟩
  have he := ((C38_poll_effect C _).2.2 _ hp).1
  refine ⟨{ c with buffer := [], state := .idle }, ?_, rfl, rfl⟩
  simp only [run, step, hr, hs, hp, he]

/-- C70. A response that was accepted once is accepted again: recorded bytes answer every later request
of the same kind, on this connection or any other with the same key, whatever has happened since. -/
theorem C70_replay_accepted (C : BlockCipher) (c c' : Conn) (w rest : Bytes) (pdu : Event) (hw : 0x0D ∉ w)
    (hb : c.buffer = w ++ 0x0D :: rest) (h : (c.nextEvent C).2 = .ok (some pdu))
    (hk : c'.cipherContext = c.cipherContext) (hb' : c'.buffer = []) (hs : awaits c'.state = some pdu.type) :
    ((c'.receiveData (w ++ [0x0D])).nextEvent C).2 = .ok (some pdu) := by
  obtain ⟨w1, rest1, svc, data, h1, h2, h3, h4, h5, _⟩ := (C44_returns_iff C c pdu).1 h
  obtain ⟨rfl, rfl⟩ := line_inj hw h2 (hb.symm.trans h1)
  rw [receiveData_append (fun h => absurd h (delivers_ne h3)), hb']
  exact (C44_returns_iff C _ pdu).2 ⟨w, [], svc, data, rfl, hw, by rw [← hk] at h3; exact h3, h4, h5, hs⟩

/-! ### C74: the exceptions a caller has to expect -/

theorem refuses_error {svc : ServiceNumber} {d : Bytes} {x : PyErr} (h : Refuses svc d x) :
    x = .index ∨ x = .value ∨ x = .key := by
  cases h with
  | values _ _ h =>
    rcases (C23_errors _ _).1 h with ⟨_, rfl⟩ | ⟨_, _, rfl⟩ <;> simp
  | time _ _ h =>
    obtain ⟨h1, h2⟩ := C24_read_time d
    by_cases hd : ∃ t a s, Denotes (d.take 6) t a s
    · obtain ⟨t, a, s, hd⟩ := hd
      rw [h1 t a s hd] at h; cases h
    · rw [h2 (fun t a s x => hd ⟨t, a, s, x⟩)] at h; injection h with h; simp [← h]
  | parameters _ _ h =>
    obtain ⟨h1, h2⟩ := C25_read_parameters d
    by_cases hl : 5 ≤ d.length
    · rw [h1 hl] at h; cases h
    · rw [h2 (by omega)] at h; injection h with h; simp [← h]
  | archiveByTime _ _ h =>
    obtain ⟨h1, h2, h3⟩ := C26_accepts d
    cases d with
    | nil => rw [(h1 rfl).2] at h; injection h with h; simp [← h]
    | cons b t =>
      by_cases hb : b.toNat ≤ 10
      · obtain ⟨_, r, hr⟩ := h2 b t rfl hb
        rw [hr] at h; cases h
      · rw [(h3 b t rfl (by omega)).2] at h; injection h with h; simp [← h]
  | archive _ _ h =>
    obtain ⟨h1, h2, h3⟩ := C26_accepts d
    cases d with
    | nil => rw [(h1 rfl).1] at h; injection h with h; simp [← h]
    | cons b t =>
      by_cases hb : b.toNat ≤ 10
      · obtain ⟨⟨r, hr⟩, _⟩ := h2 b t rfl hb
        rw [hr] at h; cases h
      · rw [(h3 b t rfl (by omega)).1] at h; injection h with h; simp [← h]
  | unknown _ _ h => simp

/-- C74. `next_event` raises nothing but the listed exceptions and the device errors. -/
theorem C74_poll_exceptions (C : BlockCipher) (c : Conn) (x : PyErr) (h : (c.nextEvent C).2 = .error x) :
    x ∈ pollErrors ∨ IsDeviceError x := by
  rw [C44_answers] at h
  generalize hy : (Except.error x : Res (Option Event)) = y at h
  generalize c.buffer = b at h
  cases h <;> first | (cases hy; done) | skip
  all_goals injection hy with hy; subst hy
  · simp [pollErrors]
  · simp [pollErrors]
  · simp [pollErrors]
  · exact .inr ⟨_, _, by assumption, rfl⟩
  · rename_i hr
    rcases refuses_error hr with rfl | rfl | rfl <;> simp [pollErrors]
  · simp [pollErrors]

/-- Every exception of the computation is in the list. -/
def Only {α : Type} (l : List PyErr) (x : Res α) : Prop := ∀ e, x = .error e → e ∈ l

theorem only_ok {α : Type} {l : List PyErr} (a : α) : Only l (.ok a : Res α) := by intro e h; cases h
theorem only_pure {α : Type} {l : List PyErr} (a : α) : Only l (pure a : Res α) := only_ok a
theorem only_bind {α β : Type} {l : List PyErr} {x : Res α} {f : α → Res β} (hx : Only l x)
    (hf : ∀ a, Only l (f a)) : Only l (x >>= f) := by
  cases x with
  | error e => intro e' h; injection h with h; exact hx e' (by rw [h])
  | ok a => exact hf a
theorem only_raise {α : Type} {l : List PyErr} {e : PyErr} (h : e ∈ l) : Only l (raise e : Res α) := by
  intro e' h'; injection h' with h'; rw [← h']; exact h
theorem only_ite {α : Type} {l : List PyErr} {p : Prop} [Decidable p] {x y : Res α} (hx : Only l x)
    (hy : Only l y) : Only l (if p then x else y) := by split <;> assumption

/-- The exceptions of serialising. -/
def serialErrors : List PyErr := [.unicodeEncode, .value, .overflow]

theorem only_toBytesLE (w : Nat) (x : Int) : Only serialErrors (toBytesLE w x) := by
  unfold toBytesLE; exact only_ite (only_ok _) (only_raise (by decide))
theorem only_toBytesBE (w : Nat) (x : Int) : Only serialErrors (toBytesBE w x) := by
  unfold toBytesBE; exact only_ite (only_ok _) (only_raise (by decide))
theorem only_toByte (x : Int) : Only serialErrors (toByte x) := by
  unfold toByte; exact only_ite (only_ok _) (only_raise (by decide))
theorem only_encodeLatin1 (s : PyStr) : Only serialErrors (encodeLatin1 s) := by
  induction s with
  | nil => exact only_ok _
  | cons c s ih =>
    unfold encodeLatin1
    exact only_ite (only_bind ih fun _ => only_ok _) (only_raise (by decide))
theorem only_fromHex (s : PyStr) : Only serialErrors (fromHex s) := by
  fun_induction fromHex s with
  | case1 => exact only_ok _
  | case2 => exact only_raise (by decide)
  | case3 a b rest x y h1 h2 ih => exact only_bind ih fun _ => only_ok _
  | case4 => exact only_raise (by decide)
theorem only_datetimeToBytes (t : DateTime) : Only serialErrors (datetimeToBytes t) := by
  have h : ∀ x, Only serialErrors (toBdc x) := fun x => by unfold toBdc; exact only_fromHex _
  unfold datetimeToBytes
  repeat' first
    | with_reducible exact h _
    | with_reducible exact only_ok _
    | with_reducible exact only_pure _
    | with_reducible refine only_bind ?_ fun _ => ?_
theorem only_escape (d : Bytes) : Only serialErrors (escapeCharacters d) := by
  unfold escapeCharacters
  split
  · exact only_raise (by decide)
  · exact only_ok _
theorem only_requestToBytes (ty : UInt8) (f : Frame) : Only serialErrors (requestToBytes ty f) := by
  unfold requestToBytes
  repeat' first
    | with_reducible exact only_toBytesLE _ _
    | with_reducible exact only_toBytesBE _ _
    | with_reducible exact only_toByte _
    | with_reducible exact only_ok _
    | with_reducible exact only_pure _
    | with_reducible refine only_bind ?_ fun _ => ?_
theorem only_encrypt (C : BlockCipher) (c : CipherContext) (d : Bytes) (r : PadRand) :
    Only serialErrors (c.encrypt C d r) := by
  unfold CipherContext.encrypt aesCbcEncrypt
  repeat' first
    | with_reducible exact only_toBytesLE _ _
    | with_reducible exact only_toBytesBE _ _
    | with_reducible exact only_toByte _
    | with_reducible exact only_ok _
    | with_reducible exact only_pure _
    | with_reducible exact only_raise (by decide)
    | with_reducible refine only_ite ?_ ?_
    | with_reducible refine only_bind ?_ fun _ => ?_
theorem only_toBytes {e : Event} (h : IsRequest e) (r : Rand) : Only serialErrors (e.toBytes r) := by
  have hp : ∀ p r, Only serialErrors (passwordBlock p r) := fun p r => by
    unfold passwordBlock; exact only_encodeLatin1 _
  cases e <;> simp only [IsRequest, Event.type, responseOf, Option.isSome, Bool.false_eq_true] at h
  all_goals
    simp only [Event.toBytes, ReadInstantaneousValuesRequest.toBytes, ReadTimeRequest.toBytes,
      WriteTimeRequest.toBytes, ReadDeviceParametersRequest.toBytes,
      ReadArchiveByTimeRequest.toBytes, ReadArchiveRequest.toBytes]
    repeat' first
      | with_reducible exact only_toBytesLE _ _
      | with_reducible exact only_toByte _
      | with_reducible exact hp _ _
      | with_reducible exact only_datetimeToBytes _
      | with_reducible exact only_ok _
      | with_reducible exact only_pure _
      | with_reducible refine only_bind ?_ fun _ => ?_
theorem only_service {e : Event} (h : IsRequest e) : Only serialErrors e.service := by
  cases e <;> first | exact only_ok _ | (simp [IsRequest, Event.type, responseOf] at h)
theorem only_serialise (C : BlockCipher) (c : Conn) {e : Event} (h : IsRequest e) (r : Rand) :
    Only serialErrors (c.serialise C e r) := by
  unfold Conn.serialise
  refine only_bind (only_toBytes h r) fun _ => ?_
  split
  all_goals
    repeat' first
      | with_reducible exact only_service h
      | with_reducible exact only_encrypt _ _ _ _
      | with_reducible exact only_requestToBytes _ _
      | with_reducible exact only_escape _
      | with_reducible refine only_bind ?_ fun _ => ?_

/-- C74. `send` of a request raises nothing but `LocalElgasProtocolError`, `UnicodeEncodeError`,
`ValueError` and `OverflowError`. -/
theorem C74_send_exceptions (C : BlockCipher) (c : Conn) (e : Event) (he : IsRequest e) (r : Rand) (x : PyErr)
    (h : (c.send C e r).2 = .error x) : x ∈ sendErrors := by
  unfold Conn.send at h
  split at h
  · next y hy =>
    injection h with h
    unfold processEvent at hy
    split at hy
    · cases hy
    · injection hy with hy; rw [← h, ← hy]; decide
  · have := only_serialise C _ he r x h
    simp only [serialErrors, List.mem_cons, List.not_mem_nil, or_false] at this
    rcases this with rfl | rfl | rfl <;> decide

/-! The exceptions of the client. -/

theorem receive_raised {s s' : Sys} {o : Outcome3 Unit} (h : s.receive = (o, s')) :
    (∀ x, o = .raised x → .error x ∈ s.recvs) ∧ s'.sends = s.sends ∧ (∀ y ∈ s'.recvs, y ∈ s.recvs) := by
  unfold Sys.receive at h
  split at h
  · cases h; exact ⟨fun x h => by (cases h), rfl, fun _ h => h⟩
  · next e rest hr =>
    cases h
    exact ⟨fun x h => by cases h; rw [hr]; simp, rfl, fun y hy => by rw [hr]; exact List.mem_cons_of_mem _ hy⟩
  · next d rest hr =>
    cases h
    exact ⟨fun x h => by (cases h), rfl, fun y hy => by rw [hr]; exact List.mem_cons_of_mem _ hy⟩

theorem send_raised {C : BlockCipher} {s s' : Sys} {e : Event} {o : Outcome3 Unit} (he : IsRequest e)
    (h : s.send C e = (o, s')) :
    (∀ x, o = .raised x → x ∈ sendErrors ∨ .error x ∈ s.sends ∨ .error x ∈ s.recvs) ∧
    (∀ y ∈ s'.sends, y ∈ s.sends) ∧ (∀ y ∈ s'.recvs, y ∈ s.recvs) := by
  unfold Sys.send at h
  split at h
  · next c x hx =>
    cases h
    refine ⟨fun y hy => ?_, fun _ h => h, fun _ h => h⟩
    cases hy
    exact .inl (C74_send_exceptions C s.conn e he _ x (by rw [hx]))
  · dsimp only at h
    split at h
    · cases h; exact ⟨fun x h => by (cases h), fun _ h => h, fun _ h => h⟩
    · next x rest hr =>
      cases h
      have hr' : s.sends = .error x :: rest := hr
      refine ⟨fun y hy => ?_, fun y hy => by rw [hr']; exact List.mem_cons_of_mem _ hy, fun _ h => h⟩
      cases hy
      exact .inr (.inl (by rw [hr']; simp))
    · next rest hr =>
      have hr' : s.sends = .ok () :: rest := hr
      obtain ⟨h1, h2, h3⟩ := receive_raised h
      exact ⟨fun x hx => .inr (.inr (h1 x hx)), fun y hy => by
        rw [h2] at hy; rw [hr']; exact List.mem_cons_of_mem _ hy, h3⟩

theorem loop_raised (C : BlockCipher) (c : Conn) (rs : List (Res Bytes)) :
    (∀ x, (nextEventLoop C c rs).1 = .raised x → (x ∈ pollErrors ∨ IsDeviceError x) ∨ .error x ∈ rs) ∧
    ∀ y ∈ (nextEventLoop C c rs).2.2, y ∈ rs := by
  induction rs generalizing c with
  | nil =>
    unfold nextEventLoop
    split
    · next c' e h =>
      refine ⟨fun x hx => .inl ?_, fun _ h => h⟩
      cases hx
      exact C74_poll_exceptions C c e (by rw [h])
    · exact ⟨fun x hx => by (cases hx), fun _ h => h⟩
    · exact ⟨fun x hx => by (cases hx), fun _ h => h⟩
  | cons r rs ih =>
    unfold nextEventLoop
    split
    · next c' e h =>
      refine ⟨fun x hx => .inl ?_, fun _ h => h⟩
      cases hx
      exact C74_poll_exceptions C c e (by rw [h])
    · exact ⟨fun x hx => by (cases hx), fun _ h => h⟩
    · next c' h =>
      cases r with
      | error e =>
        refine ⟨fun x hx => ?_, fun y hy => List.mem_cons_of_mem _ hy⟩
        cases hx
        exact .inr (by simp)
      | ok d =>
        obtain ⟨h1, h2⟩ := ih (c'.receiveData d)
        exact ⟨fun x hx => (h1 x hx).imp id (List.mem_cons_of_mem _), fun y hy => List.mem_cons_of_mem _ (h2 y hy)⟩

theorem exchange_raised {C : BlockCipher} {s s' : Sys} {e : Event} {o : Outcome3 Event} (he : IsRequest e)
    (h : s.exchange C e = (o, s')) :
    (∀ x, o = .raised x → Expected s x) ∧
    (∀ y ∈ s'.sends, y ∈ s.sends) ∧ (∀ y ∈ s'.recvs, y ∈ s.recvs) := by
  unfold Sys.exchange at h
  cases hs : s.send C e with | mk o1 s1 =>
  obtain ⟨h1, h2, h3⟩ := send_raised he hs
  rw [hs] at h
  cases o1 with
  | raised x =>
    cases h
    refine ⟨fun y hy => ?_, h2, h3⟩
    cases hy
    rcases h1 x rfl with h | h | h
    · exact .inl h
    · exact .inr (.inr (.inr (.inl h)))
    · exact .inr (.inr (.inr (.inr h)))
  | pending => cases h; exact ⟨fun y hy => (by cases hy), h2, h3⟩
  | returned u =>
    obtain ⟨h4, h5⟩ := loop_raised C s1.conn s1.recvs
    unfold Sys.nextEvent at h
    have e1 := congrArg Prod.fst h
    have e2 := congrArg Prod.snd h
    dsimp only at e1 e2
    subst e1; subst e2
    refine ⟨fun x hx => ?_, h2, fun y hy => h3 y (h5 y hy)⟩
    rcases h4 x hx with (h | h) | h
    · exact .inr (.inl h)
    · exact .inr (.inr (.inl h))
    · exact .inr (.inr (.inr (.inr (h3 _ h))))

theorem expected_mono {s s' : Sys} {x : PyErr} (h : Expected s' x)
    (h1 : ∀ y ∈ s'.sends, y ∈ s.sends) (h2 : ∀ y ∈ s'.recvs, y ∈ s.recvs) : Expected s x := by
  rcases h with h | h | h | h | h
  · exact .inl h
  · exact .inr (.inl h)
  · exact .inr (.inr (.inl h))
  · exact .inr (.inr (.inr (.inl (h1 _ h))))
  · exact .inr (.inr (.inr (.inr (h2 _ h))))

theorem readPages_expected (C : BlockCipher) (s : Sys) (count : Int) (total : Bytes) (x : PyErr)
    (h : (s.readPages C count total).1 = .raised x) : Expected s x := by
  suffices H : ∀ n, ∀ (s : Sys) (count : Int) (total : Bytes), s.recvs.length = n →
      (s.readPages C count total).1 = .raised x → Expected s x from H _ s count total rfl h
  intro n
  induction n using Nat.strongRecOn with
  | ind n ih =>
    intro s count total hn h
    rw [Sys.readPages] at h
    split at h
    · next e s1 hx =>
      cases h
      exact (exchange_raised (isRequest_of rfl) hx).1 _ rfl
    · cases h
    · next p s1 hx =>
      have hlt := exchange_recvs hx
      obtain ⟨_, h1, h2⟩ := exchange_raised (isRequest_of rfl) hx
      split at h
      · cases h
      · exact expected_mono (ih _ (by omega) s1 _ _ rfl h) h1 h2
    · cases h
      exact .inr (.inl (by decide))

/-- C74. Every exception out of a call of the client is one that `send` or `next_event` of the connection
raises (see above), a device error, one that the transport raised, or, for `read_parameters`, one that the
parser of the parameter list raises. -/
theorem C74_client_exceptions (C : BlockCipher) (s : Sys) (k : Call) (x : PyErr)
    (h : (call C s k).1 = .raised x) :
    Expected s x ∨ ((∃ n, k = .readParameters n) ∧ x ∈ parseErrors) := by
  have hx : ∀ {α : Type} (o : Outcome3 α), ended o = .raised x → o = .raised x := by
    intro α o ho
    cases o <;> first | (injection ho with ho; rw [ho]) | cases ho
  have he : ∀ e, IsRequest e → (s.exchange C e).1 = .raised x → Expected s x := by
    intro e he ho
    cases hh : s.exchange C e with | mk o s1 =>
    rw [hh] at ho
    exact (exchange_raised he hh).1 x ho
  cases k with
  | readInstantaneousValues => exact .inl (he _ (isRequest_of rfl) (hx _ h))
  | readArchive a n i => exact .inl (he _ (isRequest_of rfl) (hx _ h))
  | readArchiveByTime a n t => exact .inl (he _ (isRequest_of rfl) (hx _ h))
  | readTime =>
    have h := hx _ h
    unfold Sys.readTime at h
    dsimp only at h
    left
    cases ho : (s.exchange C (.readTimeRequest {})).1 with
    | returned ev =>
      rw [ho] at h
      cases ev <;> simp only [Outcome3.andThen, timeOf] at h <;> cases h <;> exact .inr (.inl (by decide))
    | raised y =>
      rw [ho] at h
      cases h
      exact he _ (isRequest_of rfl) ho
    | pending => rw [ho] at h; cases h
  | writeTime t b =>
    have h := hx _ h
    unfold Sys.writeTime at h
    dsimp only at h
    left
    cases ho : (s.exchange C (.writeTimeRequest { password := s.password, deviceTime := t, cryout := b })).1 with
    | returned ev => rw [ho] at h; cases h
    | raised y =>
      rw [ho] at h
      cases h
      exact he _ (isRequest_of rfl) ho
    | pending => rw [ho] at h; cases h
  | readParameters n =>
    have h := hx _ h
    unfold Sys.readParameters at h
    dsimp only at h
    cases ho : (s.readPages C n []).1 with
    | raised y =>
      rw [ho] at h
      cases h
      exact .inl (readPages_expected C s n [] _ ho)
    | pending => rw [ho] at h; cases h
    | returned d =>
      rw [ho] at h
      right
      refine ⟨⟨n, rfl⟩, ?_⟩
      cases hp : parseParameters none (some d) with
      | ok os => rw [Outcome3.andThen, hp] at h; cases h
      | error y =>
        rw [Outcome3.andThen, hp] at h
        cases h
        exact C57_exceptions d _ hp


/-! ### None of the listed exceptions could be left out -/

/-- The answer of `next_event` on a new connection after a request to read the time and the reception of
one line. -/
def afterLine (c : Conn) (line : Bytes) : Res (Option Event) :=
  ((run idCipher c [.send (.readTimeRequest {}) exRand, .receive line]).1.nextEvent idCipher).2

/-- C74. Each of the listed exceptions is really raised by `next_event`, on a new connection that sent one
request and received one line. -/
theorem C74_poll_attained (x : PyErr) (h : x ∈ pollErrors ∨ IsDeviceError x) :
    ∃ (a : ConnArgs) (c : Conn) (ops : List Op), mkConn a = .ok c ∧ OnlyRequests ops ∧
      ((run idCipher c ops).1.nextEvent idCipher).2 = .error x := by
  have only : ∀ line, OnlyRequests [.send (.readTimeRequest {}) exRand, .receive line] := by
    intro line o ho e r he
    simp only [List.mem_cons, List.not_mem_nil, or_false] at ho
    rcases ho with rfl | rfl
    · cases he; rfl
    · cases he
  have plain : ∀ line, afterLine exConn line = .error x → _ := fun line hl =>
    (⟨exConn.args, exConn, _, by decide, only line, hl⟩ : ∃ (a : ConnArgs) (c : Conn) (ops : List Op),
      mkConn a = .ok c ∧ OnlyRequests ops ∧ ((run idCipher c ops).1.nextEvent idCipher).2 = .error x)
  have secret : ∀ line, afterLine exSec line = .error x → _ := fun line hl =>
    (⟨exSec.args, exSec, _, by decide, only line, hl⟩ : ∃ (a : ConnArgs) (c : Conn) (ops : List Op),
      mkConn a = .ok c ∧ OnlyRequests ops ∧ ((run idCipher c ops).1.nextEvent idCipher).2 = .error x)
  rcases h with h | ⟨k, e, hk, rfl⟩
  · simp only [pollErrors, List.mem_cons, List.not_mem_nil, or_false] at h
    rcases h with rfl | rfl | rfl | rfl | rfl | rfl
    · exact plain exSecretLine (by decide +kernel)
    · exact plain (exLine 0x86 .readArchives []) (by decide +kernel)
    · exact secret (exLine 0x87 .readDeviceTime [9, 0, 2]) (by decide +kernel)
    · exact plain (exLine 0x86 .readDeviceTime [1, 2]) (by decide +kernel)
    · exact plain (exLine 0x86 .call []) (by decide +kernel)
    · exact plain (exLine 0x86 .writeDeviceTime []) (by decide +kernel)
  · have hk' : k < 8 ∧ e = (([.wrongPassword, .settingArchiveFull, .switchOff, .blockedBuffer, .dataError, .cipherKey,
        .wrongEncryptionKeys, .write] : List ElgasErr)[k]?.getD .write) := by
      unfold errorOfBit at hk
      exact ⟨(List.getElem?_eq_some_iff.1 hk).1, by rw [hk]; rfl⟩
    refine plain (exLine 0x86 .readDeviceTime [UInt8.ofNat (2 ^ k)]) ?_
    rw [hk'.2]
    have all : ∀ k < 8, afterLine exConn (exLine 0x86 .readDeviceTime [UInt8.ofNat (2 ^ k)]) =
        .error (.elgas (([.wrongPassword, .settingArchiveFull, .switchOff, .blockedBuffer, .dataError, .cipherKey,
          .wrongEncryptionKeys, .write] : List ElgasErr)[k]?.getD .write)) := by decide +kernel
    exact all k hk'.1

/-- C74. Each of the listed exceptions is really raised by `send` of a request. -/
theorem C74_send_attained (x : PyErr) (h : x ∈ sendErrors) :
    ∃ (a : ConnArgs) (c : Conn) (ops : List Op) (e : Event), mkConn a = .ok c ∧ OnlyRequests ops ∧ IsRequest e ∧
      ((run idCipher c ops).1.send idCipher e exRand).2 = .error x := by
  have none : OnlyRequests [] := fun o ho => by cases ho
  simp only [sendErrors, List.mem_cons, List.not_mem_nil, or_false] at h
  rcases h with rfl | rfl | rfl | rfl
  · refine ⟨exConn.args, exConn, [.send (.readTimeRequest {}) exRand], .readTimeRequest {}, by decide, ?_, rfl,
      by decide +kernel⟩
    intro o ho e r he
    simp only [List.mem_cons, List.not_mem_nil, or_false] at ho
    subst ho; cases he; rfl
  · exact ⟨exConn.args, exConn, [], .writeTimeRequest { password := ['Ā'], deviceTime := ⟨2024, 2, 29, 1, 2, 3, 4⟩ },
      by decide, none, rfl, by decide +kernel⟩
  · exact ⟨exConn.args, exConn, [], .readArchiveRequest { password := "000000".toList, archive := 256, amount := 1, oldestRecordId := 1 },
      by decide, none, rfl, by decide +kernel⟩
  · exact ⟨exConn.args, exConn, [], .readDeviceParametersRequest { password := "000000".toList, objectCount := -1, bufferLength := 512 },
      by decide, none, rfl, by decide +kernel⟩

/-- C74. Each of the listed exceptions is really raised by the parser of parameter lists. -/
theorem C74_parse_attained (x : PyErr) (h : x ∈ parseErrors) : ∃ w, parseParameters none (some w) = .error x := by
  have one : ∀ (ty : UInt8) (d : Bytes), d.length + 3 < 65536 →
      (ObjType.ofByte ty >>= fun t => parameterFromBytes t d) = .error x →
      ∃ w, parseParameters none (some w) = .error x := by
    intro ty d hl he
    refine ⟨[(ty, d)].flatMap record, ?_⟩
    rw [C56_split [(ty, d)] (by simp) (by simpa using hl), List.mapM_cons, he]; rfl
  simp only [parseErrors, List.mem_cons, List.not_mem_nil, or_false] at h
  rcases h with rfl | rfl | rfl | rfl | rfl | rfl
  · exact one 255 [] (by decide) (by decide +kernel)
  · exact one 31 [] (by decide) (by decide +kernel)
  · exact one 49 [] (by decide) (by decide +kernel)
  · exact one 73 [] (by decide) (by decide +kernel)
  · exact one 61 (List.replicate 61 0) (by decide) (by decide +kernel)
  · exact one 61 (List.replicate 80 0) (by decide) (by decide +kernel)

/-! ### Concrete cases -/

/-- The results of the calls of `next_event`. -/
def exPolled (os : List Outcome) : List (Res (Option Event)) :=
  os.filterMap fun | .polled y => some y | _ => none

-- C72: a refused request, a lone end character, two chunks, an answer, a second request and half an answer
example : let ops : List Op := [.send (.readTimeRequest {}) exRand, .send (.readTimeRequest {}) exRand,
      .receive [0x0D], .receive (exPlainLine.take 11), .poll, .receive (exPlainLine.drop 11), .poll,
      .send exWrite exRand, .receive [2, 3], .receive [4]]
    gathered (chunksSince [] (history idCipher exConn ops)) = [2, 3, 4] ∧
    pending (observe (run idCipher exConn ops).2) = some .writeTimeResponse := by decide +kernel
example : OnlyRequests [.send (.readTimeRequest {}) exRand, .receive [2], .poll, .send exWrite exRand] := by
  intro o ho e r he
  simp only [List.mem_cons, List.not_mem_nil, or_false] at ho
  rcases ho with rfl | rfl | rfl | rfl <;> cases he <;> rfl

-- C73: one byte of noise, then a good answer
example : exPolled (run idCipher exConn [.send (.readTimeRequest {}) exRand, .receive [0x55], .receive exPlainLine, .poll,
      .receive exPlainLine, .poll]).2 = [.ok none, .ok none] ∧
    exPolled (run idCipher exConn [.send (.readTimeRequest {}) exRand, .receive exPlainLine, .poll]).2 =
      [.ok (some exTime)] := by decide +kernel
-- C73: the echo of the request in front of the answer
example : exPolled (run idCipher exConn [.send (.readTimeRequest {}) exRand,
      .receive (((exConn.send idCipher (.readTimeRequest {}) exRand).2.toOption.getD []) ++ exPlainLine), .poll]).2 =
        [.ok none] ∧
    ((exConn.send idCipher (.readTimeRequest {}) exRand).2.toOption.getD []).length = 16 := by decide +kernel

-- C70: other addresses, same answer
example : ∃ raw raw' wire wire', responseToBytes responseType ⟨.readDeviceTime, 1, 2, 3, 4, exTimeBody⟩ = .ok raw ∧
    responseToBytes responseType ⟨.readDeviceTime, 9, 8, 7, 6, exTimeBody⟩ = .ok raw' ∧
    escapeCharacters raw = .ok wire ∧ escapeCharacters raw' = .ok wire' ∧ wire ≠ wire' :=
  ⟨_, _, _, _, rfl, rfl, rfl, rfl, by decide +kernel⟩
-- C70: the answer came before the question
example : exPolled (run idCipher exConn [.receive exPlainLine, .send (.readTimeRequest {}) exRand, .poll]).2 =
    [.ok (some exTime)] := by decide +kernel
-- C70: the recorded answer is taken on another connection
example : ((((exConn.send idCipher (.readTimeRequest {}) exRand).1.receiveData exPlainLine).nextEvent idCipher).2 =
      .ok (some exTime)) ∧
    awaits (exConn.send idCipher (.readTimeRequest {}) exRand).1.state = some exTime.type := by decide +kernel

-- C74: a client that raises
example : ended ((exSys 1 [.ok (exWire .readDeviceTime [1])]).readTime idCipher).1 = .raised (.elgas .wrongPassword) ∧
    ended ((exSys 1 [.ok (exWire .readDeviceTime [1, 2])]).readTime idCipher).1 = .raised .value ∧
    ended ((exSys 1 [.error (.elgas .communication)]).readTime idCipher).1 = .raised (.elgas .communication) := by
  refine ⟨?_, ?_, ?_⟩ <;> decide +kernel

end Elgas
