import Verif.Lemmas.Connection
import Verif.Props.Responses
/-!
C34, C35, C36, C38: the protocol state machine and histories of calls.
-/
namespace Elgas
open Spec

/-! ### C34 -/

/-- C34. The state machine accepts an event exactly when it is a request in the idle state (then it
waits for the response of that request) or the awaited response (then it is idle again). -/
theorem C34_accepts_iff (s s' : PState) (e : Event) :
    processEvent s e = .ok s' ↔
      (s = .idle ∧ ∃ u, responseOf e.type = some u ∧ awaits s' = some u) ∨
      (awaits s = some e.type ∧ s' = .idle) :=
  processEvent_iff s s' e

/-- C34. Every other event raises `LocalElgasProtocolError`. -/
theorem C34_refuses (s : PState) (e : Event)
    (h : ¬ (s = .idle ∧ IsRequest e) ∧ awaits s ≠ some e.type) :
    processEvent s e = .error (.elgas .localProtocol) := by
  apply processEvent_error
  intro s' hs
  rcases (processEvent_iff s s' e).1 hs with ⟨h1, u, h2, _⟩ | ⟨h1, _⟩
  · exact h.1 ⟨h1, by unfold IsRequest; rw [h2]; rfl⟩
  · exact h.2 h1

/-- C34. The table is complete: in the idle state every request is accepted. -/
theorem C34_idle_accepts (e : Event) (h : IsRequest e) :
    ∃ s', processEvent .idle e = .ok s' ∧ awaits s' = responseOf e.type := by
  unfold IsRequest at h
  unfold processEvent
  generalize e.type = t at h
  cases t <;> simp [responseOf] at h <;> exact ⟨_, rfl, rfl⟩

example : processEvent .idle (.readTimeRequest {}) = .ok .awaitingReadTimeResponse ∧
    processEvent .awaitingReadTimeResponse (.writeTimeResponse {}) = .error (.elgas .localProtocol) := by
  decide

/-! ### One call -/

theorem send_accepted {C : BlockCipher} {c : Conn} {e : Event} {r : Rand} {s' : PState}
    (h : processEvent c.state e = .ok s') :
    c.send C e r = ({ c with state := s' }, ({ c with state := s' } : Conn).serialise C e r) := by
  unfold Conn.send; rw [h]

theorem send_refused {C : BlockCipher} {c : Conn} {e : Event} {r : Rand} {x : PyErr}
    (h : processEvent c.state e = .error x) : c.send C e r = (c, .error x) := by
  unfold Conn.send; rw [h]

theorem ne_localProtocol_of {α : Type} {x : Res α} (h : ∀ e, x = .error e → e ≠ .elgas .localProtocol) :
    x ≠ .error (.elgas .localProtocol) := fun hx => h _ hx rfl

/-- An exception other than `LocalElgasProtocolError`. -/
def Quiet {α : Type} (x : Res α) : Prop := x ≠ .error (.elgas .localProtocol)

theorem quiet_ok {α : Type} (a : α) : Quiet (.ok a : Res α) := by simp [Quiet]
theorem quiet_pure {α : Type} (a : α) : Quiet (pure a : Res α) := quiet_ok a
theorem quiet_bind {α β : Type} {x : Res α} {f : α → Res β} (hx : Quiet x) (hf : ∀ a, Quiet (f a)) :
    Quiet (x >>= f) := by
  cases x with
  | error e => simpa [Quiet] using hx
  | ok a => exact hf a
theorem quiet_map {α β : Type} {x : Res α} {f : α → β} (hx : Quiet x) : Quiet (f <$> x) := by
  cases x <;> simp_all [Quiet]
theorem quiet_raise {α : Type} {e : PyErr} (h : e ≠ .elgas .localProtocol) : Quiet (raise e : Res α) := by
  simpa [Quiet] using h
theorem quiet_ite {α : Type} {p : Prop} [Decidable p] {x y : Res α} (hx : Quiet x) (hy : Quiet y) :
    Quiet (if p then x else y) := by split <;> assumption
theorem quiet_toBytesLE (w : Nat) (x : Int) : Quiet (toBytesLE w x) := by
  unfold toBytesLE; exact quiet_ite (quiet_ok _) (quiet_raise (by simp))
theorem quiet_toBytesBE (w : Nat) (x : Int) : Quiet (toBytesBE w x) := by
  unfold toBytesBE; exact quiet_ite (quiet_ok _) (quiet_raise (by simp))
theorem quiet_toByte (x : Int) : Quiet (toByte x) := by
  unfold toByte; exact quiet_ite (quiet_ok _) (quiet_raise (by simp))
theorem quiet_encodeLatin1 (s : PyStr) : Quiet (encodeLatin1 s) := by
  induction s with
  | nil => exact quiet_ok _
  | cons c s ih =>
    unfold encodeLatin1
    exact quiet_ite (quiet_bind ih fun _ => quiet_ok _) (quiet_raise (by simp))
theorem quiet_fromHex (s : PyStr) : Quiet (fromHex s) := by
  fun_induction fromHex s with
  | case1 => exact quiet_ok _
  | case2 => exact quiet_raise (by simp)
  | case3 a b rest x y h1 h2 ih => exact quiet_bind ih fun _ => quiet_ok _
  | case4 => exact quiet_raise (by simp)
theorem quiet_toBdc (x : Int) : Quiet (toBdc x) := by
  unfold toBdc; exact quiet_fromHex _
theorem quiet_datetimeToBytes (t : DateTime) : Quiet (datetimeToBytes t) := by
  unfold datetimeToBytes
  repeat' first
    | with_reducible exact quiet_toBdc _
    | with_reducible exact quiet_ok _
    | with_reducible exact quiet_pure _
    | with_reducible refine quiet_bind ?_ fun _ => ?_
theorem quiet_passwordBlock (p : PyStr) (r : PwRand) : Quiet (passwordBlock p r) := by
  unfold passwordBlock; exact quiet_encodeLatin1 _
theorem quiet_escape (d : Bytes) : Quiet (escapeCharacters d) := by
  unfold escapeCharacters
  split
  · exact quiet_raise (by simp)
  · exact quiet_ok _
theorem quiet_requestToBytes (ty : UInt8) (f : Frame) : Quiet (requestToBytes ty f) := by
  unfold requestToBytes
  repeat' first
    | with_reducible exact quiet_toBytesLE _ _
    | with_reducible exact quiet_toBytesBE _ _
    | with_reducible exact quiet_toByte _
    | with_reducible exact quiet_ok _
    | with_reducible exact quiet_pure _
    | with_reducible refine quiet_bind ?_ fun _ => ?_
theorem quiet_encrypt (C : BlockCipher) (c : CipherContext) (d : Bytes) (r : PadRand) :
    Quiet (c.encrypt C d r) := by
  unfold CipherContext.encrypt aesCbcEncrypt
  repeat' first
    | with_reducible exact quiet_toBytesLE _ _
    | with_reducible exact quiet_toBytesBE _ _
    | with_reducible exact quiet_toByte _
    | with_reducible exact quiet_ok _
    | with_reducible exact quiet_pure _
    | with_reducible exact quiet_raise (by simp)
    | with_reducible refine quiet_ite ?_ ?_
    | with_reducible refine quiet_bind ?_ fun _ => ?_
theorem quiet_toBytes (e : Event) (r : Rand) : Quiet (e.toBytes r) := by
  cases e
  all_goals
    simp only [Event.toBytes, ReadInstantaneousValuesRequest.toBytes, ReadTimeRequest.toBytes,
      WriteTimeRequest.toBytes, ReadDeviceParametersRequest.toBytes,
      ReadArchiveByTimeRequest.toBytes, ReadArchiveRequest.toBytes, CallResponse.toBytes]
    repeat' first
      | with_reducible exact quiet_toBytesLE _ _
      | with_reducible exact quiet_toByte _
      | with_reducible exact quiet_passwordBlock _ _
      | with_reducible exact quiet_datetimeToBytes _
      | with_reducible exact quiet_ok _
      | with_reducible exact quiet_pure _
      | with_reducible exact quiet_raise (by simp)
      | with_reducible refine quiet_bind ?_ fun _ => ?_
theorem quiet_service (e : Event) : Quiet e.service := by
  cases e <;> first | exact quiet_ok _ | exact quiet_raise (by simp)
theorem quiet_serialise (C : BlockCipher) (c : Conn) (e : Event) (r : Rand) :
    Quiet (c.serialise C e r) := by
  unfold Conn.serialise
  refine quiet_bind (quiet_toBytes e r) fun _ => ?_
  split
  all_goals
    repeat' first
      | with_reducible exact quiet_service _
      | with_reducible exact quiet_encrypt _ _ _ _
      | with_reducible exact quiet_requestToBytes _ _
      | with_reducible exact quiet_escape _
      | with_reducible refine quiet_bind ?_ fun _ => ?_

/-- The two possible results of sending a request. -/
theorem send_request_cases (C : BlockCipher) (c : Conn) (e : Event) (r : Rand) (h : IsRequest e) :
    (c.state = .idle ∧ (c.send C e r).1 = { c with state := (c.send C e r).1.state } ∧
      awaits (c.send C e r).1.state = responseOf e.type ∧
      (c.send C e r).2 ≠ .error (.elgas .localProtocol)) ∨
    (c.state ≠ .idle ∧ c.send C e r = (c, .error (.elgas .localProtocol))) := by
  by_cases hs : c.state = .idle
  · left
    obtain ⟨s', h1, h2⟩ := C34_idle_accepts e h
    rw [← hs] at h1
    rw [send_accepted h1]
    exact ⟨hs, rfl, h2, quiet_serialise C _ e r⟩
  · right
    refine ⟨hs, send_refused (C34_refuses c.state e ⟨fun h => hs h.1, fun ha => ?_⟩)⟩
    have := response_not_request ha
    unfold IsRequest at h
    rw [this] at h
    simp at h

/-! ### C38 -/

/-- C38. Polling: NEED_DATA and every exception leave the connection as it was; a returned PDU is
the awaited one, empties the buffer, makes the connection idle and changes nothing else. -/
theorem C38_poll_effect (C : BlockCipher) (c : Conn) :
    ((c.nextEvent C).2 = .ok none → (c.nextEvent C).1 = c) ∧
    (∀ x, (c.nextEvent C).2 = .error x → (c.nextEvent C).1 = c) ∧
    (∀ e, (c.nextEvent C).2 = .ok (some e) →
      (c.nextEvent C).1 = { c with buffer := [], state := .idle } ∧ awaits c.state = some e.type) := by
  rcases line_cases c.buffer with h | ⟨w, rest, hb, hw⟩
  · rw [nextEvent_none h]; simp
  · rw [nextEvent_line hw hb]
    cases hi : c.interpret C (w ++ [0x0D]) with
    | error e => by_cases he : e.isValueError = true <;> simp [he]
    | ok f =>
      dsimp only
      cases hp : pduFromResponse f with
      | error e => simp
      | ok pdu =>
        dsimp only
        cases hs : processEvent c.state pdu with
        | error e => simp
        | ok s' =>
          simp only [reduceCtorEq, false_implies, Except.ok.injEq, Option.some.injEq, true_and,
            forall_const, implies_true]
          rintro e rfl
          have ht := decodes_type (pdu_decodes.1 hp)
          rcases (processEvent_iff _ _ _).1 hs with ⟨_, u, h2, _⟩ | ⟨h1, h2⟩
          · exfalso
            cases pdu <;> simp_all [Event.type, responseOf, serviceOf]
          · exact ⟨by rw [h2], h1⟩

/-- C38. Polling again without new data gives the same result, as long as no PDU was returned. -/
theorem C38_poll_idempotent (C : BlockCipher) (c : Conn)
    (h : ∀ e, (c.nextEvent C).2 ≠ .ok (some e)) :
    (c.nextEvent C).1.nextEvent C = c.nextEvent C := by
  obtain ⟨h1, h2, _⟩ := C38_poll_effect C c
  have : (c.nextEvent C).1 = c := by
    cases hr : (c.nextEvent C).2 with
    | error x => exact h2 x hr
    | ok o =>
      cases o with
      | none => exact h1 hr
      | some e => exact absurd hr (h e)
  rw [this]

/-! ### C35 -/

/-- What a history may look like when `p` is the response that is being waited for. -/
def Continues (p : Option EventType) (obs : List Obs) : Prop :=
  match p with
  | none => Alternating obs
  | some u => obs = [] ∨ ∃ rest, obs = .returned u :: rest ∧ Alternating rest

theorem continues_run (C : BlockCipher) (ops : List Op) (c : Conn) (h : OnlyRequests ops) :
    Continues (awaits c.state) (observe (run C c ops).2) := by
  induction ops generalizing c with
  | nil =>
    simp only [run, observe, List.filterMap_nil]
    unfold Continues
    split
    · exact .nil
    · exact .inl rfl
  | cons op ops ih =>
    have ih' := ih (step C c op).1 (fun o ho => h o (List.mem_cons_of_mem _ ho))
    simp only [run, observe, List.filterMap_cons]
    cases op with
    | receive d =>
      simp only [step] at ih' ⊢
      have : (c.receiveData d).state = c.state := by
        unfold Conn.receiveData
        split
        · rfl
        · split <;> rfl
      rw [this] at ih'
      simpa [Outcome.obs] using show Continues _ (List.filterMap _ _) from ih'
    | send e r =>
      have hreq := h (.send e r) (by simp) e r rfl
      simp only [step, Outcome.obs] at ih' ⊢
      rcases send_request_cases C c e r hreq with ⟨h1, _, h3, h4⟩ | ⟨h1, h2⟩
      · rw [if_neg h4, h1]
        simp only [awaits, Continues]
        have ⟨u, hu⟩ := Option.isSome_iff_exists.1 hreq
        rw [h3, hu] at ih'
        rcases ih' with hn | ⟨rest, hn, ha⟩
        · rw [show List.filterMap Outcome.obs _ = [] from hn]
          exact .open_ _ u hu
        · rw [show List.filterMap Outcome.obs _ = _ from hn]
          exact .pair _ u rest hu ha
      · rw [h2] at ih' ⊢
        simpa using show Continues _ (List.filterMap _ _) from ih'
    | poll =>
      simp only [step] at ih' ⊢
      obtain ⟨h1, h2, h3⟩ := C38_poll_effect C c
      cases hr : (c.nextEvent C).2 with
      | error x => rw [h2 x hr] at ih' ⊢; simpa [Outcome.obs] using show Continues _ (List.filterMap _ _) from ih'
      | ok o =>
        cases o with
        | none => rw [h1 hr] at ih' ⊢; simpa [Outcome.obs] using show Continues _ (List.filterMap _ _) from ih'
        | some e =>
          obtain ⟨h4, h5⟩ := h3 e hr
          rw [h4] at ih' ⊢
          simp only [Outcome.obs, h5, Continues]
          exact .inr ⟨_, rfl, ih'⟩

/-- C35. In every history of sends (of requests), received chunks and polls on an idle connection,
accepted requests and returned PDUs alternate, starting with a request, and every returned PDU is of
the response type of the request accepted just before it. -/
theorem C35_alternating (C : BlockCipher) (c : Conn) (ops : List Op) (hc : c.state = .idle)
    (h : OnlyRequests ops) : Alternating (observe (run C c ops).2) := by
  have := continues_run C ops c h
  rw [hc] at this
  exact this

/-- C35. Consequently at most one request is outstanding at any time. -/
theorem C35_at_most_one_outstanding (obs : List Obs) (h : Alternating obs) (p : List Obs)
    (hp : p <+: obs) :
    (p.countP fun | .returned _ => true | _ => false) ≤ (p.countP fun | .accepted _ => true | _ => false) ∧
    (p.countP fun | .accepted _ => true | _ => false) ≤
      (p.countP fun | .returned _ => true | _ => false) + 1 := by
  induction h generalizing p with
  | nil => rw [List.prefix_nil.1 hp]; simp
  | open_ t u _ =>
    cases p with
    | nil => simp
    | cons x p =>
      obtain ⟨rfl, hp'⟩ := List.cons_prefix_cons.1 hp
      rw [List.prefix_nil.1 hp']; simp
  | pair t u rest _ _ ih =>
    cases p with
    | nil => simp
    | cons x p =>
      obtain ⟨rfl, hp1⟩ := List.cons_prefix_cons.1 hp
      cases p with
      | nil => simp
      | cons y p =>
        obtain ⟨rfl, hp2⟩ := List.cons_prefix_cons.1 hp1
        have := ih p hp2
        simp; omega

/-- C35. The restriction to requests is needed: handing the awaited *response* object to `send` is
accepted by the state machine, raises `AttributeError` (responses have no `to_bytes`) and silently
makes the connection idle although the request is unanswered. -/
theorem C35_sending_a_response_resets (C : BlockCipher) (c : Conn) (e : Event) (r : Rand)
    (h : awaits c.state = some e.type) :
    c.send C e r = ({ c with state := .idle }, .error .attribute) := by
  rw [send_accepted ((processEvent_iff _ _ _).2 (.inr ⟨h, rfl⟩))]
  have : e.toBytes r = .error .attribute := by
    cases hs : c.state <;> rw [hs] at h <;> cases e <;> simp [awaits, Event.type] at h <;> rfl
  unfold Conn.serialise
  rw [this]; rfl

/-! ### C36 -/

/-- C36. A request refused by the state machine changes nothing. -/
theorem C36_refused_unchanged (C : BlockCipher) (c : Conn) (e : Event) (r : Rand)
    (h : (c.send C e r).2 = .error (.elgas .localProtocol)) : (c.send C e r).1 = c := by
  cases hs : processEvent c.state e with
  | error x => rw [send_refused hs]
  | ok s' =>
    rw [send_accepted hs] at h
    exact absurd h (quiet_serialise C _ e r)

/-- C36. A request that fails for any other reason has already changed the state: the connection
waits for the response to a request that was never sent. -/
theorem C36_failed_send_leaves_awaiting (C : BlockCipher) (c : Conn) (e : Event) (r : Rand) (x : PyErr)
    (hreq : IsRequest e) (h : (c.send C e r).2 = .error x) (hx : x ≠ .elgas .localProtocol) :
    (c.send C e r).1 = { c with state := (c.send C e r).1.state } ∧
    awaits (c.send C e r).1.state = responseOf e.type ∧ (c.send C e r).1.state ≠ .idle := by
  rcases send_request_cases C c e r hreq with ⟨_, h2, h3, _⟩ | ⟨_, h2⟩
  · refine ⟨h2, h3, fun hi => ?_⟩
    rw [hi] at h3
    unfold IsRequest at hreq
    rw [← h3] at hreq
    simp [awaits] at hreq
  · rw [h2] at h; simp at h; exact absurd h.symm hx

/-- C36. From then on every request of every history is refused until a PDU is returned: if no poll
returns a PDU, no request is accepted. -/
theorem C36_stuck_until_response (C : BlockCipher) (c : Conn) (ops : List Op) (h : c.state ≠ .idle)
    (hr : OnlyRequests ops) (hn : ∀ t, .returned t ∉ observe (run C c ops).2) :
    observe (run C c ops).2 = [] := by
  have := continues_run C ops c hr
  have hne : awaits c.state ≠ none := fun ha => h (awaits_none.1 ha)
  cases ha : awaits c.state with
  | none => exact absurd ha hne
  | some u =>
    rw [ha] at this
    rcases this with h0 | ⟨rest, h0, _⟩
    · exact h0
    · exact absurd (by rw [h0]; simp) (hn u)

/-- C36. It happens: a read-values request whose password has a character above U+00FF. -/
theorem C36_failing_send_exists (C : BlockCipher) (c : Conn) (r : Rand) (hc : c.state = .idle) :
    (c.send C (.readInstantaneousValuesRequest ⟨['Ā']⟩) r) =
      ({ c with state := .awaitingReadActualValuesResponse }, .error .unicodeEncode) := by
  rw [send_accepted (s' := .awaitingReadActualValuesResponse) (by rw [hc]; rfl)]
  have : ∀ x : PyStr, encodeLatin1 ('Ā' :: x) = .error .unicodeEncode := by
    intro x; simp [encodeLatin1]
  unfold Conn.serialise
  have : Event.toBytes (.readInstantaneousValuesRequest ⟨['Ā']⟩) r = .error .unicodeEncode := by
    simp only [Event.toBytes, ReadInstantaneousValuesRequest.toBytes, passwordBlock, padPassword]
    exact this _
  rw [this]; rfl

end Elgas
