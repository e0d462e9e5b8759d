import Verif.Props.Log
/-! Properties C77, C78: what a log shows, and what it proves (state.py, connection.py, transport.py, client.py). -/
namespace Elgas
open Spec

/-! ### From one exchange to histories of calls -/

/-- The records a client adds around its exchanges, given what is known (`E`) of the responses. -/
inductive ClientRecord (E : Event → Prop) : Record → Prop
  | text (event : String) (h : event ∈ ["Reading instantaneous values", "Received instantaneous values",
      "Reading device time", "Finished writing time to device"]) : ClientRecord E (info event)
  | time (event : String) (h : event ∈ ["Got device time", "Writing time to device"]) (t : DateTime) :
      ClientRecord E (info event [("time", .str (isoformat t))])
  | number (event : String) (h : event ∈ ["Requesting device parameters", "Received device parameters",
      "More parameters available", "Reading device parameters"]) (name : String) (n : Int) :
      ClientRecord E (info event [(name, .int n)])
  | pages (rs : List ReadDeviceParametersResponse) (h : ∀ r ∈ rs, E (.readDeviceParametersResponse r)) :
      ClientRecord E (debug "Received total parameters data" [("data", .bytes (rs.map (·.data)).flatten)])

/-- A relation between a client before and after, and the log in between, that holds for every exchange. -/
structure Lifts (p : Printing) (tr : PyVal) (C : BlockCipher) (I : Sys → Prop) (E : Event → Prop)
    (T : Sys → List Record → Sys → Prop) : Prop where
  nil : ∀ s, I s → T s [] s
  append : ∀ s s' s'' l l', T s l s' → T s' l' s'' → T s (l ++ l') s''
  record : ∀ s r, I s → ClientRecord E r → T s [r] s
  exchange : ∀ s e, I s → IsRequest e → T s (s.exchangeL p tr C e).1 (s.exchangeL p tr C e).2.2 ∧
    I (s.exchangeL p tr C e).2.2 ∧ ∀ ev, (s.exchangeL p tr C e).2.1 = .returned ev → E ev

section
variable {p : Printing} {tr : PyVal} {C : BlockCipher} {I : Sys → Prop} {E : Event → Prop}
  {T : Sys → List Record → Sys → Prop} (L : Lifts p tr C I E T)
include L

theorem Lifts.before {s s' : Sys} {r : Record} {l : List Record} (hI : I s) (hr : ClientRecord E r) (h : T s l s') :
    T s ([r] ++ l) s' := L.append _ _ _ _ _ (L.record s r hI hr) h

theorem Lifts.after {s s' : Sys} {r : Record} {l : List Record} (hI : I s') (hr : ClientRecord E r) (h : T s l s') :
    T s (l ++ [r]) s' := L.append _ _ _ _ _ h (L.record s' r hI hr)

theorem pages_lift (s : Sys) (n : Int) (total : Bytes) (rs : List ReadDeviceParametersResponse)
    (hE : ∀ r ∈ rs, E (.readDeviceParametersResponse r)) (ht : total = (rs.map (·.data)).flatten) (hI : I s) :
    T s (s.readPagesL p tr C n total).1 (s.readPagesL p tr C n total).2.2 ∧ I (s.readPagesL p tr C n total).2.2 ∧
    ∀ d, (s.readPagesL p tr C n total).2.1 = .returned d →
      ∃ rs : List ReadDeviceParametersResponse, (∀ r ∈ rs, E (.readDeviceParametersResponse r)) ∧ d = (rs.map (·.data)).flatten := by
  have hask : ∀ n, ClientRecord E (info "Requesting device parameters" [("object_count", .int n)]) :=
    fun n => .number _ (by decide) _ n
  fun_induction Sys.readPagesL p tr C s n total generalizing rs with
  | case1 s n total ask l e s' h =>
    obtain ⟨h1, h2, _⟩ := L.exchange s (.readDeviceParametersRequest { password := s.password, objectCount := n, bufferLength := 1024 }) hI rfl
    rw [h] at h1 h2
    exact ⟨L.before hI (hask _) h1, h2, fun d h => by cases h⟩
  | case2 s n total ask l s' h =>
    obtain ⟨h1, h2, _⟩ := L.exchange s (.readDeviceParametersRequest { password := s.password, objectCount := n, bufferLength := 1024 }) hI rfl
    rw [h] at h1 h2
    exact ⟨L.before hI (hask _) h1, h2, fun d h => by cases h⟩
  | case3 s n total ask l r s' h l' he =>
    obtain ⟨h1, h2, h3⟩ := L.exchange s (.readDeviceParametersRequest { password := s.password, objectCount := n, bufferLength := 1024 }) hI rfl
    rw [h] at h1 h2 h3
    refine ⟨L.after h2 (.number _ (by decide) _ _) (L.before hI (hask _) h1), h2, fun d hd => ?_⟩
    cases hd
    refine ⟨rs ++ [r], fun r' hr' => ?_, by simp [ht]⟩
    rcases List.mem_append.1 hr' with hr' | hr'
    · exact hE _ hr'
    · rw [List.mem_singleton.1 hr']; exact h3 _ rfl
  | case4 s n total ask l r s' h l' he l'' o hrec ih =>
    obtain ⟨h1, h2, h3⟩ := L.exchange s (.readDeviceParametersRequest { password := s.password, objectCount := n, bufferLength := 1024 }) hI rfl
    rw [h] at h1 h2 h3
    obtain ⟨i1, i2, i3⟩ := ih (rs ++ [r]) (fun r' hr' => by
      rcases List.mem_append.1 hr' with hr' | hr'
      · exact hE _ hr'
      · rw [List.mem_singleton.1 hr']; exact h3 _ rfl) (by simp [ht]) h2
    rw [hrec] at i1 i2 i3
    refine ⟨L.append _ _ _ _ _ (L.after h2 (.number _ (by decide) _ _)
      (L.after h2 (.number _ (by decide) _ _) (L.before hI (hask _) h1))) i1, i2, i3⟩
  | case5 s n total ask l ev s' hne h =>
    obtain ⟨h1, h2, _⟩ := L.exchange s (.readDeviceParametersRequest { password := s.password, objectCount := n, bufferLength := 1024 }) hI rfl
    rw [h] at h1 h2
    exact ⟨L.before hI (hask _) h1, h2, fun d h => by cases h⟩

theorem call_lift (s : Sys) (k : Call) (hI : I s) :
    T s (callL p tr C s k).1 (callL p tr C s k).2.2 ∧ I (callL p tr C s k).2.2 := by
  cases k with
  | readInstantaneousValues =>
    obtain ⟨h1, h2, _⟩ := L.exchange s (.readInstantaneousValuesRequest { password := s.password }) hI rfl
    unfold callL Sys.readInstantaneousValuesL
    dsimp only
    cases hx : s.exchangeL p tr C (.readInstantaneousValuesRequest { password := s.password }) with
    | mk l o =>
      obtain ⟨o, s'⟩ := o
      rw [hx] at h1 h2
      have b := L.before hI (.text "Reading instantaneous values" (by decide)) h1
      cases o with
      | returned ev => exact ⟨L.after h2 (.text _ (by decide)) b, h2⟩
      | raised x => exact ⟨b, h2⟩
      | pending => exact ⟨b, h2⟩
  | readTime =>
    obtain ⟨h1, h2, _⟩ := L.exchange s (.readTimeRequest {}) hI rfl
    unfold callL Sys.readTimeL
    dsimp only
    cases hx : s.exchangeL p tr C (.readTimeRequest {}) with
    | mk l o =>
      obtain ⟨o, s'⟩ := o
      rw [hx] at h1 h2
      have b := L.before hI (.text "Reading device time" (by decide)) h1
      dsimp only
      cases o.andThen timeOf with
      | returned t => exact ⟨L.after h2 (.time _ (by decide) t) b, h2⟩
      | raised x => exact ⟨b, h2⟩
      | pending => exact ⟨b, h2⟩
  | writeTime t cry =>
    obtain ⟨h1, h2, _⟩ := L.exchange s (.writeTimeRequest { password := s.password, deviceTime := t, cryout := cry }) hI rfl
    unfold callL Sys.writeTimeL
    dsimp only
    cases hx : s.exchangeL p tr C (.writeTimeRequest { password := s.password, deviceTime := t, cryout := cry }) with
    | mk l o =>
      obtain ⟨o, s'⟩ := o
      rw [hx] at h1 h2
      have b := L.before hI (.time "Writing time to device" (by decide) t) h1
      cases o with
      | returned ev => exact ⟨L.after h2 (.text _ (by decide)) b, h2⟩
      | raised x => exact ⟨b, h2⟩
      | pending => exact ⟨b, h2⟩
  | readArchive a n i =>
    obtain ⟨h1, h2, _⟩ := L.exchange s
      (.readArchiveRequest { password := s.password, archive := a, amount := n, oldestRecordId := i }) hI rfl
    exact ⟨h1, h2⟩
  | readArchiveByTime a n t =>
    obtain ⟨h1, h2, _⟩ := L.exchange s
      (.readArchiveByTimeRequest { password := s.password, archive := a, amount := n, oldestTimestamp := t }) hI rfl
    exact ⟨h1, h2⟩
  | readParameters n =>
    obtain ⟨h1, h2, h3⟩ := pages_lift L s n [] [] (by simp) rfl hI
    unfold callL Sys.readParametersL
    dsimp only
    cases hx : s.readPagesL p tr C n [] with
    | mk l o =>
      obtain ⟨o, s'⟩ := o
      rw [hx] at h1 h2 h3
      have b := L.before hI (.number "Reading device parameters" (by decide) "read_from" n) h1
      cases o with
      | returned d =>
        obtain ⟨rs, hrs, rfl⟩ := h3 d rfl
        exact ⟨L.after h2 (.pages rs hrs) b, h2⟩
      | raised x => exact ⟨b, h2⟩
      | pending => exact ⟨b, h2⟩

theorem calls_lift (s : Sys) (ks : List Call) (hI : I s) :
    T s (callsL p tr C s ks).1 (callsL p tr C s ks).2.2 ∧ I (callsL p tr C s ks).2.2 := by
  induction ks generalizing s with
  | nil => exact ⟨L.nil s hI, hI⟩
  | cons k ks ih =>
    obtain ⟨h1, h2⟩ := call_lift L s k hI
    obtain ⟨i1, i2⟩ := ih _ h2
    exact ⟨L.append _ _ _ _ _ h1 i1, i2⟩
end

theorem callL_erase (p : Printing) (tr : PyVal) (C : BlockCipher) (s : Sys) (k : Call) :
    (callL p tr C s k).2 = call C s k := by
  cases k <;> unfold callL call <;> dsimp only
  · rw [← readInstantaneousValuesL_erase p tr]
  · rw [← readTimeL_erase p tr]
  · rw [← writeTimeL_erase p tr]
  · rw [← readParametersL_erase p tr]
  · rw [← readArchiveL_erase p tr]
  · rw [← readArchiveByTimeL_erase p tr]

theorem callsL_erase (p : Printing) (tr : PyVal) (C : BlockCipher) (s : Sys) (ks : List Call) :
    (callsL p tr C s ks).2 = calls C s ks := by
  induction ks generalizing s with
  | nil => rfl
  | cons k ks ih =>
    show ((callL p tr C s k).2.1 :: (callsL p tr C (callL p tr C s k).2.2 ks).2.1,
      (callsL p tr C (callL p tr C s k).2.2 ks).2.2) = _
    rw [ih, callL_erase]
    rfl

/-! ### C77: an encrypting client -/

/-- Membership in the list of event texts. -/
local macro "evt" : tactic => `(tactic| (simp only [debug, info]; decide))


/-- Every record prints event texts of the log and values that are `Shown`. -/
def Good (C : BlockCipher) (ctx : CipherContext) (p : Printing) (stack : List String) (tr : PyVal)
    (handed ins : List Bytes) (log : List Record) : Prop :=
  ∀ r ∈ log, IsEventText r.event ∧
    ∀ a ∈ r.args, ∃ v, a.2.repr p stack = v.repr p stack ∧ Shown C ctx p tr handed ins v

theorem shown_mono {C : BlockCipher} {ctx : CipherContext} {p : Printing} {tr : PyVal} {handed handed' ins : List Bytes}
    {v : PyVal} (hh : ∀ w ∈ handed, w ∈ handed') (h : Shown C ctx p tr handed ins v) : Shown C ctx p tr handed' ins v := by
  cases h with
  | sent w hw => exact .sent w (hh w hw)
  | number n => exact .number n
  | time t => exact .time t
  | transport => exact .transport
  | request e he => exact .request e he
  | encrypted svc body ct pad h => exact .encrypted svc body ct pad h
  | received d hd => exact .received d hd
  | buffer ds hd => exact .buffer ds hd
  | response enc f hf => exact .response enc f hf
  | decrypted f hf => exact .decrypted f hf
  | pdu f e hf he => exact .pdu f e hf he
  | pages rs hr => exact .pages rs hr

section
variable {C : BlockCipher} {ctx : CipherContext} {p : Printing} {stack : List String} {tr : PyVal}

theorem good_mono {handed handed' ins : List Bytes} {l : List Record} (hh : ∀ w ∈ handed, w ∈ handed')
    (h : Good C ctx p stack tr handed ins l) : Good C ctx p stack tr handed' ins l := by
  intro r hr
  obtain ⟨h1, h2⟩ := h r hr
  refine ⟨h1, fun a ha => ?_⟩
  obtain ⟨v, e, hv⟩ := h2 a ha
  exact ⟨v, e, shown_mono hh hv⟩

theorem good_nil {handed ins : List Bytes} : Good C ctx p stack tr handed ins [] := fun r hr => by cases hr

theorem good_append {handed ins : List Bytes} {l l' : List Record} (h : Good C ctx p stack tr handed ins l)
    (h' : Good C ctx p stack tr handed ins l') : Good C ctx p stack tr handed ins (l ++ l') := by
  intro r hr
  rcases List.mem_append.1 hr with hr | hr
  · exact h r hr
  · exact h' r hr

/-- One record with shown values. -/
theorem good_one {handed ins : List Bytes} {r : Record} (h1 : IsEventText r.event)
    (h2 : ∀ a ∈ r.args, Shown C ctx p tr handed ins a.2) : Good C ctx p stack tr handed ins [r] := by
  intro r' hr
  rw [List.mem_singleton.1 hr]
  exact ⟨h1, fun a ha => ⟨_, rfl, h2 a ha⟩⟩

theorem good_processEvent {handed ins : List Bytes} (s : PState) (e : Event) :
    Good C ctx p stack tr handed ins (processEventL s e).1 := by
  unfold processEventL
  cases h : transitions s e.type with
  | none => exact good_nil
  | some s' => exact good_one (.inr ⟨s, s', rfl⟩) (fun a ha => by cases ha)

theorem passwordOf_without (e : Event) :
    passwordOf (withPassword e []) = none ∨ passwordOf (withPassword e []) = some [] := by
  cases e <;> simp [passwordOf, withPassword]

theorem good_send {handed ins : List Bytes} {c : Conn} (hc : c.cipherContext = some ctx)
    (ha : c.args.destinationAddress1 = 0 ∧ c.args.destinationAddress2 = 0 ∧ c.args.sourceAddress1 = 0 ∧
      c.args.sourceAddress2 = 0) (e : Event) (r : Rand) :
    Good C ctx p stack tr handed ins (c.sendL p true C e r).1 := by
  have h0 : Good C ctx p stack tr handed ins [debug "Sending request PDU" [("pdu", eventVal p true e)]] := by
    intro r' hr
    rw [List.mem_singleton.1 hr]
    refine ⟨.inl (by evt), fun a ha => ?_⟩
    rw [List.mem_singleton.1 ha]
    exact ⟨_, (C75_requests p stack e []).symm, .request _ (passwordOf_without e)⟩
  unfold Conn.sendL
  dsimp only
  have h1 := good_processEvent (C := C) (ctx := ctx) (p := p) (stack := stack) (tr := tr) (handed := handed)
    (ins := ins) c.state e
  cases hp : processEventL c.state e with
  | mk l o =>
    rw [hp] at h1
    cases o with
    | error x => exact good_append h0 h1
    | ok s' =>
      refine good_append (good_append h0 h1) ?_
      unfold Conn.serialiseL
      cases ho : ({ c with state := s' } : Conn).requestObject C e r with
      | error x => exact good_nil
      | ok x =>
        obtain ⟨enc, f⟩ := x
        unfold Conn.requestObject at ho
        rw [show ({ c with state := s' } : Conn).cipherContext = some ctx from hc] at ho
        simp only [bind_eq_ok, pure_res, Except.ok.injEq, Prod.mk.injEq] at ho
        obtain ⟨b, hb, svc, _, ct, hct, rfl, rfl⟩ := ho
        refine good_one (.inl (by evt)) fun a ha' => ?_
        rw [List.mem_singleton.1 ha']
        obtain ⟨a1, a2, a3, a4⟩ := ha
        have := Shown.encrypted (C := C) (ctx := ctx) (p := p) (tr := tr) (handed := handed) (ins := ins) svc b ct r.pad hct
        dsimp only
        rw [if_pos rfl, a1, a2, a3, a4]
        exact this

/-- The buffer consists of the last pieces received. -/
def Buffered (ins : List Bytes) (buffer : Bytes) (rest : List Bytes) : Prop :=
  ∃ pre ds, ins = pre ++ ds ++ rest ∧ buffer = ds.flatten

theorem good_receive {handed ins rest : List Bytes} {c : Conn} {d : Bytes} (h : Buffered ins c.buffer (d :: rest)) :
    Good C ctx p stack tr handed ins (receivedL tr (.ok d) ++ (c.receiveDataL d).1) ∧
    Buffered ins (c.receiveDataL d).2.buffer rest := by
  obtain ⟨pre, ds, h1, h2⟩ := h
  have g0 : Good C ctx p stack tr handed ins (receivedL tr (.ok d)) := by
    refine good_one (.inl (by evt)) fun a ha => ?_
    simp only [debug, List.mem_cons, List.not_mem_nil, or_false] at ha
    rcases ha with rfl | rfl
    · exact .received d (by rw [h1]; simp)
    · exact .transport
  unfold Conn.receiveDataL
  split
  · next hd =>
    refine ⟨by simpa using g0, pre, ds ++ [d], by simp [h1], ?_⟩
    rw [List.isEmpty_iff.1 hd]
    simpa using h2
  · split
    · next hb =>
      refine ⟨good_append g0 (good_one (.inl (by evt)) fun a ha => (by cases ha)), pre ++ ds ++ [d], [],
        by simp [h1], ?_⟩
      exact List.length_eq_zero_iff.1 hb.2
    · have hx : Buffered ins (c.buffer ++ d) rest := ⟨pre, ds ++ [d], by simp [h1], by simp [h2]⟩
      refine ⟨good_append g0 (good_one (.inl (by evt)) fun a ha => ?_), hx⟩
      simp only [debug, List.mem_cons, List.not_mem_nil, or_false] at ha
      rcases ha with rfl | rfl
      · exact .received d (by rw [h1]; simp)
      · dsimp only
        rw [show c.buffer ++ d = (ds ++ [d]).flatten by simp [h2]]
        exact .buffer _ ⟨pre, rest, by simp [h1]⟩

theorem good_interpret {handed ins : List Bytes} {c : Conn} (hc : c.cipherContext = some ctx) {line : Bytes}
    (hl : Arrived ins line) :
    Good C ctx p stack tr handed ins (c.interpretL C line).1 ∧
    ∀ f, (c.interpretL C line).2 = .ok f → OpenFrameIn C (some ctx) ins f := by
  unfold Conn.interpretL
  cases hr : returnCharacters line with
  | error x => exact ⟨good_nil, fun f h => by cases h⟩
  | ok raw =>
    dsimp only
    cases hf : responseFactory raw with
    | error x => exact ⟨good_nil, fun f h => by cases h⟩
    | ok ef =>
      obtain ⟨enc, f⟩ := ef
      have hin : FrameIn ins enc f := ⟨line, raw, hl, hr, hf⟩
      have g0 : Good C ctx p stack tr handed ins [debug "Received ELGAS response"
          [("response", frameVal (if enc then "EncryptedResponse" else "Response") f .bytes)]] := by
        refine good_one (.inl (by evt)) fun a ha => ?_
        rw [List.mem_singleton.1 ha]
        exact .response enc f hin
      have err : ∀ g f' : Frame, (if g.data.length = 1 then (raiseError g.data).bind fun _ => .ok g else .ok g) =
          Except.ok f' → f' = g := by
        intro g f' h
        split at h
        · cases he : raiseError g.data with
          | error x => rw [he] at h; cases h
          | ok u => rw [he] at h; exact (Except.ok.inj h).symm
        · exact (Except.ok.inj h).symm
      cases enc with
      | false =>
        refine ⟨g0, fun f' h => ?_⟩
        rw [err f f' h]
        exact .inl hin
      | true =>
        dsimp only
        rw [if_pos rfl, hc]
        dsimp only
        cases hd : ctx.decrypt C f.data with
        | error x => exact ⟨g0, fun f h => by cases h⟩
        | ok d =>
          have ho : OpenFrameIn C (some ctx) ins { f with data := d } := .inr ⟨f, ctx, d, hin, rfl, hd, rfl⟩
          refine ⟨good_append g0 (good_one (.inl (by evt)) fun a ha => ?_), fun f' h => ?_⟩
          · rw [List.mem_singleton.1 ha]
            exact .decrypted _ ho
          · rw [err { f with data := d } f' h]
            exact ho

/-- What is known of an event that came from the device. -/
def FromDevice (C : BlockCipher) (ctx : CipherContext) (ins : List Bytes) (e : Event) : Prop :=
  ∃ f, OpenFrameIn C (some ctx) ins f ∧ pduFromResponse f = .ok e

theorem good_poll {handed ins rest : List Bytes} {c : Conn} (hc : c.cipherContext = some ctx)
    (hb : Buffered ins c.buffer rest) :
    Good C ctx p stack tr handed ins (c.nextEventL p C).1 ∧ Buffered ins (c.nextEventL p C).2.1.buffer rest ∧
    (c.nextEventL p C).2.1.cipherContext = some ctx ∧ (c.nextEventL p C).2.1.args = c.args ∧
    ∀ e, (c.nextEventL p C).2.2 = .ok (some e) → FromDevice C ctx ins e := by
  have one : ∀ ev, ev ∈ eventTexts → Good C ctx p stack tr handed ins [debug ev] :=
    fun ev h => good_one (.inl h) fun a ha => by cases ha
  unfold Conn.nextEventL
  split
  · exact ⟨one _ (by decide), hb, hc, rfl, fun e h => by cases h⟩
  · cases hi : indexEnd c.buffer with
    | none => exact ⟨one _ (by decide), hb, hc, rfl, fun e h => by cases h⟩
    | some i =>
      dsimp only
      have hl : Arrived ins (sliceTo c.buffer ((i : Int) + 1)) := by
        obtain ⟨pre, ds, h1, h2⟩ := hb
        refine ⟨ds, c.buffer.drop (i + 1), ⟨pre, rest, h1.symm⟩, ?_⟩
        rw [← h2]
        have : sliceTo c.buffer ((i : Int) + 1) = c.buffer.take (i + 1) := sliceTo_nat c.buffer (i + 1)
        rw [this, List.take_append_drop]
      obtain ⟨g1, g2⟩ := good_interpret (p := p) (stack := stack) (tr := tr) (handed := handed) hc hl
      cases hx : c.interpretL C (sliceTo c.buffer ((i : Int) + 1)) with
      | mk l o =>
        rw [hx] at g1 g2
        cases o with
        | error x =>
          dsimp only
          split
          · exact ⟨good_append g1 (one _ (by decide)), hb, hc, rfl, fun e h => by cases h⟩
          · exact ⟨g1, hb, hc, rfl, fun e h => by cases h⟩
        | ok f =>
          have ho := g2 f rfl
          dsimp only
          cases hp : pduFromResponse f with
          | error x => exact ⟨g1, hb, hc, rfl, fun e h => by cases h⟩
          | ok pdu =>
            have g3 : Good C ctx p stack tr handed ins (l ++ [info "Received PDU" [("pdu", eventVal p false pdu)]]) := by
              refine good_append g1 (good_one (.inl (by evt)) fun a ha => ?_)
              rw [List.mem_singleton.1 ha]
              exact .pdu f pdu ho hp
            have g4 := good_processEvent (C := C) (ctx := ctx) (p := p) (stack := stack) (tr := tr) (handed := handed)
              (ins := ins) c.state pdu
            dsimp only
            cases hq : processEventL c.state pdu with
            | mk l' o =>
              rw [hq] at g4
              cases o with
              | error x => exact ⟨good_append g3 g4, hb, hc, rfl, fun e h => by cases h⟩
              | ok s' =>
                refine ⟨good_append g3 g4, ?_, hc, rfl, fun e h => ?_⟩
                · obtain ⟨pre, ds, h1, h2⟩ := hb
                  exact ⟨pre ++ ds, [], by simp [h1], rfl⟩
                · cases h
                  exact ⟨f, ho, hp⟩

theorem receiveDataL_frame (c : Conn) (d : Bytes) :
    (c.receiveDataL d).2.cipherContext = c.cipherContext ∧ (c.receiveDataL d).2.args = c.args := by
  rw [receiveDataL_erase]
  exact ⟨(receiveData_frame c d).2.1, (receiveData_frame c d).1⟩

theorem good_loop {handed ins : List Bytes} (rs : List (Res Bytes)) : ∀ {c : Conn}, c.cipherContext = some ctx →
    Buffered ins c.buffer (inputs rs) →
    Good C ctx p stack tr handed ins (nextEventLoopL p tr C c rs).1 ∧
    Buffered ins (nextEventLoopL p tr C c rs).2.2.1.buffer (inputs (nextEventLoopL p tr C c rs).2.2.2) ∧
    (nextEventLoopL p tr C c rs).2.2.1.cipherContext = some ctx ∧
    (nextEventLoopL p tr C c rs).2.2.1.args = c.args ∧
    ∀ e, (nextEventLoopL p tr C c rs).2.1 = .returned e → FromDevice C ctx ins e := by
  induction rs with
  | nil =>
    intro c hc hb
    obtain ⟨g1, g2, g3, g4, g5⟩ := good_poll (p := p) (stack := stack) (tr := tr) (handed := handed) hc hb
    unfold nextEventLoopL
    cases hx : c.nextEventL p C with
    | mk l o =>
      obtain ⟨c', o⟩ := o
      rw [hx] at g1 g2 g3 g4 g5
      cases o with
      | error x => exact ⟨g1, g2, g3, g4, fun e h => by cases h⟩
      | ok o =>
        cases o with
        | none => exact ⟨g1, g2, g3, g4, fun e h => by cases h⟩
        | some ev => exact ⟨g1, g2, g3, g4, fun e h => by cases h; exact g5 _ rfl⟩
  | cons r rs ih =>
    intro c hc hb
    obtain ⟨g1, g2, g3, g4, g5⟩ := good_poll (p := p) (stack := stack) (tr := tr) (handed := handed) hc hb
    unfold nextEventLoopL
    cases hx : c.nextEventL p C with
    | mk l o =>
      obtain ⟨c', o⟩ := o
      rw [hx] at g1 g2 g3 g4 g5
      cases o with
      | error x => exact ⟨g1, g2, g3, g4, fun e h => by cases h⟩
      | ok o =>
        cases o with
        | some ev => exact ⟨g1, g2, g3, g4, fun e h => by cases h; exact g5 _ rfl⟩
        | none =>
          cases r with
          | error x => exact ⟨good_append g1 good_nil, g2, g3, g4, fun e h => by cases h⟩
          | ok d =>
            dsimp only
            obtain ⟨k1, k2⟩ := good_receive (C := C) (ctx := ctx) (p := p) (stack := stack) (tr := tr)
              (handed := handed) (c := c') (d := d) (rest := inputs rs) g2
            obtain ⟨f1, f2⟩ := receiveDataL_frame c' d
            obtain ⟨i1, i2, i3, i4, i5⟩ := ih (c := (c'.receiveDataL d).2) (by rw [f1]; exact g3) k2
            refine ⟨?_, i2, i3, i4.trans (f2.trans g4), i5⟩
            rw [List.append_assoc l]
            exact good_append (good_append g1 k1) i1

/-- The invariant of an encrypting client. -/
structure Inv (ctx : CipherContext) (ins : List Bytes) (s : Sys) : Prop where
  context : s.conn.cipherContext = some ctx
  addresses : s.conn.args.destinationAddress1 = 0 ∧ s.conn.args.destinationAddress2 = 0 ∧
    s.conn.args.sourceAddress1 = 0 ∧ s.conn.args.sourceAddress2 = 0
  buffered : Buffered ins s.conn.buffer (inputs s.recvs)

theorem good_exchange {ins : List Bytes} (s : Sys) (e : Event) (h : Inv ctx ins s) :
    ((∀ w ∈ s.handed, w ∈ (s.exchangeL p tr C e).2.2.handed) ∧
      Good C ctx p stack tr (s.exchangeL p tr C e).2.2.handed ins (s.exchangeL p tr C e).1) ∧
    Inv ctx ins (s.exchangeL p tr C e).2.2 ∧
    ∀ ev, (s.exchangeL p tr C e).2.1 = .returned ev → FromDevice C ctx ins ev := by
  obtain ⟨hc, ha, hb⟩ := h
  have hf := send_frame C s.conn e (s.rands s.draws)
  have gs (handed) := good_send (C := C) (p := p) (stack := stack) (tr := tr) (handed := handed) (ins := ins) hc ha e
    (s.rands s.draws)
  rw [← sendL_erase p true] at hf
  unfold Sys.exchangeL Sys.sendL
  cases hx : s.conn.sendL p true C e (s.rands s.draws) with
  | mk l o =>
    obtain ⟨c, o⟩ := o
    rw [hx] at hf gs
    obtain ⟨f1, f2, f3⟩ := hf
    dsimp only at f1 f2 f3
    have hc' : c.cipherContext = some ctx := by rw [f2, hc]
    rw [← f1] at ha
    rw [← f3] at hb
    cases o with
    | error x => exact ⟨⟨fun w h => h, gs _⟩, ⟨hc', ha, hb⟩, fun ev h => by cases h⟩
    | ok wire =>
      dsimp only
      have hw : ∀ w ∈ s.handed, w ∈ s.handed ++ [wire] := fun w h => List.mem_append_left _ h
      cases s.sends with
      | nil => exact ⟨⟨hw, gs _⟩, ⟨hc', ha, hb⟩, fun ev h => by cases h⟩
      | cons x rest =>
        cases x with
        | error x => exact ⟨⟨hw, good_append (gs _) good_nil⟩, ⟨hc', ha, hb⟩, fun ev h => by cases h⟩
        | ok u =>
          dsimp only
          have gsent : Good C ctx p stack tr (s.handed ++ [wire]) ins (sentL tr wire (.ok ())) := by
            refine good_one (.inl (by evt)) fun a ha => ?_
            simp only [debug, List.mem_cons, List.not_mem_nil, or_false] at ha
            rcases ha with rfl | rfl
            · exact .sent wire (by simp)
            · exact .transport
          unfold Sys.receiveL
          dsimp only
          cases hr : s.recvs with
          | nil =>
            rw [hr] at hb
            exact ⟨⟨hw, good_append (good_append (gs _) gsent) good_nil⟩, ⟨hc', ha, hb⟩, fun ev h => by cases h⟩
          | cons y rs =>
            rw [hr] at hb
            cases y with
            | error y =>
              exact ⟨⟨hw, good_append (good_append (gs _) gsent) good_nil⟩, ⟨hc', ha, hb⟩, fun ev h => by cases h⟩
            | ok d =>
              dsimp only
              obtain ⟨k1, k2⟩ := good_receive (C := C) (ctx := ctx) (p := p) (stack := stack) (tr := tr)
                (handed := s.handed ++ [wire]) (c := c) (d := d) (rest := inputs rs) hb
              obtain ⟨f1, f2⟩ := receiveDataL_frame c d
              obtain ⟨i1, i2, i3, i4, i5⟩ := good_loop (C := C) (ctx := ctx) (p := p) (stack := stack) (tr := tr)
                (handed := s.handed ++ [wire]) (ins := ins) rs (c := (c.receiveDataL d).2) (by rw [f1]; exact hc') k2
              unfold Sys.nextEventL
              dsimp only
              refine ⟨⟨hw, good_append (good_append (good_append (gs _) gsent) k1) i1⟩, ⟨i3, ?_, i2⟩, i5⟩
              rw [i4, f2]
              exact ha

theorem lifts_good (ins : List Bytes) : Lifts p tr C (Inv ctx ins) (FromDevice C ctx ins) (fun s l s' =>
    (∀ w ∈ s.handed, w ∈ s'.handed) ∧ Good C ctx p stack tr s'.handed ins l) where
  nil s _ := ⟨fun w h => h, good_nil⟩
  append s s' s'' l l' h h' := ⟨fun w hw => h'.1 w (h.1 w hw), good_append (good_mono h'.1 h.2) h'.2⟩
  record s r _ h := by
    refine ⟨fun w h => h, ?_⟩
    cases h with
    | text ev h =>
      refine good_one (.inl ?_) (fun a ha => by cases ha)
      simp only [info]; revert ev; decide
    | time ev h t =>
      refine good_one (.inl ?_) (fun a ha => ?_)
      · simp only [info]; revert ev; decide
      · rw [List.mem_singleton.1 ha]; exact .time t
    | number ev h name n =>
      refine good_one (.inl ?_) (fun a ha => ?_)
      · simp only [info]; revert ev; decide
      · rw [List.mem_singleton.1 ha]; exact .number n
    | pages rs h =>
      refine good_one (.inl (by evt)) (fun a ha => ?_)
      rw [List.mem_singleton.1 ha]
      exact .pages rs h
  exchange s e h _ := good_exchange s e h
end

/-- C77. The log of an encrypting client, over any calls on a new client and whatever the transport does: each record
has one of the fixed texts, and each argument prints like a value of the kinds in `Spec.Shown`: numbers, times, the
transport object, requests with an empty password, encrypted bodies, data handed to the transport, and what came
from the device. The password and the key are in none of them other than by way of encryption. -/
theorem C77_encrypted_log (p : Printing) (stack : List String) (tr : PyVal) (C : BlockCipher) (a : ClientArgs)
    (key : Bytes) (keyId : Int) (hk : a.encryptionKey = some key) (hne : key ≠ []) (hid : a.encryptionKeyId = some keyId)
    (sends : List (Res Unit)) (recvs : List (Res Bytes)) (rands : Nat → Rand) (s : Sys)
    (hm : mkClient a sends recvs rands = .ok s) (ks : List Call) :
    ∀ r ∈ (callsL p tr C s ks).1, IsEventText r.event ∧ ∀ x ∈ r.args, ∃ v, x.2.repr p stack = v.repr p stack ∧
      Shown C ⟨keyId, key⟩ p tr (calls C s ks).2.handed (inputs recvs) v := by
  have hI : Inv ⟨keyId, key⟩ (inputs recvs) s := by
    unfold mkClient at hm
    rw [bind_eq_ok] at hm
    obtain ⟨conn, hc, hm⟩ := hm
    replace hm := (Except.ok.inj hm).symm
    obtain ⟨-, hc⟩ := mkConn_ok hc
    have hkey : toSecretByte a.encryptionKey = some key := by
      rw [hk]
      cases key with
      | nil => exact absurd rfl hne
      | cons b key => rfl
    rw [hm, hc]
    refine ⟨?_, ⟨rfl, rfl, rfl, rfl⟩, [], [], rfl, rfl⟩
    show createCipherContext _ = _
    unfold createCipherContext
    dsimp only
    rw [hkey, hid]
  have := (calls_lift (lifts_good (C := C) (ctx := ⟨keyId, key⟩) (p := p) (stack := stack) (tr := tr) (inputs recvs))
    s ks hI).1.2
  rw [callsL_erase] at this
  exact this

/-! ### C78: the log as a record of what happened -/

/-- The text of a change of state. -/
def changeText (s s' : PState) : String := "Elgas state transitioned from " ++ s.name ++ " to " ++ s'.name

/-- C78. What `send` logs: the request first; then the change of state exactly if the request is not refused; then the
frame object, if the call returns data, and this data is what the object makes of itself. -/
theorem C78_send (p : Printing) (secret : Bool) (C : BlockCipher) (c : Conn) (e : Event) (r : Rand) :
    (∀ x, processEvent c.state e = .error x →
      (c.sendL p secret C e r).1 = [debug "Sending request PDU" [("pdu", eventVal p secret e)]]) ∧
    (∀ s', processEvent c.state e = .ok s' → ∃ l,
      (c.sendL p secret C e r).1 = [debug "Sending request PDU" [("pdu", eventVal p secret e)],
        debug (changeText c.state s')] ++ l ∧
      (c.send C e r).1.state = s' ∧
      (l = [] ∨ ∃ v, l = [debug "Sending ELGAS request" [("request", v)]])) ∧
    (∀ wire, (c.send C e r).2 = .ok wire → ∃ v f,
      (c.sendL p secret C e r).1 = [debug "Sending request PDU" [("pdu", eventVal p secret e)],
        debug (changeText c.state (c.send C e r).1.state), debug "Sending ELGAS request" [("request", v)]] ∧
      (c.cipherContext = none ∧ v = frameVal "Request" f .bytes ∧
        requestToBytes requestType f >>= escapeCharacters = .ok wire ∨
       c.cipherContext ≠ none ∧ v = frameVal "EncryptedRequest" f .bytearray ∧
        requestToBytes encryptedRequestType f >>= escapeCharacters = .ok wire)) := by
  refine ⟨fun x hx => ?_, fun s' hs => ?_, fun wire hw => ?_⟩
  · unfold Conn.sendL
    unfold processEvent at hx
    unfold processEventL
    cases ht : transitions c.state e.type with
    | none => rfl
    | some s' => rw [ht] at hx; cases hx
  · have hx : (c.send C e r).1.state = s' := by rw [send_accepted hs]
    unfold Conn.sendL
    unfold processEvent at hs
    unfold processEventL
    cases ht : transitions c.state e.type with
    | none => rw [ht] at hs; cases hs
    | some s'' =>
      rw [ht] at hs
      have := Except.ok.inj hs
      subst this
      refine ⟨_, rfl, hx, ?_⟩
      unfold Conn.serialiseL
      cases ({ c with state := s'' } : Conn).requestObject C e r with
      | error x => exact .inl rfl
      | ok x => exact .inr ⟨_, rfl⟩
  · obtain ⟨s', enc, f, h1, h0, h2, h3⟩ := sendL_ok (p := p) (secret := secret) hw
    rw [h2, send_accepted h1]
    refine ⟨_, f, rfl, ?_⟩
    unfold Conn.requestObject at h0
    rw [bind_eq_ok] at h0
    obtain ⟨body, _, h0⟩ := h0
    cases hc : c.cipherContext with
    | none =>
      rw [hc] at h0
      dsimp only at h0
      rw [bind_eq_ok] at h0
      obtain ⟨svc, _, h0⟩ := h0
      cases Except.ok.inj h0
      exact .inl ⟨rfl, rfl, h3⟩
    | some ctx =>
      rw [hc] at h0
      dsimp only at h0
      rw [bind_eq_ok] at h0
      obtain ⟨svc, _, h0⟩ := h0
      rw [bind_eq_ok] at h0
      obtain ⟨ct, _, h0⟩ := h0
      cases Except.ok.inj h0
      exact .inr ⟨by simp, rfl, h3⟩

/-- The records of a poll before a response has been understood. -/
def pollTexts : List String :=
  ["Received ELGAS response", "Decrypted ELGAS response", "Buffer empty. Need more data",
   "No end char in data. Need more data", "Cannot interpret data as frame. Need more data"]

theorem interpretL_texts (C : BlockCipher) (c : Conn) (line : Bytes) :
    ∀ r ∈ (c.interpretL C line).1, r.event ∈ pollTexts := by
  have two : ∀ v w, ∀ r ∈ [debug "Received ELGAS response" v] ++ [debug "Decrypted ELGAS response" w],
      r.event ∈ pollTexts := by
    intro v w r hr
    simp only [List.cons_append, List.nil_append, List.mem_cons, List.not_mem_nil, or_false] at hr
    rcases hr with rfl | rfl <;> simp only [debug] <;> decide
  have one : ∀ v, ∀ r ∈ [debug "Received ELGAS response" v], r.event ∈ pollTexts :=
    fun v r hr => two v [] r (List.mem_append_left _ hr)
  unfold Conn.interpretL
  cases returnCharacters line with
  | error x => exact fun r hr => by cases hr
  | ok raw =>
    dsimp only
    cases responseFactory raw with
    | error x => exact fun r hr => by cases hr
    | ok ef =>
      obtain ⟨enc, f⟩ := ef
      cases enc with
      | false => exact one _
      | true =>
        dsimp only
        rw [if_pos rfl]
        cases c.cipherContext with
        | none => exact one _
        | some ctx =>
          dsimp only
          cases ctx.decrypt C f.data with
          | error x => exact one _
          | ok d => exact two _ _

theorem nextEventL_line {p : Printing} {C : BlockCipher} {c : Conn} {w rest : Bytes} (h : 0x0D ∉ w)
    (hb : c.buffer = w ++ 0x0D :: rest) :
    (c.nextEventL p C).1 =
      match c.interpretL C (w ++ [0x0D]) with
      | (l, .error e) => if e.isValueError then l ++ [debug "Cannot interpret data as frame. Need more data"] else l
      | (l, .ok response) =>
        match pduFromResponse response with
        | .error _ => l
        | .ok pdu => l ++ [info "Received PDU" [("pdu", eventVal p false pdu)]] ++ (processEventL c.state pdu).1 := by
  have hne : c.buffer.isEmpty = false := by rw [hb]; cases w <;> simp
  unfold Conn.nextEventL
  rw [hne, hb, indexEnd_line h]
  have : sliceTo (w ++ 0x0D :: rest) ((w.length : Int) + 1) = w ++ [0x0D] := by
    rw [show ((w.length : Int) + 1) = ((w.length + 1 : Nat) : Int) by omega, sliceTo_nat]
    rw [List.take_append, List.take_of_length_le (by omega)]; simp
  simp only [this, Bool.false_eq_true, if_false]
  cases c.interpretL C (w ++ [0x0D]) with
  | mk l o =>
    cases o with
    | error x => dsimp only; split <;> rfl
    | ok f =>
      dsimp only
      cases pduFromResponse f with
      | error x => rfl
      | ok pdu =>
        dsimp only
        cases processEventL c.state pdu with
        | mk l' o => cases o <;> rfl

/-- C78. What polling logs: if the first line in the buffer is a response that means `pdu`, then, after records of
other kinds, that `pdu` has been received, whether or not it was awaited, and after that the change of state exactly
if it was awaited. -/
theorem C78_response (p : Printing) (C : BlockCipher) (c : Conn) (w rest : Bytes) (hw : 0x0D ∉ w)
    (hb : c.buffer = w ++ 0x0D :: rest) (pdu : Event) (h : Response C c.cipherContext (w ++ [0x0D]) pdu) :
    ∃ l, (∀ r ∈ l, r.event ∈ pollTexts) ∧
      (c.nextEventL p C).1 = l ++ [info "Received PDU" [("pdu", eventVal p false pdu)]] ++
        (if awaits c.state = some pdu.type then [debug (changeText c.state .idle)] else []) := by
  obtain ⟨w', svc, data, he, hw', hdel, hone, hdec⟩ := h
  have hres : responseOf pdu.type = none := by cases hdec <;> rfl
  obtain ⟨f, h1, h2, h3⟩ := interpret_plain hdel hone
  rw [← h1, ← h2] at hdec
  have hp := pdu_decodes.2 hdec
  rw [nextEventL_line hw hb]
  have hx := interpretL_erase C c (w ++ [0x0D])
  have ht := interpretL_texts C c (w ++ [0x0D])
  rw [h3] at hx
  cases hi : c.interpretL C (w ++ [0x0D]) with
  | mk l o =>
    rw [hi] at hx ht
    dsimp only at hx
    subst hx
    refine ⟨l, ht, ?_⟩
    dsimp only
    rw [hp]
    dsimp only
    congr 1
    have ha : (∃ s', processEvent c.state pdu = .ok s') → awaits c.state = some pdu.type := by
      rintro ⟨s', hs⟩
      rcases (processEvent_iff _ _ _).1 hs with ⟨_, u, h, _⟩ | h
      · rw [hres] at h; cases h
      · exact h.1
    unfold processEventL
    by_cases haw : awaits c.state = some pdu.type
    · have hs := (processEvent_iff c.state .idle pdu).2 (.inr ⟨haw, rfl⟩)
      unfold processEvent at hs
      cases hq : transitions c.state pdu.type with
      | none => rw [hq] at hs; cases hs
      | some s' =>
        rw [hq] at hs
        rw [Except.ok.inj hs, if_pos haw]
        rfl
    · rw [if_neg haw]
      cases hq : transitions c.state pdu.type with
      | none => rfl
      | some s' =>
        exfalso
        apply haw
        apply ha
        refine ⟨s', ?_⟩
        unfold processEvent
        rw [hq]

/-- C78. If the first line is not such a response, or there is no complete line, then the log has none of these. -/
theorem C78_no_response (p : Printing) (C : BlockCipher) (c : Conn)
    (h : ∀ w rest pdu, c.buffer = w ++ 0x0D :: rest → 0x0D ∉ w → ¬ Response C c.cipherContext (w ++ [0x0D]) pdu) :
    ∀ r ∈ (c.nextEventL p C).1, r.event ∈ pollTexts := by
  rcases line_cases c.buffer with hn | ⟨w, rest, hb, hw⟩
  · unfold Conn.nextEventL
    rw [indexEnd_none hn]
    intro r hr
    split at hr
    · rw [List.mem_singleton.1 hr]; simp only [debug]; decide
    · rw [List.mem_singleton.1 hr]; simp only [debug]; decide
  · rw [nextEventL_line hw hb]
    have hx := interpretL_erase C c (w ++ [0x0D])
    have ht := interpretL_texts C c (w ++ [0x0D])
    cases hi : c.interpretL C (w ++ [0x0D]) with
    | mk l o =>
      rw [hi] at hx ht
      cases o with
      | error x =>
        dsimp only
        split
        · intro r hr
          rcases List.mem_append.1 hr with hr | hr
          · exact ht r hr
          · rw [List.mem_singleton.1 hr]; simp only [debug]; decide
        · exact ht
      | ok f =>
        dsimp only
        cases hp : pduFromResponse f with
        | error x => exact ht
        | ok pdu =>
          exfalso
          obtain ⟨hd, ho⟩ := interpret_ok hx.symm
          exact h w rest pdu hb hw ⟨w, _, _, rfl, hw, hd, ho, pdu_decodes.1 hp⟩

/-! Data sent and received -/

/-- No record of data sent or received. -/
def Silent (l : List Record) : Prop := ∀ r ∈ l, r.event ≠ "Sent data" ∧ r.event ≠ "Received data"

theorem silent_append {l l' : List Record} (h : Silent l) (h' : Silent l') : Silent (l ++ l') := by
  intro r hr
  rcases List.mem_append.1 hr with hr | hr
  · exact h r hr
  · exact h' r hr

theorem dataOf_append (ev : String) (l l' : List Record) : dataOf ev (l ++ l') = dataOf ev l ++ dataOf ev l' :=
  List.filterMap_append ..

theorem dataOf_silent {ev : String} {l : List Record} (h : ∀ r ∈ l, r.event ≠ ev) : dataOf ev l = [] := by
  unfold dataOf
  rw [List.filterMap_eq_nil_iff]
  intro r hr
  rw [if_neg (h r hr)]

theorem silent_data {l : List Record} (h : Silent l) : sentData l = [] ∧ receivedData l = [] :=
  ⟨dataOf_silent fun r hr => (h r hr).1, dataOf_silent fun r hr => (h r hr).2⟩

theorem sentData_append (l l' : List Record) : sentData (l ++ l') = sentData l ++ sentData l' := dataOf_append ..
theorem receivedData_append (l l' : List Record) : receivedData (l ++ l') = receivedData l ++ receivedData l' :=
  dataOf_append ..

theorem silent_change (s : PState) (e : Event) : Silent (processEventL s e).1 := by
  unfold processEventL
  cases transitions s e.type with
  | none => exact fun r hr => by cases hr
  | some s' =>
    intro r hr
    rw [List.mem_singleton.1 hr]
    simp only [debug]
    clear hr
    have : ∀ s s' : PState, "Elgas state transitioned from " ++ s.name ++ " to " ++ s'.name ≠ "Sent data" ∧
        "Elgas state transitioned from " ++ s.name ++ " to " ++ s'.name ≠ "Received data" := by
      intro s s'
      cases s <;> cases s' <;> decide
    exact this s s'

theorem silent_poll_text {l : List Record} (h : ∀ r ∈ l, r.event ∈ pollTexts) : Silent l := by
  intro r hr
  have := h r hr
  revert this
  generalize r.event = ev
  revert ev
  decide

theorem silent_debug (ev : String) (as : List (String × PyVal)) (h : ev ≠ "Sent data" ∧ ev ≠ "Received data") :
    Silent [debug ev as] := fun r hr => by rw [List.mem_singleton.1 hr]; exact h

theorem silent_send (p : Printing) (secret : Bool) (C : BlockCipher) (c : Conn) (e : Event) (r : Rand) :
    Silent (c.sendL p secret C e r).1 := by
  unfold Conn.sendL
  dsimp only
  have h0 := silent_debug "Sending request PDU" [("pdu", eventVal p secret e)] (by decide)
  have h1 := silent_change c.state e
  cases hp : processEventL c.state e with
  | mk l o =>
    rw [hp] at h1
    cases o with
    | error x => exact silent_append h0 h1
    | ok s' =>
      refine silent_append (silent_append h0 h1) ?_
      unfold Conn.serialiseL
      cases ({ c with state := s' } : Conn).requestObject C e r with
      | error x => exact fun r hr => by cases hr
      | ok x => exact silent_debug _ _ (by decide)

theorem silent_receive (c : Conn) (d : Bytes) : Silent (c.receiveDataL d).1 := by
  unfold Conn.receiveDataL
  split
  · exact fun r hr => by cases hr
  · split
    · intro r hr
      rw [List.mem_singleton.1 hr]
      simp only [info]
      decide
    · exact silent_debug _ _ (by decide)

theorem silent_poll (p : Printing) (C : BlockCipher) (c : Conn) : Silent (c.nextEventL p C).1 := by
  by_cases h : ∀ w rest pdu, c.buffer = w ++ 0x0D :: rest → 0x0D ∉ w → ¬ Response C c.cipherContext (w ++ [0x0D]) pdu
  · exact silent_poll_text (C78_no_response p C c h)
  · have : ∃ w rest pdu, c.buffer = w ++ 0x0D :: rest ∧ 0x0D ∉ w ∧ Response C c.cipherContext (w ++ [0x0D]) pdu := by
      apply Classical.byContradiction
      intro hn
      exact h fun w rest pdu hb hw hr => hn ⟨w, rest, pdu, hb, hw, hr⟩
    obtain ⟨w, rest, pdu, hb, hw, hr⟩ := this
    obtain ⟨l, hl, e⟩ := C78_response p C c w rest hw hb pdu hr
    rw [e]
    refine silent_append (silent_append (silent_poll_text hl) ?_) ?_
    · intro r hr
      rw [List.mem_singleton.1 hr]
      simp only [info]
      decide
    · split
      · have := silent_change c.state pdu
        unfold processEventL at this
        next ha =>
        have hs := (processEvent_iff c.state .idle pdu).2 (.inr ⟨ha, rfl⟩)
        unfold processEvent at hs
        cases hq : transitions c.state pdu.type with
        | none => rw [hq] at hs; cases hs
        | some s' =>
          rw [hq] at hs this
          rw [Except.ok.inj hs] at this
          exact this
      · exact fun r hr => by cases hr

theorem data_received (tr : PyVal) (d : Bytes) :
    sentData (receivedL tr (.ok d)) = [] ∧ receivedData (receivedL tr (.ok d)) = [d] := ⟨rfl, rfl⟩

theorem data_sent (tr : PyVal) (d : Bytes) :
    sentData (sentL tr d (.ok ())) = [d] ∧ receivedData (sentL tr d (.ok ())) = [] := ⟨rfl, rfl⟩

theorem loop_data (p : Printing) (tr : PyVal) (C : BlockCipher) (rs : List (Res Bytes)) : ∀ c : Conn,
    sentData (nextEventLoopL p tr C c rs).1 = [] ∧
    receivedData (nextEventLoopL p tr C c rs).1 ++ inputs (nextEventLoopL p tr C c rs).2.2.2 = inputs rs := by
  induction rs with
  | nil =>
    intro c
    have hs := silent_data (silent_poll p C c)
    unfold nextEventLoopL
    cases hx : c.nextEventL p C with
    | mk l o =>
      obtain ⟨c', o⟩ := o
      rw [hx] at hs
      cases o with
      | error x => exact ⟨hs.1, by rw [hs.2]; rfl⟩
      | ok o => cases o <;> exact ⟨hs.1, by rw [hs.2]; rfl⟩
  | cons r rs ih =>
    intro c
    have hs := silent_data (silent_poll p C c)
    unfold nextEventLoopL
    cases hx : c.nextEventL p C with
    | mk l o =>
      obtain ⟨c', o⟩ := o
      rw [hx] at hs
      cases o with
      | error x => exact ⟨hs.1, by rw [hs.2]; rfl⟩
      | ok o =>
        cases o with
        | some ev => exact ⟨hs.1, by rw [hs.2]; rfl⟩
        | none =>
          cases r with
          | error x =>
            dsimp only [receivedL]
            rw [List.append_nil]
            exact ⟨hs.1, by rw [hs.2]; rfl⟩
          | ok d =>
            dsimp only
            obtain ⟨i1, i2⟩ := ih (c'.receiveDataL d).2
            obtain ⟨k1, k2⟩ := silent_data (silent_receive c' d)
            obtain ⟨q1, q2⟩ := data_received tr d
            rw [sentData_append, sentData_append, sentData_append, receivedData_append, receivedData_append,
              receivedData_append, hs.1, hs.2, k1, k2, q1, q2]
            refine ⟨by simpa using i1, ?_⟩
            show [] ++ [d] ++ [] ++ _ ++ _ = d :: inputs rs
            rw [← i2]
            simp

/-- The frames handed over and the outcomes of `transport.send` correspond. -/
def Matched (sends0 : List (Res Unit)) (s : Sys) : Prop :=
  ∃ done, sends0 = done ++ s.sends ∧
    (s.handed.length = done.length ∨ s.sends = [] ∧ done.length ≤ s.handed.length)

theorem sentOf_more {handed : List Bytes} {sends : List (Res Unit)} (w : Bytes) (h : sends.length ≤ handed.length) :
    sentOf (handed ++ [w]) sends = sentOf handed sends := by
  unfold sentOf
  have : (handed ++ [w]).zip sends = handed.zip sends := by
    induction sends generalizing handed with
    | nil => simp
    | cons x sends ih =>
      cases handed with
      | nil => simp at h
      | cons y handed =>
        simp only [List.cons_append, List.zip_cons_cons]
        rw [ih (by simpa using h)]
  rw [this]

theorem sentOf_next {handed : List Bytes} {done : List (Res Unit)} (w : Bytes) (x : Res Unit) (rest : List (Res Unit))
    (h : handed.length = done.length) :
    sentOf (handed ++ [w]) (done ++ x :: rest) = sentOf handed (done ++ x :: rest) ++ sentOf [w] [x] := by
  unfold sentOf
  rw [List.zip_append h]
  have : handed.zip (done ++ x :: rest) = handed.zip done := by
    have := List.zip_append (l₁ := handed) (r₁ := []) (l₂ := done) (r₂ := x :: rest) h
    simpa using this
  rw [this, List.filterMap_append]
  simp

theorem trail_exchange (p : Printing) (tr : PyVal) (C : BlockCipher) (sends0 : List (Res Unit)) (s : Sys) (e : Event)
    (hI : Matched sends0 s) :
    (sentOf (s.exchangeL p tr C e).2.2.handed sends0 = sentOf s.handed sends0 ++ sentData (s.exchangeL p tr C e).1 ∧
      receivedData (s.exchangeL p tr C e).1 ++ inputs (s.exchangeL p tr C e).2.2.recvs = inputs s.recvs) ∧
    Matched sends0 (s.exchangeL p tr C e).2.2 := by
  have hs := silent_data (silent_send p true C s.conn e (s.rands s.draws))
  obtain ⟨done, hd, hlen⟩ := hI
  unfold Sys.exchangeL Sys.sendL
  cases hx : s.conn.sendL p true C e (s.rands s.draws) with
  | mk l o =>
    obtain ⟨c, o⟩ := o
    rw [hx] at hs
    obtain ⟨hs1, hs2⟩ := hs
    cases o with
    | error x => exact ⟨⟨by rw [hs1]; simp, by rw [hs2]; rfl⟩, done, hd, hlen⟩
    | ok w =>
      dsimp only
      cases hss : s.sends with
      | nil =>
        rw [hss, List.append_nil] at hd
        have hle : done.length ≤ s.handed.length := by rcases hlen with h | h <;> omega
        refine ⟨⟨?_, by rw [hs2]; rfl⟩, done, by simp [hd], .inr ⟨rfl, by simp; omega⟩⟩
        rw [hs1, hd, sentOf_more w hle, List.append_nil]
      | cons x rest =>
        have hl : s.handed.length = done.length := by
          rcases hlen with h | ⟨h, _⟩
          · exact h
          · rw [hss] at h; cases h
        rw [hss] at hd
        have hm : ∀ s' : Sys, s'.sends = rest → s'.handed = s.handed ++ [w] → Matched sends0 s' := by
          intro s' h1 h2
          exact ⟨done ++ [x], by rw [hd, h1]; simp, .inl (by rw [h2]; simp [hl])⟩
        have hnext := sentOf_next w x rest hl
        rw [← hd] at hnext
        cases x with
        | error x =>
          dsimp only [sentL]
          refine ⟨⟨?_, by rw [List.append_nil, hs2]; rfl⟩, hm _ rfl rfl⟩
          rw [List.append_nil, hs1, hnext]
          rfl
        | ok u =>
          dsimp only
          obtain ⟨q1, q2⟩ := data_sent tr w
          have hu : sentOf [w] [.ok u] = [w] := rfl
          rw [hu] at hnext
          unfold Sys.receiveL
          dsimp only
          cases hr : s.recvs with
          | nil =>
            refine ⟨⟨?_, ?_⟩, hm _ rfl rfl⟩
            · dsimp only
              rw [hnext, List.append_nil, sentData_append, hs1, q1, List.nil_append]
            · dsimp only
              rw [List.append_nil, receivedData_append, hs2, q2]
              rfl
          | cons y rs =>
            cases y with
            | error y =>
              refine ⟨⟨?_, ?_⟩, hm _ rfl rfl⟩
              · dsimp only [receivedL]
                rw [hnext, List.append_nil, sentData_append, hs1, q1, List.nil_append]
              · dsimp only [receivedL]
                rw [List.append_nil, receivedData_append, hs2, q2]
                rfl
            | ok d =>
              dsimp only
              unfold Sys.nextEventL
              dsimp only
              obtain ⟨k1, k2⟩ := silent_data (silent_receive c d)
              obtain ⟨i1, i2⟩ := loop_data p tr C rs (c.receiveDataL d).2
              obtain ⟨g1, g2⟩ := data_received tr d
              refine ⟨⟨?_, ?_⟩, hm _ rfl rfl⟩
              · rw [hnext, sentData_append, sentData_append, sentData_append, sentData_append, hs1, q1, g1, k1, i1]
                simp
              · rw [receivedData_append, receivedData_append, receivedData_append, receivedData_append, hs2, q2, g2, k2]
                show [] ++ [] ++ ([d] ++ []) ++ _ ++ _ = d :: inputs rs
                rw [← i2]
                simp

theorem lifts_trail (p : Printing) (tr : PyVal) (C : BlockCipher) (sends0 : List (Res Unit)) :
    Lifts p tr C (Matched sends0) (fun _ => True) (fun s l s' =>
      sentOf s'.handed sends0 = sentOf s.handed sends0 ++ sentData l ∧
      receivedData l ++ inputs s'.recvs = inputs s.recvs) where
  nil s _ := ⟨by simp [sentData, dataOf], rfl⟩
  append s s' s'' l l' h h' := ⟨by rw [h'.1, h.1, sentData_append, List.append_assoc],
    by rw [receivedData_append, List.append_assoc, h'.2, h.2]⟩
  record s r _ h := by
    have hsil : Silent [r] := by
      intro r' hr
      rw [List.mem_singleton.1 hr]
      clear hr
      cases h with
      | text ev h => simp only [info]; revert ev; decide
      | time ev h t => simp only [info]; revert ev; decide
      | number ev h n i => simp only [info]; revert ev; decide
      | pages rs h => simp only [debug]; decide
    obtain ⟨h1, h2⟩ := silent_data hsil
    rw [h1, h2]
    exact ⟨(List.append_nil _).symm, rfl⟩
  exchange s e h _ := by
    obtain ⟨h1, h2⟩ := trail_exchange p tr C sends0 s e h
    exact ⟨h1, h2, fun _ _ => trivial⟩

/-- C78. The log is a faithful record of the traffic, over any calls on a new client and whatever the transport does:
the data in the records "Sent data" is, in order, exactly the frames handed to the transport that it sent, and the data
in the records "Received data" exactly what it delivered. -/
theorem C78_traffic (p : Printing) (tr : PyVal) (C : BlockCipher) (a : ClientArgs) (sends : List (Res Unit))
    (recvs : List (Res Bytes)) (rands : Nat → Rand) (s : Sys) (hm : mkClient a sends recvs rands = .ok s)
    (ks : List Call) :
    sentData (callsL p tr C s ks).1 = sentOf (calls C s ks).2.handed sends ∧
    receivedData (callsL p tr C s ks).1 ++ inputs (calls C s ks).2.recvs = inputs recvs := by
  unfold mkClient at hm
  rw [bind_eq_ok] at hm
  obtain ⟨conn, hc, hm⟩ := hm
  replace hm := (Except.ok.inj hm).symm
  have hI : Matched sends s := by rw [hm]; exact ⟨[], rfl, .inl rfl⟩
  have := (calls_lift (lifts_trail p tr C sends) s ks hI).1
  rw [callsL_erase] at this
  obtain ⟨h1, h2⟩ := this
  have h0 : sentOf s.handed sends = [] := by rw [hm]; rfl
  rw [h0, List.nil_append] at h1
  exact ⟨h1.symm, by rw [h2, hm]⟩


/-! Examples -/

/-- The event texts of some calls on a new client, and the data its log says was sent and received. -/
def exTrail (a : ClientArgs) (sends : List (Res Unit)) (recvs : List (Res Bytes)) (ks : List Call) :
    Res (List String × List Bytes × List Bytes) :=
  (mkClient a sends recvs (fun _ => ⟨('a', 'b'), fun _ => 0⟩)).map fun s =>
    let l := (callsL exPrint (.foreign "T".toList) idCipher s ks).1
    (l.map (·.event), sentData l, receivedData l)

-- C77: a client with a key, and the events of an answered call
example : exSecretArgs.encryptionKey = some (List.replicate 16 7) ∧ exSecretArgs.encryptionKeyId = some 1 ∧
    (mkClient exSecretArgs [.ok ()] [.ok exSecretLine] (fun _ => ⟨('a', 'b'), fun _ => 0⟩)).isOk = true ∧
    (exTrail exSecretArgs [.ok ()] [.ok exSecretLine] [.readTime]).map (·.1) = .ok
      ["Reading device time", "Sending request PDU",
       "Elgas state transitioned from IDLE to AWAITING_READ_TIME_RESPONSE",
       "Sending ELGAS request", "Sent data", "Received data", "Added data to connection buffer",
       "Received ELGAS response", "Decrypted ELGAS response", "Received PDU",
       "Elgas state transitioned from AWAITING_READ_TIME_RESPONSE to IDLE", "Got device time"] :=
  ⟨rfl, rfl, by decide +kernel, by decide +kernel⟩

-- C77: the log of a call with a password: no text has the password in it
example : exTexts exSecretClient [] = .ok [["Reading instantaneous values".toList],
    ["Sending request PDU".toList, "pdu=ReadInstantaneousValuesRequest(password=<SECRET>)".toList],
    ["Elgas state transitioned from IDLE to AWAITING_READ_ACTUAL_VALUES_RESPONSE".toList],
    ["Sending ELGAS request".toList, ("request=EncryptedRequest(service=<ServiceNumber.READ_VALUES: 100>, " ++
      "destination_address_1=0, destination_address_2=0, source_address_1=0, source_address_2=0, " ++
      "data=bytearray(b'\\n\\x00\\x05 #\"psr`B #AAAA\\xab\\x02'))").toList],
    ["Sent data".toList, ("data=b'\\x02\\xfe\\x85d\"\\x00\\x00\\x00\\x00\\x00\\x00\\x00\\n\\x00\\x05 " ++
      "#\"psr`B #AAAA\\xab\\x02\\xeah\\xf4\\r'").toList, "transport=T".toList]] := by decide +kernel

-- C78: three calls: one answered in two pieces, one that is sent and never answered, one that is refused
example : (exTrail exArgs [.ok (), .ok ()] (exTimeRecvs.take 4) [.readTime, .readTime, .readTime]).map
      (fun x => (x.2.1.length, x.2.2.map (·.length))) = .ok (2, [0, 1, 7, 18]) := by decide +kernel

-- C78: a frame the transport fails to send is handed over but not in the log
example : (exTrail exArgs [.error (.elgas .communication)] [] [.readTime]).map (·.2) = .ok ([], []) := by decide +kernel

-- C78: a buffer whose first line is a response
example : ∃ pdu, Response idCipher exConn.cipherContext exPlainLine pdu ∧ pdu.type = .readTimeResponse := by
  have h : (exConn.interpret idCipher exPlainLine).isOk = true := by decide +kernel
  cases hi : exConn.interpret idCipher exPlainLine with
  | error x => rw [hi] at h; cases h
  | ok f =>
    obtain ⟨h1, h2⟩ := interpret_ok hi
    have hp : (exConn.interpret idCipher exPlainLine >>= pduFromResponse).map (·.type) = .ok .readTimeResponse := by
      decide +kernel
    rw [hi] at hp
    change (pduFromResponse f).map _ = _ at hp
    cases hq : pduFromResponse f with
    | error x => rw [hq] at hp; cases hp
    | ok pdu =>
      rw [hq] at hp
      refine ⟨pdu, ⟨exPlainLine.dropLast, _, _, by decide +kernel, by decide +kernel, h1, h2, pdu_decodes.1 hq⟩, Except.ok.inj hp⟩

end Elgas
