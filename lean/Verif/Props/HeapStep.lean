import Verif.Spec.Heap
import Verif.Props.Own
/-!
C92, first part: every statement of a program with several connections and clients, on the objects it names.
-/
namespace Elgas
open Spec

/-- All references lead somewhere, and no two connections share a buffer. -/
structure WF (h : Heap) : Prop where
  buf : ∀ (k : Nat) (o : ConnObj), h.conns[k]? = some o → o.buffer < h.buffers.length
  st : ∀ (k : Nat) (o : ConnObj), h.conns[k]? = some o → o.state < h.states.length
  own : ∀ (k k' : Nat) (o o' : ConnObj), h.conns[k]? = some o → h.conns[k']? = some o' → o.buffer = o'.buffer → k = k'
  trans : ∀ (j : Nat) (o : ClientObj), h.clients[j]? = some o → o.transport < h.transports.length
  con : ∀ (j : Nat) (o : ClientObj), h.clients[j]? = some o → o.connection < h.conns.length

theorem wf_empty : WF {} := ⟨by simp, by simp, by simp, by simp, by simp⟩

theorem conn_some {h : Heap} {k : Nat} {o : ConnObj} {b : Bytes} {s : PState} (ho : h.conns[k]? = some o)
    (hb : h.buffers[o.buffer]? = some b) (hs : h.states[o.state]? = some s) :
    h.conn k = some ⟨o.args, b, s, o.cipherContext⟩ := by
  unfold Heap.conn
  rw [ho]; simp [hb, hs]

theorem conn_cases {h : Heap} {k : Nat} {c : Conn} (hc : h.conn k = some c) :
    ∃ o, h.conns[k]? = some o ∧ h.buffers[o.buffer]? = some c.buffer ∧ h.states[o.state]? = some c.state ∧
      c.args = o.args ∧ c.cipherContext = o.cipherContext := by
  unfold Heap.conn at hc
  cases ho : h.conns[k]? with
  | none => rw [ho] at hc; cases hc
  | some o =>
    rw [ho] at hc
    cases hb : h.buffers[o.buffer]? with
    | none => simp [hb] at hc
    | some b =>
      cases hs : h.states[o.state]? with
      | none => simp [hb, hs] at hc
      | some s =>
        simp [hb, hs] at hc
        subst hc
        exact ⟨o, rfl, hb, hs, rfl, rfl⟩

theorem conn_exists {h : Heap} (hw : WF h) {k : Nat} {o : ConnObj} (ho : h.conns[k]? = some o) :
    ∃ c, h.conn k = some c := by
  have hb := hw.buf k o ho
  have hs := hw.st k o ho
  exact ⟨_, conn_some ho (List.getElem?_eq_getElem hb) (List.getElem?_eq_getElem hs)⟩

/-- Connection `k` of `h` is now `c1`, and nothing else has changed but the contents of the state object. -/
structure Put (h : Heap) (k : Nat) (c1 : Conn) (h' : Heap) : Prop where
  wf : WF h'
  stateOf : ∀ i, Spec.stateOf h' i = Spec.stateOf h i
  conn : h'.conn k = some c1
  other : ∀ i, i ≠ k → h'.conn i =
    (h.conn i).map fun c => if Spec.stateOf h i = Spec.stateOf h k then { c with state := c1.state } else c
  clients : h'.clients = h.clients
  count : h'.states.length = h.states.length
  len : h'.conns.length = h.conns.length

/-- Storing a state and the contents of the buffer in place. -/
theorem put_set {h : Heap} (hw : WF h) {k : Nat} {o : ConnObj} (ho : h.conns[k]? = some o) (s : PState) (b : Bytes)
    (ts : List TransportObj) (hts : ts.length = h.transports.length) :
    Put h k ⟨o.args, b, s, o.cipherContext⟩
      { h with states := h.states.set o.state s, buffers := h.buffers.set o.buffer b, transports := ts } := by
  have hb := hw.buf k o ho
  have hs := hw.st k o ho
  refine ⟨⟨?_, ?_, ?_, ?_, ?_⟩, fun _ => rfl, ?_, ?_, rfl, by simp, rfl⟩
  · intro i o' hi; simpa using hw.buf i o' hi
  · intro i o' hi; simpa using hw.st i o' hi
  · exact fun i i' oi oi' hi hi' he => hw.own i i' oi oi' hi hi' he
  · intro j o' hj; rw [hts]; exact hw.trans j o' hj
  · exact hw.con
  · exact conn_some (h := { h with states := h.states.set o.state s, buffers := h.buffers.set o.buffer b, transports := ts }) ho
      (by simp [hb]) (by simp [hs])
  · intro i hi
    unfold Heap.conn Spec.stateOf
    dsimp only
    rw [ho]
    cases hoi : h.conns[i]? with
    | none => rfl
    | some oi =>
      have hne : o.buffer ≠ oi.buffer := fun he => hi (hw.own i k oi o hoi ho he.symm)
      have hsi := hw.st i oi hoi
      have hbi := hw.buf i oi hoi
      simp only [Option.bind_eq_bind, Option.bind_some, Option.map_some, List.getElem?_set_ne hne,
        List.getElem?_eq_getElem hbi, Option.some.injEq]
      by_cases he : oi.state = o.state
      · rw [he]; simp [hs]
      · rw [List.getElem?_set_ne (Ne.symm he)]
        simp [List.getElem?_eq_getElem hsi, he]

/-- Storing a state, and a new buffer. -/
theorem put_fresh {h : Heap} (hw : WF h) {k : Nat} {o : ConnObj} (ho : h.conns[k]? = some o) (s : PState) :
    Put h k ⟨o.args, [], s, o.cipherContext⟩
      { h with states := h.states.set o.state s, buffers := h.buffers ++ [[]],
               conns := h.conns.set k { o with buffer := h.buffers.length } } := by
  have hb := hw.buf k o ho
  have hs := hw.st k o ho
  have hk : k < h.conns.length := by
    rcases Nat.lt_or_ge k h.conns.length with h1 | h1
    · exact h1
    · rw [List.getElem?_eq_none h1] at ho; cases ho
  have look : ∀ i oi, (h.conns.set k { o with buffer := h.buffers.length })[i]? = some oi →
      (i = k ∧ oi = { o with buffer := h.buffers.length }) ∨ (i ≠ k ∧ h.conns[i]? = some oi) := by
    intro i oi hi
    by_cases he : i = k
    · subst he; simp [hk] at hi; exact .inl ⟨rfl, hi.symm⟩
    · rw [List.getElem?_set_ne (Ne.symm he)] at hi; exact .inr ⟨he, hi⟩
  refine ⟨⟨?_, ?_, ?_, ?_, ?_⟩, ?_, ?_, ?_, rfl, by simp, by simp⟩
  · intro i oi hi
    rcases look i oi hi with ⟨rfl, rfl⟩ | ⟨_, h1⟩
    · simp
    · have := hw.buf i oi h1; simp; omega
  · intro i oi hi
    rcases look i oi hi with ⟨rfl, rfl⟩ | ⟨_, h1⟩
    · simpa using hs
    · simpa using hw.st i oi h1
  · intro i i' oi oi' hi hi' he
    rcases look i oi hi with ⟨rfl, rfl⟩ | ⟨h0, h1⟩
    · rcases look i' oi' hi' with ⟨rfl, rfl⟩ | ⟨h0', h1'⟩
      · rfl
      · have := hw.buf i' oi' h1'; simp at he; omega
    · rcases look i' oi' hi' with ⟨rfl, rfl⟩ | ⟨h0', h1'⟩
      · have := hw.buf i oi h1; simp at he; omega
      · exact hw.own i i' oi oi' h1 h1' he
  · exact hw.trans
  · intro j oj hj; simpa using hw.con j oj hj
  · intro i
    unfold Spec.stateOf
    dsimp only
    by_cases he : i = k
    · subst he; rw [List.getElem?_set_self hk, ho]; rfl
    · rw [List.getElem?_set_ne (Ne.symm he)]
  · refine conn_some (o := { o with buffer := h.buffers.length }) (by simp [hk]) (by simp) (by simp [hs])
  · intro i hi
    unfold Heap.conn Spec.stateOf
    dsimp only
    rw [ho, List.getElem?_set_ne (Ne.symm hi)]
    cases hoi : h.conns[i]? with
    | none => rfl
    | some oi =>
      have hsi := hw.st i oi hoi
      have hbi := hw.buf i oi hoi
      simp only [Option.bind_eq_bind, Option.bind_some, Option.map_some, List.getElem?_append_left hbi,
        List.getElem?_eq_getElem hbi, Option.some.injEq]
      by_cases he : oi.state = o.state
      · rw [he]; simp [hs]
      · rw [List.getElem?_set_ne (Ne.symm he)]
        simp [List.getElem?_eq_getElem hsi, he]

/-- Nothing changed. -/
theorem put_same {h : Heap} (hw : WF h) {k : Nat} {c : Conn} (hc : h.conn k = some c) : Put h k c h := by
  refine ⟨hw, fun _ => rfl, hc, ?_, rfl, rfl, rfl⟩
  intro i hi
  obtain ⟨o, ho, _, hs, _⟩ := conn_cases hc
  cases hci : h.conn i with
  | none => rfl
  | some ci =>
    obtain ⟨oi, hoi, _, hsi, _⟩ := conn_cases hci
    simp only [Option.map_some, Option.some.injEq]
    split
    · next he =>
      unfold Spec.stateOf at he
      rw [ho, hoi] at he
      simp only [Option.map_some, Option.some.injEq] at he
      rw [he, hs] at hsi
      injection hsi with hsi
      rw [hsi]
    · rfl

/-- A call on a connection acts as on the connection it stands for. -/
theorem conn_step {C : BlockCipher} {h : Heap} (hw : WF h) {k : Nat} {c : Conn} (hc : h.conn k = some c) (op : Op) :
    (hstep C h (.conn k op)).2 = .conn (step C c op).2 ∧ Put h k (step C c op).1 (hstep C h (.conn k op)).1 ∧
      (hstep C h (.conn k op)).1.transports = h.transports := by
  obtain ⟨o, ho, hb, hs, ha, hx⟩ := conn_cases hc
  obtain ⟨ca, cb, cs, cx⟩ := c
  dsimp only at hb hs ha hx
  subst ha hx
  have hbs : h.buffers.set o.buffer cb = h.buffers := by
    apply List.ext_getElem?
    intro i
    by_cases hi : o.buffer = i
    · subst hi; rw [List.getElem?_set_self (hw.buf k o ho), hb]
    · rw [List.getElem?_set_ne hi]
  have hss : h.states.set o.state cs = h.states := by
    apply List.ext_getElem?
    intro i
    by_cases hi : o.state = i
    · subst hi; rw [List.getElem?_set_self (hw.st k o ho), hs]
    · rw [List.getElem?_set_ne hi]
  cases op with
  | send e r =>
    simp only [hstep, Heap.send, step, Conn.send, ho, hc, Option.bind_eq_bind, Option.bind_some]
    cases hp : processEvent cs e with
    | error x => exact ⟨rfl, put_same hw hc, rfl⟩
    | ok s' =>
      refine ⟨rfl, ?_, rfl⟩
      have := put_set hw ho s' cb h.transports rfl
      rw [hbs] at this
      exact this
  | receive d =>
    simp only [hstep, Heap.receiveData, step, Conn.receiveData, ho, hc, Option.bind_eq_bind, Option.bind_some]
    by_cases h1 : d.isEmpty
    · simp only [h1, if_true]; exact ⟨rfl, put_same hw hc, rfl⟩
    · by_cases h2 : d = [0x0D] ∧ cb.length = 0
      · simp only [h2, and_self, if_true]; exact ⟨rfl, put_same hw hc, rfl⟩
      · simp only [h1, if_false, h2]
        refine ⟨rfl, ?_, rfl⟩
        have := put_set hw ho cs (cb ++ d) h.transports rfl
        rw [hss] at this
        exact this
  | poll =>
    simp only [hstep, Heap.nextEvent, step, Conn.nextEvent, ho, hc, Option.bind_eq_bind, Option.bind_some]
    by_cases h1 : cb.isEmpty
    · simp only [h1, if_true]; exact ⟨rfl, put_same hw hc, rfl⟩
    · simp only [h1]
      cases h2 : indexEnd cb with
      | none => exact ⟨rfl, put_same hw hc, rfl⟩
      | some i =>
        dsimp only
        cases h3 : Conn.interpret C ⟨o.args, cb, cs, o.cipherContext⟩ (sliceTo cb ((i : Int) + 1)) with
        | error e =>
          dsimp only
          by_cases h4 : e.isValueError
          · simp only [h4, if_true]; exact ⟨rfl, put_same hw hc, rfl⟩
          · simp only [h4]; exact ⟨rfl, put_same hw hc, rfl⟩
        | ok response =>
          dsimp only
          cases h4 : pduFromResponse response with
          | error e => exact ⟨rfl, put_same hw hc, rfl⟩
          | ok pdu =>
            dsimp only
            cases h5 : processEvent cs pdu with
            | error e => exact ⟨rfl, put_same hw hc, rfl⟩
            | ok s' => exact ⟨rfl, put_fresh hw ho s', rfl⟩

/-! ### What no call of a client changes -/

/-- The configuration of the connection and the password of the client are the same, and what was handed to the
transport stays so. -/
structure Stable (s s' : Sys) : Prop where
  args : s'.conn.args = s.conn.args
  context : s'.conn.cipherContext = s.conn.cipherContext
  password : s'.password = s.password
  handed : ∃ ws, s'.handed = s.handed ++ ws

theorem Stable.refl (s : Sys) : Stable s s := ⟨rfl, rfl, rfl, [], by simp⟩
theorem Stable.trans {a b c : Sys} (h : Stable a b) (h' : Stable b c) : Stable a c :=
  ⟨h'.args.trans h.args, h'.context.trans h.context, h'.password.trans h.password, by
    obtain ⟨ws, e⟩ := h.handed
    obtain ⟨ws', e'⟩ := h'.handed
    exact ⟨ws ++ ws', by rw [e', e, List.append_assoc]⟩⟩

theorem loop_stable (C : BlockCipher) (rs : List (Res Bytes)) : ∀ c : Conn,
    (nextEventLoop C c rs).2.1.args = c.args ∧ (nextEventLoop C c rs).2.1.cipherContext = c.cipherContext := by
  induction rs with
  | nil =>
    intro c
    have hf := nextEvent_frame C c
    unfold nextEventLoop
    cases hn : c.nextEvent C with
    | mk c1 o =>
      rw [hn] at hf
      cases o with
      | error e => exact hf
      | ok x => cases x <;> exact hf
  | cons r rs ih =>
    intro c
    have hf := nextEvent_frame C c
    unfold nextEventLoop
    cases hn : c.nextEvent C with
    | mk c1 o =>
      rw [hn] at hf
      cases o with
      | error e => exact hf
      | ok x =>
        cases x with
        | some ev => exact hf
        | none =>
          cases r with
          | error e => exact hf
          | ok d =>
            have h1 := ih (c1.receiveData d)
            have h2 := receiveData_frame c1 d
            exact ⟨h1.1.trans (h2.1.trans hf.1), h1.2.trans (h2.2.1.trans hf.2)⟩

theorem exchange_stable (C : BlockCipher) (s : Sys) (e : Event) : Stable s (s.exchange C e).2 := by
  have hsend : Stable s (s.send C e).2 := by
    have hf := send_frame C s.conn e (s.rands s.draws)
    unfold Sys.send
    cases hn : s.conn.send C e (s.rands s.draws) with
    | mk c1 o =>
      rw [hn] at hf
      cases o with
      | error x => exact ⟨hf.1, hf.2.1, rfl, [], by simp⟩
      | ok d =>
        dsimp only
        cases s.sends with
        | nil => exact ⟨hf.1, hf.2.1, rfl, [d], rfl⟩
        | cons r ss =>
          cases r with
          | error x => exact ⟨hf.1, hf.2.1, rfl, [d], rfl⟩
          | ok u =>
            dsimp only [Sys.receive]
            cases s.recvs with
            | nil => exact ⟨hf.1, hf.2.1, rfl, [d], rfl⟩
            | cons r rs =>
              cases r with
              | error x => exact ⟨hf.1, hf.2.1, rfl, [d], rfl⟩
              | ok d' =>
                have h2 := receiveData_frame c1 d'
                exact ⟨h2.1.trans hf.1, h2.2.1.trans hf.2.1, rfl, [d], rfl⟩
  unfold Sys.exchange
  cases hx : s.send C e with
  | mk o s1 =>
    rw [hx] at hsend
    cases o with
    | raised x => exact hsend
    | pending => exact hsend
    | returned u =>
      have h2 := loop_stable C s1.recvs s1.conn
      exact hsend.trans ⟨h2.1, h2.2, rfl, [], (List.append_nil _).symm⟩

theorem pages_stable (C : BlockCipher) (s : Sys) (n : Int) (total : Bytes) : Stable s (s.readPages C n total).2 := by
  fun_induction Sys.readPages C s n total with
  | case1 s n total e s1 h => have := exchange_stable C s (.readDeviceParametersRequest
      { password := s.password, objectCount := n, bufferLength := 1024 }); rw [h] at this; exact this
  | case2 s n total s1 h => have := exchange_stable C s (.readDeviceParametersRequest
      { password := s.password, objectCount := n, bufferLength := 1024 }); rw [h] at this; exact this
  | case3 s n total p s1 h hp => have := exchange_stable C s (.readDeviceParametersRequest
      { password := s.password, objectCount := n, bufferLength := 1024 }); rw [h] at this; exact this
  | case4 s n total p s1 h hp ih => have := exchange_stable C s (.readDeviceParametersRequest
      { password := s.password, objectCount := n, bufferLength := 1024 }); rw [h] at this; exact this.trans ih
  | case5 s n total e s1 h he => have := exchange_stable C s (.readDeviceParametersRequest
      { password := s.password, objectCount := n, bufferLength := 1024 }); rw [he] at this; exact this

theorem callV_stable (C : BlockCipher) (s : Sys) (k : Call) : Stable s (callV C s k).2 := by
  cases k with
  | readInstantaneousValues => exact exchange_stable C s _
  | readTime => exact exchange_stable C s _
  | writeTime t b => exact exchange_stable C s _
  | readParameters n => exact pages_stable C s n []
  | readArchive a n i => exact exchange_stable C s _
  | readArchiveByTime a n t => exact exchange_stable C s _

/-- A client exists as soon as the object it consists of do. -/
theorem client_some {h : Heap} {j : Nat} {o : ClientObj} {t : TransportObj} {c : Conn} (rands : Nat → Rand)
    (ho : h.clients[j]? = some o) (ht : h.transports[o.transport]? = some t) (hc : h.conn o.connection = some c) :
    h.client j rands = some ⟨o.password, c, t.sends, t.recvs, rands, 0, t.handed⟩ := by
  unfold Heap.client
  rw [ho]; simp [ht, hc]

theorem client_exists {h : Heap} (hw : WF h) {j : Nat} {o : ClientObj} (ho : h.clients[j]? = some o) :
    ∃ t c, h.transports[o.transport]? = some t ∧ h.conn o.connection = some c := by
  have h1 := hw.trans j o ho
  have h2 := hw.con j o ho
  obtain ⟨c, hc⟩ := conn_exists hw (List.getElem?_eq_getElem h2)
  exact ⟨_, c, List.getElem?_eq_getElem h1, hc⟩

/-- A call on a client acts as on the client it stands for. -/
theorem client_step {C : BlockCipher} {h : Heap} (hw : WF h) {j : Nat} (k : Call) (rands : Nat → Rand)
    {o : ClientObj} {t : TransportObj} {c : Conn}
    (ho : h.clients[j]? = some o) (ht : h.transports[o.transport]? = some t) (hc : h.conn o.connection = some c) :
    let s : Sys := ⟨o.password, c, t.sends, t.recvs, rands, 0, t.handed⟩
    (hstep C h (.client j k rands)).2 = .client (callV C s k).1 ∧
      Put h o.connection (callV C s k).2.conn (hstep C h (.client j k rands)).1 ∧
      (hstep C h (.client j k rands)).1.transports =
        h.transports.set o.transport ⟨(callV C s k).2.sends, (callV C s k).2.recvs, (callV C s k).2.handed⟩ := by
  intro s
  obtain ⟨oc, hoc, hb, hst, ha, hx⟩ := conn_cases hc
  have hf := callV_stable C s k
  have hv := client_some rands ho ht hc
  have he : hstep C h (.client j k rands) = ({ h with
      states := h.states.set oc.state (callV C s k).2.conn.state
      buffers := h.buffers.set oc.buffer (callV C s k).2.conn.buffer
      transports := h.transports.set o.transport ⟨(callV C s k).2.sends, (callV C s k).2.recvs, (callV C s k).2.handed⟩ },
      .client (callV C s k).1) := by
    simp only [hstep, Heap.onClient, ho, hoc, hv, Option.bind_eq_bind, Option.bind_some]
    rfl
  rw [he]
  refine ⟨rfl, ?_, rfl⟩
  have hp := put_set hw hoc (callV C s k).2.conn.state (callV C s k).2.conn.buffer
    (h.transports.set o.transport ⟨(callV C s k).2.sends, (callV C s k).2.recvs, (callV C s k).2.handed⟩) (by simp)
  have hcc : (callV C s k).2.conn = ⟨oc.args, (callV C s k).2.conn.buffer, (callV C s k).2.conn.state, oc.cipherContext⟩ := by
    have h1 : (callV C s k).2.conn.args = oc.args := hf.args.trans ha
    have h2 : (callV C s k).2.conn.cipherContext = oc.cipherContext := hf.context.trans hx
    rw [← h1, ← h2]
  rw [hcc]
  exact hp

/-! ### Making objects -/

/-- The heap has got more objects, and all that were there are as before. -/
structure Grown (h h' : Heap) : Prop where
  wf : WF h'
  states : ∃ l, h'.states = h.states ++ l
  conns : ∃ l, h'.conns = h.conns ++ l
  buffers : ∃ l, h'.buffers = h.buffers ++ l
  clients : ∃ l, h'.clients = h.clients ++ l
  transports : ∃ l, h'.transports = h.transports ++ l

theorem Grown.conn {h h' : Heap} (g : Grown h h') {i : Nat} {c : Conn} (hc : h.conn i = some c) :
    h'.conn i = some c := by
  obtain ⟨o, ho, hb, hs, ha, hx⟩ := conn_cases hc
  obtain ⟨l1, e1⟩ := g.conns
  obtain ⟨l2, e2⟩ := g.buffers
  obtain ⟨l3, e3⟩ := g.states
  obtain ⟨ca, cb, cs, cx⟩ := c
  dsimp only at hb hs ha hx
  subst ha hx
  have look : ∀ {α : Type} (l l' : List α) (i : Nat) (x : α), l[i]? = some x → (l ++ l')[i]? = some x := by
    intro α l l' i x hx
    have : i < l.length := by
      rcases Nat.lt_or_ge i l.length with h1 | h1
      · exact h1
      · rw [List.getElem?_eq_none h1] at hx; cases hx
    rw [List.getElem?_append_left this, hx]
  exact conn_some (by rw [e1]; exact look _ _ _ _ ho) (by rw [e2]; exact look _ _ _ _ hb) (by rw [e3]; exact look _ _ _ _ hs)

theorem getElem?_lt {α : Type} {l : List α} {i : Nat} {x : α} (h : l[i]? = some x) : i < l.length := by
  rcases Nat.lt_or_ge i l.length with h1 | h1
  · exact h1
  · rw [List.getElem?_eq_none h1] at h; cases h

theorem getElem?_grow {α : Type} {l : List α} (l' : List α) {i : Nat} {x : α} (h : l[i]? = some x) :
    (l ++ l')[i]? = some x := by
  rw [List.getElem?_append_left (getElem?_lt h), h]

theorem getElem?_one {α : Type} {l : List α} {y : α} {i : Nat} {x : α} (h : (l ++ [y])[i]? = some x) :
    l[i]? = some x ∨ (i = l.length ∧ x = y) := by
  rcases Nat.lt_trichotomy i l.length with h1 | h1 | h1
  · rw [List.getElem?_append_left h1] at h; exact .inl h
  · subst h1; simp at h; exact .inr ⟨rfl, h.symm⟩
  · rw [List.getElem?_eq_none (by simp; omega)] at h; cases h

/-- One connection more, with a buffer of its own and a given state object. -/
def Heap.addConn (h : Heap) (a : ConnArgs) (st : Option Nat) (x : Option CipherContext) : Heap :=
  { h with
    states := match st with | none => h.states ++ [.idle] | some _ => h.states
    buffers := h.buffers ++ [[]]
    conns := h.conns ++ [⟨a, h.buffers.length, st.getD h.states.length, x⟩] }

theorem newConn_eq (h : Heap) (a : ConnArgs) (st : Option Nat) (cx : Option (Option CipherContext)) :
    h.newConn a st cx = match mkConnWith a none cx with
      | .error x => (.error x, h)
      | .ok c => (.ok h.conns.length, h.addConn a st c.cipherContext) := by
  unfold Heap.newConn
  cases mkConnWith a none cx with
  | error x => rfl
  | ok c => cases st <;> rfl

theorem grown_addConn {h : Heap} (hw : WF h) (a : ConnArgs) (st : Option Nat) (x : Option CipherContext)
    (hs : ∀ s, st = some s → s < h.states.length) : Grown h (h.addConn a st x) := by
  have hle : h.states.length ≤ (h.addConn a st x).states.length := by cases st <;> simp [Heap.addConn]
  refine ⟨⟨?_, ?_, ?_, hw.trans, ?_⟩, ?_, ⟨_, rfl⟩, ⟨_, rfl⟩, ⟨[], by simp [Heap.addConn]⟩, ⟨[], by simp [Heap.addConn]⟩⟩
  · intro k o hk
    rcases getElem?_one hk with h1 | ⟨_, rfl⟩
    · have := hw.buf k o h1; simp [Heap.addConn]; omega
    · simp [Heap.addConn]
  · intro k o hk
    rcases getElem?_one hk with h1 | ⟨_, rfl⟩
    · exact Nat.lt_of_lt_of_le (hw.st k o h1) hle
    · cases st with
      | none => simp [Heap.addConn]
      | some s => exact hs s rfl
  · intro k k' o o' hk hk' he
    rcases getElem?_one hk with h1 | ⟨e1, rfl⟩ <;> rcases getElem?_one hk' with h2 | ⟨e2, rfl⟩
    · exact hw.own k k' o o' h1 h2 he
    · have := hw.buf k o h1; simp at he; omega
    · have := hw.buf k' o' h2; simp at he; omega
    · rw [e1, e2]
  · intro j o hj
    have := hw.con j o hj
    simp [Heap.addConn]; omega
  · cases st with
    | none => exact ⟨[.idle], rfl⟩
    | some s => exact ⟨[], by simp [Heap.addConn]⟩

theorem grown_refl {h : Heap} (hw : WF h) : Grown h h :=
  ⟨hw, ⟨[], by simp⟩, ⟨[], by simp⟩, ⟨[], by simp⟩, ⟨[], by simp⟩, ⟨[], by simp⟩⟩

theorem grown_addClient {h : Heap} (hw : WF h) (o : ClientObj) (ht : o.transport < h.transports.length)
    (hc : o.connection < h.conns.length) : Grown h { h with clients := h.clients ++ [o] } := by
  refine ⟨⟨hw.buf, hw.st, hw.own, ?_, ?_⟩, ⟨[], by simp⟩, ⟨[], by simp⟩, ⟨[], by simp⟩, ⟨_, rfl⟩, ⟨[], by simp⟩⟩
  · intro j o' hj
    rcases getElem?_one hj with h1 | ⟨_, rfl⟩
    · exact hw.trans j o' h1
    · exact ht
  · intro j o' hj
    rcases getElem?_one hj with h1 | ⟨_, rfl⟩
    · exact hw.con j o' h1
    · exact hc

theorem Grown.trans {a b c : Heap} (h : Grown a b) (h' : Grown b c) : Grown a c := by
  have key : ∀ {α : Type} {x y z : List α}, (∃ l, y = x ++ l) → (∃ l, z = y ++ l) → ∃ l, z = x ++ l := by
    rintro α x y z ⟨l, rfl⟩ ⟨l', rfl⟩; exact ⟨l ++ l', by simp⟩
  exact ⟨h'.wf, key h.states h'.states, key h.conns h'.conns, key h.buffers h'.buffers, key h.clients h'.clients,
    key h.transports h'.transports⟩

/-- The arguments of the connection that a client makes for itself. -/
def ownArgs (a : ClientArgs) : ConnArgs :=
  { sourceAddress1 := 0, sourceAddress2 := 0, destinationAddress1 := 0, destinationAddress2 := 0,
    password := toSecretStr a.password, passwordId := a.passwordId,
    encryptionKey := toSecretByte a.encryptionKey, encryptionKeyId := a.encryptionKeyId }

theorem newClient_eq (h : Heap) (a : ClientArgs) (t : Nat) (k : Option Nat) :
    h.newClient a t k = match k with
      | some i => (.ok h.clients.length, { h with clients := h.clients ++ [⟨toSecretStr a.password, t, i⟩] })
      | none => match mkConnWith (ownArgs a) none none with
        | .error x => (.error x, h)
        | .ok c => (.ok h.clients.length,
            { h.addConn (ownArgs a) none c.cipherContext with
              clients := h.clients ++ [⟨toSecretStr a.password, t, h.conns.length⟩] }) := by
  unfold Heap.newClient
  cases k with
  | some i => rfl
  | none =>
    dsimp only
    have e := newConn_eq h (ownArgs a) none none
    cases hm : mkConnWith (ownArgs a) none none with
    | error x => rw [hm] at e; unfold ownArgs at e; rw [e]
    | ok c => rw [hm] at e; unfold ownArgs at e; rw [e]; rfl

/-- A statement that makes an object. -/
def Making : HOp → Prop
  | .newState _ | .newTransport _ _ | .newConn _ _ _ | .newClient _ _ _ => True
  | _ => False

/-- What a statement that makes an object leaves: all objects as before, and at most one new connection, whose state
object is new or the given one, and at most one new client, with the given transport and the given or the new
connection. -/
theorem making_step {C : BlockCipher} {h : Heap} (hw : WF h) {op : HOp} (hm : Making op) :
    Grown h (hstep C h op).1 ∧
    (∀ i o, (hstep C h op).1.conns[i]? = some o → h.conns[i]? = some o ∨
      (i = h.conns.length ∧ (o.state = h.states.length ∨ ∃ a cx, op = .newConn a (some o.state) cx))) ∧
    (∀ j o, (hstep C h op).1.clients[j]? = some o → h.clients[j]? = some o ∨
      (j = h.clients.length ∧ ∃ a k, op = .newClient a o.transport k ∧
        (k = some o.connection ∨ o.connection = h.conns.length))) := by
  cases op with
  | newState s =>
    refine ⟨?_, fun i o hi => .inl hi, fun j o hj => .inl hj⟩
    refine ⟨⟨hw.buf, ?_, hw.own, hw.trans, hw.con⟩, ⟨_, rfl⟩, ⟨[], by simp [hstep, Heap.newState]⟩,
      ⟨[], by simp [hstep, Heap.newState]⟩, ⟨[], by simp [hstep, Heap.newState]⟩, ⟨[], by simp [hstep, Heap.newState]⟩⟩
    intro k o hk
    have := hw.st k o hk
    simp [hstep, Heap.newState]; omega
  | newTransport ss rs =>
    refine ⟨?_, fun i o hi => .inl hi, fun j o hj => .inl hj⟩
    refine ⟨⟨hw.buf, hw.st, hw.own, ?_, hw.con⟩, ⟨[], by simp [hstep]⟩, ⟨[], by simp [hstep]⟩,
      ⟨[], by simp [hstep]⟩, ⟨[], by simp [hstep]⟩, ⟨_, rfl⟩⟩
    intro j o hj
    have := hw.trans j o hj
    simp [hstep]; omega
  | newConn a st cx =>
    simp only [hstep]
    split
    · next hs =>
      rw [newConn_eq]
      cases mkConnWith a none cx with
      | error x => exact ⟨grown_refl hw, fun i o hi => .inl hi, fun j o hj => .inl hj⟩
      | ok c =>
        refine ⟨grown_addConn hw a st c.cipherContext hs, fun i o hi => ?_, fun j o hj => .inl hj⟩
        rcases getElem?_one hi with h1 | ⟨e, rfl⟩
        · exact .inl h1
        · refine .inr ⟨e, ?_⟩
          cases st with
          | none => exact .inl rfl
          | some s => exact .inr ⟨a, cx, rfl⟩
    · exact ⟨grown_refl hw, fun i o hi => .inl hi, fun j o hj => .inl hj⟩
  | newClient a t k =>
    simp only [hstep]
    split
    · next hs =>
      rw [newClient_eq]
      cases k with
      | some i =>
        refine ⟨grown_addClient hw _ hs.1 (hs.2 i rfl), fun i o hi => .inl hi, fun j o hj => ?_⟩
        rcases getElem?_one hj with h1 | ⟨e, rfl⟩
        · exact .inl h1
        · exact .inr ⟨e, a, some i, rfl, .inl rfl⟩
      | none =>
        dsimp only
        cases mkConnWith (ownArgs a) none none with
        | error x => exact ⟨grown_refl hw, fun i o hi => .inl hi, fun j o hj => .inl hj⟩
        | ok c =>
          have g := grown_addConn hw (ownArgs a) none c.cipherContext (fun s hs => by cases hs)
          refine ⟨g.trans (grown_addClient g.wf ⟨toSecretStr a.password, t, h.conns.length⟩ ?_ ?_), fun i o hi => ?_, fun j o hj => ?_⟩
          · exact hs.1
          · simp [Heap.addConn]
          · rcases getElem?_one hi with h1 | ⟨e, rfl⟩
            · exact .inl h1
            · exact .inr ⟨e, .inl rfl⟩
          · rcases getElem?_one hj with h1 | ⟨e, rfl⟩
            · exact .inl h1
            · exact .inr ⟨e, a, none, rfl, .inr rfl⟩
    · exact ⟨grown_refl hw, fun i o hi => .inl hi, fun j o hj => .inl hj⟩
  | conn k op => cases hm
  | client j k r => cases hm

/-- A statement about an object that does not exist does nothing. -/
theorem absent_conn {C : BlockCipher} {h : Heap} {k : Nat} (hc : h.conn k = none) (op : Op) :
    hstep C h (.conn k op) = (h, .noSuchObject) := by
  cases op <;> simp only [hstep, Heap.send, Heap.receiveData, Heap.nextEvent, hc] <;> cases h.conns[k]? <;> rfl

theorem absent_client {C : BlockCipher} {h : Heap} {j : Nat} (hj : h.clients[j]? = none) (k : Call) (r : Nat → Rand) :
    hstep C h (.client j k r) = (h, .noSuchObject) := by
  simp only [hstep, Heap.onClient, hj, Option.bind_eq_bind, Option.bind_none]

theorem hstep_wf {C : BlockCipher} {h : Heap} (hw : WF h) (op : HOp) : WF (hstep C h op).1 := by
  cases op with
  | conn k o =>
    cases hc : h.conn k with
    | none => rw [absent_conn hc]; exact hw
    | some c => exact (conn_step hw hc o).2.1.wf
  | client j k r =>
    cases ho : h.clients[j]? with
    | none => rw [absent_client ho]; exact hw
    | some o =>
      obtain ⟨t, c, ht, hc⟩ := client_exists hw ho
      exact (client_step hw k r ho ht hc).2.1.wf
  | newState s => exact (making_step (op := .newState s) hw trivial).1.wf
  | newTransport a b => exact (making_step (op := .newTransport a b) hw trivial).1.wf
  | newConn a b c => exact (making_step (op := .newConn a b c) hw trivial).1.wf
  | newClient a b c => exact (making_step (op := .newClient a b c) hw trivial).1.wf

theorem hrun_wf {C : BlockCipher} (ops : List HOp) : ∀ {h : Heap}, WF h → WF (hrun C h ops).1 := by
  induction ops with
  | nil => exact fun h => h
  | cons op ops ih => exact fun h => ih (hstep_wf h op)
end Elgas
