import Verif.Props.HeapStep
import Verif.Props.History
namespace Elgas
open Spec

/-! ### Connections of their own -/

/-- Connection `k` exists, has the state object `σ`, which no other connection has, and no client has it. -/
structure Apart (h : Heap) (k σ : Nat) : Prop where
  here : stateOf h k = some σ
  state : ∀ i, i ≠ k → stateOf h i ≠ some σ
  client : ∀ (j : Nat) (o : ClientObj), h.clients[j]? = some o → o.connection ≠ k

theorem stateOf_some {h : Heap} {k σ : Nat} : stateOf h k = some σ ↔ ∃ o, h.conns[k]? = some o ∧ o.state = σ := by
  unfold stateOf
  cases h.conns[k]? <;> simp

theorem Grown.stateOf {h h' : Heap} (g : Grown h h') {k σ : Nat} (hk : stateOf h k = some σ) : stateOf h' k = some σ := by
  obtain ⟨o, ho, e⟩ := stateOf_some.1 hk
  obtain ⟨l, hl⟩ := g.conns
  exact stateOf_some.2 ⟨o, by rw [hl]; exact getElem?_grow l ho, e⟩

theorem apart_making {C : BlockCipher} {h : Heap} (hw : WF h) {k σ : Nat} (ha : Apart h k σ) {op : HOp} (hm : Making op)
    (h1 : ∀ a cx, op ≠ .newConn a (some σ) cx) (h2 : ∀ a t, op ≠ .newClient a t (some k)) :
    Apart (hstep C h op).1 k σ := by
  obtain ⟨g, g1, g2⟩ := making_step (C := C) hw hm
  obtain ⟨o, ho, e⟩ := stateOf_some.1 ha.here
  have hk := getElem?_lt ho
  have hσ := hw.st k o ho
  refine ⟨g.stateOf ha.here, fun i hi hs => ?_, fun j oj hj => ?_⟩
  · obtain ⟨oi, hoi, ei⟩ := stateOf_some.1 hs
    rcases g1 i oi hoi with h3 | ⟨_, h3 | ⟨a, cx, h3⟩⟩
    · exact ha.state i hi (stateOf_some.2 ⟨oi, h3, ei⟩)
    · omega
    · exact h1 a cx (by rw [h3, ei])
  · rcases g2 j oj hj with h3 | ⟨_, a, i, h3, h4⟩
    · exact ha.client j oj h3
    · rintro rfl
      rcases h4 with h4 | h4
      · exact h2 a _ (by rw [h3, h4])
      · omega

theorem Put.apart {h h' : Heap} {i : Nat} {c : Conn} (hp : Put h i c h') {k σ : Nat} (ha : Apart h k σ) : Apart h' k σ :=
  ⟨by rw [hp.stateOf]; exact ha.here, fun i hi => by rw [hp.stateOf]; exact ha.state i hi,
    by rw [hp.clients]; exact ha.client⟩

theorem Put.keep {h h' : Heap} {i : Nat} {c1 c : Conn} (hp : Put h i c1 h') {k : Nat} (hc : h.conn k = some c)
    (hi : i ≠ k) (hs : Spec.stateOf h k ≠ Spec.stateOf h i) : h'.conn k = some c := by
  rw [hp.other k (Ne.symm hi), hc]
  simp [hs]

theorem apart_step {C : BlockCipher} {h : Heap} (hw : WF h) {k σ : Nat} (ha : Apart h k σ) {c : Conn}
    (hc : h.conn k = some c) (op : HOp) (h1 : ∀ a cx, op ≠ .newConn a (some σ) cx)
    (h2 : ∀ a t, op ≠ .newClient a t (some k)) :
    Apart (hstep C h op).1 k σ ∧
    ((∀ o, op ≠ .conn k o) → (hstep C h op).1.conn k = some c) ∧
    (∀ o, op = .conn k o → (hstep C h op).2 = .conn (step C c o).2 ∧ (hstep C h op).1.conn k = some (step C c o).1) := by
  have making : Making op → (Apart (hstep C h op).1 k σ ∧
      ((∀ o, op ≠ .conn k o) → (hstep C h op).1.conn k = some c) ∧
      (∀ o, op = .conn k o → (hstep C h op).2 = .conn (step C c o).2 ∧ (hstep C h op).1.conn k = some (step C c o).1)) := by
    intro hm
    refine ⟨apart_making hw ha hm h1 h2, fun _ => (making_step hw hm).1.conn hc, ?_⟩
    rintro o rfl
    cases hm
  cases op with
  | newState s => exact making trivial
  | newTransport a b => exact making trivial
  | newConn a b d => exact making trivial
  | newClient a b d => exact making trivial
  | conn i o =>
    by_cases hi : i = k
    · subst hi
      obtain ⟨g1, g2, _⟩ := conn_step (C := C) hw hc o
      refine ⟨g2.apart ha, fun h => absurd rfl (h o), ?_⟩
      rintro o' ho
      cases ho
      exact ⟨g1, g2.conn⟩
    · refine ⟨?_, fun _ => ?_, fun o' ho => by cases ho; exact absurd rfl hi⟩
      · cases hci : h.conn i with
        | none => rw [absent_conn hci]; exact ha
        | some ci => exact (conn_step hw hci o).2.1.apart ha
      · cases hci : h.conn i with
        | none => rw [absent_conn hci]; exact hc
        | some ci => exact (conn_step hw hci o).2.1.keep hc hi (by rw [ha.here]; exact (ha.state i hi).symm)
  | client j q r =>
    refine ⟨?_, fun _ => ?_, fun o' ho => by cases ho⟩
    · cases ho : h.clients[j]? with
      | none => rw [absent_client ho]; exact ha
      | some o =>
        obtain ⟨t, cj, ht, hcj⟩ := client_exists hw ho
        exact (client_step hw q r ho ht hcj).2.1.apart ha
    · cases ho : h.clients[j]? with
      | none => rw [absent_client ho]; exact hc
      | some o =>
        obtain ⟨t, cj, ht, hcj⟩ := client_exists hw ho
        have hne := ha.client j o ho
        exact (client_step hw q r ho ht hcj).2.1.keep hc hne (by rw [ha.here]; exact (ha.state _ hne).symm)

theorem apart_run {C : BlockCipher} {k σ : Nat} (ops : List HOp) : ∀ {h : Heap}, WF h → Apart h k σ → ∀ {c : Conn},
    h.conn k = some c → (∀ a cx, .newConn a (some σ) cx ∉ ops) → (∀ a t, .newClient a t (some k) ∉ ops) →
    resultsOn (· = k) (hrun C h ops).2 = (run C c (callsOn k ops)).2 ∧
    (hrun C h ops).1.conn k = some (run C c (callsOn k ops)).1 := by
  induction ops with
  | nil => intro h _ _ c hc _ _; exact ⟨rfl, hc⟩
  | cons op ops ih =>
    intro h hw ha c hc h1 h2
    obtain ⟨g1, g2, g3⟩ := apart_step (C := C) hw ha hc op (fun a cx e => h1 a cx (by simp [e]))
      (fun a t e => h2 a t (by simp [e]))
    have next := fun {c1 : Conn} (hc1 : (hstep C h op).1.conn k = some c1) =>
      ih (hstep_wf (C := C) hw op) g1 hc1 (fun a cx hm => h1 a cx (by simp [hm])) (fun a t hm => h2 a t (by simp [hm]))
    by_cases ho : ∃ o, op = .conn k o
    · obtain ⟨o, rfl⟩ := ho
      obtain ⟨g4, g5⟩ := g3 o rfl
      obtain ⟨i1, i2⟩ := next g5
      have e1 : callsOn k (.conn k o :: ops) = o :: callsOn k ops := by simp [callsOn]
      have e2 : resultsOn (· = k) (hrun C h (.conn k o :: ops)).2 =
          (step C c o).2 :: resultsOn (· = k) (hrun C (hstep C h (.conn k o)).1 ops).2 := by
        simp only [hrun, resultsOn, List.filterMap_cons, g4, if_true]
      rw [e1, e2]
      simp only [run]
      exact ⟨by rw [i1], i2⟩
    · have hne : ∀ o, op ≠ .conn k o := fun o he => ho ⟨o, he⟩
      obtain ⟨i1, i2⟩ := next (g2 hne)
      have e1 : callsOn k (op :: ops) = callsOn k ops := by
        unfold callsOn
        rw [List.filterMap_cons]
        cases op with
        | conn i o => simp only [show i ≠ k from fun he => hne o (by rw [he]), if_false]
        | _ => rfl
      have e2 : resultsOn (· = k) (hrun C h (op :: ops)).2 = resultsOn (· = k) (hrun C (hstep C h op).1 ops).2 := by
        simp only [hrun, resultsOn]
        rw [List.filterMap_cons]
        cases op with
        | conn i o =>
          have hik : i ≠ k := fun he => hne o (by rw [he])
          cases (hstep C h (.conn i o)).2 <;> simp [hik]
        | _ => rfl
      rw [e1, e2]
      exact ⟨i1, i2⟩

/-- C92. A connection made without `elgas_state`, in a program that makes and uses any other connections and clients
before and after: unless its state object or the connection itself is handed on to another object, all its calls
return what they would return if the connection were the only one. -/
theorem C92_connections (C : BlockCipher) (before after : List HOp) (a : ConnArgs) (cx : Option (Option CipherContext))
    (k σ : Nat) (hk : (hstep C (hrun C {} before).1 (.newConn a none cx)).2 = .made (.ok k))
    (hσ : stateOf (hstep C (hrun C {} before).1 (.newConn a none cx)).1 k = some σ)
    (h1 : ∀ a' cx', .newConn a' (some σ) cx' ∉ after) (h2 : ∀ a' t, .newClient a' t (some k) ∉ after) :
    ∃ c, mkConnWith a none cx = .ok c ∧
      resultsOn (· = k) (hrun C (hstep C (hrun C {} before).1 (.newConn a none cx)).1 after).2 =
        (run C c (callsOn k after)).2 := by
  have hw := hrun_wf (C := C) before wf_empty
  generalize (hrun C {} before).1 = h at hk hσ hw ⊢
  have hw' := hstep_wf (C := C) hw (.newConn a none cx)
  have hcond : (∀ s, (none : Option Nat) = some s → s < h.states.length) := fun s hs => by cases hs
  simp only [hstep, if_pos hcond] at hk hσ hw' ⊢
  rw [newConn_eq] at hk hσ hw' ⊢
  cases hm : mkConnWith a none cx with
  | error x => rw [hm] at hk; cases hk
  | ok c =>
    rw [hm] at hk hσ hw'
    dsimp only at hk hσ hw' ⊢
    injection hk with hk
    injection hk with hk
    subst hk
    refine ⟨c, rfl, ?_⟩
    have ho : (h.addConn a none c.cipherContext).conns[h.conns.length]? =
        some ⟨a, h.buffers.length, h.states.length, c.cipherContext⟩ := by simp [Heap.addConn]
    have hσ' : σ = h.states.length := by
      obtain ⟨o, g1, g2⟩ := stateOf_some.1 hσ
      rw [ho] at g1
      injection g1 with g1
      rw [← g2, ← g1]
    subst hσ'
    have hap : Apart (h.addConn a none c.cipherContext) h.conns.length h.states.length := by
      refine ⟨hσ, fun i hi hs => ?_, fun j o hj => ?_⟩
      · obtain ⟨oi, g1, g2⟩ := stateOf_some.1 hs
        rcases getElem?_one g1 with g3 | ⟨g3, _⟩
        · have := hw.st i oi g3; omega
        · exact hi g3
      · have := hw.con j o hj; omega
    obtain ⟨_, c1, c2, c3, c4⟩ := ((C90_constructor a none cx).1 c).1 hm
    refine (apart_run after hw' hap (c := c) ?_ h1 h2).1
    have := conn_some (h := h.addConn a none c.cipherContext) ho (b := []) (s := .idle) (by simp [Heap.addConn])
      (by simp [Heap.addConn])
    rw [this]
    obtain ⟨ca, cb, cs, cc⟩ := c
    dsimp only at c1 c2 c3
    subst c1 c2 c3
    rfl

/-! ### Clients of their own -/

/-- Client `j` has transport `t` and connection `k`, whose state object is `σ`, and nothing else has any of these. -/
structure Own (h : Heap) (j : Nat) (pw : PyStr) (t k σ : Nat) : Prop where
  here : h.clients[j]? = some ⟨pw, t, k⟩
  state : stateOf h k = some σ
  others : ∀ i, i ≠ k → stateOf h i ≠ some σ
  clients : ∀ (i : Nat) (o : ClientObj), i ≠ j → h.clients[i]? = some o → o.transport ≠ t ∧ o.connection ≠ k

/-- The statement hands none of these objects on, and does not use the connection directly. -/
structure LeavesOwn (t k σ : Nat) (op : HOp) : Prop where
  state : ∀ a cx, op ≠ .newConn a (some σ) cx
  transport : ∀ a i, op ≠ .newClient a t i
  conn : ∀ a t', op ≠ .newClient a t' (some k)
  direct : ∀ o, op ≠ .conn k o

theorem ownClient_making {C : BlockCipher} {h : Heap} (hw : WF h) {j : Nat} {pw : PyStr} {t k σ : Nat} (ha : Own h j pw t k σ)
    {op : HOp} (hm : Making op) (hl : LeavesOwn t k σ op) : Own (hstep C h op).1 j pw t k σ := by
  obtain ⟨g, g1, g2⟩ := making_step (C := C) hw hm
  obtain ⟨o, ho, e⟩ := stateOf_some.1 ha.state
  have hk := getElem?_lt ho
  have hσ := hw.st k o ho
  obtain ⟨l, hl'⟩ := g.clients
  have hj := getElem?_lt ha.here
  refine ⟨by rw [hl']; exact getElem?_grow l ha.here, g.stateOf ha.state, fun i hi hs => ?_, fun i oi hi hoi => ?_⟩
  · obtain ⟨oi, hoi, ei⟩ := stateOf_some.1 hs
    rcases g1 i oi hoi with h3 | ⟨_, h3 | ⟨a, cx, h3⟩⟩
    · exact ha.others i hi (stateOf_some.2 ⟨oi, h3, ei⟩)
    · omega
    · exact hl.state a cx (by rw [h3, ei])
  · rcases g2 i oi hoi with h3 | ⟨_, a, q, h3, h4⟩
    · exact ha.clients i oi hi h3
    · refine ⟨?_, ?_⟩
      · rintro rfl; exact hl.transport a q h3
      · rintro rfl
        rcases h4 with h4 | h4
        · exact hl.conn a _ (by rw [h3, h4])
        · omega

theorem ownClient_put {h h' : Heap} {i : Nat} {c : Conn} (hp : Put h i c h') {j : Nat} {pw : PyStr} {t k σ : Nat}
    (ha : Own h j pw t k σ) : Own h' j pw t k σ :=
  ⟨by rw [hp.clients]; exact ha.here, by rw [hp.stateOf]; exact ha.state, fun i hi => by rw [hp.stateOf]; exact ha.others i hi,
    by rw [hp.clients]; exact ha.clients⟩

theorem ownClient_step {C : BlockCipher} {h : Heap} (hw : WF h) {j : Nat} {pw : PyStr} {t k σ : Nat} (ha : Own h j pw t k σ)
    {c : Conn} {T : TransportObj} (hc : h.conn k = some c) (hT : h.transports[t]? = some T) (op : HOp)
    (hl : LeavesOwn t k σ op) :
    Own (hstep C h op).1 j pw t k σ ∧
    ((∀ q r, op ≠ .client j q r) →
      (hstep C h op).1.conn k = some c ∧ (hstep C h op).1.transports[t]? = some T) ∧
    (∀ q r, op = .client j q r →
      let x := callV C ⟨pw, c, T.sends, T.recvs, r, 0, T.handed⟩ q
      (hstep C h op).2 = .client x.1 ∧ (hstep C h op).1.conn k = some x.2.conn ∧
      (hstep C h op).1.transports[t]? = some ⟨x.2.sends, x.2.recvs, x.2.handed⟩) := by
  have making : Making op → (Own (hstep C h op).1 j pw t k σ ∧
      ((∀ q r, op ≠ .client j q r) →
        (hstep C h op).1.conn k = some c ∧ (hstep C h op).1.transports[t]? = some T) ∧
      (∀ q r, op = .client j q r →
        let x := callV C ⟨pw, c, T.sends, T.recvs, r, 0, T.handed⟩ q
        (hstep C h op).2 = .client x.1 ∧ (hstep C h op).1.conn k = some x.2.conn ∧
        (hstep C h op).1.transports[t]? = some ⟨x.2.sends, x.2.recvs, x.2.handed⟩)) := by
    intro hm
    have g := (making_step (C := C) hw hm).1
    obtain ⟨l, hl'⟩ := g.transports
    refine ⟨ownClient_making hw ha hm hl, fun _ => ⟨g.conn hc, by rw [hl']; exact getElem?_grow l hT⟩, ?_⟩
    rintro q r rfl
    cases hm
  cases op with
  | newState s => exact making trivial
  | newTransport a b => exact making trivial
  | newConn a b d => exact making trivial
  | newClient a b d => exact making trivial
  | conn i o =>
    have hi : i ≠ k := fun he => hl.direct o (by rw [he])
    refine ⟨?_, fun _ => ?_, fun q r ho => by cases ho⟩
    · cases hci : h.conn i with
      | none => rw [absent_conn hci]; exact ha
      | some ci => exact ownClient_put (conn_step hw hci o).2.1 ha
    · cases hci : h.conn i with
      | none => rw [absent_conn hci]; exact ⟨hc, hT⟩
      | some ci =>
        obtain ⟨_, g2, g3⟩ := conn_step (C := C) hw hci o
        exact ⟨g2.keep hc hi (by rw [ha.state]; exact (ha.others i hi).symm), by rw [g3]; exact hT⟩
  | client i q r =>
    by_cases hi : i = j
    · subst hi
      obtain ⟨g1, g2, g3⟩ := client_step (C := C) hw q r ha.here hT hc
      refine ⟨ownClient_put g2 ha, fun h => absurd rfl (h q r), ?_⟩
      intro q' r' he
      cases he
      refine ⟨g1, g2.conn, ?_⟩
      rw [g3]
      exact List.getElem?_set_self (getElem?_lt hT)
    · refine ⟨?_, fun _ => ?_, fun q' r' he => by cases he; exact absurd rfl hi⟩
      · cases ho : h.clients[i]? with
        | none => rw [absent_client ho]; exact ha
        | some o =>
          obtain ⟨t', cj, ht, hcj⟩ := client_exists hw ho
          exact ownClient_put (client_step hw q r ho ht hcj).2.1 ha
      · cases ho : h.clients[i]? with
        | none => rw [absent_client ho]; exact ⟨hc, hT⟩
        | some o =>
          obtain ⟨t', cj, ht, hcj⟩ := client_exists hw ho
          obtain ⟨hne1, hne2⟩ := ha.clients i o hi ho
          obtain ⟨_, g2, g3⟩ := client_step (C := C) hw q r ho ht hcj
          refine ⟨g2.keep hc hne2 (by rw [ha.state]; exact (ha.others _ hne2).symm), ?_⟩
          rw [g3, List.getElem?_set_ne hne1]
          exact hT

theorem ownClient_run {C : BlockCipher} {j : Nat} {t k σ : Nat} (ops : List HOp) : ∀ {h : Heap} (s : Sys), WF h →
    Own h j s.password t k σ → h.conn k = some s.conn → h.transports[t]? = some ⟨s.sends, s.recvs, s.handed⟩ →
    (∀ op ∈ ops, LeavesOwn t k σ op) →
    resultsBy j (hrun C h ops).2 = (aloneV C s (callsBy j ops)).1 ∧
    (hrun C h ops).1.transports[t]? = some ⟨(aloneV C s (callsBy j ops)).2.sends, (aloneV C s (callsBy j ops)).2.recvs,
      (aloneV C s (callsBy j ops)).2.handed⟩ := by
  induction ops with
  | nil => intro h s _ _ _ hT _; exact ⟨rfl, hT⟩
  | cons op ops ih =>
    intro h s hw ha hc hT hl
    obtain ⟨g1, g2, g3⟩ := ownClient_step (C := C) hw ha hc hT op (hl op (by simp))
    have hl' : ∀ op ∈ ops, LeavesOwn t k σ op := fun op ho => hl op (by simp [ho])
    have hw' := hstep_wf (C := C) hw op
    by_cases ho : ∃ q r, op = .client j q r
    · obtain ⟨q, r, rfl⟩ := ho
      obtain ⟨g4, g5, g6⟩ := g3 q r rfl
      have hst := callV_stable C ⟨s.password, s.conn, s.sends, s.recvs, r, 0, s.handed⟩ q
      have ihx := ih (callV C ⟨s.password, s.conn, s.sends, s.recvs, r, 0, s.handed⟩ q).2 hw'
        (by rw [hst.password]; exact g1) g5 g6 hl'
      have e1 : callsBy j (.client j q r :: ops) = (q, r) :: callsBy j ops := by simp [callsBy]
      have e2 : resultsBy j (hrun C h (.client j q r :: ops)).2 =
          (callV C ⟨s.password, s.conn, s.sends, s.recvs, r, 0, s.handed⟩ q).1 ::
            resultsBy j (hrun C (hstep C h (.client j q r)).1 ops).2 := by
        simp only [hrun, resultsBy, List.filterMap_cons, g4, if_true]
      rw [e1, e2]
      simp only [aloneV]
      exact ⟨by rw [ihx.1], ihx.2⟩
    · have hne : ∀ q r, op ≠ .client j q r := fun q r he => ho ⟨q, r, he⟩
      obtain ⟨g4, g5⟩ := g2 hne
      have ihx := ih s hw' g1 g4 g5 hl'
      have e1 : callsBy j (op :: ops) = callsBy j ops := by
        unfold callsBy
        rw [List.filterMap_cons]
        cases op with
        | client i q r => simp only [show i ≠ j from fun he => hne q r (by rw [he]), if_false]
        | _ => rfl
      have e2 : resultsBy j (hrun C h (op :: ops)).2 = resultsBy j (hrun C (hstep C h op).1 ops).2 := by
        simp only [hrun, resultsBy]
        rw [List.filterMap_cons]
        cases op with
        | client i q r =>
          have hik : i ≠ j := fun he => hne q r (by rw [he])
          cases (hstep C h (.client i q r)).2 <;> simp [hik]
        | _ => rfl
      rw [e1, e2]
      exact ihx

/-- Every client was made by a statement that gave it its transport. -/
theorem client_made {C : BlockCipher} (ops : List HOp) : ∀ {h : Heap}, WF h → ∀ {j : Nat} {o : ClientObj},
    (hrun C h ops).1.clients[j]? = some o → h.clients[j]? = some o ∨ ∃ a i, .newClient a o.transport i ∈ ops := by
  induction ops with
  | nil => exact fun _ _ _ h => .inl h
  | cons op ops ih =>
    intro h hw j o hj
    rcases ih (hstep_wf (C := C) hw op) hj with h1 | ⟨a, i, h1⟩
    · by_cases hm : Making op
      · rcases (making_step (C := C) hw hm).2.2 j o h1 with h2 | ⟨_, a, i, h2, _⟩
        · exact .inl h2
        · exact .inr ⟨a, i, by simp [h2]⟩
      · left
        cases op with
        | conn i q =>
          cases hci : h.conn i with
          | none => rw [absent_conn hci] at h1; exact h1
          | some ci => rw [(conn_step hw hci q).2.1.clients] at h1; exact h1
        | client i q r =>
          cases ho : h.clients[i]? with
          | none => rw [absent_client ho] at h1; exact h1
          | some oi =>
            obtain ⟨t', cj, ht, hcj⟩ := client_exists hw ho
            rw [(client_step hw q r ho ht hcj).2.1.clients] at h1; exact h1
        | _ => exact absurd trivial hm
    · exact .inr ⟨a, i, by simp [h1]⟩

/-- C92. A client made without `elgas_connection`, over a transport that no other client has, in a program that makes
and uses any other clients and connections before and after: unless its connection or the state object of that is
handed on or used directly, all its calls return, and all it transmits is, what it would be if the client were the only
one. -/
theorem C92_clients (C : BlockCipher) (before after : List HOp) (a : ClientArgs) (t j k σ : Nat)
    (sends : List (Res Unit)) (recvs : List (Res Bytes))
    (ht : (hrun C {} before).1.transports[t]? = some ⟨sends, recvs, []⟩)
    (hj : (hstep C (hrun C {} before).1 (.newClient a t none)).2 = .made (.ok j))
    (hk : ∃ pw, (hstep C (hrun C {} before).1 (.newClient a t none)).1.clients[j]? = some ⟨pw, t, k⟩)
    (hσ : stateOf (hstep C (hrun C {} before).1 (.newClient a t none)).1 k = some σ)
    (h0 : ∀ a' i, .newClient a' t i ∉ before ++ after) (h1 : ∀ a' t', .newClient a' t' (some k) ∉ after)
    (h2 : ∀ a' cx, .newConn a' (some σ) cx ∉ after) (h3 : ∀ op, .conn k op ∉ after) (rands : Nat → Rand) :
    ∃ s, mkClient a sends recvs rands = .ok s ∧
      resultsBy j (hrun C (hstep C (hrun C {} before).1 (.newClient a t none)).1 after).2 =
        (aloneV C s (callsBy j after)).1 ∧
      ∃ T, (hrun C (hstep C (hrun C {} before).1 (.newClient a t none)).1 after).1.transports[t]? = some T ∧
        T.handed = (aloneV C s (callsBy j after)).2.handed := by
  have hw := hrun_wf (C := C) before wf_empty
  have hmade : ∀ (i : Nat) (o : ClientObj), (hrun C {} before).1.clients[i]? = some o → o.transport ≠ t := by
    rintro i o hi rfl
    rcases client_made before wf_empty hi with h | ⟨a', i', h⟩
    · simp at h
    · exact h0 a' i' (by simp [h])
  generalize (hrun C {} before).1 = h at ht hj hk hσ hw hmade ⊢
  have hw' := hstep_wf (C := C) hw (.newClient a t none)
  have hcond : t < h.transports.length ∧ (∀ i, (none : Option Nat) = some i → i < h.conns.length) :=
    ⟨getElem?_lt ht, fun i hi => by cases hi⟩
  simp only [hstep, if_pos hcond] at hj hk hσ hw' ⊢
  rw [newClient_eq] at hj hk hσ hw' ⊢
  cases hm : mkConnWith (ownArgs a) none none with
  | error x => rw [hm] at hj; cases hj
  | ok c =>
    rw [hm] at hj hk hσ hw'
    dsimp only at hj hk hσ hw' ⊢
    injection hj with hj
    injection hj with hj
    subst hj
    obtain ⟨pw, hk⟩ := hk
    have hk' : k = h.conns.length ∧ pw = toSecretStr a.password := by
      rw [List.getElem?_append_right (Nat.le_refl _)] at hk
      simp at hk
      exact ⟨hk.2.symm, hk.1.symm⟩
    obtain ⟨rfl, rfl⟩ := hk'
    have ho : (h.addConn (ownArgs a) none c.cipherContext).conns[h.conns.length]? =
        some ⟨ownArgs a, h.buffers.length, h.states.length, c.cipherContext⟩ := by simp [Heap.addConn]
    have hσ' : σ = h.states.length := by
      obtain ⟨o, g1, g2⟩ := stateOf_some.1 hσ
      have g1' : (h.addConn (ownArgs a) none c.cipherContext).conns[h.conns.length]? = some o := g1
      rw [ho] at g1'
      injection g1' with g1'
      rw [← g2, ← g1']
    subst hσ'
    obtain ⟨_, c1, c2, c3, c4⟩ := ((C90_constructor (ownArgs a) none none).1 c).1 hm
    have hcc : clientConn a = .ok c := by
      have hx : mkConnWith (ownArgs a) none none = mkConn (ownArgs a) := by
        unfold mkConnWith
        cases mkConn (ownArgs a) <;> rfl
      rw [hx] at hm
      exact hm
    refine ⟨⟨toSecretStr a.password, c, sends, recvs, rands, 0, []⟩, by unfold mkClient; rw [hcc]; rfl, ?_⟩
    have := ownClient_run (C := C) (j := h.clients.length) (t := t) (k := h.conns.length) (σ := h.states.length) after
      ⟨toSecretStr a.password, c, sends, recvs, rands, 0, []⟩ hw' ?_ ?_ ?_ ?_
    · exact ⟨this.1, _, this.2, rfl⟩
    · refine ⟨hk, hσ, fun i hi hs => ?_, fun i o hi hoi => ?_⟩
      · obtain ⟨oi, g1, g2⟩ := stateOf_some.1 hs
        rcases getElem?_one g1 with g3 | ⟨g3, _⟩
        · have := hw.st i oi g3; omega
        · exact hi g3
      · rcases getElem?_one hoi with g3 | ⟨g3, _⟩
        · have := hw.con i o g3
          exact ⟨hmade i o g3, by omega⟩
        · exact absurd g3 hi
    · have := conn_some (h := { h.addConn (ownArgs a) none c.cipherContext with
          clients := h.clients ++ [⟨toSecretStr a.password, t, h.conns.length⟩] }) ho (b := []) (s := .idle)
        (by simp [Heap.addConn]) (by simp [Heap.addConn])
      rw [this]
      obtain ⟨ca, cb, cs, cc⟩ := c
      dsimp only at c1 c2 c3
      subst c1 c2 c3
      rfl
    · exact ht
    · intro op hop
      exact ⟨fun a' cx he => h2 a' cx (he ▸ hop), fun a' i he => h0 a' i (by rw [← he]; simp [hop]),
        fun a' t' he => h1 a' t' (he ▸ hop), fun o he => h3 o (he ▸ hop)⟩

/-! ### A shared state object -/

/-- What one call on a connection does to the state: nothing is observed and nothing changes, or a request is accepted
by an idle connection, or the awaited response is returned. -/
theorem obs_step (C : BlockCipher) (c : Conn) (op : Op) (hr : ∀ e r, op = .send e r → IsRequest e) :
    ((step C c op).2.obs = none ∧ (step C c op).1.state = c.state) ∨
    (∃ t u, (step C c op).2.obs = some (.accepted t) ∧ awaits c.state = none ∧ responseOf t = some u ∧
      awaits (step C c op).1.state = some u) ∨
    (∃ u, (step C c op).2.obs = some (.returned u) ∧ awaits c.state = some u ∧ awaits (step C c op).1.state = none) := by
  cases op with
  | receive d => exact .inl ⟨rfl, (receiveData_frame c d).2.2⟩
  | send e r =>
    have hq := hr e r rfl
    rcases send_request_cases C c e r hq with ⟨h1, h2, h3, h4⟩ | ⟨h1, h2⟩
    · right; left
      unfold IsRequest at hq
      obtain ⟨u, hu⟩ := Option.isSome_iff_exists.1 hq
      exact ⟨e.type, u, by simp [step, Outcome.obs, h4], by rw [h1]; rfl, hu, by simp only [step]; rw [h3, hu]⟩
    · left
      simp only [step, h2, Outcome.obs, if_true]
      exact ⟨trivial, trivial⟩
  | poll =>
    obtain ⟨h1, h2, h3⟩ := C38_poll_effect C c
    simp only [step]
    cases hp : (c.nextEvent C).2 with
    | error x => exact .inl ⟨rfl, by rw [h2 x hp]⟩
    | ok o =>
      cases o with
      | none => exact .inl ⟨rfl, by rw [h1 hp]⟩
      | some e =>
        obtain ⟨g1, g2⟩ := h3 e hp
        exact .inr (.inr ⟨e.type, rfl, g2, by rw [g1]; rfl⟩)

theorem pending_cons2 (x y : Obs) (os : List Obs) : pending (x :: y :: os) = pending (y :: os) := by
  unfold pending; rw [List.getLast?_cons_cons]

theorem alternating_accept {os : List Obs} (h : Alternating os) {t u : EventType} (hp : pending os = none)
    (ht : responseOf t = some u) : Alternating (os ++ [.accepted t]) := by
  induction h with
  | nil => exact .open_ t u ht
  | open_ t' u' h' => simp [pending, h'] at hp
  | pair t' u' rest h' _ ih =>
    refine .pair t' u' (rest ++ [.accepted t]) h' (ih ?_)
    cases rest with
    | nil => rfl
    | cons x rest => rw [pending_cons2, pending_cons2] at hp; exact hp

theorem alternating_return {os : List Obs} (h : Alternating os) {u : EventType} (hp : pending os = some u) :
    Alternating (os ++ [.returned u]) := by
  induction h with
  | nil => cases hp
  | open_ t' u' h' =>
    simp only [pending, List.getLast?_singleton, h', Option.some.injEq] at hp
    exact .pair t' u [] (hp ▸ h') .nil
  | pair t' u' rest h' _ ih =>
    refine .pair t' u' (rest ++ [.returned u]) h' (ih ?_)
    cases rest with
    | nil => simp [pending] at hp
    | cons x rest => rw [pending_cons2, pending_cons2] at hp; exact hp

/-- What has been observed so far on the connections with state object `σ` fits the contents of that object. -/
structure Group (h : Heap) (σ : Nat) (os : List Obs) : Prop where
  alternating : Alternating os
  pending : ∀ s, h.states[σ]? = some s → awaits s = Spec.pending os
  fresh : h.states[σ]? = none → os = []

theorem state_put {h h' : Heap} {k : Nat} {c1 : Conn} (hp : Put h k c1 h') {σ : Nat} (hs : stateOf h k = some σ) :
    h'.states[σ]? = some c1.state := by
  have := hp.stateOf k
  rw [hs] at this
  obtain ⟨o, ho, e⟩ := stateOf_some.1 this
  obtain ⟨o', ho', _, h2, _⟩ := conn_cases hp.conn
  rw [ho] at ho'
  cases ho'
  rw [← e]; exact h2

/-- The calls on connections touch no other state object. -/
theorem conn_states {C : BlockCipher} {h : Heap} {k : Nat} {c : Conn} (hc : h.conn k = some c) (op : Op) {σ : Nat}
    (hs : stateOf h k ≠ some σ) : (hstep C h (.conn k op)).1.states[σ]? = h.states[σ]? := by
  obtain ⟨o, ho, hb, hst, ha, hx⟩ := conn_cases hc
  have hne : o.state ≠ σ := fun he => hs (stateOf_some.2 ⟨o, ho, he⟩)
  cases op with
  | send e r =>
    simp only [hstep, Heap.send, ho, hc, Option.bind_eq_bind, Option.bind_some]
    cases processEvent c.state e with
    | error x => rfl
    | ok s' => exact List.getElem?_set_ne hne
  | receive d =>
    simp only [hstep, Heap.receiveData, ho, hc, Option.bind_eq_bind, Option.bind_some]
    split <;> rename_i heq <;> split at heq
    · cases heq; rfl
    · split at heq <;> cases heq <;> rfl
    · cases heq
    · split at heq <;> cases heq
  | poll =>
    simp only [hstep, Heap.nextEvent, ho, hc, Option.bind_eq_bind, Option.bind_some]
    split
    · next x h' heq =>
      split at heq
      · cases heq; rfl
      · split at heq
        · cases heq; rfl
        · split at heq
          · split at heq <;> cases heq <;> rfl
          · split at heq
            · cases heq; rfl
            · split at heq
              · cases heq; rfl
              · cases heq; exact List.getElem?_set_ne hne
    · rfl

theorem client_states {C : BlockCipher} {h : Heap} {j : Nat} {o : ClientObj} (ho : h.clients[j]? = some o) (q : Call)
    (r : Nat → Rand) {σ : Nat} (hs : stateOf h o.connection ≠ some σ) :
    (hstep C h (.client j q r)).1.states[σ]? = h.states[σ]? := by
  simp only [hstep, Heap.onClient, ho, Option.bind_eq_bind, Option.bind_some]
  cases hc : h.conns[o.connection]? with
  | none => rfl
  | some oc =>
    have hne : oc.state ≠ σ := fun he => hs (stateOf_some.2 ⟨oc, hc, he⟩)
    cases hv : h.client j r with
    | none => rfl
    | some s => exact List.getElem?_set_ne hne

theorem making_states {C : BlockCipher} {h : Heap} {op : HOp} (hm : Making op) (hi : ∀ s, op = .newState s → s = .idle)
    {σ : Nat} {s : PState} (hs : (hstep C h op).1.states[σ]? = some s) : h.states[σ]? = some s ∨ (h.states[σ]? = none ∧ s = .idle) := by
  have one : ∀ {x : PState}, (h.states ++ [x])[σ]? = some s → x = .idle →
      h.states[σ]? = some s ∨ (h.states[σ]? = none ∧ s = .idle) := by
    rintro x h1 rfl
    rcases getElem?_one h1 with h1 | ⟨rfl, rfl⟩
    · exact .inl h1
    · exact .inr ⟨by simp, rfl⟩
  cases op with
  | newState x => exact one hs (hi x rfl)
  | newTransport a b => exact .inl hs
  | newConn a st cx =>
    simp only [hstep] at hs
    split at hs
    · rw [newConn_eq] at hs
      cases hmk : mkConnWith a none cx with
      | error x => rw [hmk] at hs; exact .inl hs
      | ok c =>
        rw [hmk] at hs
        cases st with
        | none => exact one hs rfl
        | some x => exact .inl hs
    · exact .inl hs
  | newClient a t k =>
    simp only [hstep] at hs
    split at hs
    · rw [newClient_eq] at hs
      cases k with
      | some i => exact .inl hs
      | none =>
        dsimp only at hs
        cases hmk : mkConnWith (ownArgs a) none none with
        | error x => rw [hmk] at hs; exact .inl hs
        | ok c => rw [hmk] at hs; exact one hs rfl
    · exact .inl hs
  | conn i o => cases hm
  | client i q r => cases hm

theorem stateOf_hrun {C : BlockCipher} (ops : List HOp) : ∀ {h : Heap}, WF h → ∀ {k σ : Nat}, stateOf h k = some σ →
    stateOf (hrun C h ops).1 k = some σ := by
  induction ops with
  | nil => exact fun _ _ _ h => h
  | cons op ops ih =>
    intro h hw k σ hs
    refine ih (hstep_wf (C := C) hw op) ?_
    by_cases hm : Making op
    · exact (making_step hw hm).1.stateOf hs
    · cases op with
      | conn i o =>
        cases hci : h.conn i with
        | none => rw [absent_conn hci]; exact hs
        | some ci => rw [(conn_step hw hci o).2.1.stateOf]; exact hs
      | client j q r =>
        cases ho : h.clients[j]? with
        | none => rw [absent_client ho]; exact hs
        | some o =>
          obtain ⟨t, cj, ht, hcj⟩ := client_exists hw ho
          rw [(client_step hw q r ho ht hcj).2.1.stateOf]; exact hs
      | _ => exact absurd trivial hm

theorem clients_hrun {C : BlockCipher} (ops : List HOp) : ∀ {h : Heap}, WF h → ∀ {j : Nat} {o : ClientObj},
    h.clients[j]? = some o → (hrun C h ops).1.clients[j]? = some o := by
  induction ops with
  | nil => exact fun _ _ _ h => h
  | cons op ops ih =>
    intro h hw j o hj
    refine ih (hstep_wf (C := C) hw op) ?_
    by_cases hm : Making op
    · obtain ⟨l, hl⟩ := (making_step (C := C) hw hm).1.clients
      rw [hl]; exact getElem?_grow l hj
    · cases op with
      | conn i q =>
        cases hci : h.conn i with
        | none => rw [absent_conn hci]; exact hj
        | some ci => rw [(conn_step hw hci q).2.1.clients]; exact hj
      | client i q r =>
        cases ho : h.clients[i]? with
        | none => rw [absent_client ho]; exact hj
        | some oi =>
          obtain ⟨t, cj, ht, hcj⟩ := client_exists hw ho
          rw [(client_step hw q r ho ht hcj).2.1.clients]; exact hj
      | _ => exact absurd trivial hm

theorem group_run {C : BlockCipher} {σ : Nat} (G : Nat → Prop) [DecidablePred G] (ops : List HOp) : ∀ {h : Heap} {os : List Obs},
    WF h → Group h σ os → (∀ k τ, stateOf h k = some τ → (G k ↔ τ = σ)) →
    (∀ k, G k ↔ stateOf (hrun C h ops).1 k = some σ) →
    (∀ s, HOp.newState s ∈ ops → s = .idle) → (∀ k e r, HOp.conn k (.send e r) ∈ ops → IsRequest e) →
    (∀ (j : Nat) (o : ClientObj), (hrun C h ops).1.clients[j]? = some o → ¬ G o.connection) →
    Group (hrun C h ops).1 σ (os ++ observe (resultsOn G (hrun C h ops).2)) := by
  induction ops with
  | nil => intro h os _ hg _ _ _ _ _; simpa [hrun, resultsOn, observe] using hg
  | cons op ops ih =>
    intro h os hw hg hG hF hi hr hcl
    have hw' := hstep_wf (C := C) hw op
    have hG' : ∀ k τ, stateOf (hstep C h op).1 k = some τ → (G k ↔ τ = σ) := by
      intro k τ hs
      have := stateOf_hrun (C := C) ops hw' hs
      rw [hF k]
      show stateOf (hrun C (hstep C h op).1 ops).1 k = some σ ↔ _
      rw [this]; simp
    have step_on := fun {os' : List Obs} (hg' : Group (hstep C h op).1 σ os') =>
      ih (os := os') hw' hg' hG' hF (fun s hs => hi s (by simp [hs])) (fun k e r hm => hr k e r (by simp [hm])) hcl
    have quiet : Group (hstep C h op).1 σ os → (∀ k o x, op = .conn k o → (hstep C h op).2 = .conn x → ¬ G k ∨ x.obs = none) →
        Group (hrun C h (op :: ops)).1 σ (os ++ observe (resultsOn G (hrun C h (op :: ops)).2)) := by
      intro hg' hq
      have := step_on hg'
      have e : observe (resultsOn G (hrun C h (op :: ops)).2) =
          observe (resultsOn G (hrun C (hstep C h op).1 ops).2) := by
        simp only [hrun, resultsOn, List.filterMap_cons]
        cases op with
        | conn k o =>
          cases hx : (hstep C h (.conn k o)).2 with
          | conn x =>
            dsimp only
            by_cases hk : G k
            · rcases hq k o x rfl hx with h1 | h1
              · exact absurd hk h1
              · simp [hk, observe, h1]
            · simp [hk]
          | _ => rfl
        | _ => rfl
      rw [e]
      exact this
    by_cases hm : Making op
    · refine quiet ⟨hg.alternating, fun s hs => ?_, fun hs => ?_⟩ (fun k o x he => by subst he; cases hm)
      · rcases making_states hm (fun s hs => hi s (by simp [hs])) hs with h1 | ⟨h1, rfl⟩
        · exact hg.pending s h1
        · rw [hg.fresh h1]; rfl
      · refine hg.fresh ?_
        obtain ⟨l, hl⟩ := (making_step (C := C) hw hm).1.states
        rw [hl] at hs
        cases hx : h.states[σ]? with
        | none => rfl
        | some x => rw [getElem?_grow l hx] at hs; cases hs
    · cases op with
      | conn k o =>
        cases hc : h.conn k with
        | none =>
          refine quiet ?_ ?_
          · rw [absent_conn hc]; exact hg
          · intro k' o' x he hx; rw [absent_conn hc] at hx; cases hx
        | some c =>
          obtain ⟨g1, g2, _⟩ := conn_step (C := C) hw hc o
          obtain ⟨oc, hoc, _, hst, _⟩ := conn_cases hc
          have hk : stateOf h k = some oc.state := stateOf_some.2 ⟨oc, hoc, rfl⟩
          by_cases hGk : G k
          · have hσ : oc.state = σ := (hG k _ hk).1 hGk
            rw [hσ] at hk hst
            have hnew := state_put g2 hk
            have hpend := hg.pending _ hst
            rcases obs_step C c o (fun e r he => hr k e r (by simp [he])) with ⟨o1, o2⟩ | ⟨t, u, o1, o2, o3, o4⟩ | ⟨u, o1, o2, o3⟩
            · refine quiet ⟨hg.alternating, fun s hs => ?_, fun hs => ?_⟩ ?_
              · rw [hnew] at hs; cases hs; rw [o2]; exact hpend
              · rw [hnew] at hs; cases hs
              · intro k' o' x he hx
                rw [g1] at hx
                cases hx
                exact .inr o1
            · have := step_on (os' := os ++ [.accepted t]) ⟨alternating_accept hg.alternating (hpend.symm.trans o2) o3,
                fun s hs => by rw [hnew] at hs; cases hs; rw [pending_snoc]; exact o4.trans o3.symm,
                fun hs => by rw [hnew] at hs; cases hs⟩
              have e : os ++ observe (resultsOn G (hrun C h (.conn k o :: ops)).2) = (os ++ [.accepted t]) ++
                  observe (resultsOn G (hrun C (hstep C h (.conn k o)).1 ops).2) := by
                simp [hrun, resultsOn, g1, hGk, observe, o1]
              rw [e]; exact this
            · have := step_on (os' := os ++ [.returned u]) ⟨alternating_return hg.alternating (hpend.symm.trans o2),
                fun s hs => by rw [hnew] at hs; cases hs; rw [pending_snoc]; exact o3,
                fun hs => by rw [hnew] at hs; cases hs⟩
              have e : os ++ observe (resultsOn G (hrun C h (.conn k o :: ops)).2) = (os ++ [.returned u]) ++
                  observe (resultsOn G (hrun C (hstep C h (.conn k o)).1 ops).2) := by
                simp [hrun, resultsOn, g1, hGk, observe, o1]
              rw [e]; exact this
          · have hne : stateOf h k ≠ some σ := fun he => hGk ((hG k σ he).2 rfl)
            have hsame := conn_states (C := C) hc o hne
            refine quiet ⟨hg.alternating, fun s hs => hg.pending s (hsame ▸ hs), fun hs => hg.fresh (hsame ▸ hs)⟩ ?_
            intro k' o' x he hx
            cases he
            exact .inl hGk
      | client j q r =>
        refine quiet ?_ (fun k o x he => by cases he)
        cases ho : h.clients[j]? with
        | none => rw [absent_client ho]; exact hg
        | some oj =>
          have hne : stateOf h oj.connection ≠ some σ := by
            intro he
            refine hcl j oj (clients_hrun (C := C) (.client j q r :: ops) hw ho) ((hG _ σ he).2 rfl)
          have hsame := client_states (C := C) ho q r hne
          exact ⟨hg.alternating, fun s hs => hg.pending s (hsame ▸ hs), fun hs => hg.fresh (hsame ▸ hs)⟩
      | _ => exact absurd trivial hm

/-- C92. The connections that share one state object, in any program: their accepted requests and returned responses,
taken together, are requests and responses in turns.  So all of them together have at most one request outstanding, and
what is awaited is the response to the last accepted request, on whichever connection it was sent. -/
theorem C92_shared_state (C : BlockCipher) (ops : List HOp) (σ : Nat) (hi : ∀ s, HOp.newState s ∈ ops → s = .idle)
    (hr : ∀ k e r, HOp.conn k (.send e r) ∈ ops → IsRequest e)
    (hcl : ∀ (j : Nat) (o : ClientObj), (hrun C {} ops).1.clients[j]? = some o →
      stateOf (hrun C {} ops).1 o.connection ≠ some σ) :
    Alternating (observe (resultsOn (fun k => stateOf (hrun C {} ops).1 k = some σ) (hrun C {} ops).2)) ∧
    ∀ k c, stateOf (hrun C {} ops).1 k = some σ → (hrun C {} ops).1.conn k = some c →
      awaits c.state = pending (observe (resultsOn (fun k => stateOf (hrun C {} ops).1 k = some σ) (hrun C {} ops).2)) := by
  have := group_run (C := C) (σ := σ) (h := {}) (os := []) (fun k => stateOf (hrun C {} ops).1 k = some σ) ops wf_empty
    ⟨.nil, by simp, by simp⟩ (by simp [stateOf]) (fun _ => Iff.rfl) hi hr hcl
  rw [List.nil_append] at this
  refine ⟨this.alternating, fun k c hk hc => ?_⟩
  obtain ⟨o, ho, _, hs, _⟩ := conn_cases hc
  obtain ⟨o', ho', e⟩ := stateOf_some.1 hk
  rw [ho] at ho'
  cases ho'
  exact this.pending _ (e ▸ hs)

/-- A new connection has received nothing. -/
theorem making_fresh {C : BlockCipher} {h : Heap} (hw : WF h) {op : HOp} (hm : Making op) {k : Nat} {c : Conn}
    (hn : h.conn k = none) (hc : (hstep C h op).1.conn k = some c) : c.buffer = [] := by
  have no : h.conns[k]? = none := by
    cases hx : h.conns[k]? with
    | none => rfl
    | some o =>
      have h1 := conn_some hx (List.getElem?_eq_getElem (hw.buf k o hx)) (List.getElem?_eq_getElem (hw.st k o hx))
      rw [hn] at h1; cases h1
  have add : ∀ (a : ConnArgs) (st : Option Nat) (x : Option CipherContext) (l : List ClientObj),
      ({ h.addConn a st x with clients := l } : Heap).conn k = some c → c.buffer = [] := by
    intro a st x l h1
    obtain ⟨o, h2, h3, _⟩ := conn_cases h1
    rcases getElem?_one h2 with h4 | ⟨_, rfl⟩
    · rw [no] at h4; cases h4
    · simp [Heap.addConn] at h3
      exact h3
  have same : h.conn k = some c → c.buffer = [] := fun h1 => by rw [hn] at h1; cases h1
  have nothing : ∀ h' : Heap, h'.conns = h.conns → h'.conn k = some c → c.buffer = [] := by
    intro h' e h1
    obtain ⟨o, h2, _⟩ := conn_cases h1
    rw [e, no] at h2; cases h2
  cases op with
  | newState x => exact nothing (hstep C h (.newState x)).1 rfl hc
  | newTransport a b => exact nothing _ rfl hc
  | newConn a st cx =>
    simp only [hstep] at hc
    split at hc
    · rw [newConn_eq] at hc
      cases hmk : mkConnWith a none cx with
      | error x => rw [hmk] at hc; exact same hc
      | ok c' => rw [hmk] at hc; exact add a st c'.cipherContext h.clients hc
    · exact same hc
  | newClient a t i =>
    simp only [hstep] at hc
    split at hc
    · rw [newClient_eq] at hc
      cases i with
      | some i => exact nothing _ rfl hc
      | none =>
        dsimp only at hc
        cases hmk : mkConnWith (ownArgs a) none none with
        | error x => rw [hmk] at hc; exact same hc
        | ok c' => rw [hmk] at hc; exact add (ownArgs a) none c'.cipherContext _ hc
    · exact same hc
  | conn i o => cases hm
  | client i q r => cases hm

/-- What one call does to the buffer. -/
theorem step_buffer (C : BlockCipher) (c : Conn) (ps : List Bytes) (op : Op) (h : c.buffer = gathered ps) :
    (step C c op).1.buffer = gathered (chunksSince ps [(op, (step C c op).2)]) := by
  have := run_buffer C c ps [op] h
  simpa [run, history] using this

theorem chunksSince_cons (ps : List Bytes) (x : Op × Outcome) (h : List (Op × Outcome)) :
    chunksSince ps (x :: h) = chunksSince (chunksSince ps [x]) h := by
  obtain ⟨op, o⟩ := x
  cases op with
  | send e r => rfl
  | receive d => rfl
  | poll =>
    cases o with
    | polled y =>
      cases y with
      | error e => rfl
      | ok y => cases y <;> rfl
    | _ => rfl

/-- The buffer of a connection that no client uses: what was received on this connection. -/
theorem buffer_hrun {C : BlockCipher} {k : Nat} (ops : List HOp) : ∀ {h : Heap} {ps : List Bytes}, WF h →
    (∀ c, h.conn k = some c → c.buffer = gathered ps) → (h.conn k = none → ps = []) →
    (∀ (j : Nat) (o : ClientObj), (hrun C h ops).1.clients[j]? = some o → o.connection ≠ k) →
    ∀ c, (hrun C h ops).1.conn k = some c → c.buffer = gathered (chunksSince ps (traceOn k (hrun C h ops).2)) := by
  induction ops with
  | nil => intro h ps _ h1 _ _; exact h1
  | cons op ops ih =>
    intro h ps hw h1 h2 h3
    have hw' := hstep_wf (C := C) hw op
    have go : ∀ ps', (∀ c, (hstep C h op).1.conn k = some c → c.buffer = gathered ps') →
        ((hstep C h op).1.conn k = none → ps' = []) →
        chunksSince ps (traceOn k (hrun C h (op :: ops)).2) =
          chunksSince ps' (traceOn k (hrun C (hstep C h op).1 ops).2) →
        ∀ c, (hrun C h (op :: ops)).1.conn k = some c →
          c.buffer = gathered (chunksSince ps (traceOn k (hrun C h (op :: ops)).2)) := by
      intro ps' g1 g2 g3
      rw [g3]
      exact ih hw' g1 g2 h3
    have skip : (∀ o x, op = .conn k o → (hstep C h op).2 ≠ .conn x) → traceOn k (hrun C h (op :: ops)).2 =
        traceOn k (hrun C (hstep C h op).1 ops).2 := by
      intro hq
      simp only [hrun, traceOn, List.filterMap_cons]
      cases op with
      | conn i o =>
        cases hx : (hstep C h (.conn i o)).2 with
        | conn x =>
          dsimp only
          by_cases hk : i = k
          · subst hk; exact absurd hx (hq o x rfl)
          · simp [hk]
        | _ => rfl
      | _ => rfl
    have keep : (∀ c, (hstep C h op).1.conn k = some c → ∃ c', h.conn k = some c' ∧ c'.buffer = c.buffer) →
        ((hstep C h op).1.conn k = none → h.conn k = none) → (∀ o x, op = .conn k o → (hstep C h op).2 ≠ .conn x) →
        ∀ c, (hrun C h (op :: ops)).1.conn k = some c →
          c.buffer = gathered (chunksSince ps (traceOn k (hrun C h (op :: ops)).2)) := by
      intro g1 g2 g3
      refine go ps (fun c hc => ?_) (fun hc => h2 (g2 hc)) (by rw [skip g3])
      obtain ⟨c', e1, e2⟩ := g1 c hc
      rw [← e2]; exact h1 c' e1
    by_cases hm : Making op
    · have g := (making_step (C := C) hw hm).1
      refine go ps (fun c hc => ?_) (fun hc => ?_) (by rw [skip (fun o x he => by subst he; cases hm)])
      · cases hx : h.conn k with
        | none => rw [h2 hx, making_fresh hw hm hx hc]; rfl
        | some c' =>
          rw [g.conn hx] at hc
          cases hc
          exact h1 _ hx
      · refine h2 ?_
        cases hx : h.conn k with
        | none => rfl
        | some c' => rw [g.conn hx] at hc; cases hc
    · have other : ∀ i c1, i ≠ k → Put h i c1 (hstep C h op).1 →
          (∀ o x, op = .conn k o → (hstep C h op).2 ≠ .conn x) → ∀ c, (hrun C h (op :: ops)).1.conn k = some c →
          c.buffer = gathered (chunksSince ps (traceOn k (hrun C h (op :: ops)).2)) := by
        intro i c1 hi hp hq
        have e := hp.other k (Ne.symm hi)
        refine keep (fun c hc => ?_) (fun hc => ?_) hq
        · rw [e] at hc
          cases hx : h.conn k with
          | none => rw [hx] at hc; cases hc
          | some c' =>
            rw [hx] at hc
            simp only [Option.map_some, Option.some.injEq] at hc
            refine ⟨c', rfl, ?_⟩
            rw [← hc]; split <;> rfl
        · rw [e] at hc
          cases hx : h.conn k with
          | none => rfl
          | some c' => rw [hx] at hc; cases hc
      cases op with
      | conn i o =>
        cases hci : h.conn i with
        | none =>
          have := absent_conn (C := C) hci o
          exact keep (fun c hc => ⟨c, by rw [this] at hc; exact hc, rfl⟩) (fun hc => by rw [this] at hc; exact hc)
            (fun _ x _ => by rw [this]; exact fun h => by cases h)
        | some ci =>
          obtain ⟨g1, g2, _⟩ := conn_step (C := C) hw hci o
          by_cases hi : i = k
          · subst hi
            refine go (chunksSince ps [(o, (step C ci o).2)]) (fun c hc => ?_) (fun hc => ?_) ?_
            · rw [g2.conn] at hc
              cases hc
              exact step_buffer C ci ps o (h1 _ hci)
            · rw [g2.conn] at hc; cases hc
            · rw [← chunksSince_cons]
              simp [hrun, traceOn, g1]
          · exact other i _ hi g2 (fun o' x he => by cases he; exact absurd rfl hi)
      | client j q r =>
        cases ho : h.clients[j]? with
        | none =>
          have := absent_client (C := C) ho q r
          exact keep (fun c hc => ⟨c, by rw [this] at hc; exact hc, rfl⟩) (fun hc => by rw [this] at hc; exact hc)
            (fun _ x he => by cases he)
        | some oj =>
          obtain ⟨t, cj, ht, hcj⟩ := client_exists hw ho
          refine other oj.connection _ (h3 j oj (clients_hrun (C := C) (.client j q r :: ops) hw ho))
            (client_step hw q r ho ht hcj).2.1 (fun _ x he => by cases he)
      | _ => exact absurd trivial hm

/-- C92. What `next_event` answers on a connection whose state object is shared: the data is what was received on this
very connection, but it is accepted if and only if it is the response to the last request accepted on any of the
connections with the same state object. -/
theorem C92_shared_answer (C : BlockCipher) (ops : List HOp) (σ k : Nat) (c : Conn)
    (hi : ∀ s, HOp.newState s ∈ ops → s = .idle)
    (hr : ∀ k e r, HOp.conn k (.send e r) ∈ ops → IsRequest e)
    (hcl : ∀ (j : Nat) (o : ClientObj), (hrun C {} ops).1.clients[j]? = some o →
      stateOf (hrun C {} ops).1 o.connection ≠ some σ)
    (hk : stateOf (hrun C {} ops).1 k = some σ) (hc : (hrun C {} ops).1.conn k = some c) (y : Res (Option Event)) :
    (hstep C (hrun C {} ops).1 (.conn k .poll)).2 = .conn (.polled y) ↔
      ∃ s, awaits s = pending (observe (resultsOn (fun i => stateOf (hrun C {} ops).1 i = some σ) (hrun C {} ops).2)) ∧
        Answers C c.cipherContext s (gathered (chunksSince [] (traceOn k (hrun C {} ops).2))) y := by
  have hw := hrun_wf (C := C) ops wf_empty
  have h1 := (C92_shared_state C ops σ hi hr hcl).2 k c hk hc
  have h2 := buffer_hrun (C := C) (k := k) ops (h := {}) (ps := []) wf_empty (by simp [Heap.conn]) (fun _ => rfl)
    (fun j o hj he => hcl j o hj (by rw [he]; exact hk)) c hc
  rw [(conn_step (C := C) hw hc .poll).1, ← h1, ← h2]
  constructor
  · intro h
    refine ⟨c.state, rfl, (C44_answers C c y).1 ?_⟩
    simpa [step] using h
  · rintro ⟨s, hs, ha⟩
    have : (({ c with state := s } : Conn).nextEvent C).2 = y := (C44_answers C { c with state := s } y).2 ha
    have e : c.state = s := by
      revert hs; cases s <;> cases c.state <;> simp [awaits]
    rw [← e] at ha
    rw [← (C44_answers C c y).2 ha]
    rfl

/-- A call on one of two connections with the same state object. -/
theorem pair_step {C : BlockCipher} {h : Heap} (hw : WF h) {i j : Nat} (hne : i ≠ j) {a b : Conn}
    (hs : stateOf h i = stateOf h j) (ha : h.conn i = some a) (hb : h.conn j = some b) (op : Op) :
    (hstep C h (.conn i op)).2 = .conn (step C a op).2 ∧ WF (hstep C h (.conn i op)).1 ∧
    stateOf (hstep C h (.conn i op)).1 i = stateOf (hstep C h (.conn i op)).1 j ∧
    (hstep C h (.conn i op)).1.conn i = some (step C a op).1 ∧
    (hstep C h (.conn i op)).1.conn j = some { b with state := (step C a op).1.state } := by
  obtain ⟨g1, g2, _⟩ := conn_step (C := C) hw ha op
  refine ⟨g1, g2.wf, by rw [g2.stateOf, g2.stateOf, hs], g2.conn, ?_⟩
  rw [g2.other j (Ne.symm hne), hb]
  simp [hs]

/-- C92. Two idle connections with the same state object: the request is sent on the one, and a response to it arrives
on the other.  The other one accepts it, and the response that arrives on the first is refused. -/
theorem C92_crossed (C : BlockCipher) (before : List HOp) (k1 k2 : Nat) (c1 c2 : Conn) (hne : k1 ≠ k2)
    (hk : stateOf (hrun C {} before).1 k1 = stateOf (hrun C {} before).1 k2)
    (hc1 : (hrun C {} before).1.conn k1 = some c1) (hc2 : (hrun C {} before).1.conn k2 = some c2)
    (hb1 : Ready c1) (hb2 : c2.buffer = []) (e : Event) (r : Rand) (wire : Bytes)
    (he : (c1.send C e r).2 = .ok wire) (line1 line2 : Bytes) (pdu1 pdu2 : Event)
    (hq : responseOf e.type = some pdu2.type) (h1 : Response C c1.cipherContext line1 pdu1)
    (h2 : Response C c2.cipherContext line2 pdu2) :
    (hrun C (hrun C {} before).1 [.conn k1 (.send e r), .conn k2 (.receive line2), .conn k2 .poll,
      .conn k1 (.receive line1), .conn k1 .poll]).2.map (·.2) =
    [.conn (.sent e (.ok wire)), .conn .received, .conn (.polled (.ok (some pdu2))), .conn .received,
      .conn (.polled (.error (.elgas .localProtocol)))] := by
  have hw := hrun_wf (C := C) before wf_empty
  generalize (hrun C {} before).1 = h at hk hc1 hc2 hw ⊢
  simp only [hrun, List.map_cons, List.map_nil]
  have hreq : IsRequest e := by unfold IsRequest; rw [hq]; rfl
  obtain ⟨w2, svc2, data2, rfl, hw2, hd2, ho2, hdec2⟩ := h2
  obtain ⟨w1, svc1, data1, rfl, hw1, hd1, ho1, hdec1⟩ := h1
  rcases send_request_cases C c1 e r hreq with ⟨s1, s2, s3, _⟩ | ⟨_, s2⟩
  · rw [hq] at s3
    generalize (c1.send C e r).1.state = S at s2 s3
    -- the request
    obtain ⟨a1, a2, a3, a4, a5⟩ := pair_step (C := C) hw hne hk hc1 hc2 (.send e r)
    simp only [step, he] at a1
    simp only [step, s2] at a4 a5
    rw [a1]
    generalize (hstep C h (.conn k1 (.send e r))).1 = h1 at a2 a3 a4 a5 ⊢
    -- the response on the other connection
    obtain ⟨b1, b2, b3, b4, b5⟩ := pair_step (C := C) a2 (Ne.symm hne) a3.symm a5 a4 (.receive (w2 ++ [0x0D]))
    simp only [step] at b1
    simp only [step, receiveData_append (fun h => absurd h (delivers_ne hd2)), hb2, List.nil_append] at b4 b5
    rw [b1]
    generalize (hstep C h1 (.conn k2 (.receive (w2 ++ [0x0D])))).1 = h2 at b2 b3 b4 b5 ⊢
    obtain ⟨d1, d2, d3, d4, d5⟩ := pair_step (C := C) b2 (Ne.symm hne) b3 b4 b5 .poll
    have hpoll := (C44_returns_iff C { c2 with buffer := w2 ++ [0x0D], state := S } pdu2).2
      ⟨w2, [], svc2, data2, rfl, hw2, hd2, ho2, hdec2, s3⟩
    have hidle := ((C38_poll_effect C { c2 with buffer := w2 ++ [0x0D], state := S }).2.2 pdu2 hpoll).1
    simp only [step, hpoll] at d1
    simp only [step, hidle] at d4 d5
    rw [d1]
    generalize (hstep C h2 (.conn k2 .poll)).1 = h3 at d2 d3 d4 d5 ⊢
    -- the response on the first
    obtain ⟨f1, f2, f3, f4, f5⟩ := pair_step (C := C) d2 hne d3.symm d5 d4 (.receive (w1 ++ [0x0D]))
    simp only [step] at f1
    simp only [step, receiveData_append (fun h => absurd h (delivers_ne hd1)), hb1.2, List.nil_append] at f4 f5
    rw [f1]
    generalize (hstep C h3 (.conn k1 (.receive (w1 ++ [0x0D])))).1 = h4 at f2 f3 f4 f5 ⊢
    rw [(pair_step (C := C) f2 hne f3 f4 f5 .poll).1]
    simp only [step]
    rw [(C44_answers C _ _).2 (Answers.unexpected w1 [] svc1 data1 pdu1 hw1 hd1 ho1 hdec1 (by simp [awaits]))]
  · rw [s2] at he; cases he

/-! ### A shared transport -/

/-- What was handed to a transport stays so. -/
theorem handed_hrun {C : BlockCipher} (ops : List HOp) : ∀ {h : Heap}, WF h → ∀ {t : Nat} {T : TransportObj},
    h.transports[t]? = some T →
    ∃ T' ws, (hrun C h ops).1.transports[t]? = some T' ∧ T'.handed = T.handed ++ ws := by
  induction ops with
  | nil => intro h _ t T hT; exact ⟨T, [], hT, by simp⟩
  | cons op ops ih =>
    intro h hw t T hT
    have hw' := hstep_wf (C := C) hw op
    have one : ∃ T' ws, (hstep C h op).1.transports[t]? = some T' ∧ T'.handed = T.handed ++ ws := by
      by_cases hm : Making op
      · obtain ⟨l, hl⟩ := (making_step (C := C) hw hm).1.transports
        exact ⟨T, [], by rw [hl]; exact getElem?_grow l hT, by simp⟩
      · cases op with
        | conn i q =>
          cases hci : h.conn i with
          | none => rw [absent_conn hci]; exact ⟨T, [], hT, by simp⟩
          | some ci => rw [(conn_step hw hci q).2.2]; exact ⟨T, [], hT, by simp⟩
        | client i q r =>
          cases ho : h.clients[i]? with
          | none => rw [absent_client ho]; exact ⟨T, [], hT, by simp⟩
          | some oi =>
            obtain ⟨tj, cj, ht, hcj⟩ := client_exists hw ho
            rw [(client_step hw q r ho ht hcj).2.2]
            by_cases he : oi.transport = t
            · subst he
              rw [hT] at ht
              cases ht
              obtain ⟨ws, hws⟩ := (callV_stable C ⟨oi.password, cj, T.sends, T.recvs, r, 0, T.handed⟩ q).handed
              exact ⟨_, ws, List.getElem?_set_self (getElem?_lt hT), hws⟩
            · exact ⟨T, [], by rw [List.getElem?_set_ne he]; exact hT, by simp⟩
        | _ => exact absurd trivial hm
    obtain ⟨T1, ws1, e1, e2⟩ := one
    obtain ⟨T2, ws2, e3, e4⟩ := ih hw' e1
    exact ⟨T2, ws1 ++ ws2, e3, by rw [e4, e2, List.append_assoc]⟩

/-- Clients of a device on the first transport, all of them ready. -/
structure OneLine (C : BlockCipher) (D : Device) (h : Heap) : Prop where
  conns : ∀ k c, h.conn k = some c → Ready c ∧ ∃ ca, Reachable C ca c ∧ createCipherContext ca = contextOf D.key
  clients : ∀ (j : Nat) (o : ClientObj), h.clients[j]? = some o →
    o.transport = 0 ∧ IsLatin1 o.password ∧ latin1 o.password = D.password

theorem oneLine_client {C : BlockCipher} {D : Device} (hd : D.Ok) {h : Heap} (hw : WF h) (ho : OneLine C D h)
    (a : ClientArgs) (i : Option Nat) (h1 : SharesKey a D) (h2 : KnowsPassword a D) :
    OneLine C D (hstep C h (.newClient a 0 i)).1 ∧ (hstep C h (.newClient a 0 i)).1.transports = h.transports := by
  simp only [hstep]
  split
  · rw [newClient_eq]
    cases i with
    | some k =>
      refine ⟨⟨fun k' c hc => ho.conns k' c hc, fun j o hj => ?_⟩, rfl⟩
      rcases getElem?_one hj with hj | ⟨_, rfl⟩
      · exact ho.clients j o hj
      · exact ⟨rfl, h2.1, h2.2⟩
    | none =>
      dsimp only
      cases hm : mkConnWith (ownArgs a) none none with
      | error x => exact ⟨ho, rfl⟩
      | ok c0 =>
        refine ⟨⟨fun k' c hc => ?_, fun j o hj => ?_⟩, rfl⟩
        · obtain ⟨_, c1, c2, c3, c4⟩ := ((C90_constructor (ownArgs a) none none).1 c0).1 hm
          have g := grown_addConn hw (ownArgs a) none c0.cipherContext (fun s hs => by cases hs)
          cases hx : h.conn k' with
          | some c' =>
            have := g.conn hx
            have e : (h.addConn (ownArgs a) none c0.cipherContext).conn k' = some c := hc
            rw [this] at e
            cases e
            exact ho.conns k' _ hx
          | none =>
            have hm' : mkConn (ownArgs a) = .ok c0 := by
              have : mkConnWith (ownArgs a) none none = mkConn (ownArgs a) := by
                unfold mkConnWith
                cases mkConn (ownArgs a) <;> rfl
              rw [← this]; exact hm
            have hcond : (0 : Nat) < h.transports.length ∧ (∀ i, (none : Option Nat) = some i → i < h.conns.length) := by
              assumption
            have e : c = c0 := by
              obtain ⟨o, q1, q2, q3, q4, q5⟩ := conn_cases hc
              rcases getElem?_one q1 with q6 | ⟨_, rfl⟩
              · have := conn_some q6 (List.getElem?_eq_getElem (hw.buf k' o q6)) (List.getElem?_eq_getElem (hw.st k' o q6))
                rw [hx] at this; cases this
              · simp [Heap.addConn] at q2 q3 q4 q5
                obtain ⟨ca, cb, cs, cc⟩ := c
                obtain ⟨ca', cb', cs', cc'⟩ := c0
                dsimp only at *
                subst c1 c2 c3 q4 q5 q2
                simp [q3]
            subst e
            exact ⟨⟨c3, c2⟩, ownArgs a, ⟨c, [], hm', rfl⟩, shares_context h1 hd.key rfl⟩
        · rcases getElem?_one hj with hj | ⟨_, rfl⟩
          · exact ho.clients j o hj
          · exact ⟨rfl, h2.1, h2.2⟩
  · exact ⟨ho, rfl⟩

theorem oneLine_run {C : BlockCipher} {D' : Device} (ops : List HOp) : ∀ {D : Device}, D.Ok → ∀ {h : Heap} {n : Nat}
    {rs ws handed : List Bytes}, WF h → OneLine C D h → (∀ op ∈ ops, UsesLine D op) →
    h.transports[0]? = some ⟨List.replicate n (.ok ()), rs.map .ok, handed⟩ →
    (∃ T, (hrun C h ops).1.transports[0]? = some T ∧ T.handed = handed ++ ws) → ws.length ≤ n → Feeds C D ws rs D' →
    Ideals D ((clientTrace (hrun C h ops).2).map (·.1)) ((clientTrace (hrun C h ops).2).map (·.2)) D' ∧
    ∀ k c, (hrun C h ops).1.conn k = some c → Ready c := by
  induction ops with
  | nil =>
    intro D hd h n rs ws handed hw ho _ hT hh hn hf
    obtain ⟨T, e1, e2⟩ := hh
    simp only [hrun] at e1
    rw [hT] at e1
    cases e1
    have : ws = [] := by simpa using e2.symm
    subst this
    generalize hw' : ([] : List Bytes) = ws at hf
    cases hf with
    | nil => exact ⟨.nil _, fun k c hc => (ho.conns k c hc).1⟩
    | request => cases hw'
  | cons op ops ih =>
    intro D hd h n rs ws handed hw ho hu hT hh hn hf
    have hw' := hstep_wf (C := C) hw op
    have hu1 := hu op (by simp)
    have hu2 : ∀ op ∈ ops, UsesLine D op := fun o h => hu o (by simp [h])
    cases op with
    | newClient a t i =>
      obtain ⟨rfl, u1, u2⟩ := hu1
      obtain ⟨g1, g2⟩ := oneLine_client hd hw ho a i u1 u2
      exact ih hd hw' g1 hu2 (by rw [g2]; exact hT) hh hn hf
    | client j q r =>
      obtain ⟨u1, u2⟩ := hu1
      cases hj : h.clients[j]? with
      | none =>
        have := absent_client (C := C) hj q r
        have e := ih hd hw' (by rw [this]; exact ho) hu2 (by rw [this]; exact hT) hh hn hf
        simp only [hrun, clientTrace, List.filterMap_cons] at e ⊢
        rw [this] at e ⊢
        exact e
      | some oj =>
        obtain ⟨c1, c2, c3⟩ := ho.clients j oj hj
        obtain ⟨tj, cj, ht, hcj⟩ := client_exists hw hj
        rw [c1, hT] at ht
        cases ht
        obtain ⟨r1, ca, r2, r3⟩ := ho.conns _ _ hcj
        obtain ⟨s1, s2, s3⟩ := client_step (C := C) hw q r hj (by rw [c1]; exact hT) hcj
        dsimp only at s1 s2 s3
        generalize hs : (⟨oj.password, cj, List.replicate n (.ok ()), rs.map .ok, r, 0, handed⟩ : Sys) = s at s1 s2 s3
        have hT1 : (hstep C h (.client j q r)).1.transports[0]? =
            some ⟨(callV C s q).2.sends, (callV C s q).2.recvs, (callV C s q).2.handed⟩ := by
          rw [s3, c1]; exact List.getElem?_set_self (getElem?_lt hT)
        obtain ⟨T2, more, e1, e2⟩ := handed_hrun (C := C) ops hw' hT1
        obtain ⟨T, t1, t2⟩ := hh
        have : T = T2 := by
          have : (hrun C h (.client j q r :: ops)).1 = (hrun C (hstep C h (.client j q r)).1 ops).1 := rfl
          rw [this, e1] at t1
          exact (Option.some.inj t1).symm
        subst this
        have hfit : Fit C ca D s := by subst hs; exact ⟨r2, r1, r3, fun k => u2 k⟩
        obtain ⟨D1, rs2, ws1, g1, g2, g3, g4, g5⟩ := call_fed (rest := []) (more := more) hd hfit (by subst hs; exact c2)
          (by subst hs; exact c3) u1 (n := n) (by subst hs; rfl) (ws := ws) (rs := rs) (by rw [← e2, t2]; subst hs; rfl)
          hn (by subst hs; simp) hf
        have hk1 : D1.key = D.key := by rcases g4 with rfl | ⟨t, _, rfl⟩ <;> rfl
        have hp1 : D1.password = D.password := by rcases g4 with rfl | ⟨t, _, rfl⟩ <;> rfl
        have hd1 : D1.Ok := by
          rcases g4 with rfl | ⟨t, ht, rfl⟩
          · exact hd
          · exact clock_ok hd ht
        have hlen : ws.length = ws1.length + more.length := by rw [g1]; simp
        have hho : OneLine C D1 (hstep C h (.client j q r)).1 := by
          refine ⟨fun k c hc => ?_, fun i o hi => ?_⟩
          · rw [hk1]
            have hconn : (callV C s q).2.conn = cj := by rw [g5.conn, ← hs]
            by_cases hk : k = oj.connection
            · subst hk
              rw [s2.conn, hconn] at hc
              cases hc
              exact ⟨r1, ca, r2, r3⟩
            · rw [s2.other k hk] at hc
              cases hx : h.conn k with
              | none => rw [hx] at hc; cases hc
              | some c' =>
                rw [hx] at hc
                simp only [Option.map_some, Option.some.injEq] at hc
                have e : c = c' := by
                  have hi := (ho.conns k c' hx).1.1
                  split at hc
                  · rw [← hc, hconn, r1.1, ← hi]
                  · exact hc.symm
                subst e
                exact ho.conns k _ hx
          · rw [s2.clients] at hi
            rw [hp1]
            exact ho.clients i o hi
        have hu3 : ∀ op ∈ ops, UsesLine D1 op := by
          intro op hop
          have := hu2 op hop
          unfold UsesLine at this ⊢
          unfold SharesKey KnowsPassword at this ⊢
          rw [hk1, hp1]
          exact this
        have hT1' : (hstep C h (.client j q r)).1.transports[0]? =
            some ⟨List.replicate (n - ws1.length) (.ok ()), rs2.map .ok, handed ++ ws1⟩ := by
          rw [hT1, g5.sends, g5.recvs, g5.handed, ← hs]; simp
        obtain ⟨i1, i2⟩ := ih hd1 hw' hho hu3 hT1' ⟨T, t1, by rw [t2, g1, List.append_assoc]⟩ (by omega) g2
        refine ⟨?_, i2⟩
        simp only [hrun, clientTrace, List.filterMap_cons, s1, List.map_cons]
        exact .call D D1 D' q _ _ _ g3 i1
    | _ => exact absurd hu1 (by simp [UsesLine])

/-- C92. Any number of clients of one device on one transport, made at any time, each with a connection of its own or
with that of another client, and called in any order.  If the transport carries the device's answers to the lines
handed to it, then every call gives back what the device held at that moment, as with a single client, and all
connections end ready. -/
theorem C92_shared_transport (C : BlockCipher) (D D' : Device) (hd : D.Ok) (n : Nat) (rs : List Bytes) (ops : List HOp)
    (hu : ∀ op ∈ ops, UsesLine D op) (T : TransportObj)
    (hT : (hrun C {} (.newTransport (List.replicate n (.ok ())) (rs.map .ok) :: ops)).1.transports[0]? = some T)
    (hn : T.handed.length ≤ n) (hf : Feeds C D T.handed rs D') :
    Ideals D
      ((clientTrace (hrun C {} (.newTransport (List.replicate n (.ok ())) (rs.map .ok) :: ops)).2).map (·.1))
      ((clientTrace (hrun C {} (.newTransport (List.replicate n (.ok ())) (rs.map .ok) :: ops)).2).map (·.2)) D' ∧
    ∀ k c, (hrun C {} (.newTransport (List.replicate n (.ok ())) (rs.map .ok) :: ops)).1.conn k = some c → Ready c := by
  have hw := hstep_wf (C := C) wf_empty (.newTransport (List.replicate n (.ok ())) (rs.map .ok))
  refine oneLine_run (C := C) ops (h := (hstep C {} (.newTransport (List.replicate n (.ok ())) (rs.map .ok))).1) hd hw
    ⟨fun k c hc => ?_, fun j o hj => ?_⟩ hu rfl ⟨T, hT, rfl⟩ hn hf
  · obtain ⟨o, h1, _⟩ := conn_cases hc
    simp [hstep] at h1
  · simp [hstep] at hj

/-- The same program with another transport. -/
def Heap.over (h : Heap) (T : TransportObj) : Heap := { h with transports := [T] }

theorem set_same {α : Type} {l : List α} {i : Nat} {x : α} (h : l[i]? = some x) : l.set i x = l := by
  apply List.ext_getElem?
  intro j
  by_cases hj : i = j
  · subst hj; rw [List.getElem?_set_self (getElem?_lt h), h]
  · rw [List.getElem?_set_ne hj]

theorem wf_over {h : Heap} (hw : WF h) (hc : ∀ (j : Nat) (o : ClientObj), h.clients[j]? = some o → o.transport = 0)
    (T : TransportObj) : WF (h.over T) :=
  ⟨hw.buf, hw.st, hw.own, fun j o hj => by rw [hc j o hj]; simp [Heap.over], hw.con⟩

/-- A call that leaves the connection as it is changes nothing but the transport. -/
theorem call_over {C : BlockCipher} {h : Heap} {j : Nat} {o : ClientObj} {c : Conn} (ho : h.clients[j]? = some o)
    (h0 : o.transport = 0) (hc : h.conn o.connection = some c) (q : Call) (r : Nat → Rand) (T : TransportObj)
    (he : (callV C ⟨o.password, c, T.sends, T.recvs, r, 0, T.handed⟩ q).2.conn = c) :
    (hstep C (h.over T) (.client j q r)).1 =
      h.over ⟨(callV C ⟨o.password, c, T.sends, T.recvs, r, 0, T.handed⟩ q).2.sends,
        (callV C ⟨o.password, c, T.sends, T.recvs, r, 0, T.handed⟩ q).2.recvs,
        (callV C ⟨o.password, c, T.sends, T.recvs, r, 0, T.handed⟩ q).2.handed⟩ := by
  obtain ⟨oc, hoc, hb, hst, _⟩ := conn_cases hc
  have hc' : (h.over T).conn o.connection = some c := hc
  have hv := client_some (h := h.over T) r ho (t := T) (by rw [h0]; rfl) hc'
  have ho' : (h.over T).clients[j]? = some o := ho
  have hoc' : (h.over T).conns[o.connection]? = some oc := hoc
  simp only [hstep, Heap.onClient, ho', hoc', hv, Option.bind_eq_bind, Option.bind_some]
  show ({ (h.over T) with states := _, buffers := _, transports := _ } : Heap) = _
  rw [he, h0]
  simp only [Heap.over, set_same hb, set_same hst, List.set_cons_zero]

theorem newClient_over {C : BlockCipher} (h : Heap) (T : TransportObj) (hl : h.transports.length = 1) (a : ClientArgs)
    (i : Option Nat) :
    (hstep C (h.over T) (.newClient a 0 i)).1 = (hstep C h (.newClient a 0 i)).1.over T ∧
    (hstep C h (.newClient a 0 i)).1.transports.length = 1 := by
  simp only [hstep]
  have e : ((0 : Nat) < (h.over T).transports.length ∧ ∀ k, i = some k → k < (h.over T).conns.length) ↔
      ((0 : Nat) < h.transports.length ∧ ∀ k, i = some k → k < h.conns.length) := by
    simp [Heap.over, hl]
  by_cases hx : ((0 : Nat) < h.transports.length ∧ ∀ k, i = some k → k < h.conns.length)
  · rw [if_pos hx, if_pos (e.2 hx)]
    rw [newClient_eq, newClient_eq]
    cases i with
    | some k => exact ⟨rfl, hl⟩
    | none =>
      dsimp only
      cases mkConnWith (ownArgs a) none none with
      | error x => exact ⟨rfl, hl⟩
      | ok c => exact ⟨rfl, hl⟩
  · rw [if_neg hx, if_neg (fun h => hx (e.1 h))]
    exact ⟨rfl, hl⟩

theorem served_run {C : BlockCipher} (ops : List HOp) : ∀ {D : Device}, D.Ok → D.Sizes → ∀ {h : Heap}, WF h →
    OneLine C D h → h.transports.length = 1 → (∀ op ∈ ops, UsesLine D op) → ∀ handed : List Bytes,
    ∃ ws rs D', Feeds C D ws rs D' ∧ ∀ n tail, ∃ T,
      (hrun C (h.over ⟨List.replicate (ws.length + n) (.ok ()), (rs ++ tail).map .ok, handed⟩) ops).1.transports[0]? =
        some T ∧ T.handed = handed ++ ws := by
  induction ops with
  | nil =>
    intro D _ _ h _ _ _ _ handed
    exact ⟨[], [], D, .nil D, fun n tail => ⟨_, rfl, by simp⟩⟩
  | cons op ops ih =>
    intro D hd hz h hw ho hl hu handed
    have hu1 := hu op (by simp)
    have hu2 : ∀ op ∈ ops, UsesLine D op := fun o h => hu o (by simp [h])
    cases op with
    | newClient a t i =>
      obtain ⟨rfl, u1, u2⟩ := hu1
      obtain ⟨ws, rs, D', g1, g2⟩ := ih hd hz (hstep_wf (C := C) hw (.newClient a 0 i))
        (oneLine_client hd hw ho a i u1 u2).1 (newClient_over (C := C) h ⟨[], [], []⟩ hl a i).2 hu2 handed
      refine ⟨ws, rs, D', g1, fun n tail => ?_⟩
      obtain ⟨T, e1, e2⟩ := g2 n tail
      refine ⟨T, ?_, e2⟩
      simp only [hrun]
      rw [(newClient_over h _ hl a i).1]
      exact e1
    | client j q r =>
      obtain ⟨u1, u2⟩ := hu1
      cases hj : h.clients[j]? with
      | none =>
        obtain ⟨ws, rs, D', g1, g2⟩ := ih hd hz hw ho hl hu2 handed
        refine ⟨ws, rs, D', g1, fun n tail => ?_⟩
        obtain ⟨T, e1, e2⟩ := g2 n tail
        refine ⟨T, ?_, e2⟩
        simp only [hrun]
        rw [absent_client (h := h.over _) hj]
        exact e1
      | some oj =>
        obtain ⟨c1, c2, c3⟩ := ho.clients j oj hj
        obtain ⟨tj, cj, _, hcj⟩ := client_exists hw hj
        obtain ⟨r1, ca, r2, r3⟩ := ho.conns _ _ hcj
        have fit : Fit C ca D ⟨oj.password, cj, [], [], r, 0, handed⟩ := ⟨r2, r1, r3, fun k => u2 k⟩
        obtain ⟨D1, ⟨ws1, rs1, h1, h2, h3⟩, hD⟩ := call_served hd hz fit c2 c3 u1
        have hk1 : D1.key = D.key := by rcases hD with rfl | ⟨t, _, rfl⟩ <;> rfl
        have hp1 : D1.password = D.password := by rcases hD with rfl | ⟨t, _, rfl⟩ <;> rfl
        have hd1 : D1.Ok := by
          rcases hD with rfl | ⟨t, ht, rfl⟩
          · exact hd
          · exact clock_ok hd ht
        have hz1 : D1.Sizes := by
          rcases hD with rfl | ⟨t, ht, rfl⟩
          · exact hz
          · exact ⟨hz.values, hz.objects, hz.records, hz.recordsSince⟩
        have ho1 : OneLine C D1 h := ⟨by rw [hk1]; exact ho.conns, by rw [hp1]; exact ho.clients⟩
        have hu3 : ∀ op ∈ ops, UsesLine D1 op := by
          intro op hop
          have := hu2 op hop
          unfold UsesLine at this ⊢
          unfold SharesKey KnowsPassword at this ⊢
          rw [hk1, hp1]
          exact this
        obtain ⟨ws, rs, D', g1, g2⟩ := ih hd1 hz1 hw ho1 hl hu3 (handed ++ ws1)
        refine ⟨ws1 ++ ws, rs1 ++ rs, D', h2 _ _ _ g1, fun n tail => ?_⟩
        obtain ⟨T, e1, e2⟩ := g2 n tail
        refine ⟨T, ?_, by rw [e2, List.append_assoc]⟩
        simp only [hrun]
        have e3 := h3 (ws.length + n) (rs ++ tail)
        dsimp only [Sys.with] at e3
        rw [← callV_call] at e3
        have e4 := call_over (C := C) (h := h) hj c1 hcj q r
          ⟨List.replicate (ws1.length + (ws.length + n)) (.ok ()), (rs1 ++ (rs ++ tail)).map .ok, handed⟩ (by
            dsimp only; rw [e3])
        dsimp only at e4
        rw [e3] at e4
        rw [List.length_append, Nat.add_assoc, List.append_assoc, e4]
        exact e1
    | _ => exact absurd hu1 (by simp [UsesLine])

/-- C92. There are such executions: whatever the clients do, the transport can carry a device's answers to it. -/
theorem C92_shared_transport_served (C : BlockCipher) (D : Device) (hd : D.Ok) (hz : D.Sizes) (ops : List HOp)
    (hu : ∀ op ∈ ops, UsesLine D op) :
    ∃ n rs T D',
      (hrun C {} (.newTransport (List.replicate n (.ok ())) (rs.map .ok) :: ops)).1.transports[0]? = some T ∧
      T.handed.length ≤ n ∧ Feeds C D T.handed rs D' := by
  have hw := hstep_wf (C := C) wf_empty (.newTransport [] [])
  obtain ⟨ws, rs, D', h1, h2⟩ := served_run (C := C) ops (h := (hstep C {} (.newTransport [] [])).1) hd hz hw
    ⟨fun k c hc => by obtain ⟨o, h1, _⟩ := conn_cases hc; simp [hstep] at h1, fun j o hj => by simp [hstep] at hj⟩ rfl hu []
  obtain ⟨T, e1, e2⟩ := h2 0 []
  rw [List.nil_append] at e2
  refine ⟨ws.length, rs, T, D', ?_, by rw [e2]; exact Nat.le_refl _, by rw [e2]; exact h1⟩
  simp only [Nat.add_zero, List.append_nil] at e1
  exact e1

/-! ### Examples -/

/-- Two connections with their own state, the second with a key, used alternately. -/
def exTwoConns : List HOp :=
  [.conn 0 (.send (.readTimeRequest {}) exRand), .conn 1 (.send (.readTimeRequest {}) exRand),
   .conn 1 (.receive exSecretLine), .conn 0 (.receive (exPlainLine.take 11)), .conn 1 .poll, .conn 0 .poll,
   .newConn exConn.args (some 0) none, .conn 0 (.receive (exPlainLine.drop 11)), .conn 1 (.send exWrite exRand),
   .conn 0 .poll]

-- C92_connections: the second of two connections; a third one shares the state object of the first
example : (hstep idCipher (hrun idCipher {} [.newConn exConn.args none none]).1 (.newConn exSec.args none none)).2 =
      .made (.ok 1) ∧
    stateOf (hstep idCipher (hrun idCipher {} [.newConn exConn.args none none]).1 (.newConn exSec.args none none)).1 1 =
      some 1 ∧ (∀ a cx, HOp.newConn a (some 1) cx ∉ exTwoConns) ∧ (∀ a t, HOp.newClient a t (some 1) ∉ exTwoConns) ∧
    observe (resultsOn (· = 1) (hrun idCipher (hstep idCipher (hrun idCipher {} [.newConn exConn.args none none]).1
      (.newConn exSec.args none none)).1 exTwoConns).2) = [.accepted .readTimeRequest, .returned .readTimeResponse, .accepted .writeTimeRequest] ∧
    observe (resultsOn (· = 0) (hrun idCipher (hstep idCipher (hrun idCipher {} [.newConn exConn.args none none]).1
      (.newConn exSec.args none none)).1 exTwoConns).2) = [.accepted .readTimeRequest, .returned .readTimeResponse] :=
  ⟨rfl, rfl, by simp [exTwoConns], by simp [exTwoConns], by decide +kernel, by decide +kernel⟩

/-- Two clients on transports of their own, called alternately; the first one gets nothing but its answer to the first
call. -/
def exClients : List HOp :=
  [.client 1 .readTime (fun _ => exRand), .client 0 .readTime (fun _ => exRand), .client 0 .readTime (fun _ => exRand),
   .newClient exArgs 0 (some 0), .client 1 .readTime (fun _ => exRand), .client 2 .readTime (fun _ => exRand)]

def exClientsBefore : List HOp :=
  [.newTransport [.ok (), .ok ()] exTimeRecvs, .newTransport [.ok (), .ok ()] (exTimeRecvs.take 4 ++ exTimeRecvs),
   .newClient exArgs 0 none]

def kindOf : Outcome3 Value → Nat
  | .raised (.elgas .localProtocol) => 1
  | .raised _ => 2
  | .pending => 3
  | .returned (.time t) => t.year
  | .returned _ => 4

-- C92_clients
example : (∃ sends recvs, (hrun idCipher {} exClientsBefore).1.transports[1]? = some ⟨sends, recvs, []⟩) ∧
    (hstep idCipher (hrun idCipher {} exClientsBefore).1 (.newClient exArgs 1 none)).2 = .made (.ok 1) ∧
    (∃ pw, (hstep idCipher (hrun idCipher {} exClientsBefore).1 (.newClient exArgs 1 none)).1.clients[1]? =
      some ⟨pw, 1, 1⟩) ∧
    stateOf (hstep idCipher (hrun idCipher {} exClientsBefore).1 (.newClient exArgs 1 none)).1 1 = some 1 ∧
    (∀ a i, HOp.newClient a 1 i ∉ exClientsBefore ++ exClients) ∧ (∀ a t, HOp.newClient a t (some 1) ∉ exClients) ∧
    (∀ a cx, HOp.newConn a (some 1) cx ∉ exClients) ∧ (∀ op, HOp.conn 1 op ∉ exClients) ∧
    (resultsBy 1 (hrun idCipher (hstep idCipher (hrun idCipher {} exClientsBefore).1 (.newClient exArgs 1 none)).1
      exClients).2).map kindOf = [2020, 2020] ∧
    (resultsBy 0 (hrun idCipher (hstep idCipher (hrun idCipher {} exClientsBefore).1 (.newClient exArgs 1 none)).1
      exClients).2).map kindOf = [2020, 3] :=
  ⟨⟨_, _, rfl⟩, rfl, ⟨_, rfl⟩, rfl, by simp [exClients, exClientsBefore], by simp [exClients], by simp [exClients],
    by simp [exClients], by decide +kernel, by decide +kernel⟩

/-- Two connections with one state object: the answer of the second connection is taken for that to the first. -/
def exSharedState : List HOp :=
  [.newState .idle, .newConn exConn.args (some 0) none, .newConn exSec.args (some 0) none,
   .conn 0 (.send (.readTimeRequest {}) exRand), .conn 1 (.send exWrite exRand), .conn 1 (.receive exSecretLine),
   .conn 1 .poll, .conn 1 (.send exWrite exRand)]

-- C92_shared_state, C92_shared_answer
example : (∀ s, HOp.newState s ∈ exSharedState → s = .idle) ∧
    (∀ k e r, HOp.conn k (.send e r) ∈ exSharedState → IsRequest e) ∧ (hrun idCipher {} exSharedState).1.clients = [] ∧
    stateOf (hrun idCipher {} exSharedState).1 0 = some 0 ∧ stateOf (hrun idCipher {} exSharedState).1 1 = some 0 ∧
    observe (resultsOn (fun k => stateOf (hrun idCipher {} exSharedState).1 k = some 0) (hrun idCipher {} exSharedState).2) =
      [.accepted .readTimeRequest, .returned .readTimeResponse, .accepted .writeTimeRequest] := by
  refine ⟨by simp [exSharedState], ?_, ?_, by decide +kernel, by decide +kernel, by decide +kernel⟩
  · intro k e r h
    simp [exSharedState] at h
    rcases h with ⟨_, rfl, _⟩ | ⟨_, rfl, _⟩ <;> rfl
  · exact List.isEmpty_iff.1 (by decide +kernel)

-- C92_crossed
example : stateOf (hrun idCipher {} (exSharedState.take 3)).1 0 = stateOf (hrun idCipher {} (exSharedState.take 3)).1 1 ∧
    (hrun idCipher {} (exSharedState.take 3)).1.conn 0 = some exConn ∧
    (hrun idCipher {} (exSharedState.take 3)).1.conn 1 = some exSec ∧ Ready exConn ∧ exSec.buffer = [] ∧
    (∃ wire, (exConn.send idCipher (.readTimeRequest {}) exRand).2 = .ok wire) := by
  refine ⟨rfl, rfl, rfl, ⟨rfl, rfl⟩, rfl, _, rfl⟩

example : Response idCipher none exPlainLine exTime ∧
    Response idCipher (some ⟨1, List.replicate 16 7⟩) exSecretLine exTime := by
  refine ⟨⟨exPlainLine.dropLast, .readDeviceTime, exTimeBody, by decide +kernel, by decide +kernel, ?_, (fun b h => by cases h), .time _ _ rfl⟩,
    exSecretLine.dropLast, .readDeviceTime, exTimeBody, by decide +kernel, by decide +kernel, ?_, (fun b h => by cases h), .time _ _ rfl⟩
  · exact ⟨frame 0x86 0x6C [0x1B, 0x0D, 0x8D, 0, 0, 0x0E] exTimeBody, false, ⟨.readDeviceTime, 0x0D1B, 0x8D, 0, 0x0E, exTimeBody⟩, by decide +kernel, by decide +kernel, rfl, rfl⟩
  · exact ⟨frame 0x87 0x6C [0x1B, 0x0D, 0x8D, 0, 0, 0x0E] exCipherText, true, ⟨.readDeviceTime, 0x0D1B, 0x8D, 0, 0x0E, exCipherText⟩, by decide +kernel, by decide +kernel, rfl, _, rfl, by decide +kernel⟩

/-- Three clients of one device on one transport, the third with the connection of the first; the last one has a bad
password id, and is not made. -/
def exLineOps (r : Nat → Rand) : List HOp :=
  [.newClient exSecretArgs 0 none, .client 0 .readTime r, .newClient { exSecretArgs with passwordId := 849 } 0 none,
   .client 1 (.writeTime ⟨2031, 1, 2, 3, 4, 5, 678⟩ false) r, .newClient exSecretArgs 0 (some 0),
   .client 0 .readTime r, .client 2 (.readParameters 1) r, .newClient { exSecretArgs with passwordId := 850 } 0 none,
   .client 1 .readInstantaneousValues r, .client 3 .readTime r]

-- C92_shared_transport
example : ∀ op ∈ exLineOps (fun _ => exRand),
    UsesLine (exDevice (some (1, List.replicate 16 7)) (List.replicate 6 0x30)) op := by
  have hk : SharesKey exSecretArgs (exDevice (some (1, List.replicate 16 7)) (List.replicate 6 0x30)) := ⟨rfl, rfl⟩
  have hp : KnowsPassword exSecretArgs (exDevice (some (1, List.replicate 16 7)) (List.replicate 6 0x30)) :=
    ⟨by decide, by decide⟩
  have hr : exRand.pw.1 ∈ possibleChars ∧ exRand.pw.2 ∈ possibleChars := by decide +kernel
  intro op h
  simp only [exLineOps, List.mem_cons, List.not_mem_nil, or_false] at h
  rcases h with rfl | rfl | rfl | rfl | rfl | rfl | rfl | rfl | rfl | rfl
  · exact ⟨rfl, hk, hp⟩
  · exact ⟨trivial, fun _ => hr⟩
  · exact ⟨rfl, hk, hp⟩
  · exact ⟨by unfold Call.InRange Expressible; decide, fun _ => hr⟩
  · exact ⟨rfl, hk, hp⟩
  · exact ⟨trivial, fun _ => hr⟩
  · exact ⟨by unfold Call.InRange; decide, fun _ => hr⟩
  · exact ⟨rfl, hk, hp⟩
  · exact ⟨trivial, fun _ => hr⟩
  · exact ⟨trivial, fun _ => hr⟩

end Elgas
