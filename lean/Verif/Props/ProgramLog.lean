import Verif.Props.ProgramTrack
/-! Property C91: the log of a program that uses a client (transport.py, client.py). -/
namespace Elgas
open Spec

local macro "evt" : tactic => `(tactic| (simp only [debug, info]; decide))

/-! ### The texts -/

theorem connect_start (p : Printing) (look : Look) :
    (connectedText p look).toList.take 7 = "Connect".toList ∧ (closedText p look).toList.take 7 = "Connect".toList := by
  unfold connectedText closedText
  constructor
  · rw [String.toList_append, List.take_append_of_le_length (by decide)]
    decide
  · rw [String.toList_append, String.toList_append, List.append_assoc, List.take_append_of_le_length (by decide)]
    decide

theorem eventText_start {ev : String} (h : IsEventText ev) : ev.toList.take 7 ≠ "Connect".toList := by
  rcases h with h | ⟨s, s', rfl⟩
  · revert ev; decide +kernel
  · rw [String.toList_append, String.toList_append, String.toList_append, List.append_assoc, List.append_assoc,
      List.take_append_of_le_length (by decide)]
    decide

theorem text_ne {p : Printing} {look : Look} {ev : String} (h : IsEventText ev) :
    ev ≠ connectedText p look ∧ ev ≠ closedText p look := by
  have h0 := eventText_start h
  obtain ⟨h1, h2⟩ := connect_start p look
  exact ⟨fun e => h0 (e ▸ h1), fun e => h0 (e ▸ h2)⟩

theorem sent_text : IsEventText "Sent data" := .inl (by decide)
theorem received_text : IsEventText "Received data" := .inl (by decide)

theorem connectL_texts (p : Printing) (look : Look) (w : World) :
    ∀ r ∈ (w.connectL p look).1, r = info (connectedText p look) := by
  unfold World.connectL
  split
  · intro r hr; exact List.mem_singleton.1 hr
  · intro r hr; cases hr

theorem disconnectL_texts (p : Printing) (look : Look) (w : World) :
    ∀ r ∈ (w.disconnectL p look).1, r = info (closedText p look) := by
  unfold World.disconnectL
  split
  · split
    · intro r hr; exact List.mem_singleton.1 hr
    · intro r hr; cases hr
  · intro r hr; cases hr

theorem silent_connect (p : Printing) (look : Look) (w : World) : Silent (w.connectL p look).1 := by
  intro r hr
  rw [connectL_texts p look w r hr]
  exact ⟨fun h => (text_ne (p := p) (look := look) sent_text).1 h.symm,
    fun h => (text_ne (p := p) (look := look) received_text).1 h.symm⟩

theorem silent_disconnect (p : Printing) (look : Look) (w : World) : Silent (w.disconnectL p look).1 := by
  intro r hr
  rw [disconnectL_texts p look w r hr]
  exact ⟨fun h => (text_ne (p := p) (look := look) sent_text).2 h.symm,
    fun h => (text_ne (p := p) (look := look) received_text).2 h.symm⟩

theorem silent_record {E : Event → Prop} {r : Record} (h : ClientRecord E r) : Silent [r] := by
  intro r' hr
  rw [List.mem_singleton.1 hr]
  clear hr
  cases h with
  | text ev h => simp only [info]; revert ev; decide
  | time ev h t => simp only [info]; revert ev; decide
  | number ev h n i => simp only [info]; revert ev; decide
  | pages rs h => evt

theorem recordsOf_append (ev : String) (l l' : List Record) :
    recordsOf ev (l ++ l') = recordsOf ev l ++ recordsOf ev l' := List.filter_append ..

theorem recordsOf_none {ev : String} {l : List Record} (h : ∀ r ∈ l, r.event ≠ ev) : recordsOf ev l = [] := by
  unfold recordsOf
  rw [List.filter_eq_nil_iff]
  intro r hr
  simpa using h r hr

theorem recordsOf_sent {l l' : List Record} (h : Silent l') : recordsOf "Sent data" (l ++ l') = recordsOf "Sent data" l := by
  rw [recordsOf_append, recordsOf_none fun r hr => (h r hr).1, List.append_nil]

theorem recordsOf_received {l l' : List Record} (h : Silent l') :
    recordsOf "Received data" (l ++ l') = recordsOf "Received data" l := by
  rw [recordsOf_append, recordsOf_none fun r hr => (h r hr).2, List.append_nil]

/-! ### What `connect` and `disconnect` leave alone -/

structure Same (w w' : World) : Prop where
  conn : w'.conn = w.conn
  writesOf : writesOf w'.os = writesOf w.os
  writes : w'.writes = w.writes
  inbox : w'.inbox = w.inbox
  kind : w'.transport.kind = w.transport.kind
  timeout : w'.transport.timeout = w.transport.timeout

theorem connect_same (w : World) : Same w w.connect.2 := by
  unfold World.connect Transport.connect
  split
  · exact ⟨rfl, rfl, rfl, rfl, rfl, rfl⟩
  · next hs _ =>
    rw [hs]
    dsimp only
    split <;> exact ⟨rfl, by simp [Spec.writesOf], rfl, rfl, rfl, rfl⟩
  · exact ⟨rfl, rfl, rfl, rfl, rfl, rfl⟩

theorem disconnect_same (w : World) : Same w w.disconnect.2 := by
  have hd : ∀ a b, Spec.writesOf (w.transport.disconnect a b).2.1 = [] ∧
      (w.transport.disconnect a b).1.kind = w.transport.kind ∧
      (w.transport.disconnect a b).1.timeout = w.transport.timeout := by
    intro a b
    unfold Transport.disconnect
    repeat' split
    all_goals exact ⟨rfl, rfl, rfl⟩
  have happ : ∀ l l' : List OsCall, Spec.writesOf (l ++ l') = Spec.writesOf l ++ Spec.writesOf l' := by
    intro l l'; simp [Spec.writesOf]
  unfold World.disconnect
  split
  · exact ⟨rfl, rfl, rfl, rfl, rfl, rfl⟩
  · exact ⟨rfl, rfl, rfl, rfl, rfl, rfl⟩
  · exact ⟨rfl, by simp [Spec.writesOf], rfl, rfl, rfl, rfl⟩
  · exact ⟨rfl, by dsimp only; rw [happ, (hd _ _).1, List.append_nil], rfl, rfl, (hd _ _).2.1, (hd _ _).2.2⟩
  · exact ⟨rfl, by dsimp only; rw [happ, (hd _ _).1, List.append_nil], rfl, rfl, (hd _ _).2.1, (hd _ _).2.2⟩
  · exact ⟨rfl, rfl, rfl, rfl, rfl, rfl⟩
  · exact ⟨rfl, by dsimp only; rw [happ, (hd _ _).1, List.append_nil], rfl, rfl, (hd _ _).2.1, (hd _ _).2.2⟩

/-- `write`. -/
theorem writeL_cases (look : Look) (w : World) (d : Bytes) :
    (w.transport.socket = none ∧ w.writeL look d = ([], .raised .runtime, w)) ∨
    (∃ h, w.transport.socket = some h ∧
      ((w.writes = [] ∧ w.writeL look d = ([], .pending, { w with os := w.os ++ [.write h d] })) ∨
       (∃ l, w.writes = .ok () :: l ∧ w.writeL look d =
         ([debug "Sent data" [("data", .bytes d), ("transport", look.val w.transport)]], .returned (),
           { w with os := w.os ++ [.write h d], writes := l })) ∨
       (∃ x l, w.writes = .error x :: l ∧ w.writeL look d =
         ([], .raised (wrapOs x), { w with os := w.os ++ [.write h d], writes := l })))) := by
  unfold World.writeL World.write Transport.send
  cases hs : w.transport.socket with
  | none => exact .inl ⟨rfl, rfl⟩
  | some h =>
    refine .inr ⟨h, rfl, ?_⟩
    cases hw : w.writes with
    | nil => exact .inl ⟨rfl, rfl⟩
    | cons r l =>
      cases r with
      | ok u => exact .inr (.inl ⟨l, rfl, rfl⟩)
      | error x => exact .inr (.inr ⟨x, l, rfl, rfl⟩)

/-- `receive`. -/
theorem receiveL_cases (look : Look) (w : World) :
    (w.transport.socket = none ∧ ∃ c, w.receiveL look = ([], .raised .runtime, { w with clock := c })) ∨
    (∃ h, w.transport.socket = some h ∧ ∃ s' c' bs,
      ((content (w.inbox h) = bytesOnly bs ++ content s' ∧ bs ≠ [] ∧ w.receiveL look =
          (debug "Received data" [("data", .bytes bs), ("transport", look.val w.transport)] :: (w.conn.receiveDataL bs).1,
            .returned (), { w.setUnread s' c' with conn := (w.conn.receiveDataL bs).2 })) ∨
       (∃ e, content (w.inbox h) = bytesOnly bs ++ .fail e :: content s' ∧ 0x0D ∉ bs ∧
          w.receiveL look = ([], .raised (wrapOs e), w.setUnread s' c')) ∨
       (content (w.inbox h) = bytesOnly bs ∧ content s' = [] ∧ 0x0D ∉ bs ∧
          w.receiveL look = ([], .pending, w.setUnread s' c')))) := by
  unfold World.receiveL
  cases hs : w.transport.socket with
  | none =>
    left
    refine ⟨rfl, ?_⟩
    have hr := recv_closed w.transport w.unread w.clock hs
    cases hx : w.transport.recv w.unread w.clock with | mk o r =>
    rw [hx] at hr
    dsimp only at hr
    subst hr
    refine ⟨r.2, ?_⟩
    dsimp only
    unfold World.setUnread
    rw [hs]
  | some h =>
    refine .inr ⟨h, rfl, ?_⟩
    have hu : w.unread = w.inbox h := by unfold World.unread; rw [hs]
    rw [hu]
    rcases C47_recv_cases w.transport h hs (w.inbox h) w.clock with ⟨bs, s', c', hr, h1, h2, _⟩ |
      ⟨bs, e, s', c', hr, h1, h2⟩ | ⟨bs, s', c', hr, h1, h2, h3⟩
    · exact ⟨s', c', bs, .inl ⟨h1, h2, by rw [hr]; rfl⟩⟩
    · exact ⟨s', c', bs, .inr (.inl ⟨e, h1, h2, by rw [hr]⟩)⟩
    · exact ⟨s', c', bs, .inr (.inr ⟨h1, h2, h3, by rw [hr]⟩)⟩

theorem setUnread_some {w : World} {h : Handle} (ht : w.transport.socket = some h) (s : List Delivery) (c : Clock) :
    w.setUnread s c = { w with inbox := fun g => if g = h then s else w.inbox g, clock := c } := by
  unfold World.setUnread; rw [ht]

/-! ### Data sent -/

/-- The record of a piece of data sent. -/
def sentRecord (look : Look) (timeout : Option Int) (x : Handle × Bytes) : Record :=
  debug "Sent data" [("data", .bytes x.2), ("transport", look.val ⟨look.place.kind, timeout, some x.1⟩)]

structure SentOk (look : Look) (timeout : Option Int) (results : List (Res Unit)) (H : List Record) (w : World) : Prop where
  kind : w.transport.kind = look.place.kind
  wait : w.transport.timeout = timeout
  matched : ∃ done, results = done ++ w.writes ∧ ((writesOf w.os).length = done.length ∨
    w.writes = [] ∧ done.length ≤ (writesOf w.os).length)
  log : recordsOf "Sent data" H = (sentTo w.os results).map (sentRecord look timeout)

theorem SentOk.silent {look : Look} {timeout : Option Int} {results : List (Res Unit)} {H l : List Record} {w w' : World}
    (h : SentOk look timeout results H w) (hl : Silent l) (h1 : w'.transport.kind = w.transport.kind)
    (h2 : w'.transport.timeout = w.transport.timeout) (h3 : w'.writes = w.writes) (h4 : writesOf w'.os = writesOf w.os) :
    SentOk look timeout results (H ++ l) w' := by
  refine ⟨h1.trans h.kind, h2.trans h.wait, ?_, ?_⟩
  · rw [h3, h4]; exact h.matched
  · rw [recordsOf_sent hl, h.log]
    unfold sentTo
    rw [h4]

theorem writesOf_write (os : List OsCall) (h : Handle) (d : Bytes) :
    writesOf (os ++ [.write h d]) = writesOf os ++ [(h, d)] := by simp [writesOf]

theorem zip_more {α β : Type} {l : List α} {r : List β} (x : α) (h : r.length ≤ l.length) :
    (l ++ [x]).zip r = l.zip r := by
  induction r generalizing l with
  | nil => simp
  | cons y r ih =>
    cases l with
    | nil => simp at h
    | cons z l =>
      simp only [List.cons_append, List.zip_cons_cons]
      rw [ih (by simpa using h)]

theorem sent_tracks (p : Printing) (look : Look) (C : BlockCipher) (timeout : Option Int) (results : List (Res Unit)) :
    Tracks p look C (fun _ _ => True) (fun _ _ => True) (SentOk look timeout results) where
  mono _ _ _ _ := trivial
  record H w r hI hr := hI.silent (silent_record hr) rfl rfl rfl rfl
  request H w secret e hI _ := hI.silent (silent_send _ _ _ _ _ _) rfl rfl rfl rfl
  poll H w hI := ⟨hI.silent (silent_poll _ _ _) rfl rfl rfl rfl, fun _ _ => trivial⟩
  receive H w hI := by
    rcases receiveL_cases look w with ⟨_, c, h⟩ | ⟨h, hs, s', c', bs, ⟨_, _, hx⟩ | ⟨e, _, _, hx⟩ | ⟨_, _, _, hx⟩⟩
    · rw [h, List.append_nil]; exact ⟨hI.kind, hI.wait, hI.matched, hI.log⟩
    · rw [hx]
      have hrec : recordsOf "Sent data" (H ++ debug "Received data" [("data", .bytes bs), ("transport", look.val w.transport)] ::
          (w.conn.receiveDataL bs).1) = recordsOf "Sent data" H := by
        rw [List.append_cons, recordsOf_sent (silent_receive _ _), recordsOf_append]
        have : recordsOf "Sent data" [debug "Received data" [("data", .bytes bs), ("transport", look.val w.transport)]] = [] := by
          apply recordsOf_none
          intro r hr
          rw [List.mem_singleton.1 hr]
          evt
        rw [this, List.append_nil]
      rw [setUnread_some hs]
      exact ⟨hI.kind, hI.wait, hI.matched, by rw [hrec]; exact hI.log⟩
    · rw [hx, List.append_nil, setUnread_some hs]
      exact ⟨hI.kind, hI.wait, hI.matched, hI.log⟩
    · rw [hx, List.append_nil, setUnread_some hs]
      exact ⟨hI.kind, hI.wait, hI.matched, hI.log⟩
  write H w d hI := by
    obtain ⟨done, hd, hlen⟩ := hI.matched
    have hlog := hI.log
    unfold sentTo at hlog
    rcases writeL_cases look w d with ⟨_, h⟩ | ⟨h, hs, ⟨hw, hx⟩ | ⟨l, hw, hx⟩ | ⟨x, l, hw, hx⟩⟩
    · rw [h, List.append_nil]; exact hI
    · rw [hx, List.append_nil]
      rw [hw, List.append_nil] at hd
      have hle : done.length ≤ (writesOf w.os).length := by rcases hlen with h | h <;> omega
      refine ⟨hI.kind, hI.wait, ⟨done, by simp [hd, hw], .inr ⟨hw, ?_⟩⟩, ?_⟩
      · rw [writesOf_write]; simp; omega
      · unfold sentTo
        rw [writesOf_write, hd, zip_more _ hle, ← hd]
        exact hlog
    · have hl : (writesOf w.os).length = done.length := by
        rcases hlen with h | ⟨h, _⟩
        · exact h
        · rw [hw] at h; cases h
      rw [hx]
      rw [hw] at hd
      refine ⟨hI.kind, hI.wait, ⟨done ++ [.ok ()], by simp [hd], .inl (by rw [writesOf_write]; simp [hl])⟩, ?_⟩
      rw [recordsOf_append, hlog]
      unfold sentTo
      rw [writesOf_write, hd, List.zip_append hl]
      have : (writesOf w.os).zip (done ++ .ok () :: l) = (writesOf w.os).zip done := by
        have := List.zip_append (l₁ := writesOf w.os) (r₁ := []) (l₂ := done) (r₂ := .ok () :: l) hl
        simpa using this
      rw [this, List.filterMap_append, List.map_append]
      congr 1
      have ht : w.transport = ⟨look.place.kind, timeout, some h⟩ := by
        rw [← hI.kind, ← hI.wait, ← hs]
      rw [ht]
      rfl
    · have hl : (writesOf w.os).length = done.length := by
        rcases hlen with h | ⟨h, _⟩
        · exact h
        · rw [hw] at h; cases h
      rw [hx, List.append_nil]
      rw [hw] at hd
      refine ⟨hI.kind, hI.wait, ⟨done ++ [.error x], by simp [hd], .inl (by rw [writesOf_write]; simp [hl])⟩, ?_⟩
      rw [hlog]
      unfold sentTo
      rw [writesOf_write, hd, List.zip_append hl]
      have : (writesOf w.os).zip (done ++ .error x :: l) = (writesOf w.os).zip done := by
        have := List.zip_append (l₁ := writesOf w.os) (r₁ := []) (l₂ := done) (r₂ := .error x :: l) hl
        simpa using this
      rw [this, List.filterMap_append, List.map_append]
      simp

/-- C91. What a program sent, from its log: over any actions on a new client and whatever the operating system does,
the records "Sent data" are, in order, one for each write that succeeded, with the data and with the transport as it
was: the address it was made with and the handle written to. -/
theorem C91_sent (p : Printing) (look : Look) (C : BlockCipher) (timeout : Option Int) (a : ClientArgs) (env : OsEnv)
    (w : World) (hm : mkWorld look.place.kind timeout a env = .ok w) (as : List Action) :
    recordsOf "Sent data" (logOf p look C w as) =
      (sentTo (acts C w as).2.os env.writes).map fun x =>
        debug "Sent data" [("data", .bytes x.2), ("transport", look.val ⟨look.place.kind, timeout, some x.1⟩)] := by
  obtain ⟨conn, _, hw⟩ := mkWorld_ok hm
  have hI : SentOk look timeout env.writes [] w := by
    rw [hw]; exact ⟨rfl, rfl, ⟨[], rfl, .inl rfl⟩, rfl⟩
  have := acts_track (sent_tracks p look C timeout env.writes) (fun _ => trivial)
    (fun H w h => by
      rw [connectL_erase]
      obtain ⟨_, h1, h2, _, h3, h4⟩ := connect_same w
      exact h.silent (silent_connect p look w) h3 h4 h2 h1)
    (fun H w h => by
      rw [disconnectL_erase]
      obtain ⟨_, h1, h2, _, h3, h4⟩ := disconnect_same w
      exact h.silent (silent_disconnect p look w) h3 h4 h2 h1)
    as (fun _ _ _ _ => trivial) [] w hI
  exact this.log

/-! ### Data received -/

def gotRecord (look : Look) (timeout : Option Int) (x : Handle × Bytes) : Record :=
  debug "Received data" [("data", .bytes x.2), ("transport", look.val ⟨look.place.kind, timeout, some x.1⟩)]

structure GotOk (look : Look) (timeout : Option Int) (inbox : Handle → List Delivery) (H : List Record) (w : World) : Prop where
  kind : w.transport.kind = look.place.kind
  wait : w.transport.timeout = timeout
  log : ∃ got : List (Handle × Bytes), recordsOf "Received data" H = got.map (gotRecord look timeout) ∧
    ∀ h, Took (content (inbox h)) (onHandle h got) (content (w.inbox h))

theorem GotOk.silent {look : Look} {timeout : Option Int} {inbox : Handle → List Delivery} {H l : List Record} {w w' : World}
    (h : GotOk look timeout inbox H w) (hl : Silent l) (h1 : w'.transport.kind = w.transport.kind)
    (h2 : w'.transport.timeout = w.transport.timeout) (h3 : w'.inbox = w.inbox) :
    GotOk look timeout inbox (H ++ l) w' := by
  refine ⟨h1.trans h.kind, h2.trans h.wait, ?_⟩
  rw [recordsOf_received hl, h3]
  exact h.log

theorem onHandle_append (h : Handle) (l l' : List (Handle × Bytes)) : onHandle h (l ++ l') = onHandle h l ++ onHandle h l' := by
  simp [onHandle]

theorem got_tracks (p : Printing) (look : Look) (C : BlockCipher) (timeout : Option Int) (inbox : Handle → List Delivery) :
    Tracks p look C (fun _ _ => True) (fun _ _ => True) (GotOk look timeout inbox) where
  mono _ _ _ _ := trivial
  record H w r hI hr := hI.silent (silent_record hr) rfl rfl rfl
  request H w secret e hI _ := hI.silent (silent_send _ _ _ _ _ _) rfl rfl rfl
  poll H w hI := ⟨hI.silent (silent_poll _ _ _) rfl rfl rfl, fun _ _ => trivial⟩
  write H w d hI := by
    rcases writeL_cases look w d with ⟨_, h⟩ | ⟨h, hs, ⟨hw, hx⟩ | ⟨l, hw, hx⟩ | ⟨x, l, hw, hx⟩⟩
    · rw [h, List.append_nil]; exact hI
    · rw [hx, List.append_nil]; exact ⟨hI.kind, hI.wait, hI.log⟩
    · rw [hx]
      refine ⟨hI.kind, hI.wait, ?_⟩
      have : recordsOf "Received data" [debug "Sent data" [("data", .bytes d), ("transport", look.val w.transport)]] = [] := by
        apply recordsOf_none
        intro r hr
        rw [List.mem_singleton.1 hr]
        evt
      rw [recordsOf_append, this, List.append_nil]
      exact hI.log
    · rw [hx, List.append_nil]; exact ⟨hI.kind, hI.wait, hI.log⟩
  receive H w hI := by
    obtain ⟨got, hlog, htook⟩ := hI.log
    have other : ∀ {h s'} {q : List (Handle × Bytes)}, Took (content (inbox h)) (onHandle h q) (content s') →
        (∀ g, g ≠ h → onHandle g q = onHandle g got) →
        ∀ g, Took (content (inbox g)) (onHandle g q) (content (if g = h then s' else w.inbox g)) := by
      intro h s' q h1 h2 g
      by_cases hg : g = h
      · subst hg; rw [if_pos rfl]; exact h1
      · rw [if_neg hg, h2 g hg]; exact htook g
    rcases receiveL_cases look w with ⟨_, c, h⟩ | ⟨h, hs, s', c', bs, ⟨h1, h2, hx⟩ | ⟨e, h1, h2, hx⟩ | ⟨h1, h2, h3, hx⟩⟩
    · rw [h, List.append_nil]; exact ⟨hI.kind, hI.wait, hI.log⟩
    · rw [hx, setUnread_some hs]
      refine ⟨hI.kind, hI.wait, got ++ [(h, bs)], ?_, other ?_ ?_⟩
      · rw [List.append_cons, recordsOf_received (silent_receive _ _), recordsOf_append, hlog, List.map_append]
        have ht : w.transport = ⟨look.place.kind, timeout, some h⟩ := by
          rw [← hI.kind, ← hI.wait, ← hs]
        rw [ht]
        rfl
      · rw [onHandle_append]
        have : onHandle h [(h, bs)] = [bs] := by simp [onHandle]
        rw [this]
        have := htook h
        rw [h1] at this
        exact .piece _ _ _ _ this h2
      · intro g hg
        rw [onHandle_append]
        have : onHandle g [(h, bs)] = [] := by simp [onHandle]; exact fun e => hg e.symm
        rw [this, List.append_nil]
    · rw [hx, List.append_nil, setUnread_some hs]
      refine ⟨hI.kind, hI.wait, got, hlog, other ?_ (fun _ _ => rfl)⟩
      have := htook h
      rw [h1] at this
      exact .failed _ _ _ _ _ this h2
    · rw [hx, List.append_nil, setUnread_some hs]
      refine ⟨hI.kind, hI.wait, got, hlog, other ?_ (fun _ _ => rfl)⟩
      have := htook h
      rw [h1] at this
      rw [h2]
      exact .unended _ _ _ this h3

/-- C91. What a program received, from its log: over any actions on a new client and whatever the operating system
does, the records "Received data" name, in order, non-empty pieces of what the handles had to read, with the handle each came
from.  For every handle these are all that was read from it, except for bytes that were read before the operating
system raised an exception in the same line, or of a line whose end never came; the rest has not been read. -/
theorem C91_received (p : Printing) (look : Look) (C : BlockCipher) (timeout : Option Int) (a : ClientArgs) (env : OsEnv)
    (w : World) (hm : mkWorld look.place.kind timeout a env = .ok w) (as : List Action) :
    ∃ got : List (Handle × Bytes),
      (recordsOf "Received data" (logOf p look C w as) = got.map fun x =>
        debug "Received data" [("data", .bytes x.2), ("transport", look.val ⟨look.place.kind, timeout, some x.1⟩)]) ∧
      ∀ h, Took (content (env.inbox h)) (onHandle h got) (content ((acts C w as).2.inbox h)) := by
  obtain ⟨conn, _, hw⟩ := mkWorld_ok hm
  have hI : GotOk look timeout env.inbox [] w := by
    rw [hw]; exact ⟨rfl, rfl, [], rfl, fun h => .nothing _⟩
  have := acts_track (got_tracks p look C timeout env.inbox) (fun _ => trivial)
    (fun H w h => by
      rw [connectL_erase]
      obtain ⟨_, _, _, h1, h3, h4⟩ := connect_same w
      exact h.silent (silent_connect p look w) h3 h4 h1)
    (fun H w h => by
      rw [disconnectL_erase]
      obtain ⟨_, _, _, h1, h3, h4⟩ := disconnect_same w
      exact h.silent (silent_disconnect p look w) h3 h4 h1)
    as (fun _ _ _ _ => trivial) [] w hI
  exact this.log

theorem mem_content {e : PyErr} {s : List Delivery} : .fail e ∈ content s ↔ .fail e ∈ s := by
  induction s with
  | nil => simp [content]
  | cons d s ih => cases d <;> simp [content, ih]

theorem took_all {start left : List Item} {pieces : List Bytes} (h : Took start pieces left)
    (hf : ∀ e, .fail e ∉ start) : ∃ lost, 0x0D ∉ lost ∧ (lost = [] ∨ left = []) ∧
      start = bytesOnly pieces.flatten ++ (bytesOnly lost ++ left) := by
  induction h with
  | nothing => exact ⟨[], by simp, .inl rfl, rfl⟩
  | piece pieces d left _ hd ih =>
    obtain ⟨lost, h1, h2, h3⟩ := ih
    have hl : lost = [] := by
      rcases h2 with h2 | h2
      · exact h2
      · exact absurd (List.append_eq_nil_iff.1 h2).1 (by simp [bytesOnly, hd])
    subst hl
    exact ⟨[], by simp, .inl rfl, by rw [h3]; simp [bytesOnly]⟩
  | failed pieces bs e left _ _ ih =>
    obtain ⟨lost, _, _, h3⟩ := ih
    exact absurd (by rw [h3]; simp) (hf e)
  | unended pieces bs _ hb ih =>
    obtain ⟨lost, h1, h2, h3⟩ := ih
    refine ⟨lost ++ bs, by simp [h1, hb], .inr rfl, by rw [h3]; simp [bytesOnly]⟩

/-- C91. If the operating system raises no exception on reading from a handle, then what the records "Received data"
name for it is, joined, what it had to read up to the part not read yet, and no byte is left out, except
those of a last line that never ended. -/
theorem C91_received_all (p : Printing) (look : Look) (C : BlockCipher) (timeout : Option Int) (a : ClientArgs)
    (env : OsEnv) (w : World) (hm : mkWorld look.place.kind timeout a env = .ok w) (as : List Action) :
    ∃ got : List (Handle × Bytes),
      (recordsOf "Received data" (logOf p look C w as) = got.map fun x =>
        debug "Received data" [("data", .bytes x.2), ("transport", look.val ⟨look.place.kind, timeout, some x.1⟩)]) ∧
      ∀ h, (∀ e, .fail e ∉ env.inbox h) → ∃ lost,
        content (env.inbox h) =
          bytesOnly (onHandle h got).flatten ++ (bytesOnly lost ++ content ((acts C w as).2.inbox h)) ∧
        0x0D ∉ lost ∧ (lost = [] ∨ content ((acts C w as).2.inbox h) = []) := by
  obtain ⟨got, h1, h2⟩ := C91_received p look C timeout a env w hm as
  refine ⟨got, h1, fun h hf => ?_⟩
  obtain ⟨lost, g1, g2, g3⟩ := took_all (h2 h) (fun e he => hf e (mem_content.1 he))
  exact ⟨lost, g3, g1, g2⟩

/-! ### The texts of a program -/

theorem change_text (s : PState) (e : Event) : ∀ r ∈ (processEventL s e).1, IsEventText r.event := by
  unfold processEventL
  cases transitions s e.type with
  | none => intro r hr; cases hr
  | some s' => intro r hr; rw [List.mem_singleton.1 hr]; exact .inr ⟨s, s', rfl⟩

/-- All texts of the log so far are fixed ones, and none is of those of the client's methods if `inner`. -/
def TextsOk (inner : Bool) (H : List Record) (_ : World) : Prop :=
  ∀ r ∈ H, IsEventText r.event ∧ (inner = true → r.event ∉ methodTexts)

theorem textsOk_append {inner : Bool} {H l : List Record} {w w' : World} (h : TextsOk inner H w)
    (hl : ∀ r ∈ l, IsEventText r.event ∧ r.event ∉ methodTexts) : TextsOk inner (H ++ l) w' := by
  intro r hr
  rcases List.mem_append.1 hr with hr | hr
  · exact h r hr
  · exact ⟨(hl r hr).1, fun _ => (hl r hr).2⟩

theorem change_method (s : PState) (e : Event) : ∀ r ∈ (processEventL s e).1, r.event ∉ methodTexts := by
  unfold processEventL
  cases transitions s e.type with
  | none => intro r hr; cases hr
  | some s' =>
    intro r hr
    rw [List.mem_singleton.1 hr]
    have : ∀ ev ∈ methodTexts, ev.toList.take 5 ≠ "Elgas".toList := by decide +kernel
    intro hm
    refine this _ hm ?_
    simp only [debug]
    rw [String.toList_append, String.toList_append, String.toList_append, List.append_assoc, List.append_assoc,
      List.take_append_of_le_length (by decide)]
    decide

theorem inner_follows (p : Printing) (look : Look) (C : BlockCipher) (inner : Bool) :
    Follows p look C (fun _ _ => True) (fun _ _ => True) (TextsOk inner) where
  request H w secret e hI _ := by
    refine textsOk_append hI ?_
    unfold Conn.sendL
    dsimp only
    have h1 := change_text w.conn.state e
    have h2 := change_method w.conn.state e
    have h0 : ∀ r ∈ [debug "Sending request PDU" [("pdu", eventVal p secret e)]], IsEventText r.event ∧ r.event ∉ methodTexts := by
      intro r hr
      rw [List.mem_singleton.1 hr]
      exact ⟨.inl (by evt), by evt⟩
    cases hp : processEventL w.conn.state e with
    | mk l o =>
      rw [hp] at h1 h2
      have h01 : ∀ r ∈ [debug "Sending request PDU" [("pdu", eventVal p secret e)]] ++ l,
          IsEventText r.event ∧ r.event ∉ methodTexts := by
        intro r hr
        rcases List.mem_append.1 hr with hr | hr
        · exact h0 r hr
        · exact ⟨h1 r hr, h2 r hr⟩
      cases o with
      | error x => exact h01
      | ok s' =>
        intro r hr
        rcases List.mem_append.1 hr with hr | hr
        · exact h01 r hr
        · unfold Conn.serialiseL at hr
          cases ho : ({ w.conn with state := s' } : Conn).requestObject C e (w.rands w.draws) with
          | error x => rw [ho] at hr; cases hr
          | ok x =>
            rw [ho] at hr
            rw [List.mem_singleton.1 hr]
            exact ⟨.inl (by evt), by evt⟩
  write H w d hI := by
    refine textsOk_append hI ?_
    rcases writeL_cases look w d with ⟨_, h⟩ | ⟨h, hs, ⟨hw, hx⟩ | ⟨l, hw, hx⟩ | ⟨x, l, hw, hx⟩⟩
    · rw [h]; intro r hr; cases hr
    · rw [hx]; intro r hr; cases hr
    · rw [hx]; intro r hr; rw [List.mem_singleton.1 hr]; exact ⟨.inl (by evt), by evt⟩
    · rw [hx]; intro r hr; cases hr
  receive H w hI := by
    refine textsOk_append hI ?_
    rcases receiveL_cases look w with ⟨_, c, h⟩ | ⟨h, hs, s', c', bs, ⟨h1, h2, hx⟩ | ⟨e, h1, h2, hx⟩ | ⟨h1, h2, h3, hx⟩⟩
    · rw [h]; intro r hr; cases hr
    · rw [hx]
      intro r hr
      rcases List.mem_cons.1 hr with rfl | hr
      · exact ⟨.inl (by evt), by evt⟩
      · unfold Conn.receiveDataL at hr
        split at hr
        · cases hr
        · split at hr
          · rw [List.mem_singleton.1 hr]; exact ⟨.inl (by evt), by evt⟩
          · rw [List.mem_singleton.1 hr]; exact ⟨.inl (by evt), by evt⟩
    · rw [hx]; intro r hr; cases hr
    · rw [hx]; intro r hr; cases hr
  poll H w hI := by
    refine ⟨textsOk_append hI ?_, fun _ _ => trivial⟩
    have one : ∀ ev, ev ∈ pollTexts → IsEventText ev ∧ ev ∉ methodTexts := by
      intro ev h
      refine ⟨.inl ?_, ?_⟩ <;> (revert ev; decide)
    rcases line_cases w.conn.buffer with hn | ⟨v, rest, hb, hv⟩
    · intro r hr
      apply one
      unfold Conn.nextEventL at hr
      rw [indexEnd_none hn] at hr
      split at hr <;> (rw [List.mem_singleton.1 hr]; evt)
    · rw [nextEventL_line hv hb]
      have ht := interpretL_texts C w.conn (v ++ [0x0D])
      cases hi : w.conn.interpretL C (v ++ [0x0D]) with
      | mk l o =>
        rw [hi] at ht
        cases o with
        | error x =>
          dsimp only
          split
          · intro r hr
            rcases List.mem_append.1 hr with hr | hr
            · exact one _ (ht r hr)
            · rw [List.mem_singleton.1 hr]; exact one _ (by evt)
          · exact fun r hr => one _ (ht r hr)
        | ok f =>
          dsimp only
          cases hp : pduFromResponse f with
          | error x => exact fun r hr => one _ (ht r hr)
          | ok pdu =>
            intro r hr
            rcases List.mem_append.1 hr with hr | hr
            · rcases List.mem_append.1 hr with hr | hr
              · exact one _ (ht r hr)
              · rw [List.mem_singleton.1 hr]; exact ⟨.inl (by evt), by evt⟩
            · exact ⟨change_text _ _ r hr, change_method _ _ r hr⟩

theorem text_tracks (p : Printing) (look : Look) (C : BlockCipher) :
    Tracks p look C (fun _ _ => True) (fun _ _ => True) (TextsOk false) where
  toFollows := inner_follows p look C false
  mono _ _ _ _ := trivial
  record H w r hI h := by
    intro r' hr
    rcases List.mem_append.1 hr with h' | h'
    · exact hI r' h'
    · rw [List.mem_singleton.1 h']
      refine ⟨?_, fun h => by cases h⟩
      clear hr h'
      cases h with
      | text ev h => refine .inl ?_; simp only [info]; revert ev; decide
      | time ev h t => refine .inl ?_; simp only [info]; revert ev; decide
      | number ev h n i => refine .inl ?_; simp only [info]; revert ev; decide
      | pages rs h => exact .inl (by evt)

/-- The texts of the records of every action but `connect` and `disconnect`. -/
theorem actL_texts (p : Printing) (look : Look) (C : BlockCipher) (w : World) {a : Action} (h1 : a ≠ .connect)
    (h2 : a ≠ .disconnect) : ∀ r ∈ (actL p look C w a).1, IsEventText r.event := by
  have h0 : TextsOk false [] w := fun r hr => by cases hr
  have L := text_tracks p look C
  cases a with
  | connect => exact absurd rfl h1
  | disconnect => exact absurd rfl h2
  | call k => exact fun r hr => (wcall_track L (fun _ => trivial) [] w k h0 r hr).1
  | send es => exact fun r hr => (sendAll_track L.toFollows es h0 (fun _ _ => trivial) r hr).1
  | nextEvent => exact fun r hr => ((next_track L.toFollows h0).1 r hr).1

theorem filter_none {l : List Record} {p : Printing} {look : Look} (h : ∀ r ∈ l, IsEventText r.event) :
    l.filter (fun r => r.event = connectedText p look ∨ r.event = closedText p look) = [] := by
  rw [List.filter_eq_nil_iff]
  intro r hr
  have := text_ne (p := p) (look := look) (h r hr)
  simp [this.1, this.2]

theorem acts_opened (p : Printing) (look : Look) (C : BlockCipher) (as : List Action) : ∀ (w : World), Mild w →
    (logOf p look C w as).filter (fun r => r.event = connectedText p look ∨ r.event = closedText p look) =
      lifecycle p look w.transport.socket.isSome (as.zip (acts C w as).1) := by
  induction as with
  | nil => intro w _; rfl
  | cons a as ih =>
    intro w hm
    unfold logOf acts
    rw [List.filter_append, List.zip_cons_cons]
    by_cases h1 : a = .connect
    · subst h1
      obtain ⟨m, _, hc⟩ := connect_step hm
      have hi := ih _ m
      show List.filter _ (w.connectL p look).1 ++ List.filter _ (logOf p look C w.connect.2 as) =
        lifecycle p look _ ((Action.connect, w.connect.1.andThen fun _ => .returned .nothing) :: as.zip (acts C w.connect.2 as).1)
      rw [hi]
      unfold World.connectL
      rcases hc with ⟨h, hs, hc⟩ | ⟨hs, _, hc⟩ | ⟨h, l, hs, _, c1, c2, _⟩ | ⟨l, hs, _, c1, c2, _⟩
      · rw [hc, hs]; rfl
      · rw [hc, hs]; rfl
      · cases hx : w.connect with | mk o w' =>
        rw [hx] at c1 c2
        dsimp only at c1 c2 ⊢
        subst c1
        rw [c2]
        dsimp only
        have : ("Connected to " ++ look.address p) = connectedText p look := rfl
        rw [this]
        simp [info, Outcome3.andThen, lifecycle]
      · cases hx : w.connect with | mk o w' =>
        rw [hx] at c1 c2
        dsimp only at c1 c2 ⊢
        subst c1
        rw [c2, hs]
        rfl
    · by_cases h2 : a = .disconnect
      · subst h2
        obtain ⟨m, _, _, hc⟩ := disconnect_step hm
        have hi := ih _ m
        show List.filter _ (w.disconnectL p look).1 ++ List.filter _ (logOf p look C w.disconnect.2 as) =
          lifecycle p look _ ((Action.disconnect, w.disconnect.1.andThen fun _ => .returned .nothing) ::
            as.zip (acts C w.disconnect.2 as).1)
        rw [hi]
        unfold World.disconnectL
        rcases hc with ⟨hs, hc⟩ | ⟨h, hs, c1, c2, _⟩ | ⟨h, hs, c1, ⟨c2, _⟩ | ⟨c2, _⟩⟩
        · rw [hc, hs]; rfl
        · cases hx : w.disconnect with | mk o w' =>
          rw [hx] at c1 c2
          dsimp only at c1 c2 ⊢
          subst c1
          rw [c2, hs]
          rfl
        · cases hx : w.disconnect with | mk o w' =>
          rw [hx] at c1 c2
          dsimp only at c1 c2 ⊢
          subst c2
          rw [c1, hs]
          dsimp only
          have : ("Connection to " ++ look.address p ++ " is closed") = closedText p look := rfl
          rw [this]
          simp [info, Outcome3.andThen, lifecycle]
        · cases hx : w.disconnect with | mk o w' =>
          rw [hx] at c1 c2
          dsimp only at c1 c2 ⊢
          subst c2
          rw [c1, hs]
          rfl
      · obtain ⟨b1, b2⟩ := act_between (C := C) w h1 h2
        have hk : Mild (act C w a).2 ∧ (act C w a).2.transport = w.transport := by
          cases hs : w.transport.socket with
          | none =>
            obtain ⟨u1, u2, u3, u4, u5⟩ := b2 hs
            exact ⟨⟨by rw [u2]; exact hm.opens, by rw [u3]; exact hm.shutdowns, by rw [u4]; exact hm.closes⟩, u1⟩
          | some h =>
            obtain ⟨u1, u2, u3, u4, _, _⟩ := b1 h hs
            exact ⟨⟨by rw [u2]; exact hm.opens, by rw [u3]; exact hm.shutdowns, by rw [u4]; exact hm.closes⟩, u1⟩
        rw [filter_none (actL_texts p look C w h1 h2), ih _ hk.1, hk.2, List.nil_append]
        cases a with
        | connect => exact absurd rfl h1
        | disconnect => exact absurd rfl h2
        | call k => simp [lifecycle]
        | send es => simp [lifecycle]
        | nextEvent => simp [lifecycle]

/-- C91. When a program was connected, from its log: if the operating system fails with `OSError` only, then the
records of connections made and closed are, in order, one for each `connect` that returned and one for each
`disconnect` that returned while the program was connected, with the address; none for those that failed. -/
theorem C91_life_cycle (p : Printing) (look : Look) (C : BlockCipher) (timeout : Option Int) (a : ClientArgs)
    (env : OsEnv) (w : World) (hm : mkWorld look.place.kind timeout a env = .ok w) (he : OnlyOsErrors env)
    (as : List Action) :
    (logOf p look C w as).filter (fun r => r.event = connectedText p look ∨ r.event = closedText p look) =
      lifecycle p look false (as.zip (acts C w as).1) := by
  obtain ⟨h1, h2, _⟩ := mkWorld_mild hm he
  have := acts_opened p look C as w h1
  rw [h2] at this
  exact this

theorem logOf_append (p : Printing) (look : Look) (C : BlockCipher) (as bs : List Action) : ∀ w : World,
    logOf p look C w (as ++ bs) = logOf p look C w as ++ logOf p look C (acts C w as).2 bs := by
  induction as with
  | nil => intro w; rfl
  | cons a as ih => intro w; simp only [List.cons_append, logOf, acts, ih, List.append_assoc]

/-- C91. A `disconnect` that fails gives the connection up and says nothing of it: the log of such a program does not
tell that it is no longer connected. -/
theorem C91_unlogged (p : Printing) (look : Look) (C : BlockCipher) (timeout : Option Int) (a : ClientArgs)
    (env : OsEnv) (w : World) (hm : mkWorld look.place.kind timeout a env = .ok w) (he : OnlyOsErrors env)
    (as : List Action) (now : World) (hnow : now = (acts C w as).2) (e : PyErr)
    (hd : (act C now .disconnect).1 = .raised e) :
    logOf p look C w (as ++ [.disconnect]) = logOf p look C w as ∧
    connected (as.zip (acts C w as).1) = true ∧
    (∀ h l, now.opens = .ok h :: l → (acts C now [.disconnect, .connect]).1 = [.raised e, .returned .nothing]) := by
  obtain ⟨h1, h2, _⟩ := mkWorld_mild hm he
  obtain ⟨m, _, hcon⟩ := acts_lifecycle (C := C) as h1 [] (by rw [h2]; rfl)
  rw [← hnow] at m hcon
  obtain ⟨m', _, hop, hc⟩ := disconnect_step m
  have hd' : now.disconnect.1.andThen (fun _ => .returned Value.nothing) = .raised e := hd
  have hlog : logOf p look C w (as ++ [.disconnect]) = logOf p look C w as ++ (now.disconnectL p look).1 := by
    rw [logOf_append, ← hnow]
    simp only [logOf, List.append_nil]
    rfl
  rcases hc with ⟨hs, hc⟩ | ⟨h, hs, c1, c2, _⟩ | ⟨h, hs, c1, ⟨c2, _⟩ | ⟨c2, _⟩⟩
  · rw [hc] at hd'; cases hd'
  · rw [c1] at hd'; cases hd'
  · rw [c2] at hd'; cases hd'
  · refine ⟨?_, ?_, ?_⟩
    · rw [hlog]
      unfold World.disconnectL
      cases hx : now.disconnect with | mk o w' =>
      rw [hx] at c2
      dsimp only at c2
      subst c2
      simp
    · rw [List.nil_append] at hcon
      rw [hcon, hs]; rfl
    · intro g l hl
      rw [c2] at hd'
      obtain ⟨_, _, hc⟩ := connect_step m'
      have hact : (acts C now [.disconnect, .connect]).1 = [(act C now .disconnect).1,
        now.disconnect.2.connect.1.andThen fun _ => .returned .nothing] := rfl
      rw [hact, hd]
      rcases hc with ⟨h, hs, hc⟩ | ⟨hs, ho, hc⟩ | ⟨h, l, hs, _, d1, d2, _⟩ | ⟨l', hs, ho, d1, d2, _⟩
      · rw [c1] at hs; cases hs
      · rw [hop, hl] at ho; cases ho
      · rw [d1]; rfl
      · rw [hop, hl] at ho; cases ho

/-! ### Secrets -/

theorem sendL_plain (p : Printing) (C : BlockCipher) (c : Conn) (e : Event) (r : Rand) (h : passwordOf e = none) :
    c.sendL p false C e r = c.sendL p true C e r := by
  unfold Conn.sendL
  have : eventVal p false e = eventVal p true e := by
    cases e <;> first | rfl | cases h
  rw [this]

section
variable {C : BlockCipher} {ctx : CipherContext} {p : Printing} {ins more : List Bytes}

theorem arrived_more {line : Bytes} (h : Arrived ins line) : Arrived (ins ++ more) line := by
  obtain ⟨ds, rest, h1, h2⟩ := h
  exact ⟨ds, rest, h1.trans (List.infix_append' [] ins more), h2⟩

theorem frameIn_more {enc : Bool} {f : Frame} (h : FrameIn ins enc f) : FrameIn (ins ++ more) enc f := by
  obtain ⟨line, raw, h1, h2⟩ := h
  exact ⟨line, raw, arrived_more h1, h2⟩

theorem openFrameIn_more {cc : Option CipherContext} {f : Frame} (h : OpenFrameIn C cc ins f) :
    OpenFrameIn C cc (ins ++ more) f := by
  rcases h with h | ⟨f0, ctx, d, h, r⟩
  · exact .inl (frameIn_more h)
  · exact .inr ⟨f0, ctx, d, frameIn_more h, r⟩

theorem shown_more {tr : PyVal} {handed : List Bytes} {v : PyVal} (h : Shown C ctx p tr handed ins v) :
    Shown C ctx p tr handed (ins ++ more) v := by
  cases h with
  | sent w hw => exact .sent w hw
  | number n => exact .number n
  | time t => exact .time t
  | transport => exact .transport
  | request e he => exact .request e he
  | encrypted svc body ct pad h => exact .encrypted svc body ct pad h
  | received d hd => exact .received d (List.mem_append_left _ hd)
  | buffer ds hd => exact .buffer ds (hd.trans (List.infix_append' [] ins more))
  | response enc f hf => exact .response enc f (frameIn_more hf)
  | decrypted f hf => exact .decrypted f (openFrameIn_more hf)
  | pdu f e hf he => exact .pdu f e (openFrameIn_more hf) he
  | pages rs hr => exact .pages rs fun r h => (hr r h).imp fun _ hf => ⟨openFrameIn_more hf.1, hf.2⟩

theorem fromDevice_more {e : Event} (h : FromDevice C ctx ins e) : FromDevice C ctx (ins ++ more) e :=
  h.imp fun _ hf => ⟨openFrameIn_more hf.1, hf.2⟩
end

/-- A record that a program with a key may log. -/
def Allowed (C : BlockCipher) (ctx : CipherContext) (p : Printing) (stack : List String) (look : Look)
    (timeout : Option Int) (handed ins : List Bytes) (r : Record) : Prop :=
  (IsEventText r.event ∨ r.event = connectedText p look ∨ r.event = closedText p look) ∧
  ∀ x ∈ r.args, ∃ h v, x.2.repr p stack = v.repr p stack ∧
    Shown C ctx p (look.val ⟨look.place.kind, timeout, h⟩) handed ins v

structure SafeOk (C : BlockCipher) (ctx : CipherContext) (p : Printing) (stack : List String) (look : Look)
    (timeout : Option Int) (H : List Record) (w : World) : Prop where
  context : w.conn.cipherContext = some ctx
  addresses : w.conn.args.destinationAddress1 = 0 ∧ w.conn.args.destinationAddress2 = 0 ∧
    w.conn.args.sourceAddress1 = 0 ∧ w.conn.args.sourceAddress2 = 0
  kind : w.transport.kind = look.place.kind
  wait : w.transport.timeout = timeout
  buffered : Buffered (receivedData H) w.conn.buffer []
  log : ∀ r ∈ H, Allowed C ctx p stack look timeout (written w.os) (receivedData H) r

section
variable {C : BlockCipher} {ctx : CipherContext} {p : Printing} {stack : List String} {look : Look} {timeout : Option Int}

theorem allowed_mono {handed handed' ins more : List Bytes} (hh : ∀ d ∈ handed, d ∈ handed') {r : Record}
    (h : Allowed C ctx p stack look timeout handed ins r) : Allowed C ctx p stack look timeout handed' (ins ++ more) r := by
  refine ⟨h.1, fun x hx => ?_⟩
  obtain ⟨g, v, h1, h2⟩ := h.2 x hx
  exact ⟨g, v, h1, shown_mono hh (shown_more h2)⟩

theorem allowed_good {handed ins : List Bytes} {l : List Record} {w : World} (h1 : w.transport.kind = look.place.kind)
    (h2 : w.transport.timeout = timeout) (h : Good C ctx p stack (look.val w.transport) handed ins l) :
    ∀ r ∈ l, Allowed C ctx p stack look timeout handed ins r := by
  intro r hr
  obtain ⟨g1, g2⟩ := h r hr
  refine ⟨.inl g1, fun x hx => ?_⟩
  obtain ⟨v, e, hv⟩ := g2 x hx
  refine ⟨w.transport.socket, v, e, ?_⟩
  have : w.transport = ⟨look.place.kind, timeout, w.transport.socket⟩ := by rw [← h1, ← h2]
  rw [this] at hv
  exact hv

/-- Adding records without received data. -/
theorem SafeOk.more {H l : List Record} {w w' : World} (h : SafeOk C ctx p stack look timeout H w)
    (h1 : w'.conn.cipherContext = w.conn.cipherContext) (h2 : w'.conn.args = w.conn.args)
    (h3 : w'.transport.kind = w.transport.kind) (h4 : w'.transport.timeout = w.transport.timeout)
    (hd : ∀ d ∈ written w.os, d ∈ written w'.os)
    (hb : Buffered (receivedData (H ++ l)) w'.conn.buffer [])
    (hl : ∀ r ∈ l, Allowed C ctx p stack look timeout (written w'.os) (receivedData (H ++ l)) r) :
    SafeOk C ctx p stack look timeout (H ++ l) w' := by
  refine ⟨h1.trans h.context, by rw [h2]; exact h.addresses, h3.trans h.kind, h4.trans h.wait, hb, fun r hr => ?_⟩
  rcases List.mem_append.1 hr with hr | hr
  · rw [receivedData_append]; exact allowed_mono hd (h.log r hr)
  · exact hl r hr

theorem written_write (os : List OsCall) (h : Handle) (d : Bytes) : written (os ++ [.write h d]) = written os ++ [d] := by
  simp [written]

theorem safe_tracks :
    Tracks p look C (fun secret e => secret = true ∨ passwordOf e = none) (fun H e => FromDevice C ctx (receivedData H) e)
      (SafeOk C ctx p stack look timeout) where
  mono H l e h := by
    show FromDevice C ctx (receivedData (H ++ l)) e
    rw [receivedData_append]
    exact fromDevice_more h
  record H w r hI h := by
    have hs := (silent_data (silent_record h)).2
    have hrec : receivedData (H ++ [r]) = receivedData H := by rw [receivedData_append, hs, List.append_nil]
    refine hI.more rfl rfl rfl rfl (fun _ h => h) (by rw [hrec]; exact hI.buffered) ?_
    rw [hrec]
    refine allowed_good hI.kind hI.wait ?_
    cases h with
    | text ev h =>
      refine good_one (.inl ?_) (fun a ha => by cases ha)
      simp only [info]; clear hs hrec; revert ev; decide
    | time ev h t =>
      refine good_one (.inl ?_) (fun a ha => ?_)
      · simp only [info]; clear hs hrec; revert ev; decide
      · rw [List.mem_singleton.1 ha]; exact .time t
    | number ev h name n =>
      refine good_one (.inl ?_) (fun a ha => ?_)
      · simp only [info]; clear hs hrec; revert ev; decide
      · rw [List.mem_singleton.1 ha]; exact .number n
    | pages rs h =>
      refine good_one (.inl (by evt)) (fun a ha => ?_)
      rw [List.mem_singleton.1 ha]
      exact .pages rs h
  request H w secret e hI hS := by
    have he : w.conn.sendL p secret C e (w.rands w.draws) = w.conn.sendL p true C e (w.rands w.draws) := by
      rcases hS with rfl | h
      · rfl
      · cases secret with
        | true => rfl
        | false => exact sendL_plain p C _ e _ h
    rw [he]
    have hs := (silent_data (silent_send p true C w.conn e (w.rands w.draws))).2
    have hrec : receivedData (H ++ (w.conn.sendL p true C e (w.rands w.draws)).1) = receivedData H := by
      rw [receivedData_append, hs, List.append_nil]
    have hf := send_frame C w.conn e (w.rands w.draws)
    rw [← sendL_erase p true] at hf
    obtain ⟨f1, f2, f3⟩ := hf
    refine hI.more f2 f1 rfl rfl (fun _ h => h) ?_ ?_
    · rw [hrec]
      show Buffered _ (w.conn.sendL p true C e (w.rands w.draws)).2.1.buffer []
      rw [f3]; exact hI.buffered
    · exact allowed_good hI.kind hI.wait (good_send hI.context hI.addresses e _)
  write H w d hI := by
    rcases writeL_cases look w d with ⟨_, h⟩ | ⟨h, hs, ⟨hw, hx⟩ | ⟨l, hw, hx⟩ | ⟨x, l, hw, hx⟩⟩
    · rw [h, List.append_nil]; exact hI
    · rw [hx]
      refine hI.more rfl rfl rfl rfl (fun _ h => ?_) (by rw [List.append_nil]; exact hI.buffered) (fun r hr => by cases hr)
      rw [written_write]; exact List.mem_append_left _ h
    · rw [hx]
      have hrec : ∀ v, receivedData (H ++ [debug "Sent data" v]) = receivedData H := by
        intro v
        have : receivedData [debug "Sent data" v] = [] := dataOf_silent fun r hr => by
          rw [List.mem_singleton.1 hr]; evt
        rw [receivedData_append, this, List.append_nil]
      refine hI.more rfl rfl rfl rfl (fun _ h => ?_) (by rw [hrec]; exact hI.buffered) ?_
      · rw [written_write]; exact List.mem_append_left _ h
      · refine allowed_good hI.kind hI.wait ?_
        refine good_one (.inl (by evt)) fun a ha => ?_
        simp only [debug, List.mem_cons, List.not_mem_nil, or_false] at ha
        rcases ha with rfl | rfl
        · exact .sent d (by rw [written_write]; simp)
        · exact .transport
    · rw [hx]
      refine hI.more rfl rfl rfl rfl (fun _ h => ?_) (by rw [List.append_nil]; exact hI.buffered) (fun r hr => by cases hr)
      rw [written_write]; exact List.mem_append_left _ h
  receive H w hI := by
    rcases receiveL_cases look w with ⟨_, c, h⟩ | ⟨h, hs, s', c', bs, ⟨h1, h2, hx⟩ | ⟨e, h1, h2, hx⟩ | ⟨h1, h2, h3, hx⟩⟩
    · rw [h]
      exact hI.more rfl rfl rfl rfl (fun _ h => h) (by rw [List.append_nil]; exact hI.buffered) (fun r hr => by cases hr)
    · rw [hx, setUnread_some hs]
      have hrec : receivedData (H ++ debug "Received data" [("data", .bytes bs), ("transport", look.val w.transport)] ::
          (w.conn.receiveDataL bs).1) = receivedData H ++ [bs] := by
        rw [List.append_cons, receivedData_append, receivedData_append, (silent_data (silent_receive w.conn bs)).2,
          List.append_nil]
        rfl
      obtain ⟨f1, f2⟩ := receiveDataL_frame w.conn bs
      have hb : Buffered (receivedData H ++ [bs]) w.conn.buffer (bs :: []) := by
        obtain ⟨pre, ds, g1, g2⟩ := hI.buffered
        exact ⟨pre, ds, by rw [g1]; simp, g2⟩
      obtain ⟨k1, k2⟩ := good_receive (C := C) (ctx := ctx) (p := p) (stack := stack) (tr := look.val w.transport)
        (handed := written w.os) hb
      refine hI.more f1 f2 rfl rfl (fun _ h => h) ?_ ?_
      · rw [hrec]; exact k2
      · rw [hrec]; exact allowed_good hI.kind hI.wait k1
    · rw [hx, setUnread_some hs]
      exact hI.more rfl rfl rfl rfl (fun _ h => h) (by rw [List.append_nil]; exact hI.buffered) (fun r hr => by cases hr)
    · rw [hx, setUnread_some hs]
      exact hI.more rfl rfl rfl rfl (fun _ h => h) (by rw [List.append_nil]; exact hI.buffered) (fun r hr => by cases hr)
  poll H w hI := by
    have hs := (silent_data (silent_poll p C w.conn)).2
    have hrec : receivedData (H ++ (w.conn.nextEventL p C).1) = receivedData H := by
      rw [receivedData_append, hs, List.append_nil]
    obtain ⟨g1, g2, g3, g4, g5⟩ := good_poll (p := p) (stack := stack) (tr := look.val w.transport)
      (handed := written w.os) (C := C) hI.context hI.buffered
    refine ⟨hI.more (g3.trans hI.context.symm) g4 rfl rfl (fun _ h => h) (by rw [hrec]; exact g2) ?_, ?_⟩
    · rw [hrec]; exact allowed_good hI.kind hI.wait g1
    · intro ev hev
      rw [hrec]
      exact g5 ev hev
end

/-- C91. The log of a program whose client has a key, over any actions (in which the program itself sends no password)
and whatever the operating system does: each record has one of the fixed texts or tells of a connection made or closed,
and each argument prints like a value of the kinds in `Spec.Shown`. -/
theorem C91_encrypted_log (p : Printing) (stack : List String) (look : Look) (C : BlockCipher) (timeout : Option Int)
    (a : ClientArgs) (key : Bytes) (keyId : Int) (hk : a.encryptionKey = some key) (hne : key ≠ [])
    (hid : a.encryptionKeyId = some keyId) (env : OsEnv) (w : World) (hm : mkWorld look.place.kind timeout a env = .ok w)
    (as : List Action) (hp : ∀ a ∈ as, a.NoPassword) :
    ∀ r ∈ logOf p look C w as,
      (IsEventText r.event ∨ r.event = connectedText p look ∨ r.event = closedText p look) ∧
      ∀ x ∈ r.args, ∃ h v, x.2.repr p stack = v.repr p stack ∧
        Shown C ⟨keyId, key⟩ p (look.val ⟨look.place.kind, timeout, h⟩) (written (acts C w as).2.os)
          (receivedData (logOf p look C w as)) v := by
  obtain ⟨conn, hc, hw⟩ := mkWorld_ok hm
  have hI : SafeOk C ⟨keyId, key⟩ p stack look timeout [] w := by
    obtain ⟨-, hc⟩ := mkConn_ok hc
    have hkey : toSecretByte a.encryptionKey = some key := by
      rw [hk]
      cases key with
      | nil => exact absurd rfl hne
      | cons b key => rfl
    rw [hw, hc]
    refine ⟨?_, ⟨rfl, rfl, rfl, rfl⟩, rfl, rfl, ⟨[], [], rfl, rfl⟩, fun r hr => by cases hr⟩
    show createCipherContext _ = _
    unfold createCipherContext
    dsimp only
    rw [hkey, hid]
  have := acts_track (safe_tracks (C := C) (ctx := ⟨keyId, key⟩) (p := p) (stack := stack) (look := look)
      (timeout := timeout)) (fun _ => .inl rfl)
    (fun H w h => by
      rw [connectL_erase]
      obtain ⟨h0, _, _, _, h3, h4⟩ := connect_same w
      have hs := (silent_data (silent_connect p look w)).2
      have hrec : receivedData (H ++ (w.connectL p look).1) = receivedData H := by
        rw [receivedData_append, hs, List.append_nil]
      refine h.more (by rw [h0]) (by rw [h0]) h3 h4 (fun _ h => by rw [(connect_frame w).2.1]; exact h)
        (by rw [hrec, h0]; exact h.buffered) (fun r hr => ?_)
      rw [connectL_texts p look w r hr]
      exact ⟨.inr (.inl rfl), fun x hx => by cases hx⟩)
    (fun H w h => by
      rw [disconnectL_erase]
      obtain ⟨h0, _, _, _, h3, h4⟩ := disconnect_same w
      have hs := (silent_data (silent_disconnect p look w)).2
      have hrec : receivedData (H ++ (w.disconnectL p look).1) = receivedData H := by
        rw [receivedData_append, hs, List.append_nil]
      refine h.more (by rw [h0]) (by rw [h0]) h3 h4 (fun _ h => by rw [(disconnect_frame w).2.1]; exact h)
        (by rw [hrec, h0]; exact h.buffered) (fun r hr => ?_)
      rw [disconnectL_texts p look w r hr]
      exact ⟨.inr (.inr rfl), fun x hx => by cases hx⟩)
    as (fun es hes e he => .inr (hp _ hes e he)) [] w hI
  exact this.log

/-! ### The records of a call -/

theorem exchangeL_inner (p : Printing) (look : Look) (C : BlockCipher) (w : World) (e : Event) :
    ∀ r ∈ (w.exchangeL p look C e).1, r.event ∉ methodTexts := by
  have h0 : TextsOk true [] w := fun r hr => by cases hr
  intro r hr
  exact ((exchange_track (inner_follows p look C true) h0 (e := e) trivial).1 r hr).2 rfl

/-- C91. `read_time` in a program: its log begins with "Reading device time"; it has a record "Got device time" exactly
if the call returned, and that is then its last record, with the time returned. -/
theorem C91_read_time (p : Printing) (look : Look) (C : BlockCipher) (w : World) :
    (actL p look C w (.call .readTime)).1.head? = some (info "Reading device time") ∧
    (∀ t, (act C w (.call .readTime)).1 = .returned (.time t) →
      (actL p look C w (.call .readTime)).1.getLast? = some (info "Got device time" [("time", .str (isoformat t))])) ∧
    ((∃ r ∈ (actL p look C w (.call .readTime)).1, r.event = "Got device time") ↔
      ∃ v, (act C w (.call .readTime)).1 = .returned v) := by
  have hi := exchangeL_inner p look C w (.readTimeRequest {})
  rw [← actL_erase p look]
  unfold actL wcallL World.readTimeL
  dsimp only
  cases hx : w.exchangeL p look C (.readTimeRequest {}) with
  | mk l o =>
    obtain ⟨o, s'⟩ := o
    rw [hx] at hi
    dsimp only at hi ⊢
    have no : ∀ r ∈ info "Reading device time" :: l, r.event ≠ "Got device time" := by
      intro r hr e
      rcases List.mem_cons.1 hr with rfl | hr
      · exact absurd e (by evt)
      · exact hi r hr (by rw [e]; decide)
    cases o.andThen timeOf with
    | returned t =>
      dsimp only
      exact ⟨rfl, fun t' h => by (cases h; exact List.getLast?_concat ..), fun _ => ⟨_, rfl⟩,
        fun _ => ⟨_, List.mem_append_right _ (List.mem_singleton_self _), rfl⟩⟩
    | raised x =>
      exact ⟨rfl, fun t' h => by (cases h), fun ⟨r, hr, e⟩ => absurd e (no r hr), fun ⟨_, h⟩ => by (cases h)⟩
    | pending =>
      exact ⟨rfl, fun t' h => by (cases h), fun ⟨r, hr, e⟩ => absurd e (no r hr), fun ⟨_, h⟩ => by (cases h)⟩

/-- C91. `write_time` in a program: its log begins with "Writing time to device" and the time; it has a record
"Finished writing time to device" exactly if the call returned, and that is then its last record. -/
theorem C91_write_time (p : Printing) (look : Look) (C : BlockCipher) (w : World) (t : DateTime) (b : Bool) :
    (actL p look C w (.call (.writeTime t b))).1.head? =
      some (info "Writing time to device" [("time", .str (isoformat t))]) ∧
    (∀ v, (act C w (.call (.writeTime t b))).1 = .returned v →
      (actL p look C w (.call (.writeTime t b))).1.getLast? = some (info "Finished writing time to device")) ∧
    ((∃ r ∈ (actL p look C w (.call (.writeTime t b))).1, r.event = "Finished writing time to device") ↔
      ∃ v, (act C w (.call (.writeTime t b))).1 = .returned v) := by
  have hi := exchangeL_inner p look C w (.writeTimeRequest { password := w.password, deviceTime := t, cryout := b })
  rw [← actL_erase p look]
  unfold actL wcallL World.writeTimeL
  dsimp only
  cases hx : w.exchangeL p look C (.writeTimeRequest { password := w.password, deviceTime := t, cryout := b }) with
  | mk l o =>
    obtain ⟨o, s'⟩ := o
    rw [hx] at hi
    dsimp only at hi ⊢
    have no : ∀ r ∈ info "Writing time to device" [("time", .str (isoformat t))] :: l,
        r.event ≠ "Finished writing time to device" := by
      intro r hr e
      rcases List.mem_cons.1 hr with rfl | hr
      · exact absurd e (by evt)
      · exact hi r hr (by rw [e]; decide)
    cases o with
    | returned ev =>
      exact ⟨rfl, fun t' h => List.getLast?_concat .., fun _ => ⟨_, rfl⟩,
        fun _ => ⟨_, List.mem_append_right _ (List.mem_singleton_self _), rfl⟩⟩
    | raised x =>
      exact ⟨rfl, fun t' h => by (cases h), fun ⟨r, hr, e⟩ => absurd e (no r hr), fun ⟨_, h⟩ => by (cases h)⟩
    | pending =>
      exact ⟨rfl, fun t' h => by (cases h), fun ⟨r, hr, e⟩ => absurd e (no r hr), fun ⟨_, h⟩ => by (cases h)⟩

/-- C91. `read_instantaneous_values` in a program: its log begins with "Reading instantaneous values"; it has a record
"Received instantaneous values" exactly if the call returned, and that is then its last record. -/
theorem C91_read_values (p : Printing) (look : Look) (C : BlockCipher) (w : World) :
    (actL p look C w (.call .readInstantaneousValues)).1.head? = some (info "Reading instantaneous values") ∧
    (∀ v, (act C w (.call .readInstantaneousValues)).1 = .returned v →
      (actL p look C w (.call .readInstantaneousValues)).1.getLast? = some (info "Received instantaneous values")) ∧
    ((∃ r ∈ (actL p look C w (.call .readInstantaneousValues)).1, r.event = "Received instantaneous values") ↔
      ∃ v, (act C w (.call .readInstantaneousValues)).1 = .returned v) := by
  have hi := exchangeL_inner p look C w (.readInstantaneousValuesRequest { password := w.password })
  rw [← actL_erase p look]
  unfold actL wcallL World.readInstantaneousValuesL
  dsimp only
  cases hx : w.exchangeL p look C (.readInstantaneousValuesRequest { password := w.password }) with
  | mk l o =>
    obtain ⟨o, s'⟩ := o
    rw [hx] at hi
    dsimp only at hi ⊢
    have no : ∀ r ∈ info "Reading instantaneous values" :: l, r.event ≠ "Received instantaneous values" := by
      intro r hr e
      rcases List.mem_cons.1 hr with rfl | hr
      · exact absurd e (by evt)
      · exact hi r hr (by rw [e]; decide)
    cases o with
    | returned ev =>
      exact ⟨rfl, fun t' h => List.getLast?_concat .., fun _ => ⟨_, rfl⟩,
        fun _ => ⟨_, List.mem_append_right _ (List.mem_singleton_self _), rfl⟩⟩
    | raised x =>
      exact ⟨rfl, fun t' h => by (cases h), fun ⟨r, hr, e⟩ => absurd e (no r hr), fun ⟨_, h⟩ => by (cases h)⟩
    | pending =>
      exact ⟨rfl, fun t' h => by (cases h), fun ⟨r, hr, e⟩ => absurd e (no r hr), fun ⟨_, h⟩ => by (cases h)⟩

/-- Without the record of the whole data. -/
theorem pagesL_whole (p : Printing) (look : Look) (C : BlockCipher) (w : World) (n : Int) (total : Bytes) :
    ∀ r ∈ (w.readPagesL p look C n total).1, r.event ≠ "Received total parameters data" := by
  have hx : ∀ (w : World) (e : Event), ∀ r ∈ (w.exchangeL p look C e).1, r.event ≠ "Received total parameters data" :=
    fun w e r hr h => exchangeL_inner p look C w e r hr (by rw [h]; decide)
  have one : ∀ (ev : String) as, ev ≠ "Received total parameters data" → ∀ r ∈ [info ev as],
      r.event ≠ "Received total parameters data" := by
    intro ev as h r hr
    rw [List.mem_singleton.1 hr]
    exact h
  have app : ∀ l l' : List Record, (∀ r ∈ l, r.event ≠ "Received total parameters data") →
      (∀ r ∈ l', r.event ≠ "Received total parameters data") →
      ∀ r ∈ l ++ l', r.event ≠ "Received total parameters data" := by
    intro l l' h h' r hr
    rcases List.mem_append.1 hr with hr | hr
    · exact h r hr
    · exact h' r hr
  fun_induction World.readPagesL p look C w n total with
  | case1 w n total ak l e s' h =>
    have := hx w (.readDeviceParametersRequest { password := w.password, objectCount := n, bufferLength := 1024 })
    rw [h] at this
    exact app _ _ (one _ _ (by decide)) this
  | case2 w n total ak l s' h =>
    have := hx w (.readDeviceParametersRequest { password := w.password, objectCount := n, bufferLength := 1024 })
    rw [h] at this
    exact app _ _ (one _ _ (by decide)) this
  | case3 w n total ak l r s' h l' he =>
    have := hx w (.readDeviceParametersRequest { password := w.password, objectCount := n, bufferLength := 1024 })
    rw [h] at this
    exact app _ _ (app _ _ (one _ _ (by decide)) this) (one _ _ (by decide))
  | case4 w n total ak l r s' h l' he l'' o hrec ih =>
    have := hx w (.readDeviceParametersRequest { password := w.password, objectCount := n, bufferLength := 1024 })
    rw [h] at this
    rw [hrec] at ih
    exact app _ _ (app _ _ (app _ _ (app _ _ (one _ _ (by decide)) this) (one _ _ (by decide))) (one _ _ (by decide))) ih
  | case5 w n total ak l ev s' hne h =>
    have := hx w (.readDeviceParametersRequest { password := w.password, objectCount := n, bufferLength := 1024 })
    rw [h] at this
    exact app _ _ (one _ _ (by decide)) this

/-- C91. `read_parameters` in a program: its log begins with where it starts to read; it has a record "Received total
parameters data" only as its last one, and then what the call does is parse exactly this data; it has it whenever
the call returns. -/
theorem C91_read_parameters (p : Printing) (look : Look) (C : BlockCipher) (w : World) (n : Int) :
    (actL p look C w (.call (.readParameters n))).1.head? =
      some (info "Reading device parameters" [("read_from", .int n)]) ∧
    (∀ r ∈ (actL p look C w (.call (.readParameters n))).1, r.event = "Received total parameters data" →
      ∃ d, r = debug "Received total parameters data" [("data", .bytes d)] ∧
        (actL p look C w (.call (.readParameters n))).1.getLast? = some r ∧
        (∀ os, parseParameters none (some d) = .ok os →
          (act C w (.call (.readParameters n))).1 = .returned (.objects os)) ∧
        (∀ x, parseParameters none (some d) = .error x → (act C w (.call (.readParameters n))).1 = .raised x)) ∧
    (∀ v, (act C w (.call (.readParameters n))).1 = .returned v →
      ∃ r ∈ (actL p look C w (.call (.readParameters n))).1, r.event = "Received total parameters data") := by
  have hw := pagesL_whole p look C w n []
  rw [← actL_erase p look]
  unfold actL wcallL World.readParametersL
  dsimp only
  cases hx : w.readPagesL p look C n [] with
  | mk l o =>
    obtain ⟨o, s'⟩ := o
    rw [hx] at hw
    dsimp only at hw ⊢
    have first : ∀ r, r.event = "Received total parameters data" →
        r ∉ info "Reading device parameters" [("read_from", .int n)] :: l := by
      intro r e hr
      rcases List.mem_cons.1 hr with rfl | hr
      · exact absurd e (by evt)
      · exact hw r hr e
    cases o with
    | returned d =>
      refine ⟨rfl, fun r hr e => ?_, fun os _ => ⟨_, List.mem_append_right _ (List.mem_singleton_self _), rfl⟩⟩
      rcases List.mem_append.1 hr with hr | hr
      · exact absurd hr (first r e)
      · rw [List.mem_singleton.1 hr]
        refine ⟨d, rfl, List.getLast?_concat .., fun os h => ?_, fun x h => ?_⟩
        · dsimp only; rw [h]; rfl
        · dsimp only; rw [h]; rfl
    | raised x => exact ⟨rfl, fun r hr e => absurd hr (first r e), fun os h => by (cases h)⟩
    | pending => exact ⟨rfl, fun r hr e => absurd hr (first r e), fun os h => by (cases h)⟩

/-! Examples -/

/-- How two transports look in a log. -/
def exTcpLook : Look := ⟨.tcp "10.0.0.2".toList 4000, fun h => "<socket ".toList ++ pyStrInt h ++ ['>']⟩
def exPortLook : Look := ⟨.serial "/dev/ttyS0".toList 9600, fun h => "<port ".toList ++ pyStrInt h ++ ['>']⟩

/-- The log of a program. -/
def exLog (look : Look) (timeout : Option Int) (a : ClientArgs) (env : OsEnv) (as : List Action) : List Record :=
  match mkWorld look.place.kind timeout a env with
  | .ok w => logOf exPrint look idCipher w as
  | .error _ => []

/-- A program: two sessions and a disconnect too many. -/
def exProgram : List Action := [.connect, .call .readTime, .disconnect, .disconnect, .connect, .call .readTime]

-- what is printed of a session over TCP
example : (exLog exTcpLook none exArgs exEnv (exProgram.take 3)).map (fun r => r.texts exPrint []) = [
    ["Connected to ('10.0.0.2', 4000)".toList], ["Reading device time".toList],
    ["Sending request PDU".toList, "pdu=ReadTimeRequest()".toList],
    ["Elgas state transitioned from IDLE to AWAITING_READ_TIME_RESPONSE".toList],
    ["Sending ELGAS request".toList, ("request=Request(service=<ServiceNumber.READ_DEVICE_TIME: 108>, " ++
      "destination_address_1=0, destination_address_2=0, source_address_1=0, source_address_2=0, data=b'')").toList],
    ["Sent data".toList, "data=b'\\x02\\xfe\\x84l\\x0f\\x00\\x00\\x00\\x00\\x00\\x00\\x00\\x19\\xfd\\x19\\r'".toList,
      "transport=BlockingTcpTransport(host='10.0.0.2', port=4000, timeout=None, tcp_socket=<socket 5>)".toList],
    ["Received data".toList, ("data=b'\\x02\\xfe\\x86l\\x18\\x00\\x00\\x00\\x00\\x00\\x00\\x00YY\\xe3)\\x02 \\x0f" ++
        "\\x124\\xcd=\\x08\\r'").toList,
      "transport=BlockingTcpTransport(host='10.0.0.2', port=4000, timeout=None, tcp_socket=<socket 5>)".toList],
    ["Added data to connection buffer".toList, ("data=b'\\x02\\xfe\\x86l\\x18\\x00\\x00\\x00\\x00\\x00\\x00\\x00YY\\xe3)\\x02 \\x0f" ++
        "\\x124\\xcd=\\x08\\r'").toList,
      ("total_buffer=bytearray(b'\\x02\\xfe\\x86l\\x18\\x00\\x00\\x00\\x00\\x00\\x00\\x00YY\\xe3)\\x02 \\x0f" ++
        "\\x124\\xcd=\\x08\\r')").toList],
    ["Received ELGAS response".toList, ("response=Response(service=<ServiceNumber.READ_DEVICE_TIME: 108>, " ++
      "destination_address_1=0, destination_address_2=0, source_address_1=0, source_address_2=0, " ++
      "data=b'YY\\xe3)\\x02 \\x0f\\x124')").toList],
    ["Received PDU".toList, ("pdu=ReadTimeResponse(time=datetime.datetime(2020, 2, 29, 23, 59, 59), " ++
      "data_access_result=b'\\x0f', is_dst=True, device_supports_dst=True, extra_data=b'')").toList],
    ["Elgas state transitioned from AWAITING_READ_TIME_RESPONSE to IDLE".toList],
    ["Got device time".toList, "time='2020-02-29T23:59:59'".toList],
    ["Connection to ('10.0.0.2', 4000) is closed".toList]] := by decide +kernel

-- C91_sent, C91_received: two handles, each with what was sent to it and received from it
example : (recordsOf "Sent data" (exLog exPortLook none exArgs exEnv exProgram)).map (fun r => (r.texts exPrint []).getLast?) =
    [some "transport=SerialTransport(port='/dev/ttyS0', baud_rate=9600, timeout=None, serial_port=<port 5>)".toList,
     some "transport=SerialTransport(port='/dev/ttyS0', baud_rate=9600, timeout=None, serial_port=<port 6>)".toList] ∧
    (recordsOf "Received data" (exLog exPortLook none exArgs exEnv exProgram)).length = 2 ∧
    (∃ w, mkWorld exPortLook.place.kind none exArgs exEnv = .ok w ∧
      sentTo (acts idCipher w exProgram).2.os exEnv.writes = [(5, exAsk), (6, exAsk)]) :=
  ⟨by decide +kernel, by decide +kernel, _, rfl, by decide +kernel⟩

-- C91_received_all: the operating system does not fail on reading
example : ∀ e h, .fail e ∉ exEnv.inbox h := by
  intro e h hm
  simp only [exEnv] at hm
  split at hm
  · revert hm; simp [exStream]
  · cases hm

-- C91_life_cycle: the program of the example; a second `connect` and an additional `disconnect` leave no trace
example : ((exLog exTcpLook none exArgs exEnv ([.disconnect] ++ exProgram ++ [.connect, .disconnect])).filter
      (fun r => r.event.toList.take 7 = "Connect".toList)).map (·.event) =
    ["Connected to ('10.0.0.2', 4000)", "Connection to ('10.0.0.2', 4000) is closed",
     "Connected to ('10.0.0.2', 4000)", "Connection to ('10.0.0.2', 4000) is closed"] := by decide +kernel
example : OnlyOsErrors exEnv := by
  refine ⟨?_, ?_, ?_⟩ <;> intro r hr e h
  · simp only [exEnv, List.mem_cons, List.not_mem_nil, or_false] at hr
    rcases hr with rfl | rfl <;> cases h
  · rw [List.eq_of_mem_replicate hr] at h; cases h
  · rw [List.eq_of_mem_replicate hr] at h; cases h

-- C91_unlogged: a `disconnect` that fails
example : (exLog exTcpLook none exArgs { exEnv with closes := [.error .os] } [.connect, .disconnect, .connect]).map
      (·.event) = ["Connected to ('10.0.0.2', 4000)", "Connected to ('10.0.0.2', 4000)"] ∧
    (∃ w, mkWorld exTcpLook.place.kind none exArgs { exEnv with closes := [.error .os] } = .ok w ∧
      (act idCipher (acts idCipher w [.connect]).2 .disconnect).1 = .raised (.elgas .communication)) :=
  ⟨by decide +kernel, _, rfl, rfl⟩

-- C91_encrypted_log: a client with a key, and a call with a password; the log has the password in no text
example : exSecretArgs.encryptionKey = some (List.replicate 16 7) ∧ exSecretArgs.encryptionKeyId = some 1 ∧
    (exLog exTcpLook none exSecretArgs exEnv [.connect, .call .readInstantaneousValues, .disconnect]).map
      (fun r => (r.event, r.args.length)) =
    [("Connected to ('10.0.0.2', 4000)", 0), ("Reading instantaneous values", 0), ("Sending request PDU", 1),
     ("Elgas state transitioned from IDLE to AWAITING_READ_ACTUAL_VALUES_RESPONSE", 0), ("Sending ELGAS request", 1),
     ("Sent data", 2), ("Received data", 2), ("Added data to connection buffer", 2), ("Received ELGAS response", 1),
     ("Received PDU", 1), ("Connection to ('10.0.0.2', 4000) is closed", 0)] := ⟨rfl, rfl, by decide +kernel⟩

end Elgas
