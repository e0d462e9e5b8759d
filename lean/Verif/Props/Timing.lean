import Verif.Spec.Timing
import Verif.Props.Program
/-!
C103: what the timeout, the clock and the segments of the stream change (nothing a program can see), and how long one
`recv` reads.
-/
namespace Elgas
open Spec

/-! ### One byte at a time -/

/-- `next_event` of a client that gets the stream byte by byte. -/
def settle (C : BlockCipher) (c : Conn) : List Item → Outcome3 Event × Conn × List Item
  | [] =>
    match c.nextEvent C with
    | (c, .error e) => (.raised e, c, [])
    | (c, .ok (some ev)) => (.returned ev, c, [])
    | (c, .ok none) => (.pending, c, [])
  | .fail x :: rest =>
    match c.nextEvent C with
    | (c, .error e) => (.raised e, c, .fail x :: rest)
    | (c, .ok (some ev)) => (.returned ev, c, .fail x :: rest)
    | (c, .ok none) => (.raised (wrapOs x), c, rest)
  | .byte b :: rest =>
    match c.nextEvent C with
    | (c, .error e) => (.raised e, c, .byte b :: rest)
    | (c, .ok (some ev)) => (.returned ev, c, .byte b :: rest)
    | (c, .ok none) => settle C (c.receiveData [b]) rest

theorem settle_error {C : BlockCipher} {c c1 : Conn} {e : PyErr} (h : c.nextEvent C = (c1, .error e)) (items : List Item) :
    settle C c items = (.raised e, c1, items) := by
  rcases items with _ | ⟨_ | _, _⟩ <;> unfold settle <;> rw [h]

theorem settle_event {C : BlockCipher} {c c1 : Conn} {ev : Event} (h : c.nextEvent C = (c1, .ok (some ev))) (items : List Item) :
    settle C c items = (.returned ev, c1, items) := by
  rcases items with _ | ⟨_ | _, _⟩ <;> unfold settle <;> rw [h]

theorem settle_nil {C : BlockCipher} {c : Conn} (h : c.nextEvent C = (c, .ok none)) :
    settle C c [] = (.pending, c, []) := by
  unfold settle; rw [h]

theorem settle_fail {C : BlockCipher} {c : Conn} (h : c.nextEvent C = (c, .ok none)) (x : PyErr) (items : List Item) :
    settle C c (.fail x :: items) = (.raised (wrapOs x), c, items) := by
  unfold settle; rw [h]

theorem settle_byte {C : BlockCipher} {c : Conn} (h : c.nextEvent C = (c, .ok none)) (b : UInt8) (items : List Item) :
    settle C c (.byte b :: items) = settle C (c.receiveData [b]) items := by
  conv => lhs; unfold settle
  rw [h]

/-- While there is no event, the connection is as it was. -/
theorem nextEvent_waits {C : BlockCipher} {c c1 : Conn} (h : c.nextEvent C = (c1, .ok none)) : c1 = c := by
  rcases line_cases c.buffer with h0 | ⟨w, rest, hb, hw⟩
  · rw [nextEvent_none h0] at h; cases h; rfl
  · rw [nextEvent_line hw hb] at h
    split at h
    · split at h
      · cases h; rfl
      · cases h
    · split at h
      · cases h
      · split at h
        · cases h
        · cases h

/-- More bytes without end character do not complete anything. -/
theorem nextEvent_more {C : BlockCipher} {c c1 : Conn} (h : c.nextEvent C = (c1, .ok none)) {d : Bytes} (hd : 0x0D ∉ d) :
    ({ c with buffer := c.buffer ++ d } : Conn).nextEvent C = ({ c with buffer := c.buffer ++ d }, .ok none) := by
  rcases line_cases c.buffer with h0 | ⟨w, rest, hb, hw⟩
  · apply nextEvent_none
    simp only [List.mem_append, not_or]
    exact ⟨h0, hd⟩
  · rw [nextEvent_line hw hb] at h
    rw [nextEvent_line (rest := rest ++ d) hw (by dsimp only; rw [hb]; simp)]
    rw [interpret_congr (c' := c) (by rfl)]
    split at h
    · next e he =>
      split at h
      · next hv => rw [if_pos hv]
      · cases h
    · split at h
      · cases h
      · split at h
        · cases h
        · cases h

/-- Bytes without end character, one by one. -/
theorem settle_skip {C : BlockCipher} (d : Bytes) (items : List Item) : ∀ (c : Conn), c.nextEvent C = (c, .ok none) →
    0x0D ∉ d → settle C c (bytesOnly d ++ items) = settle C { c with buffer := c.buffer ++ d } items := by
  induction d with
  | nil => intro c _ _; simp [bytesOnly]
  | cons b d ih =>
    intro c h hd
    simp only [List.mem_cons, not_or] at hd
    show settle C c (.byte b :: (bytesOnly d ++ items)) = _
    rw [settle_byte h]
    have e : c.receiveData [b] = { c with buffer := c.buffer ++ [b] } := by
      apply receiveData_append
      intro hb
      injection hb with hb
      exact absurd hb.symm hd.1
    rw [e, ih _ (nextEvent_more h (by simp only [List.mem_singleton]; exact hd.1)) hd.2]
    simp

/-- A piece as `recv` returns it, byte by byte. -/
theorem settle_piece {C : BlockCipher} {c : Conn} (h : c.nextEvent C = (c, .ok none)) {bs : Bytes} (hne : bs ≠ [])
    (hbs : 0x0D ∉ bs.dropLast) (items : List Item) :
    settle C c (bytesOnly bs ++ items) = settle C (c.receiveData bs) items := by
  have hsplit : bs = bs.dropLast ++ [bs.getLast hne] := (List.dropLast_concat_getLast hne).symm
  generalize bs.dropLast = d at *
  generalize bs.getLast hne = x at *
  subst hsplit
  rw [show bytesOnly (d ++ [x]) ++ items = bytesOnly d ++ (.byte x :: items) by simp [bytesOnly]]
  rw [settle_skip d _ c h hbs]
  rw [settle_byte (nextEvent_more h hbs)]
  congr 1
  unfold Conn.receiveData
  cases d with
  | nil => simp
  | cons b d => simp

theorem worldLoop_eq (C : BlockCipher) (t : Transport) (c : Conn) (s : List Delivery) (k : Clock) :
    worldLoop C t c s k = match c.nextEvent C with
      | (c, .error e) => (.raised e, c, s, k)
      | (c, .ok (some ev)) => (.returned ev, c, s, k)
      | (c, .ok none) =>
        match t.recv s k with
        | (.returned d, s, k) => worldLoop C t (c.receiveData d) s k
        | (.raised e, s, k) => (.raised e, c, s, k)
        | (.pending, s, k) => (.pending, c, s, k) := by
  conv => lhs; unfold worldLoop
  split
  · next hn => rw [hn]
  · next hn => rw [hn]
  · next hn =>
    rw [hn]
    dsimp only
    split
    · next hr => rw [hr]
    · next hr => rw [hr]
    · next hr => rw [hr]

/-- The loop of `next_event` with any timeout, clock and segmentation: as if the bytes came one by one. -/
theorem loop_settle {C : BlockCipher} {t : Transport} {h : Handle} (ht : t.socket = some h) (c : Conn)
    (s : List Delivery) (k : Clock) :
    (worldLoop C t c s k).1 = (settle C c (content s)).1 ∧
    content (worldLoop C t c s k).2.2.1 = (settle C c (content s)).2.2 ∧
    (∀ ev, (worldLoop C t c s k).1 = .returned ev → (worldLoop C t c s k).2.1 = (settle C c (content s)).2.1) := by
  fun_induction worldLoop C t c s k with
  | case1 c s k c1 e hn =>
    rw [settle_error hn]; exact ⟨rfl, rfl, fun _ h => by cases h⟩
  | case2 c s k c1 ev hn =>
    rw [settle_event hn]; exact ⟨rfl, rfl, fun _ _ => rfl⟩
  | case3 c s k c1 hn d s1 k1 hr ih =>
    obtain rfl := nextEvent_waits hn
    rcases C47_recv_cases t h ht s k with ⟨bs, s', c', e1, e2, e3, e4, _⟩ | ⟨bs, e, s', c', e1, _⟩ | ⟨bs, s', c', e1, _⟩
    · rw [e1] at hr
      cases hr
      rw [e2, settle_piece hn e3 e4]
      exact ih
    · rw [e1] at hr; cases hr
    · rw [e1] at hr; cases hr
  | case4 c s k c1 hn e s1 k1 hr =>
    obtain rfl := nextEvent_waits hn
    rcases C47_recv_cases t h ht s k with ⟨bs, s', c', e1, _⟩ | ⟨bs, e, s', c', e1, e2, e3⟩ | ⟨bs, s', c', e1, _⟩
    · rw [e1] at hr; cases hr
    · rw [e1] at hr
      cases hr
      rw [e2, settle_skip bs _ _ hn e3, settle_fail (nextEvent_more hn e3)]
      exact ⟨rfl, rfl, fun _ h => by cases h⟩
    · rw [e1] at hr; cases hr
  | case5 c s k c1 hn s1 k1 hr =>
    obtain rfl := nextEvent_waits hn
    rcases C47_recv_cases t h ht s k with ⟨bs, s', c', e1, _⟩ | ⟨bs, e, s', c', e1, _⟩ | ⟨bs, s', c', e1, e2, e3, e4⟩
    · rw [e1] at hr; cases hr
    · rw [e1] at hr; cases hr
    · rw [e1] at hr
      cases hr
      rw [e2, ← List.append_nil (bytesOnly bs), settle_skip bs _ _ hn e4, settle_nil (nextEvent_more hn e4)]
      exact ⟨rfl, e3, fun _ h => by cases h⟩

/-- The loop leaves the settings of the connection alone; when it returns, the connection is at rest. -/
theorem loop_rests {C : BlockCipher} {t : Transport} (c : Conn) (s : List Delivery) (k : Clock) :
    (worldLoop C t c s k).2.1.args = c.args ∧ (worldLoop C t c s k).2.1.cipherContext = c.cipherContext ∧
    ((∃ ev, (worldLoop C t c s k).1 = .returned ev) → (worldLoop C t c s k).2.1.buffer = []) ∧
    ((∀ ev, (worldLoop C t c s k).1 ≠ .returned ev) → (worldLoop C t c s k).2.1.state = c.state) := by
  fun_induction worldLoop C t c s k with
  | case1 c s k c1 e hn =>
    have := (C38_poll_effect C c).2.1 e (by rw [hn])
    rw [hn] at this
    dsimp only at this
    subst this
    exact ⟨rfl, rfl, (fun ⟨_, h⟩ => by cases h), fun _ => rfl⟩
  | case2 c s k c1 ev hn =>
    have := ((C38_poll_effect C c).2.2 ev (by rw [hn])).1
    rw [hn] at this
    dsimp only at this
    subst this
    exact ⟨rfl, rfl, fun _ => rfl, fun h => absurd rfl (h ev)⟩
  | case3 c s k c1 hn d s1 k1 hr ih =>
    obtain rfl := nextEvent_waits hn
    obtain ⟨f1, f2, f3⟩ := receiveData_frame c1 d
    rw [f1, f2, f3] at ih
    exact ih
  | case4 c s k c1 hn e s1 k1 hr =>
    obtain rfl := nextEvent_waits hn
    exact ⟨rfl, rfl, (fun ⟨_, h⟩ => by cases h), fun _ => rfl⟩
  | case5 c s k c1 hn s1 k1 hr =>
    obtain rfl := nextEvent_waits hn
    exact ⟨rfl, rfl, (fun ⟨_, h⟩ => by cases h), fun _ => rfl⟩

/-- The loop returns only the event that is awaited. -/
theorem loop_idle {C : BlockCipher} {t : Transport} (c : Conn) (s : List Delivery) (k : Clock) (hs : c.state ≠ .idle) {ev : Event}
    (h : (worldLoop C t c s k).1 = .returned ev) : (worldLoop C t c s k).2.1.state = .idle := by
  fun_induction worldLoop C t c s k with
  | case1 c s k c1 e hn => cases h
  | case2 c s k c1 ev hn =>
    have := ((C38_poll_effect C c).2.2 ev (by rw [hn])).1
    rw [hn] at this
    dsimp only at this
    subst this
    rfl
  | case3 c s k c1 hn d s1 k1 hr ih =>
    obtain rfl := nextEvent_waits hn
    exact ih (by rw [(receiveData_frame c1 d).2.2]; exact hs) h
  | case4 => cases h
  | case5 => cases h

/-! ### Two clients whose time passes differently -/

/-- Two clients that differ in what time decides only: the clock, the timeout, the segments in which the bytes come
and, when they wait for a response that will not be returned any more, what they have read of it. -/
structure Timed (w w' : World) : Prop where
  password : w.password = w'.password
  args : w.conn.args = w'.conn.args
  context : w.conn.cipherContext = w'.conn.cipherContext
  state : w.conn.state = w'.conn.state
  rest : w.conn.state = .idle → w.conn.buffer = [] ∧ w'.conn.buffer = []
  kind : w.transport.kind = w'.transport.kind
  socket : w.transport.socket = w'.transport.socket
  opens : w.opens = w'.opens
  shutdowns : w.shutdowns = w'.shutdowns
  closes : w.closes = w'.closes
  writes : w.writes = w'.writes
  inbox : ∀ h, content (w.inbox h) = content (w'.inbox h)
  rands : w.rands = w'.rands
  draws : w.draws = w'.draws
  os : w.os = w'.os

theorem connect_timed {w w' : World} (h : Timed w w') : w.connect.1 = w'.connect.1 ∧ Timed w.connect.2 w'.connect.2 := by
  have h7 := h.socket
  have h8 := h.opens
  unfold World.connect
  rw [← h7, ← h8]
  cases hs : w.transport.socket with
  | some g => exact ⟨rfl, h⟩
  | none =>
    cases ho : w.opens with
    | nil => exact ⟨rfl, h⟩
    | cons o os =>
      rw [hs] at h7
      dsimp only [Transport.connect]
      rw [hs, ← h7]
      dsimp only
      cases o with
      | error e => exact ⟨rfl, { h with opens := rfl, os := by dsimp only; rw [h.os] }⟩
      | ok g => exact ⟨rfl, { h with opens := rfl, os := by dsimp only; rw [h.os], socket := rfl, kind := h.kind }⟩

theorem transport_disconnect_same {t t' : Transport} (hk : t.kind = t'.kind) (hs : t.socket = t'.socket) (a b : Res Unit) :
    (t.disconnect a b).2 = (t'.disconnect a b).2 ∧ (t.disconnect a b).1.kind = (t'.disconnect a b).1.kind ∧
    (t.disconnect a b).1.socket = (t'.disconnect a b).1.socket := by
  unfold Transport.disconnect
  rw [← hk, ← hs]
  cases t.socket with
  | none => exact ⟨rfl, hk, hs⟩
  | some g =>
    cases t.kind with
    | tcp =>
      cases a with
      | error e => by_cases he : e = .os <;> simp [he, hk, hs]
      | ok u =>
        cases b with
        | error e => by_cases he : e = .os <;> simp [he, hk, hs]
        | ok v => simp
    | serial =>
      cases b with
      | error e => by_cases he : e = .os <;> simp [he, hk, hs]
      | ok v => simp

theorem disconnect_timed {w w' : World} (h : Timed w w') :
    w.disconnect.1 = w'.disconnect.1 ∧ Timed w.disconnect.2 w'.disconnect.2 := by
  have h6 := h.kind
  have h7 := h.socket
  have h9 := h.shutdowns
  have h10 := h.closes
  have hd := fun a b => transport_disconnect_same h6 h7 a b
  unfold World.disconnect
  rw [← h6, ← h7, ← h9, ← h10]
  cases hs : w.transport.socket with
  | none => exact ⟨rfl, h⟩
  | some g =>
    cases hk : w.transport.kind with
    | tcp =>
      cases hsd : w.shutdowns with
      | nil => exact ⟨rfl, h⟩
      | cons d ds =>
        cases d with
        | error e =>
          obtain ⟨d1, d2, d3⟩ := hd (.error e) (.ok ())
          refine ⟨?_, ⟨h.password, h.args, h.context, h.state, h.rest, d2, d3, h.opens, rfl, ?_, h.writes, h.inbox, h.rands, h.draws, ?_⟩⟩
          · dsimp only; rw [d1]
          · first | rfl | exact h.closes
          · dsimp only; rw [d1, h.os]
        | ok u =>
          cases hcl : w.closes with
          | nil =>
            refine ⟨rfl, ⟨h.password, h.args, h.context, h.state, h.rest, h.kind, h.socket, h.opens, rfl, rfl, h.writes, h.inbox, h.rands, h.draws, ?_⟩⟩
            dsimp only; rw [h.os]
          | cons c cs =>
            obtain ⟨d1, d2, d3⟩ := hd (.ok ()) c
            refine ⟨?_, ⟨h.password, h.args, h.context, h.state, h.rest, d2, d3, h.opens, rfl, rfl, h.writes, h.inbox, h.rands, h.draws, ?_⟩⟩
            · dsimp only; rw [d1]
            · dsimp only; rw [d1, h.os]
    | serial =>
      cases hcl : w.closes with
      | nil => exact ⟨rfl, h⟩
      | cons c cs =>
        obtain ⟨d1, d2, d3⟩ := hd (.ok ()) c
        refine ⟨?_, ⟨h.password, h.args, h.context, h.state, h.rest, d2, d3, h.opens, rfl, rfl, h.writes, h.inbox, h.rands, h.draws, ?_⟩⟩
        · dsimp only; rw [d1]
        · dsimp only; rw [d1, h.os]

/-- The connection writes the same whatever is in its buffer. -/
theorem send_same {C : BlockCipher} {c c' : Conn} (ha : c.args = c'.args) (hc : c.cipherContext = c'.cipherContext)
    (hs : c.state = c'.state) (e : Event) (r : Rand) :
    (c.send C e r).2 = (c'.send C e r).2 ∧ (c.send C e r).1.state = (c'.send C e r).1.state := by
  have hser : ∀ s', ({ c with state := s' } : Conn).serialise C e r = ({ c' with state := s' } : Conn).serialise C e r := by
    intro s'
    unfold Conn.serialise
    dsimp only
    rw [ha, hc]
  unfold Conn.send
  rw [hs]
  cases processEvent c'.state e with
  | error x => exact ⟨rfl, hs⟩
  | ok s' => exact ⟨hser s', rfl⟩

/-- What is received first and what is received later make no difference when nothing has been received. -/
theorem receive_then_next {C : BlockCipher} {w : World} (hb : w.conn.buffer = []) :
    w.nextEvent C = match w.receive with
      | (.returned (), w) => w.nextEvent C
      | (.raised x, w) => (.raised x, w)
      | (.pending, w) => (.pending, w) := by
  cases hs : w.transport.socket with
  | none =>
    have hr := recv_closed w.transport w.unread w.clock hs
    have hn := nextEvent_none (C := C) (c := w.conn) (by rw [hb]; simp)
    unfold World.receive World.nextEvent
    rw [worldLoop_eq, hn]
    dsimp only
    cases hx : w.transport.recv w.unread w.clock with | mk o t =>
    obtain ⟨s, k⟩ := t
    rw [hx] at hr
    dsimp only at hr
    subst hr
    have : (w.setUnread s k).conn = w.conn := by unfold World.setUnread; rw [hs]
    dsimp only
    rw [← this]
  | some g =>
    have hn := nextEvent_none (C := C) (c := w.conn) (by rw [hb]; simp)
    unfold World.receive
    conv => lhs; unfold World.nextEvent
    rw [worldLoop_eq, hn]
    dsimp only
    cases hx : w.transport.recv w.unread w.clock with | mk o t =>
    obtain ⟨s, k⟩ := t
    have hc : (w.setUnread s k).conn = w.conn := by unfold World.setUnread; rw [hs]
    cases o with
    | raised e => dsimp only; rw [← hc]
    | pending => dsimp only; rw [← hc]
    | returned d =>
      dsimp only
      unfold World.nextEvent
      generalize hw1 : ({ w.setUnread s k with conn := w.conn.receiveData d } : World) = w1
      have e0 : w1.conn = w.conn.receiveData d := by rw [← hw1]
      have e1 : w1.transport = w.transport := by rw [← hw1]; exact (setUnread_frame w s k).1
      have e2 : w1.unread = s := by rw [← hw1]; exact (setUnread_frame w s k).2 (by rw [hs]; simp)
      have e3 : w1.clock = k := by rw [← hw1]; unfold World.setUnread; rw [hs]
      rw [e0, e1, e2, e3, ← hw1]
      dsimp only
      cases worldLoop C w.transport (w.conn.receiveData d) s k with | mk o t =>
      obtain ⟨c2, s2, k2⟩ := t
      dsimp only
      unfold World.setUnread
      rw [hs]
      dsimp only
      rw [hs]
      dsimp only
      congr 2
      funext x
      by_cases hx : x = g <;> simp [hx]

/-- `next_event` when nothing has been received yet. -/
theorem nextEvent_timed {C : BlockCipher} {w w' : World} (h : Timed w w') {g : Handle} (hg : w.transport.socket = some g)
    (hs : w.conn.state ≠ .idle) (hb : w.conn.buffer = []) (hb' : w'.conn.buffer = []) :
    (w.nextEvent C).1 = (w'.nextEvent C).1 ∧ Timed (w.nextEvent C).2 (w'.nextEvent C).2 := by
  have hg' : w'.transport.socket = some g := by rw [← h.socket]; exact hg
  have hcn : w.conn = w'.conn := by
    have h1 := h.args; have h2 := h.context; have h3 := h.state
    cases hw : w.conn; cases hw' : w'.conn
    simp only [hw, hw'] at h1 h2 h3 hb hb'
    rw [h1, h2, h3, hb, hb']
  have hu : w.unread = w.inbox g := by unfold World.unread; rw [hg]
  have hu' : w'.unread = w'.inbox g := by unfold World.unread; rw [hg']
  have hs' : w'.conn.state ≠ .idle := by rw [← h.state]; exact hs
  obtain ⟨a1, a2, a3⟩ := loop_settle (C := C) hg w.conn w.unread w.clock
  obtain ⟨b1, b2, b3⟩ := loop_settle (C := C) hg' w'.conn w'.unread w'.clock
  obtain ⟨a4, a5, a6, a7⟩ := loop_rests (C := C) (t := w.transport) w.conn w.unread w.clock
  obtain ⟨b4, b5, b6, b7⟩ := loop_rests (C := C) (t := w'.transport) w'.conn w'.unread w'.clock
  have a8 := fun ev => loop_idle (C := C) (t := w.transport) w.conn w.unread w.clock hs (ev := ev)
  have b8 := fun ev => loop_idle (C := C) (t := w'.transport) w'.conn w'.unread w'.clock hs' (ev := ev)
  have he : settle C w.conn (content w.unread) = settle C w'.conn (content w'.unread) := by
    rw [hcn, hu, hu', h.inbox g]
  rw [he] at a1 a2 a3
  generalize settle C w'.conn (content w'.unread) = st at *
  unfold World.nextEvent
  generalize worldLoop C w.transport w.conn w.unread w.clock = x at *
  generalize worldLoop C w'.transport w'.conn w'.unread w'.clock = x' at *
  obtain ⟨o, c, s, k⟩ := x
  obtain ⟨o', c', s', k'⟩ := x'
  dsimp only at *
  have hoo : o = o' := by rw [a1, b1]
  subst hoo
  have hstate : c.state = c'.state := by
    cases o with
    | returned ev => rw [a8 ev rfl, b8 ev rfl]
    | raised x => rw [a7 (by intro ev hx; cases hx), b7 (by intro ev hx; cases hx), h.state]
    | pending => rw [a7 (by intro ev hx; cases hx), b7 (by intro ev hx; cases hx), h.state]
  have hrest : c.state = .idle → c.buffer = [] ∧ c'.buffer = [] := by
    intro hi
    cases o with
    | returned ev => exact ⟨a6 ⟨ev, rfl⟩, b6 ⟨ev, rfl⟩⟩
    | raised x => rw [a7 (by intro ev hx; cases hx)] at hi; exact absurd hi hs
    | pending => rw [a7 (by intro ev hx; cases hx)] at hi; exact absurd hi hs
  refine ⟨rfl, ?_⟩
  unfold World.setUnread
  rw [hg, hg']
  refine ⟨h.password, ?_, ?_, hstate, hrest, h.kind, h.socket, h.opens, h.shutdowns, h.closes, h.writes, ?_, h.rands, h.draws, h.os⟩
  · dsimp only; rw [a4, b4, h.args]
  · dsimp only; rw [a5, b5, h.context]
  · intro x
    dsimp only
    by_cases hx : x = g
    · rw [if_pos hx, if_pos hx, a2, b2]
    · rw [if_neg hx, if_neg hx]; exact h.inbox x

/-- A request and its response. -/
theorem exchange_timed {C : BlockCipher} {w w' : World} (h : Timed w w') (e : Event) (he : IsRequest e) :
    (w.exchange C e).1 = (w'.exchange C e).1 ∧ Timed (w.exchange C e).2 (w'.exchange C e).2 := by
  obtain ⟨s1, s2⟩ := send_same (C := C) h.args h.context h.state e (w.rands w.draws)
  obtain ⟨f1, f2, f3⟩ := send_frame C w.conn e (w.rands w.draws)
  obtain ⟨g1, g2, g3⟩ := send_frame C w'.conn e (w.rands w.draws)
  have hc := send_request_cases C w.conn e (w.rands w.draws) he
  have hc' := send_request_cases C w'.conn e (w.rands w.draws) he
  unfold World.exchange World.send
  rw [show w'.rands w'.draws = w.rands w.draws by rw [h.rands, h.draws]]
  rcases hc with ⟨hi, _, haw, _⟩ | ⟨hi, hx⟩
  · obtain ⟨hb, hb'⟩ := h.rest hi
    cases hx : w.conn.send C e (w.rands w.draws) with | mk c r =>
    cases hx' : w'.conn.send C e (w.rands w.draws) with | mk c' r' =>
    rw [hx, hx'] at s1 s2
    rw [hx] at f1 f2 f3 haw
    rw [hx'] at g1 g2 g3
    dsimp only at s1 s2 f1 f2 f3 g1 g2 g3 haw
    subst s1
    rw [hb] at f3
    rw [hb'] at g3
    have hne : c.state ≠ .idle := by
      intro hn
      rw [hn] at haw
      unfold IsRequest at he
      rw [← haw] at he
      cases he
    have ht : Timed { w with conn := c, draws := w.draws + 1 } { w' with conn := c', draws := w'.draws + 1 } :=
      ⟨h.password, by dsimp only; rw [f1, g1, h.args], by dsimp only; rw [f2, g2, h.context], s2, fun _ => ⟨f3, g3⟩,
        h.kind, h.socket, h.opens, h.shutdowns, h.closes, h.writes, h.inbox, h.rands, congrArg (· + 1) h.draws, h.os⟩
    cases r with
    | error x => exact ⟨rfl, ht⟩
    | ok d =>
      dsimp only
      unfold World.write
      dsimp only
      have hsk := h.socket
      have hwr := h.writes
      cases hs : w.transport.socket with
      | none =>
        rw [hs] at hsk
        rw [← hsk]
        exact ⟨rfl, ht⟩
      | some g =>
        have hs' : w'.transport.socket = some g := by rw [← h.socket]; exact hs
        rw [hs']
        cases hw : w.writes with
        | nil =>
          rw [hw] at hwr
          rw [← hwr]
          refine ⟨rfl, ⟨ht.password, ht.args, ht.context, ht.state, ht.rest, ht.kind, ht.socket, ht.opens, ht.shutdowns,
            ht.closes, rfl, ht.inbox, ht.rands, ht.draws, ?_⟩⟩
          dsimp only; rw [h.os]
        | cons x ws =>
          rw [hw] at hwr
          rw [← hwr]
          dsimp only [Transport.send]
          rw [hs, hs']
          cases x with
          | error x =>
            refine ⟨rfl, ⟨ht.password, ht.args, ht.context, ht.state, ht.rest, ht.kind, ht.socket, ht.opens, ht.shutdowns,
              ht.closes, rfl, ht.inbox, ht.rands, ht.draws, ?_⟩⟩
            dsimp only; rw [h.os]
          | ok u =>
            dsimp only
            have hT : Timed { w with conn := c, draws := w.draws + 1, os := w.os ++ [.write g d], writes := ws }
                { w' with conn := c', draws := w'.draws + 1, os := w'.os ++ [.write g d], writes := ws } :=
              ⟨ht.password, ht.args, ht.context, ht.state, ht.rest, ht.kind, ht.socket, ht.opens, ht.shutdowns,
                ht.closes, rfl, ht.inbox, ht.rands, ht.draws, by dsimp only; rw [h.os]⟩
            have hN := nextEvent_timed (C := C) hT (g := g) hs hne f3 g3
            rw [receive_then_next (w := { w with conn := c, draws := w.draws + 1, os := w.os ++ [.write g d], writes := ws }) f3,
              receive_then_next (w := { w' with conn := c', draws := w'.draws + 1, os := w'.os ++ [.write g d], writes := ws }) g3] at hN
            exact hN
  · rcases hc' with ⟨hi', _⟩ | ⟨hi', hx'⟩
    · rw [h.state] at hi; exact absurd hi' hi
    · rw [hx, hx']
      exact ⟨rfl, ⟨h.password, h.args, h.context, h.state, h.rest, h.kind, h.socket, h.opens, h.shutdowns, h.closes,
        h.writes, h.inbox, h.rands, congrArg (· + 1) h.draws, h.os⟩⟩

theorem readPages_eq (C : BlockCipher) (w : World) (count : Int) (total : Bytes) :
    w.readPages C count total = match w.exchange C (pageRequest w.password count) with
      | (.raised e, w) => (.raised e, w)
      | (.pending, w) => (.pending, w)
      | (.returned (.readDeviceParametersResponse p), w) =>
        if p.isEnd then (.returned (total ++ p.data), w)
        else w.readPages C (count + p.objectAmount) (total ++ p.data)
      | (.returned _, w) => (.raised .attribute, w) := by
  conv => lhs; unfold World.readPages
  unfold pageRequest
  split
  · next h => rw [h]
  · next h => rw [h]
  · next h => rw [h]
  · next hne h =>
    rw [h]
    split
    · next h1 => cases h1
    · next h1 => cases h1
    · next h1 => cases h1; exact absurd rfl (hne _)
    · next h1 => cases h1; rfl

theorem readPages_timed {C : BlockCipher} : ∀ (n : Nat) {w w' : World}, weight w.unread = n → Timed w w' →
    ∀ (count : Int) (total : Bytes), (w.readPages C count total).1 = (w'.readPages C count total).1 ∧
      Timed (w.readPages C count total).2 (w'.readPages C count total).2 := by
  intro n
  induction n using Nat.strongRecOn with
  | _ n ih =>
    intro w w' hn h count total
    have hreq : IsRequest (pageRequest w.password count) := rfl
    have hE := exchange_timed (C := C) h _ hreq
    have hwt := fun ev w1 => world_exchange_weight (C := C) (w := w) (w' := w1) (e := pageRequest w.password count) (ev := ev)
    rw [readPages_eq C w, readPages_eq C w', ← h.password]
    generalize w.exchange C (pageRequest w.password count) = x at *
    generalize w'.exchange C (pageRequest w.password count) = x' at *
    obtain ⟨o, w1⟩ := x
    obtain ⟨o', w1'⟩ := x'
    obtain ⟨e1, e2⟩ := hE
    dsimp only at e1 e2
    subst e1
    cases o with
    | raised e => exact ⟨rfl, e2⟩
    | pending => exact ⟨rfl, e2⟩
    | returned ev =>
      have hlt := hwt ev w1 rfl
      cases ev with
      | readDeviceParametersResponse p =>
        dsimp only
        by_cases hp : p.isEnd = true
        · rw [if_pos hp, if_pos hp]; exact ⟨rfl, e2⟩
        · rw [if_neg hp, if_neg hp]
          exact ih _ (by omega) rfl e2 _ _
      | _ => exact ⟨rfl, e2⟩

theorem wcall_timed {C : BlockCipher} {w w' : World} (h : Timed w w') (k : Call) :
    (wcall C w k).1 = (wcall C w' k).1 ∧ Timed (wcall C w k).2 (wcall C w' k).2 := by
  have hE := fun e he => exchange_timed (C := C) h e he
  cases k with
  | readParameters n =>
    obtain ⟨h1, h2⟩ := readPages_timed (C := C) _ rfl h n []
    simp only [wcall, World.readParameters, h1]
    exact ⟨trivial, h2⟩
  | readInstantaneousValues =>
    obtain ⟨h1, h2⟩ := hE (.readInstantaneousValuesRequest { password := w.password }) rfl
    simp only [wcall, World.readInstantaneousValues, ← h.password, h1]
    exact ⟨trivial, h2⟩
  | readTime =>
    obtain ⟨h1, h2⟩ := hE (.readTimeRequest {}) rfl
    simp only [wcall, World.readTime, h1]
    exact ⟨trivial, h2⟩
  | writeTime t b =>
    obtain ⟨h1, h2⟩ := hE (.writeTimeRequest { password := w.password, deviceTime := t, cryout := b }) rfl
    simp only [wcall, World.writeTime, ← h.password, h1]
    exact ⟨trivial, h2⟩
  | readArchive a n i =>
    obtain ⟨h1, h2⟩ := hE (.readArchiveRequest { password := w.password, archive := a, amount := n, oldestRecordId := i }) rfl
    simp only [wcall, World.readArchive, ← h.password, h1]
    exact ⟨trivial, h2⟩
  | readArchiveByTime a n t =>
    obtain ⟨h1, h2⟩ := hE (.readArchiveByTimeRequest { password := w.password, archive := a, amount := n, oldestTimestamp := t }) rfl
    simp only [wcall, World.readArchiveByTime, ← h.password, h1]
    exact ⟨trivial, h2⟩

theorem act_timed {C : BlockCipher} {w w' : World} (h : Timed w w') {a : Action} (hp : a.Plain) :
    (act C w a).1 = (act C w' a).1 ∧ Timed (act C w a).2 (act C w' a).2 := by
  rcases Action.plain_cases hp with rfl | rfl | ⟨k, rfl⟩
  · obtain ⟨h1, h2⟩ := connect_timed h
    exact ⟨by simp only [act, h1], h2⟩
  · obtain ⟨h1, h2⟩ := disconnect_timed h
    exact ⟨by simp only [act, h1], h2⟩
  · exact wcall_timed h k

theorem acts_timed {C : BlockCipher} (as : List Action) (hp : ∀ a ∈ as, a.Plain) : ∀ {w w' : World}, Timed w w' →
    (acts C w as).1 = (acts C w' as).1 ∧ Timed (acts C w as).2 (acts C w' as).2 := by
  induction as with
  | nil => intro w w' h; exact ⟨rfl, h⟩
  | cons a as ih =>
    intro w w' h
    obtain ⟨h1, h2⟩ := act_timed (C := C) h (hp a List.mem_cons_self)
    obtain ⟨i1, i2⟩ := ih (fun b hb => hp b (List.mem_cons_of_mem _ hb)) h2
    exact ⟨by simp only [acts]; rw [h1, i1], i2⟩

theorem mkWorld_timed {kind : Kind} {timeout timeout' : Option Int} {a : ClientArgs} {env env' : OsEnv} {w w' : World}
    (henv : SameButTiming env env') (hw : mkWorld kind timeout a env = .ok w) (hw' : mkWorld kind timeout' a env' = .ok w') :
    Timed w w' := by
  unfold mkWorld at hw hw'
  rw [bind_eq_ok] at hw hw'
  obtain ⟨c, hc, hw⟩ := hw
  obtain ⟨c', hc', hw'⟩ := hw'
  rw [hc] at hc'
  cases hc'
  have hr : Ready c := by
    have hm : mkWorld kind timeout a env = .ok w := by unfold mkWorld; rw [hc]; exact hw
    have := mkWorld_ready hm
    have hcw : w.conn = c := by cases hw; rfl
    rw [hcw] at this
    exact this
  cases hw
  cases hw'
  exact ⟨rfl, rfl, rfl, rfl, fun _ => ⟨hr.2, hr.2⟩, rfl, rfl, henv.opens, henv.shutdowns, henv.closes, henv.writes,
    henv.inbox, henv.rands, rfl, rfl⟩

/-- C103. Two clients made with the same arguments, in two courses of events that differ only in when things happen,
and with any two timeouts: every program of `connect`, `disconnect` and read and write calls gives the same results and
exceptions, writes the same bytes, makes the same calls of the operating system, and takes the same bytes from every
stream. -/
theorem C103_timing (C : BlockCipher) (kind : Kind) (timeout timeout' : Option Int) (a : ClientArgs) (env env' : OsEnv)
    (henv : SameButTiming env env') (w w' : World) (hw : mkWorld kind timeout a env = .ok w)
    (hw' : mkWorld kind timeout' a env' = .ok w') (as : List Action) (hp : ∀ a ∈ as, a.Plain) :
    (acts C w as).1 = (acts C w' as).1 ∧ (acts C w as).2.os = (acts C w' as).2.os ∧
    ∀ h, content ((acts C w as).2.inbox h) = content ((acts C w' as).2.inbox h) := by
  obtain ⟨h1, h2⟩ := acts_timed (C := C) as hp (mkWorld_timed henv hw hw')
  exact ⟨h1, h2.os, h2.inbox⟩

/-- C103. The timeout of one client can be changed between the actions without effect, whatever the program did
before: the clients are not told apart by anything that follows. -/
theorem C103_changed (C : BlockCipher) (kind : Kind) (timeout : Option Int) (a : ClientArgs) (env : OsEnv) (w : World)
    (hw : mkWorld kind timeout a env = .ok w) (as bs : List Action) (hp : ∀ a ∈ as ++ bs, a.Plain) (timeout' : Option Int)
    (clock' : Clock) :
    let mid := (acts C w as).2
    let changed := { mid with transport := { mid.transport with timeout := timeout' }, clock := clock' }
    (acts C changed bs).1 = (acts C mid bs).1 ∧ (acts C changed bs).2.os = (acts C mid bs).2.os := by
  dsimp only
  have hT : Timed w w := mkWorld_timed ⟨rfl, rfl, rfl, rfl, fun _ => rfl, rfl⟩ hw hw
  obtain ⟨_, h2⟩ := acts_timed (C := C) as (fun a ha => hp a (List.mem_append_left _ ha)) hT
  obtain ⟨h3, h4⟩ := acts_timed (C := C) bs (fun a ha => hp a (List.mem_append_right _ ha))
    (w := { (acts C w as).2 with transport := { (acts C w as).2.transport with timeout := timeout' }, clock := clock' })
    (w' := (acts C w as).2)
    ⟨rfl, rfl, rfl, rfl, h2.rest, rfl, rfl, rfl, rfl, rfl, rfl, fun _ => rfl, rfl, rfl, rfl⟩
  exact ⟨h3, h4.os⟩

/-! ### How long one `recv` reads -/

theorem loop_clock {t : Transport} {h : Handle} (ht : t.socket = some h) (d : Int) (start : Int)
    (items : List Item) : ∀ (to : Timeout), Finite to d → to.targetTime = some (start + d) →
    ∀ (line : Bytes) (s : List Delivery) (c : Clock), content s = items → (∀ i, start ≤ c.readings (c.next + i)) →
    ∃ n, (recvUntilLoop t [0x0D] none to line s c).2.2 = ⟨c.readings, c.next + n⟩ ∧
      (∀ i, i + 1 < n → c.readings (c.next + i) < start + d) ∧
      ((∃ bs, (recvUntilLoop t [0x0D] none to line s c).1 = .returned (line ++ bs) ∧ bs.getLast? ≠ some 0x0D ∧
          bs.length = n ∧ 0 < n ∧ start + d ≤ c.readings (c.next + (n - 1))) ∨
        ((∀ i, i < n → c.readings (c.next + i) < start + d) ∧
          ((∃ bs, (recvUntilLoop t [0x0D] none to line s c).1 = .returned (line ++ bs) ∧ bs.getLast? = some 0x0D ∧
              bs.length = n + 1) ∨
            ∀ r, (recvUntilLoop t [0x0D] none to line s c).1 ≠ .returned r))) := by
  induction items with
  | nil =>
    intro to hto htg line s c hs hc
    obtain ⟨s', h1, h2⟩ := (loop_step ht to line s c).1 hs
    rw [h2]
    exact ⟨0, rfl, fun i hi => by omega, .inr ⟨fun i hi => by omega, .inr fun r hr => by cases hr⟩⟩
  | cons x items ih =>
    intro to hto htg line s c hs hc
    cases x with
    | fail e =>
      obtain ⟨s', h1, h2⟩ := (loop_step ht to line s c).2.1 e items hs
      rw [h2]
      exact ⟨0, rfl, fun i hi => by omega, .inr ⟨fun i hi => by omega, .inr fun r hr => by cases hr⟩⟩
    | byte b =>
      obtain ⟨s1, h1, h2⟩ := (loop_step ht to line s c).2.2 b items hs
      by_cases hb : b = 0x0D
      · rw [if_pos hb] at h2
        rw [h2]
        exact ⟨0, rfl, fun i hi => by omega, .inr ⟨fun i hi => by omega, .inl ⟨[b], rfl, by simp [hb], rfl⟩⟩⟩
      · rw [if_neg hb] at h2
        obtain ⟨target, htg', hx⟩ := expired_finite hto c
        rw [htg] at htg'
        cases htg'
        have h0 := hc 0
        rw [Nat.add_zero] at h0
        rw [if_neg (by omega)] at hx
        rw [hx] at h2
        by_cases he : start + d ≤ c.readings c.next
        · rw [decide_eq_true he] at h2
          rw [h2]
          refine ⟨1, rfl, fun i hi => by omega, .inl ⟨[b], rfl, ?_, rfl, by omega, by simpa using he⟩⟩
          simpa using hb
        · rw [decide_eq_false he] at h2
          dsimp only at h2
          obtain ⟨n, g1, g2, g3⟩ := ih to hto htg (line ++ [b]) s1 ⟨c.readings, c.next + 1⟩ h1
            (fun i => by have := hc (i + 1); rw [Nat.add_comm i 1, ← Nat.add_assoc] at this; exact this)
          rw [h2]
          have hshift : ∀ i, c.readings (c.next + 1 + i) = c.readings (c.next + (i + 1)) := by
            intro i; congr 1; omega
          refine ⟨n + 1, ?_, ?_, ?_⟩
          · rw [g1]
            dsimp only
            congr 1
            omega
          · intro i hi
            cases i with
            | zero => rw [Nat.add_zero]; omega
            | succ i => rw [← hshift]; exact g2 i (by omega)
          · rcases g3 with ⟨bs, e1, e2, e3, e4, e5⟩ | ⟨e0, e1⟩
            · refine .inl ⟨b :: bs, by rw [e1]; simp, ?_, by simp [e3], by omega, ?_⟩
              · cases bs with
                | nil => simp at e3; omega
                | cons y ys => rw [List.getLast?_cons_cons]; exact e2
              · dsimp only at e5
                rw [hshift] at e5
                rw [show n + 1 - 1 = n - 1 + 1 by omega]
                exact e5
            · refine .inr ⟨?_, ?_⟩
              · intro i hi
                cases i with
                | zero => rw [Nat.add_zero]; omega
                | succ i => rw [← hshift]; exact e0 i (by omega)
              · rcases e1 with ⟨bs, e1, e2, e3⟩ | e1
                · refine .inl ⟨b :: bs, by rw [e1]; simp, ?_, by simp [e3]⟩
                  cases bs with
                  | nil => simp at e2
                  | cons y ys => rw [List.getLast?_cons_cons]; exact e2
                · exact .inr e1

theorem recv_of_loop (t : Transport) (s : List Delivery) (c : Clock) :
    (t.recv s c).2.2 = (recvUntilLoop t [0x0D] none (mkTimeout c t.timeout).1 [] s (mkTimeout c t.timeout).2).2.2 ∧
    ∀ bs, (t.recv s c).1 = .returned bs ↔
      (recvUntilLoop t [0x0D] none (mkTimeout c t.timeout).1 [] s (mkTimeout c t.timeout).2).1 = .returned bs := by
  rw [recv_eq]
  generalize recvUntilLoop t [0x0D] none (mkTimeout c t.timeout).1 [] s (mkTimeout c t.timeout).2 = x
  obtain ⟨o, s', c'⟩ := x
  cases o with
  | returned r => exact ⟨rfl, fun _ => Iff.rfl⟩
  | pending => exact ⟨rfl, fun _ => Iff.rfl⟩
  | raised e => exact ⟨rfl, fun _ => ⟨fun h => (by cases h), fun h => (by cases h)⟩⟩

/-- C103. How the timeout bounds one `recv`, when the clock does not run backwards and the timeout is positive: the
clock is read once at the beginning and once after each byte that is not 0x0D.  All readings but the last show that the
timeout has not passed yet: no byte is asked for after it has been seen to be over.  If `recv` returns something that
does not end with 0x0D, the last reading shows that it has passed; if it returns a line, raises or is still reading, no
reading has shown that. -/
theorem C103_recv_stops (t : Transport) (h : Handle) (ht : t.socket = some h) (d : Int) (hd : 0 < d)
    (htd : t.timeout = some d) (s : List Delivery) (c : Clock) (hc : Monotonic c) :
    ∃ n, (t.recv s c).2.2 = ⟨c.readings, c.next + 1 + n⟩ ∧ (∀ i, i < n → WithinTime c d i) ∧
      ((∃ bs, (t.recv s c).1 = .returned bs ∧ bs.getLast? ≠ some 0x0D ∧ bs.length = n ∧ ¬ WithinTime c d n) ∨
       (WithinTime c d n ∧
         ((∃ bs, (t.recv s c).1 = .returned bs ∧ bs.getLast? = some 0x0D ∧ bs.length = n + 1) ∨
          ∀ bs, (t.recv s c).1 ≠ .returned bs))) := by
  obtain ⟨n, g1, g2, g3⟩ := loop_clock ht d (c.readings c.next) (content s) (mkTimeout c (some d)).1 (finite_mk c d hd) rfl
    [] s (mkTimeout c (some d)).2 rfl (fun i => hc _ _ (by show c.next ≤ c.next + 1 + i; omega))
  have hread : ∀ i, (mkTimeout c (some d)).2.readings ((mkTimeout c (some d)).2.next + i) = c.readings (c.next + (i + 1)) := by
    intro i
    show c.readings (c.next + 1 + i) = _
    congr 1; omega
  have h00 : WithinTime c d 0 := by unfold WithinTime; rw [Nat.add_zero]; omega
  obtain ⟨r1, r2⟩ := recv_of_loop t s c
  rw [htd] at r1 r2
  refine ⟨n, ?_, ?_, ?_⟩
  · exact r1.trans g1
  · intro i hi
    cases i with
    | zero => exact h00
    | succ i => unfold WithinTime; rw [← hread]; exact g2 i hi
  · rcases g3 with ⟨bs, e1, e2, e3, e4, e5⟩ | ⟨e0, e1⟩
    · refine .inl ⟨bs, (r2 _).2 e1, e2, e3, ?_⟩
      rw [hread, show n - 1 + 1 = n by omega] at e5
      unfold WithinTime
      omega
    · refine .inr ⟨?_, ?_⟩
      · cases n with
        | zero => exact h00
        | succ n => unfold WithinTime; rw [← hread]; exact e0 n (by omega)
      · rcases e1 with ⟨bs, e1, e2, e3⟩ | e1
        · exact .inl ⟨bs, (r2 _).2 e1, e2, e3⟩
        · exact .inr fun bs hbs => e1 bs ((r2 bs).1 hbs)

/-- C103. A timeout of zero or less: whenever `recv` returns, it returns one single byte. -/
theorem C103_no_time (t : Transport) (h : Handle) (ht : t.socket = some h) (d : Int) (hd : d ≤ 0)
    (htd : t.timeout = some d) (s : List Delivery) (c : Clock) (hc : Monotonic c) (bs : Bytes)
    (hr : (t.recv s c).1 = .returned bs) : bs.length = 1 := by
  have hexp : ∀ c1 : Clock, c1 = (mkTimeout c (some d)).2 → ∃ to' c2, (mkTimeout c (some d)).1.expired c1 = ((to', c2), .ok true) := by
    intro c1 hc1
    by_cases h0 : d = 0
    · subst h0; exact ⟨_, _, rfl⟩
    · have hf : Finite (mkTimeout c (some d)).1 d := ⟨rfl, by simp [mkTimeout, Clock.read, h0], rfl, rfl⟩
      obtain ⟨target, htg, hx⟩ := expired_finite hf c1
      rw [hx]
      split
      · rw [decide_eq_true hd]; exact ⟨_, _, rfl⟩
      · have : target = c.readings c.next + d := (Option.some.inj htg).symm
        have hm : c.readings c.next ≤ c1.readings c1.next := by
          rw [hc1]; exact hc _ _ (by show c.next ≤ c.next + 1; omega)
        rw [decide_eq_true (by omega)]
        exact ⟨_, _, rfl⟩
  rw [recv_eq, htd] at hr
  rcases hcs : content s with _ | ⟨x, items⟩
  · obtain ⟨s', _, h2⟩ := (loop_step ht (mkTimeout c (some d)).1 [] s (mkTimeout c (some d)).2).1 hcs
    rw [h2] at hr; cases hr
  · cases x with
    | fail e =>
      obtain ⟨s', _, h2⟩ := (loop_step ht (mkTimeout c (some d)).1 [] s (mkTimeout c (some d)).2).2.1 e items hcs
      rw [h2] at hr; cases hr
    | byte b =>
      obtain ⟨s', _, h2⟩ := (loop_step ht (mkTimeout c (some d)).1 [] s (mkTimeout c (some d)).2).2.2 b items hcs
      by_cases hb : b = 0x0D
      · rw [if_pos hb] at h2
        rw [h2] at hr; cases hr; rfl
      · rw [if_neg hb] at h2
        obtain ⟨to', c2, hx⟩ := hexp _ rfl
        rw [hx] at h2
        rw [h2] at hr; cases hr; rfl

/-- As `exEnv`, but the bytes come one by one with an empty read before each, and the clock runs faster. -/
def exSlowEnv : OsEnv :=
  { exEnv with inbox := fun h => if h = 5 ∨ h = 6 then exDeviceTime.flatMap (fun b => [.seg [], .seg [b]]) else [],
               clock := ⟨fun k => 100 * k, 0⟩ }

-- `C103_timing`: a program of two sessions, once with enough time and once with no time at all, and what it gives
example : SameButTiming exEnv exSlowEnv ∧ (∀ a ∈ exSessions.flatMap Session.program, a.Plain) ∧
    ∃ w w', mkWorld .serial none exArgs exEnv = .ok w ∧ mkWorld .serial (some 3) exArgs exSlowEnv = .ok w' ∧
      (acts idCipher w' (exSessions.flatMap Session.program)).1.map ended = List.replicate 6 .returned ∧
      (acts idCipher w (exSessions.flatMap Session.program)).2.clock.next = 0 ∧
      (acts idCipher w' (exSessions.flatMap Session.program)).2.clock.next > 30 := by
  refine ⟨⟨rfl, rfl, rfl, rfl, ?_, rfl⟩, programs_plain _, _, _, rfl, rfl, by decide +kernel, by decide +kernel,
    by decide +kernel⟩
  intro h
  unfold exSlowEnv exEnv
  dsimp only
  split
  · decide +kernel
  · rfl

-- the restriction to `connect`, `disconnect` and calls is needed: a program that sends, disconnects and then asks for
-- the response finds it in the buffer, or it does not, as the timeout was long or short
example : ∃ w w', mkWorld .tcp none exArgs exEnv = .ok w ∧ mkWorld .tcp (some 3) exArgs exSlowEnv = .ok w' ∧
    (acts idCipher w [.connect, .send [.readTimeRequest {}], .disconnect, .nextEvent]).1.map ended =
      [.returned, .returned, .returned, .returned] ∧
    (acts idCipher w' [.connect, .send [.readTimeRequest {}], .disconnect, .nextEvent]).1.map ended =
      [.returned, .returned, .returned, .raised .runtime] :=
  ⟨_, _, rfl, rfl, by decide +kernel, by decide +kernel⟩

-- `C103_recv_stops`: the clock is read at 0, 1, 2 and 3 units; after the third byte the timeout has passed
example : Monotonic ⟨fun k => k, 0⟩ ∧
    ((⟨.tcp, some 3, some 1⟩ : Transport).recv [.seg [0x41, 0x42, 0x43, 0x44, 0x0D]] ⟨fun k => k, 0⟩).1 =
      .returned [0x41, 0x42, 0x43] ∧
    ((⟨.tcp, some 3, some 1⟩ : Transport).recv [.seg [0x41, 0x42, 0x43, 0x44, 0x0D]] ⟨fun k => k, 0⟩).2.2.next = 4 :=
  ⟨fun i j h => by dsimp only; omega, by decide +kernel, by decide +kernel⟩

-- `C103_no_time`
example : ((⟨.tcp, some (-2), some 1⟩ : Transport).recv [.seg [0x41, 0x42]] ⟨fun k => k, 0⟩).1 = .returned [0x41] := by
  decide +kernel

end Elgas
