import Verif.Spec.Program
import Verif.Props.EndToEnd
import Verif.Props.Damage
/-!
C83–C86: programs that use a client with its transport: sessions, use without a connection, use after a failure,
several requests at once, responses nobody asked for.
-/
namespace Elgas
open Spec

/-! ### The client of Model/Program behaves as the client of Model/Client -/

/-- All that `recv` will yield. -/
def full (t : Transport) (s : List Delivery) (c : Clock) : List (Res Bytes) := recvs t (content s).length s c

theorem recvs_enough {t : Transport} {h : Handle} (ht : t.socket = some h) : ∀ (n : Nat) (s : List Delivery)
    (c : Clock), (content s).length ≤ n → recvs t n s c = full t s c := by
  have key : ∀ (n m : Nat) (s : List Delivery) (c : Clock), (content s).length ≤ n → (content s).length ≤ m →
      recvs t n s c = recvs t m s c := by
    intro n
    induction n with
    | zero =>
      intro m s c h1 _
      have hs : content s = [] := List.length_eq_zero_iff.1 (by omega)
      cases m with
      | zero => rfl
      | succ m =>
        have := C48_needs_input t h ht s c hs
        unfold recvs
        rcases hr : t.recv s c with ⟨o, s', c'⟩
        rw [hr] at this
        dsimp only at this
        rw [this]
    | succ n ih =>
      intro m s c h1 h2
      cases m with
      | zero =>
        have hs : content s = [] := List.length_eq_zero_iff.1 (by omega)
        have := C48_needs_input t h ht s c hs
        unfold recvs
        rcases hr : t.recv s c with ⟨o, s', c'⟩
        rw [hr] at this
        dsimp only at this
        rw [this]
      | succ m =>
        unfold recvs
        rcases C47_recv_cases t h ht s c with ⟨bs, s', c', e1, e2, e3, _⟩ | ⟨bs, e, s', c', e1, e2, _⟩ |
          ⟨bs, s', c', e1, _⟩
        · rw [e1]
          dsimp only
          have hl := congrArg List.length e2
          simp only [bytesOnly, List.length_append, List.length_map] at hl
          have := List.length_pos_iff.2 e3
          rw [ih m s' c' (by omega) (by omega)]
        · rw [e1]
          dsimp only
          have hl := congrArg List.length e2
          simp only [bytesOnly, List.length_append, List.length_map, List.length_cons] at hl
          rw [ih m s' c' (by omega) (by omega)]
        · rw [e1]
  intro n s c hn
  exact key n _ s c hn (Nat.le_refl _)

theorem full_eq {t : Transport} {h : Handle} (ht : t.socket = some h) (s : List Delivery) (c : Clock) :
    full t s c = match t.recv s c with
      | (.returned d, s', c') => .ok d :: full t s' c'
      | (.raised e, s', c') => .error e :: full t s' c'
      | (.pending, _, _) => [] := by
  rw [← recvs_enough ht ((content s).length + 1) s c (by omega)]
  conv => lhs; unfold recvs
  rcases C47_recv_cases t h ht s c with ⟨bs, s', c', e1, e2, e3, _⟩ | ⟨bs, e, s', c', e1, e2, _⟩ |
    ⟨bs, s', c', e1, _⟩
  · rw [e1]
    dsimp only
    have hl := congrArg List.length e2
    simp only [bytesOnly, List.length_append, List.length_map] at hl
    rw [recvs_enough ht _ s' c' (by omega)]
  · rw [e1]
    dsimp only
    have hl := congrArg List.length e2
    simp only [bytesOnly, List.length_append, List.length_map, List.length_cons] at hl
    rw [recvs_enough ht _ s' c' (by omega)]
  · rw [e1]

/-- When `recv` does not come back there is nothing more. -/
theorem full_pending {t : Transport} {h : Handle} (ht : t.socket = some h) {s s' : List Delivery} {c c' : Clock}
    (hr : t.recv s c = (.pending, s', c')) (k : Clock) : full t s' k = [] := by
  rcases C47_recv_cases t h ht s c with ⟨_, _, _, e1, _⟩ | ⟨_, _, _, _, e1, _⟩ | ⟨bs, s1, c1, e1, _, e2, _⟩
  · rw [e1] at hr; cases hr
  · rw [e1] at hr; cases hr
  · rw [e1] at hr
    injection hr with _ hr
    injection hr with hr _
    subst hr
    unfold full
    rw [e2]; rfl

theorem worldLoop_full {C : BlockCipher} {t : Transport} {h : Handle} (ht : t.socket = some h) (c : Conn)
    (s : List Delivery) (k : Clock) :
    nextEventLoop C c (full t s k) = ((worldLoop C t c s k).1, (worldLoop C t c s k).2.1,
      full t (worldLoop C t c s k).2.2.1 (worldLoop C t c s k).2.2.2) := by
  fun_induction worldLoop C t c s k with
  | case1 c s k c1 e hn => rw [loop_raises hn]
  | case2 c s k c1 ev hn => rw [loop_returns hn]
  | case3 c s k c1 hn d s1 k1 hr ih =>
    rw [full_eq ht, hr]
    dsimp only
    rw [loop_piece hn, ih]
  | case4 c s k c1 hn e s1 k1 hr =>
    rw [full_eq ht, hr]
    dsimp only
    rw [loop_error hn]
  | case5 c s k c1 hn s1 k1 hr =>
    rw [full_eq ht, hr]
    dsimp only
    rw [loop_nil hn, full_pending ht hr]

/-- The client of a program as a client in an environment of transport outcomes. -/
def World.sys (w : World) : Sys :=
  { password := w.password, conn := w.conn,
    sends := w.writes.map fun | .ok () => .ok () | .error e => .error (wrapOs e)
    recvs := full w.transport w.unread w.clock, rands := w.rands, draws := w.draws, handed := written w.os }

theorem setUnread_sys {w : World} {h : Handle} (ht : w.transport.socket = some h) (c : Conn) (s : List Delivery)
    (k : Clock) : ({ w.setUnread s k with conn := c } : World).sys =
      { w.sys with conn := c, recvs := full w.transport s k } := by
  unfold World.sys World.setUnread World.unread
  simp [ht]

theorem receive_sys {w : World} {h : Handle} (ht : w.transport.socket = some h) :
    w.sys.receive = (w.receive.1, w.receive.2.sys) ∧ w.receive.2.transport = w.transport := by
  unfold Sys.receive
  have hf : w.sys.recvs = full w.transport w.unread w.clock := rfl
  rw [hf, full_eq ht]
  unfold World.receive
  cases hr : w.transport.recv w.unread w.clock with | mk o t =>
  obtain ⟨s, c⟩ := t
  cases o with
  | returned d =>
    dsimp only
    rw [setUnread_sys ht]
    exact ⟨rfl, (setUnread_frame w s c).1⟩
  | raised e =>
    dsimp only
    have := setUnread_sys ht w.conn s c
    have hw : ({ w.setUnread s c with conn := w.conn } : World) = w.setUnread s c := by
      unfold World.setUnread; rw [ht]
    rw [hw] at this
    rw [this]
    exact ⟨rfl, (setUnread_frame w s c).1⟩
  | pending =>
    dsimp only
    have := setUnread_sys ht w.conn s c
    have hw : ({ w.setUnread s c with conn := w.conn } : World) = w.setUnread s c := by
      unfold World.setUnread; rw [ht]
    rw [hw] at this
    rw [this, full_pending ht hr]
    refine ⟨?_, (setUnread_frame w s c).1⟩
    have : w.sys.recvs = [] := by rw [hf, full_eq ht, hr]
    exact congrArg (fun r => (Outcome3.pending, ({ w.sys with recvs := r } : Sys))) this

theorem write_sys {w : World} {h : Handle} (ht : w.transport.socket = some h) (d : Bytes) :
    (match w.sys.sends with
    | [] => ((.pending, { w.sys with handed := w.sys.handed ++ [d] }) : Outcome3 Unit × Sys)
    | .error x :: rest => (.raised x, { w.sys with sends := rest, handed := w.sys.handed ++ [d] })
    | .ok () :: rest => (.returned (), { w.sys with sends := rest, handed := w.sys.handed ++ [d] })) =
      ((w.write d).1, (w.write d).2.sys) ∧ (w.write d).2.transport = w.transport := by
  unfold World.write World.sys
  rw [ht]
  dsimp only
  rcases hw : w.writes with _ | ⟨x | _, ws⟩
  · simp [written, World.unread]
  · simp [Transport.send, ht, written, World.unread]
  · simp [Transport.send, ht, written, World.unread]

theorem send_sys {C : BlockCipher} {w : World} {h : Handle} (ht : w.transport.socket = some h) (e : Event) :
    w.sys.send C e = ((w.send C e).1, (w.send C e).2.sys) ∧ (w.send C e).2.transport = w.transport := by
  unfold Sys.send World.send
  have h1 : w.sys.conn = w.conn := rfl
  have h2 : w.sys.rands = w.rands := rfl
  have h3 : w.sys.draws = w.draws := rfl
  rw [h1, h2, h3]
  cases hs : w.conn.send C e (w.rands w.draws) with | mk c r =>
  cases r with
  | error x => exact ⟨rfl, rfl⟩
  | ok data =>
    dsimp only
    have hw := write_sys (w := { w with conn := c, draws := w.draws + 1 }) ht data
    have hsends : ({ w with conn := c, draws := w.draws + 1 } : World).sys.sends = w.sys.sends := rfl
    rw [hsends] at hw
    cases hx : ({ w with conn := c, draws := w.draws + 1 } : World).write data with | mk o w1 =>
    rw [hx] at hw
    obtain ⟨hw1, hw2⟩ := hw
    dsimp only at hw1 hw2
    rcases hss : w.sys.sends with _ | ⟨x | _, ss⟩
    · rw [hss] at hw1
      injection hw1 with e1 e2
      subst e1
      exact ⟨by rw [← e2, hsends, hss]; rfl, hw2⟩
    · rw [hss] at hw1
      injection hw1 with e1 e2
      subst e1
      exact ⟨by rw [← e2]; rfl, hw2⟩
    · rw [hss] at hw1
      injection hw1 with e1 e2
      subst e1
      dsimp only
      have ht1 : w1.transport.socket = some h := by rw [hw2]; exact ht
      have hrec := receive_sys ht1
      rw [hw2] at hrec
      refine ⟨?_, hrec.2⟩
      rw [← hrec.1, ← e2]
      rfl

theorem nextEvent_sys {C : BlockCipher} {w : World} {h : Handle} (ht : w.transport.socket = some h) :
    w.sys.nextEvent C = ((w.nextEvent C).1, (w.nextEvent C).2.sys) ∧
      (w.nextEvent C).2.transport = w.transport := by
  unfold Sys.nextEvent World.nextEvent
  have h1 : w.sys.conn = w.conn := rfl
  have h2 : w.sys.recvs = full w.transport w.unread w.clock := rfl
  rw [h1, h2, worldLoop_full ht]
  dsimp only
  rw [setUnread_sys ht]
  exact ⟨rfl, (setUnread_frame w _ _).1⟩

theorem exchange_sys {C : BlockCipher} {w : World} {h : Handle} (ht : w.transport.socket = some h) (e : Event) :
    w.sys.exchange C e = ((w.exchange C e).1, (w.exchange C e).2.sys) ∧
      (w.exchange C e).2.transport = w.transport := by
  unfold Sys.exchange World.exchange
  obtain ⟨h1, h2⟩ := send_sys (C := C) ht e
  rw [h1]
  cases hs : w.send C e with | mk o w1 =>
  rw [hs] at h2
  cases o with
  | returned u =>
    have ht1 : w1.transport.socket = some h := by rw [h2]; exact ht
    have := nextEvent_sys (C := C) ht1
    rw [h2] at this
    exact this
  | raised x => exact ⟨rfl, h2⟩
  | pending => exact ⟨rfl, h2⟩

theorem readPages_sys {C : BlockCipher} (w : World) {h : Handle} (ht : w.transport.socket = some h) (count : Int)
    (total : Bytes) :
    w.sys.readPages C count total = ((w.readPages C count total).1, (w.readPages C count total).2.sys) ∧
      (w.readPages C count total).2.transport = w.transport := by
  fun_induction World.readPages C w count total with
  | case1 w count total x w1 hx =>
    obtain ⟨h1, h2⟩ := exchange_sys (C := C) ht (pageRequest w.password count)
    have hx' : w.exchange C (pageRequest w.password count) = _ := hx
    rw [hx'] at h1 h2
    exact ⟨readPages_raised (s := w.sys) h1, h2⟩
  | case2 w count total w1 hx =>
    obtain ⟨h1, h2⟩ := exchange_sys (C := C) ht (pageRequest w.password count)
    have hx' : w.exchange C (pageRequest w.password count) = _ := hx
    rw [hx'] at h1 h2
    exact ⟨readPages_pending (s := w.sys) h1, h2⟩
  | case3 w count total p w1 hx hend =>
    obtain ⟨h1, h2⟩ := exchange_sys (C := C) ht (pageRequest w.password count)
    have hx' : w.exchange C (pageRequest w.password count) = _ := hx
    rw [hx'] at h1 h2
    refine ⟨?_, h2⟩
    rw [readPages_page (s := w.sys) h1, if_pos hend]
  | case4 w count total p w1 hx hend ih =>
    obtain ⟨h1, h2⟩ := exchange_sys (C := C) ht (pageRequest w.password count)
    have hx' : w.exchange C (pageRequest w.password count) = _ := hx
    rw [hx'] at h1 h2
    have := ih (by rw [h2]; exact ht)
    rw [readPages_page (s := w.sys) h1, if_neg hend]
    rw [h2] at this
    exact this
  | case5 w count total o w1 hne hx =>
    obtain ⟨h1, h2⟩ := exchange_sys (C := C) ht (pageRequest w.password count)
    have hx' : w.exchange C (pageRequest w.password count) = _ := hx
    rw [hx'] at h1 h2
    refine ⟨?_, h2⟩
    unfold pageRequest at h1
    rw [Sys.readPages]
    have : w.sys.password = w.password := rfl
    rw [this]
    split <;> simp_all
    exact absurd h1.1.symm (hne _)

/-- A call of a connected client is a call of the client in the environment of the outcomes of its transport. -/
theorem wcall_sys {C : BlockCipher} (w : World) {h : Handle} (ht : w.transport.socket = some h) (k : Call) :
    callV C w.sys k = ((wcall C w k).1, (wcall C w k).2.sys) ∧ (wcall C w k).2.transport = w.transport := by
  cases k with
  | readParameters n =>
    obtain ⟨h1, h2⟩ := readPages_sys (C := C) w ht n []
    simp only [callV, wcall, Sys.readParameters, World.readParameters, h1]
    exact ⟨trivial, h2⟩
  | readInstantaneousValues =>
    obtain ⟨h1, h2⟩ := exchange_sys (C := C) ht (.readInstantaneousValuesRequest { password := w.password })
    have hp : w.sys.password = w.password := rfl
    simp only [callV, wcall, Sys.readInstantaneousValues, World.readInstantaneousValues, hp, h1]
    exact ⟨trivial, h2⟩
  | readTime =>
    obtain ⟨h1, h2⟩ := exchange_sys (C := C) ht (.readTimeRequest {})
    simp only [callV, wcall, Sys.readTime, World.readTime, h1]
    exact ⟨trivial, h2⟩
  | writeTime t b =>
    obtain ⟨h1, h2⟩ := exchange_sys (C := C) ht
      (.writeTimeRequest { password := w.password, deviceTime := t, cryout := b })
    have hp : w.sys.password = w.password := rfl
    simp only [callV, wcall, Sys.writeTime, World.writeTime, hp, h1]
    exact ⟨trivial, h2⟩
  | readArchive a n i =>
    obtain ⟨h1, h2⟩ := exchange_sys (C := C) ht
      (.readArchiveRequest { password := w.password, archive := a, amount := n, oldestRecordId := i })
    have hp : w.sys.password = w.password := rfl
    simp only [callV, wcall, Sys.readArchive, World.readArchive, hp, h1]
    exact ⟨trivial, h2⟩
  | readArchiveByTime a n t =>
    obtain ⟨h1, h2⟩ := exchange_sys (C := C) ht (.readArchiveByTimeRequest ⟨w.password, a, n, t⟩)
    have hp : w.sys.password = w.password := rfl
    simp only [callV, wcall, Sys.readArchiveByTime, World.readArchiveByTime, hp, h1]
    exact ⟨trivial, h2⟩

/-! ### Calls without a handle -/

/-- The exception of a call without a handle. -/
def closedErr : Res Bytes → PyErr
  | .error x => x
  | .ok _ => .runtime

theorem exchange_closed {C : BlockCipher} {w : World} (ht : w.transport.socket = none) (e : Event) :
    w.exchange C e = (.raised (closedErr (w.conn.send C e (w.rands w.draws)).2),
      { w with conn := (w.conn.send C e (w.rands w.draws)).1, draws := w.draws + 1 }) := by
  unfold World.exchange World.send
  cases hs : w.conn.send C e (w.rands w.draws) with | mk c r =>
  cases r with
  | error x => rfl
  | ok data =>
    dsimp only
    have : ({ w with conn := c, draws := w.draws + 1 } : World).write data =
        (.raised .runtime, { w with conn := c, draws := w.draws + 1 }) := by
      unfold World.write
      simp only [ht]
    rw [this]
    rfl

theorem wcall_raised {C : BlockCipher} {w w' : World} {k : Call} {x : PyErr}
    (h : w.exchange C (firstOf w.password k) = (.raised x, w')) : wcall C w k = (.raised x, w') := by
  cases k with
  | readParameters n =>
    have : w.readPages C n [] = (.raised x, w') := by
      have h' : w.exchange C (.readDeviceParametersRequest
        { password := w.password, objectCount := n, bufferLength := 1024 }) = _ := h
      rw [World.readPages]
      split <;> simp_all
    unfold wcall World.readParameters
    dsimp only
    rw [this]; rfl
  | readInstantaneousValues =>
    have h' : w.exchange C (.readInstantaneousValuesRequest { password := w.password }) = _ := h
    unfold wcall World.readInstantaneousValues; dsimp only; rw [h']; rfl
  | readTime =>
    have h' : w.exchange C (.readTimeRequest {}) = _ := h
    unfold wcall World.readTime; dsimp only; rw [h']; rfl
  | writeTime t b =>
    have h' : w.exchange C (.writeTimeRequest { password := w.password, deviceTime := t, cryout := b }) = _ := h
    unfold wcall World.writeTime; dsimp only; rw [h']; rfl
  | readArchive a n i =>
    have h' : w.exchange C (.readArchiveRequest
      { password := w.password, archive := a, amount := n, oldestRecordId := i }) = _ := h
    unfold wcall World.readArchive; dsimp only; rw [h']; rfl
  | readArchiveByTime a n t =>
    have h' : w.exchange C (.readArchiveByTimeRequest ⟨w.password, a, n, t⟩) = _ := h
    unfold wcall World.readArchiveByTime; dsimp only; rw [h']; rfl

theorem firstOf_request (pw : PyStr) (k : Call) : IsRequest (firstOf pw k) := by
  cases k <;> exact isRequest_of rfl

theorem wcall_refused {C : BlockCipher} {w : World} (h : w.conn.state ≠ .idle) (k : Call) :
    wcall C w k = (.raised (.elgas .localProtocol), { w with draws := w.draws + 1 }) := by
  refine wcall_raised ?_
  rcases send_request_cases C w.conn (firstOf w.password k) (w.rands w.draws) (firstOf_request _ k) with ⟨h', _⟩ | ⟨_, h'⟩
  · exact absurd h' h
  · unfold World.exchange World.send
    rw [h']

theorem connect_frame (w : World) : w.connect.2.conn = w.conn ∧ written w.connect.2.os = written w.os ∧
    w.connect.2.password = w.password ∧ w.connect.2.rands = w.rands := by
  unfold World.connect Transport.connect
  split
  · exact ⟨rfl, rfl, rfl, rfl⟩
  · next hs _ =>
    rw [hs]
    dsimp only
    split <;> simp [written]
  · exact ⟨rfl, rfl, rfl, rfl⟩

theorem disconnect_frame (w : World) : w.disconnect.2.conn = w.conn ∧
    written w.disconnect.2.os = written w.os ∧ w.disconnect.2.password = w.password ∧
    w.disconnect.2.rands = w.rands := by
  have hd : ∀ a b, written (w.transport.disconnect a b).2.1 = [] := by
    intro a b
    unfold Transport.disconnect
    repeat' split
    all_goals rfl
  have happ : ∀ l l' : List OsCall, written (l ++ l') = written l ++ written l' := by
    intro l l'; simp [written]
  unfold World.disconnect
  split <;> (try exact ⟨rfl, rfl, rfl, rfl⟩) <;> (dsimp only; rw [happ]) <;>
    first
    | (rw [hd, List.append_nil]; exact ⟨rfl, rfl, rfl, rfl⟩)
    | (exact ⟨rfl, by simp [written], rfl, rfl⟩)

/-! ### What calls leave alone -/

/-- From `w` to `w'` nothing was done to the operating system but reading from and writing to the handle. -/
structure Keeps (h : Handle) (w w' : World) : Prop where
  transport : w'.transport = w.transport
  opens : w'.opens = w.opens
  shutdowns : w'.shutdowns = w.shutdowns
  closes : w'.closes = w.closes
  inbox : ∀ g, g ≠ h → w'.inbox g = w.inbox g
  os : ∃ (ds : List Bytes) (j : Nat), w'.os = w.os ++ ds.map (.write h) ∧ j ≤ ds.length ∧ w'.writes = w.writes.drop j

theorem Keeps.refl (h : Handle) (w : World) : Keeps h w w :=
  ⟨rfl, rfl, rfl, rfl, fun _ _ => rfl, [], 0, by simp, by simp, rfl⟩

theorem Keeps.trans {h : Handle} {w w1 w2 : World} (h1 : Keeps h w w1) (h2 : Keeps h w1 w2) : Keeps h w w2 := by
  obtain ⟨a1, a2, a3, a4, a6, d1, j1, a5, a7, a8⟩ := h1
  obtain ⟨b1, b2, b3, b4, b6, d2, j2, b5, b7, b8⟩ := h2
  exact ⟨b1.trans a1, b2.trans a2, b3.trans a3, b4.trans a4, fun g hg => (b6 g hg).trans (a6 g hg), d1 ++ d2, j1 + j2,
    by rw [b5, a5]; simp, by simp; omega, by rw [b8, a8, List.drop_drop]⟩

theorem write_keeps {w : World} {h : Handle} (ht : w.transport.socket = some h) (d : Bytes) : Keeps h w (w.write d).2 := by
  unfold World.write Transport.send
  rw [ht]
  dsimp only
  rcases hw : w.writes with _ | ⟨x | _, ws⟩
  · exact ⟨rfl, rfl, rfl, rfl, fun _ _ => rfl, [d], 0, rfl, by simp, by simp [hw]⟩
  · exact ⟨rfl, rfl, rfl, rfl, fun _ _ => rfl, [d], 1, rfl, by simp, by simp [hw]⟩
  · exact ⟨rfl, rfl, rfl, rfl, fun _ _ => rfl, [d], 1, rfl, by simp, by simp [hw]⟩

theorem setUnread_keeps {h : Handle} {w : World} (ht : w.transport.socket = some h) (s : List Delivery) (k : Clock) (c : Conn) :
    Keeps h w { w.setUnread s k with conn := c } := by
  unfold World.setUnread
  rw [ht]
  exact ⟨rfl, rfl, rfl, rfl, fun g hg => by simp [hg], [], 0, by simp, by simp, rfl⟩

theorem receive_keeps {h : Handle} {w : World} (ht : w.transport.socket = some h) : Keeps h w w.receive.2 := by
  unfold World.receive
  have e : ∀ s k, ({ w.setUnread s k with conn := w.conn } : World) = w.setUnread s k := by
    intro s k; unfold World.setUnread; rw [ht]
  split
  · exact setUnread_keeps ht _ _ _
  · rw [← e]; exact setUnread_keeps ht _ _ _
  · rw [← e]; exact setUnread_keeps ht _ _ _

theorem send_keeps {C : BlockCipher} {w : World} {h : Handle} (ht : w.transport.socket = some h) (e : Event) :
    Keeps h w (w.send C e).2 := by
  unfold World.send
  cases hs : w.conn.send C e (w.rands w.draws) with | mk c r =>
  cases r with
  | error x => exact ⟨rfl, rfl, rfl, rfl, fun _ _ => rfl, [], 0, by simp, by simp, rfl⟩
  | ok data =>
    dsimp only
    have h1 := write_keeps (w := { w with conn := c, draws := w.draws + 1 }) ht data
    have h0 : Keeps h w { w with conn := c, draws := w.draws + 1 } :=
      ⟨rfl, rfl, rfl, rfl, fun _ _ => rfl, [], 0, by simp, by simp, rfl⟩
    cases hx : ({ w with conn := c, draws := w.draws + 1 } : World).write data with | mk o w1 =>
    rw [hx] at h1
    cases o with
    | returned u =>
      have ht1 : w1.transport.socket = some h := by rw [h1.transport]; exact ht
      exact h0.trans (h1.trans (receive_keeps ht1))
    | raised x => exact h0.trans h1
    | pending => exact h0.trans h1

theorem nextEvent_keeps (C : BlockCipher) {h : Handle} {w : World} (ht : w.transport.socket = some h) :
    Keeps h w (w.nextEvent C).2 := by
  unfold World.nextEvent
  exact setUnread_keeps ht _ _ _

theorem exchange_keeps {C : BlockCipher} {w : World} {h : Handle} (ht : w.transport.socket = some h) (e : Event) :
    Keeps h w (w.exchange C e).2 := by
  unfold World.exchange
  have h1 := send_keeps (C := C) ht e
  cases hs : w.send C e with | mk o w1 =>
  rw [hs] at h1
  cases o with
  | returned u => exact h1.trans (nextEvent_keeps C (by rw [h1.transport]; exact ht))
  | raised x => exact h1
  | pending => exact h1

theorem readPages_keeps {C : BlockCipher} (w : World) {h : Handle} (ht : w.transport.socket = some h) (count : Int)
    (total : Bytes) : Keeps h w (w.readPages C count total).2 := by
  fun_induction World.readPages C w count total with
  | case1 w count total x w1 hx => have := exchange_keeps (C := C) ht (pageRequest w.password count); unfold pageRequest at this; rw [hx] at this; exact this
  | case2 w count total w1 hx => have := exchange_keeps (C := C) ht (pageRequest w.password count); unfold pageRequest at this; rw [hx] at this; exact this
  | case3 w count total p w1 hx hend => have := exchange_keeps (C := C) ht (pageRequest w.password count); unfold pageRequest at this; rw [hx] at this; exact this
  | case4 w count total p w1 hx hend ih =>
    have := exchange_keeps (C := C) ht (pageRequest w.password count)
    unfold pageRequest at this; rw [hx] at this
    exact this.trans (ih (by rw [this.transport]; exact ht))
  | case5 w count total o w1 hne hx => have := exchange_keeps (C := C) ht (pageRequest w.password count); unfold pageRequest at this; rw [hx] at this; exact this

theorem wcall_keeps {C : BlockCipher} (w : World) {h : Handle} (ht : w.transport.socket = some h) (k : Call) :
    Keeps h w (wcall C w k).2 := by
  cases k with
  | readParameters n => exact readPages_keeps w ht n []
  | readInstantaneousValues => exact exchange_keeps ht _
  | readTime => exact exchange_keeps ht _
  | writeTime t b => exact exchange_keeps ht _
  | readArchive a n i => exact exchange_keeps ht _
  | readArchiveByTime a n t => exact exchange_keeps ht _

/-- Calls of a connected client, one after the other. -/
theorem acts_calls {C : BlockCipher} {h : Handle} (ks : List Call) : ∀ w : World, w.transport.socket = some h →
    (acts C w (ks.map .call)).1 = (callsV C w.sys ks).1 ∧ (acts C w (ks.map .call)).2.sys = (callsV C w.sys ks).2 ∧
      Keeps h w (acts C w (ks.map .call)).2 := by
  induction ks with
  | nil => intro w _; exact ⟨rfl, rfl, Keeps.refl h w⟩
  | cons k ks ih =>
    intro w ht
    obtain ⟨h1, h2⟩ := wcall_sys (C := C) w ht k
    have h3 := wcall_keeps (C := C) w ht k
    obtain ⟨i1, i2, i3⟩ := ih (wcall C w k).2 (by rw [h2]; exact ht)
    have ha : act C w (.call k) = wcall C w k := rfl
    simp only [List.map_cons, acts, callsV, ha, h1]
    exact ⟨by rw [i1], i2, h3.trans i3⟩

theorem acts_append (C : BlockCipher) (as bs : List Action) : ∀ w, acts C w (as ++ bs) =
    ((acts C w as).1 ++ (acts C (acts C w as).2 bs).1, (acts C (acts C w as).2 bs).2) := by
  induction as with
  | nil => intro w; rfl
  | cons a as ih => intro w; simp only [List.cons_append, acts, ih]

theorem mkWorld_ok {kind : Kind} {timeout : Option Int} {a : ClientArgs} {env : OsEnv} {w : World}
    (hm : mkWorld kind timeout a env = .ok w) : ∃ conn, clientConn a = .ok conn ∧
      w = { password := toSecretStr a.password, conn, transport := mkTransport kind timeout, opens := env.opens,
            shutdowns := env.shutdowns, closes := env.closes, writes := env.writes, inbox := env.inbox,
            clock := env.clock, rands := env.rands } := by
  unfold mkWorld at hm
  rw [bind_eq_ok] at hm
  obtain ⟨conn, hc, hm⟩ := hm
  exact ⟨conn, hc, (Except.ok.inj hm).symm⟩

theorem written_writes (h : Handle) (ds : List Bytes) : written (ds.map (.write h)) = ds := by
  induction ds with
  | nil => rfl
  | cons d ds ih => simp only [List.map_cons, written, List.filterMap_cons]; exact congrArg (d :: ·) ih

theorem written_append (l l' : List OsCall) : written (l ++ l') = written l ++ written l' := by
  simp [written]

/-! ### Claims -/

/-- C83. A whole program: create the client and its transport, connect, make calls, disconnect. The operating system
opens handle `h`, takes everything the program writes, and lets it read what a device answers to that, in any
segments and with any empty reads; timeout and clock are arbitrary. If the client knows the secrets of the device and
the arguments are such as the protocol can express, then every step returns, every call gives back what the device
held at that moment, the device ends as it should, and the OS has seen exactly this: the opening, the request lines
written to that handle, and the closing. -/
theorem C83_session (C : BlockCipher) (kind : Kind) (timeout : Option Int) (a : ClientArgs) (env : OsEnv) (w : World)
    (hm : mkWorld kind timeout a env = .ok w) (hr : ∀ i, PadOk (env.rands i).pw)
    (h : Handle) (hopens : ∃ l, env.opens = .ok h :: l) (hshut : ∃ l, env.shutdowns = .ok () :: l)
    (hclose : ∃ l, env.closes = .ok () :: l) (n : Nat) (hwrites : env.writes = List.replicate n (.ok ()))
    (D D' : Device) (hd : D.Ok) (hk : SharesKey a D) (hp : KnowsPassword a D) (ks : List Call)
    (hks : ∀ k ∈ ks, k.InRange) (program : List Action) (hprog : program = .connect :: ks.map .call ++ [.disconnect])
    (hn : (written (acts C w program).2.os).length ≤ n) (out : Bytes)
    (hserve : Serves C D (written (acts C w program).2.os) out D')
    (hin : content (env.inbox h) = bytesOnly out) :
    ∃ values, (acts C w program).1 = .returned .nothing :: values ++ [.returned .nothing] ∧
      Ideals D ks values D' ∧
      (acts C w program).2.os = .create (some h) :: (written (acts C w program).2.os).map (.write h) ++
        closing kind h ∧
      (acts C w program).2.transport.socket = none := by
  obtain ⟨lo, hopens⟩ := hopens
  obtain ⟨ls, hshut⟩ := hshut
  obtain ⟨lc, hclose⟩ := hclose
  obtain ⟨conn, hconn, rfl⟩ := mkWorld_ok hm
  -- the client after `connect`
  let w1 : World := {
    password := toSecretStr a.password, conn := conn,
    transport := { mkTransport kind timeout with socket := some h }, opens := lo,
    shutdowns := env.shutdowns, closes := env.closes, writes := env.writes, inbox := env.inbox,
    clock := env.clock, rands := env.rands, os := [.create (some h)] }
  have hc1 : act C { w1 with transport := mkTransport kind timeout, opens := env.opens, os := [] } .connect =
      (.returned .nothing, w1) := by
    simp only [act, World.connect, mkTransport, hopens, Transport.connect, Outcome3.andThen]
    rfl
  have ht1 : w1.transport.socket = some h := rfl
  obtain ⟨e1, e2, e3⟩ := acts_calls (C := C) ks w1 ht1
  obtain ⟨f1, f2, f3, f4, _, ds, _, f5, _⟩ := e3
  generalize hw2 : (acts C w1 (ks.map .call)).2 = w2 at *
  -- `disconnect`
  have hd2 : ∃ tail : List OsCall, tail = closing kind h ∧
      ∃ w3, act C w2 .disconnect = (.returned .nothing, w3) ∧ w3.os = w2.os ++ tail ∧ w3.transport.socket = none := by
    refine ⟨_, rfl, ?_⟩
    have hs2 : w2.transport.socket = some h := by rw [f1]
    have hk2 : w2.transport.kind = kind := by rw [f1]; rfl
    have hsh2 : w2.shutdowns = .ok () :: ls := by rw [f3]; exact hshut
    have hcl2 : w2.closes = .ok () :: lc := by rw [f4]; exact hclose
    simp only [act, World.disconnect]
    cases kind with
    | tcp =>
      simp only [hs2, hk2, hsh2, hcl2, Transport.disconnect, Outcome3.andThen]
      exact ⟨_, rfl, rfl, rfl⟩
    | serial =>
      simp only [hs2, hk2, hsh2, hcl2, Transport.disconnect, Outcome3.andThen]
      exact ⟨_, rfl, rfl, rfl⟩
  obtain ⟨tail, htail, w3, g1, g2, g3⟩ := hd2
  have hall : acts C { w1 with transport := mkTransport kind timeout, opens := env.opens, os := [] } program = (.returned .nothing :: (callsV C w1.sys ks).1 ++ [.returned .nothing], w3) := by
    rw [hprog, List.cons_append]
    show (_ :: (acts C (act C _ .connect).2 _).1, (acts C (act C _ .connect).2 _).2) = _
    rw [hc1]
    dsimp only
    rw [acts_append, hw2]
    show (_ :: ((acts C w1 (ks.map .call)).1 ++ [(act C w2 .disconnect).1]), (act C w2 .disconnect).2) = _
    rw [g1, e1]
    rfl
  have hall' : acts C
          ({ password := toSecretStr a.password, conn := conn, transport := mkTransport kind timeout,
             opens := env.opens, shutdowns := env.shutdowns, closes := env.closes, writes := env.writes,
             inbox := env.inbox, clock := env.clock, rands := env.rands } : World) program = _ := hall
  rw [hall'] at hn hserve ⊢
  have htw : written tail = [] := by
    rw [htail]; cases kind <;> rfl
  have hwd : written w3.os = ds := by
    have : written w3.os = written [.create (some h)] ++ written (ds.map (.write h)) ++ written tail := by
      rw [g2, f5, written_append, written_append]
    rw [this, htw, written_writes, List.append_nil]; rfl
  have hh : (callsV C w1.sys ks).2.handed = ds := by
    rw [← e2]
    show written w2.os = ds
    have : written w2.os = written [.create (some h)] ++ written (ds.map (.write h)) := by
      rw [f5, written_append]
    rw [this, written_writes]; rfl
  have hmk : mkClient a (List.replicate n (.ok ())) (recvs w1.transport out.length (env.inbox h) env.clock) env.rands =
      .ok w1.sys := by
    unfold mkClient
    rw [hconn]
    have hr1 : recvs w1.transport out.length (env.inbox h) env.clock = w1.sys.recvs := by
      rw [recvs_enough ht1 out.length (env.inbox h) env.clock (by rw [hin]; simp [bytesOnly])]
      rfl
    have hs1 : w1.sys.sends = List.replicate n (.ok ()) := by
      show (env.writes.map _) = _
      rw [hwrites, List.map_replicate]
    rw [hr1, ← hs1]
    rfl
  rw [hwd] at hn hserve ⊢
  rw [callsV_calls] at hh
  have := C82_session C w1.transport h ht1 (env.inbox h) env.clock a n out.length env.rands w1.sys hmk hr D D' hd hk hp
    ks hks (by rw [hh]; exact hn) out (by rw [hh]; exact hserve) hin (Nat.le_refl _)
  refine ⟨_, rfl, this.1, ?_, g3⟩
  rw [g2, f5, htail]
  rfl


/-! ### Ready or spoiled -/

theorem Action.plain_cases {a : Action} (h : a.Plain) : a = .connect ∨ a = .disconnect ∨ ∃ k, a = .call k := by
  cases a with
  | connect => exact .inl rfl
  | disconnect => exact .inr (.inl rfl)
  | call k => exact .inr (.inr ⟨k, rfl⟩)
  | send _ => cases h
  | nextEvent => cases h

theorem ended_callV (C : BlockCipher) (s : Sys) (k : Call) : ended (callV C s k).1 = (call C s k).1 := by
  have key : ∀ {α β : Type} (o : Outcome3 α) (f : α → β), ended (o.andThen fun x => .returned (f x)) = ended o := by
    intro α β o f; cases o <;> rfl
  cases k <;> exact key _ _

theorem ended_raised {α : Type} {o : Outcome3 α} {x : PyErr} (h : ended o = .raised x) : o = .raised x := by
  cases o <;> first | (injection h with h; rw [h]) | cases h

theorem ended_returned {α : Type} {o : Outcome3 α} : ended o = .returned ↔ ∃ v, o = .returned v := by
  cases o with
  | returned v => exact ⟨fun _ => ⟨v, rfl⟩, fun _ => rfl⟩
  | raised x => exact ⟨fun h => by (cases h), fun ⟨_, h⟩ => by (cases h)⟩
  | pending => exact ⟨fun h => by (cases h), fun ⟨_, h⟩ => by (cases h)⟩

/-- A call of a ready client returns and leaves the client as it was, or leaves it waiting; only an exception of the
parser of `read_parameters` leaves it ready. -/
theorem wcall_cases {C : BlockCipher} {w : World} (hr : Ready w.conn) (k : Call) :
    ((∃ v, (wcall C w k).1 = .returned v) ∧ (wcall C w k).2.conn = w.conn) ∨
    ((∀ v, (wcall C w k).1 ≠ .returned v) ∧ (wcall C w k).2.conn.state ≠ .idle) ∨
    (∃ n x, k = .readParameters n ∧ (wcall C w k).1 = .raised x ∧ x ∈ parseErrors ∧
      (wcall C w k).2.conn = w.conn) := by
  cases ht : w.transport.socket with
  | none =>
    have hx := exchange_closed (C := C) ht (firstOf w.password k)
    rw [wcall_raised hx]
    refine .inr (.inl ⟨fun v h => by (cases h), ?_⟩)
    dsimp only
    obtain ⟨_, _, h3, _⟩ := (send_request_cases C w.conn _ (w.rands w.draws) (firstOf_request w.password k)).resolve_right
      (fun hn => hn.1 hr.1)
    intro hi
    rw [hi] at h3
    have := firstOf_request w.password k
    unfold IsRequest at this
    rw [← h3] at this
    cases this
  | some g =>
    obtain ⟨h1, _⟩ := wcall_sys (C := C) w ht k
    have e1 := ended_callV C w.sys k
    have e2 := callV_call C w.sys k
    rw [h1] at e1 e2
    dsimp only at e1 e2
    have hcc : (wcall C w k).2.conn = (call C w.sys k).2.conn := congrArg Sys.conn e2
    rw [hcc]
    rcases C55_call C w.sys k hr with ⟨c1, c2⟩ | ⟨c1, c2⟩ | ⟨n, ps, x, hk, _, hp, c1, c2⟩
    · exact .inl ⟨ended_returned.1 (e1.trans c1), c2⟩
    · exact .inr (.inl ⟨fun v h => c1 (e1.symm.trans (ended_returned.2 ⟨v, h⟩)), c2⟩)
    · exact .inr (.inr ⟨n, x, hk, ended_raised (e1.trans c1), C57_exceptions _ _ hp, c2⟩)


/-- After a plain action the connection is as before or waits; it is as before if the action was no call or the call
returned. -/
theorem act_cases {C : BlockCipher} {w : World} (hr : Ready w.conn) {a : Action} (hp : a.Plain) :
    ((act C w a).2.conn = w.conn ∨ (act C w a).2.conn.state ≠ .idle) ∧
    ((∀ k, a = .call k → ∃ v, (act C w a).1 = .returned v) → (act C w a).2.conn = w.conn) := by
  rcases Action.plain_cases hp with rfl | rfl | ⟨k, rfl⟩
  · exact ⟨.inl (connect_frame w).1, fun _ => (connect_frame w).1⟩
  · exact ⟨.inl (disconnect_frame w).1, fun _ => (disconnect_frame w).1⟩
  · show ((wcall C w k).2.conn = w.conn ∨ (wcall C w k).2.conn.state ≠ .idle) ∧
      ((∀ j, Action.call k = .call j → ∃ v, (wcall C w k).1 = .returned v) → (wcall C w k).2.conn = w.conn)
    rcases wcall_cases (C := C) hr k with ⟨_, h⟩ | ⟨h1, h2⟩ | ⟨_, _, _, _, _, h⟩
    · exact ⟨.inl h, fun _ => h⟩
    · refine ⟨.inr h2, fun hv => ?_⟩
      obtain ⟨v, hv⟩ := hv k rfl
      exact absurd hv (h1 v)
    · exact ⟨.inl h, fun _ => h⟩

theorem act_waiting {C : BlockCipher} {w : World} (hw : w.conn.state ≠ .idle) {a : Action} (hp : a.Plain) :
    (act C w a).2.conn = w.conn ∧ written (act C w a).2.os = written w.os ∧
    ∀ k, a = .call k → (act C w a).1 = .raised (.elgas .localProtocol) := by
  rcases Action.plain_cases hp with rfl | rfl | ⟨k, rfl⟩
  · exact ⟨(connect_frame w).1, (connect_frame w).2.1, fun _ h => by (cases h)⟩
  · exact ⟨(disconnect_frame w).1, (disconnect_frame w).2.1, fun _ h => by (cases h)⟩
  · have : act C w (.call k) = _ := wcall_refused (C := C) hw k
    rw [this]
    exact ⟨rfl, rfl, fun _ _ => rfl⟩

theorem acts_length (C : BlockCipher) (as : List Action) : ∀ w, (acts C w as).1.length = as.length := by
  induction as with
  | nil => intro w; rfl
  | cons b as ih => intro w; simp only [acts, List.length_cons, ih]

theorem exchange_config (C : BlockCipher) (w : World) (e : Event) :
    (w.exchange C e).2.password = w.password ∧ (w.exchange C e).2.rands = w.rands := by
  have hs : ∀ (w : World) s k, (w.setUnread s k).password = w.password ∧ (w.setUnread s k).rands = w.rands := by
    intro w s k; unfold World.setUnread; split <;> exact ⟨rfl, rfl⟩
  have hrec : ∀ w : World, w.receive.2.password = w.password ∧ w.receive.2.rands = w.rands := by
    intro w; unfold World.receive; split <;> exact hs _ _ _
  have hwr : ∀ (w : World) d, (w.write d).2.password = w.password ∧ (w.write d).2.rands = w.rands := by
    intro w d; unfold World.write; split <;> exact ⟨rfl, rfl⟩
  have hsend : (w.send C e).2.password = w.password ∧ (w.send C e).2.rands = w.rands := by
    unfold World.send
    cases hc : w.conn.send C e (w.rands w.draws) with | mk c r =>
    cases r with
    | error x => exact ⟨rfl, rfl⟩
    | ok data =>
      dsimp only
      have h1 := hwr { w with conn := c, draws := w.draws + 1 } data
      cases hx : ({ w with conn := c, draws := w.draws + 1 } : World).write data with | mk o w1 =>
      rw [hx] at h1
      cases o with
      | returned u => exact ⟨(hrec w1).1.trans h1.1, (hrec w1).2.trans h1.2⟩
      | raised x => exact h1
      | pending => exact h1
  unfold World.exchange
  cases hx : w.send C e with | mk o w1 =>
  rw [hx] at hsend
  cases o with
  | returned u =>
    have : (w1.nextEvent C).2.password = w1.password ∧ (w1.nextEvent C).2.rands = w1.rands := by
      unfold World.nextEvent; exact hs _ _ _
    exact ⟨this.1.trans hsend.1, this.2.trans hsend.2⟩
  | raised x => exact hsend
  | pending => exact hsend

theorem wcall_config (C : BlockCipher) (w : World) (k : Call) :
    (wcall C w k).2.password = w.password ∧ (wcall C w k).2.rands = w.rands := by
  have hpages : ∀ (w : World) count total, (w.readPages C count total).2.password = w.password ∧
      (w.readPages C count total).2.rands = w.rands := by
    intro w count total
    fun_induction World.readPages C w count total with
    | case1 w count total x w1 hx => have := exchange_config C w (pageRequest w.password count); unfold pageRequest at this; rw [hx] at this; exact this
    | case2 w count total w1 hx => have := exchange_config C w (pageRequest w.password count); unfold pageRequest at this; rw [hx] at this; exact this
    | case3 w count total p w1 hx hend => have := exchange_config C w (pageRequest w.password count); unfold pageRequest at this; rw [hx] at this; exact this
    | case4 w count total p w1 hx hend ih =>
      have := exchange_config C w (pageRequest w.password count)
      unfold pageRequest at this; rw [hx] at this
      exact ⟨ih.1.trans this.1, ih.2.trans this.2⟩
    | case5 w count total o w1 hne hx => have := exchange_config C w (pageRequest w.password count); unfold pageRequest at this; rw [hx] at this; exact this
  cases k with
  | readParameters n => exact hpages w n []
  | readInstantaneousValues => exact exchange_config C w _
  | readTime => exact exchange_config C w _
  | writeTime t b => exact exchange_config C w _
  | readArchive a n i => exact exchange_config C w _
  | readArchiveByTime a n t => exact exchange_config C w _

theorem acts_config {C : BlockCipher} (as : List Action) (hp : ∀ a ∈ as, a.Plain) : ∀ w : World,
    (acts C w as).2.password = w.password ∧ (acts C w as).2.rands = w.rands := by
  induction as with
  | nil => intro w; exact ⟨rfl, rfl⟩
  | cons a as ih =>
    intro w
    have h1 : (act C w a).2.password = w.password ∧ (act C w a).2.rands = w.rands := by
      rcases Action.plain_cases (hp a List.mem_cons_self) with rfl | rfl | ⟨k, rfl⟩
      · exact (connect_frame w).2.2
      · exact (disconnect_frame w).2.2
      · exact wcall_config C w k
    obtain ⟨i1, i2⟩ := ih (fun b hb => hp b (List.mem_cons_of_mem _ hb)) (act C w a).2
    exact ⟨i1.trans h1.1, i2.trans h1.2⟩

theorem mkWorld_ready {kind : Kind} {timeout : Option Int} {a : ClientArgs} {env : OsEnv} {w : World}
    (hm : mkWorld kind timeout a env = .ok w) : Ready w.conn := by
  obtain ⟨conn, hc, rfl⟩ := mkWorld_ok hm
  obtain ⟨_, rfl⟩ := mkConn_ok hc
  exact ⟨rfl, rfl⟩

/-- C85. A client whose connection waits for a response is of no more use: whatever follows, reconnecting included,
every call raises LocalElgasProtocolError, nothing is written to any handle, and the connection never changes. -/
theorem C85_spoiled (C : BlockCipher) (w : World) (hw : w.conn.state ≠ .idle) (as : List Action)
    (hp : ∀ a ∈ as, a.Plain) :
    (∀ (i : Nat) (k : Call), as[i]? = some (.call k) → (acts C w as).1[i]? = some (.raised (.elgas .localProtocol))) ∧
    written (acts C w as).2.os = written w.os ∧ (acts C w as).2.conn = w.conn := by
  induction as generalizing w with
  | nil => exact ⟨fun i k h => by simp at h, rfl, rfl⟩
  | cons a as ih =>
    obtain ⟨h1, h2, h3⟩ := act_waiting (C := C) hw (hp a (List.mem_cons_self))
    obtain ⟨i1, i2, i3⟩ := ih (act C w a).2 (by rw [h1]; exact hw) fun b hb => hp b (List.mem_cons_of_mem _ hb)
    simp only [acts]
    refine ⟨fun i k h => ?_, i2.trans h2, i3.trans h1⟩
    cases i with
    | zero => simp only [List.getElem?_cons_zero, Option.some.injEq] at h ⊢; exact h3 k h
    | succ i => simp only [List.getElem?_cons_succ] at h ⊢; exact i1 i k h

/-- C85. As long as all calls return, the connection is as new, through any connecting and disconnecting; and
whatever happens, it is as new or waits for a response. -/
theorem C85_fresh_or_spoiled (C : BlockCipher) (kind : Kind) (timeout : Option Int) (a : ClientArgs) (env : OsEnv)
    (w : World) (hm : mkWorld kind timeout a env = .ok w) (as : List Action) (hp : ∀ a ∈ as, a.Plain) :
    ((∀ (i : Nat) (k : Call), as[i]? = some (.call k) → ∃ v, (acts C w as).1[i]? = some (.returned v)) →
      (acts C w as).2.conn = w.conn) ∧
    ((acts C w as).2.conn = w.conn ∨ (acts C w as).2.conn.state ≠ .idle) := by
  have hr := mkWorld_ready hm
  clear hm
  induction as generalizing w with
  | nil => exact ⟨fun _ => rfl, .inl rfl⟩
  | cons b as ih =>
    obtain ⟨h1, h2⟩ := act_cases (C := C) hr (hp b List.mem_cons_self)
    have hp' : ∀ a ∈ as, a.Plain := fun b hb => hp b (List.mem_cons_of_mem _ hb)
    simp only [acts]
    constructor
    · intro hall
      have hb := h2 fun k hk => by
        obtain ⟨v, hv⟩ := hall 0 k (by simp [hk])
        exact ⟨v, by simpa using hv⟩
      have := (ih (act C w b).2 hp' (by rw [hb]; exact hr)).1 fun i k hi => by
        obtain ⟨v, hv⟩ := hall (i + 1) k (by simpa using hi)
        exact ⟨v, by simpa using hv⟩
      rw [this, hb]
    · rcases h1 with h1 | h1
      · have := (ih (act C w b).2 hp' (by rw [h1]; exact hr)).2
        rw [h1] at this
        exact this
      · right
        rw [(C85_spoiled C _ h1 as hp').2.2]
        exact h1

/-- C85. A new client, used in any way by `connect`, `disconnect` and calls. If a call raises or never comes back
(other than by an exception of the parser of `read_parameters`), then after it every call, whatever is done in between,
raises LocalElgasProtocolError, and nothing more is written to any handle. -/
theorem C85_history (C : BlockCipher) (kind : Kind) (timeout : Option Int) (a : ClientArgs) (env : OsEnv)
    (w : World) (hm : mkWorld kind timeout a env = .ok w) (before : List Action) (k : Call) (later : List Action)
    (hb : ∀ a ∈ before, a.Plain) (hl : ∀ a ∈ later, a.Plain)
    (hfail : ∀ v, (wcall C (acts C w before).2 k).1 ≠ .returned v)
    (hparse : ∀ n x, k = .readParameters n → (wcall C (acts C w before).2 k).1 = .raised x → x ∉ parseErrors) :
    (∀ (i : Nat) (j : Call), later[i]? = some (.call j) → (acts C w (before ++ .call k :: later)).1[before.length + 1 + i]? =
      some (.raised (.elgas .localProtocol))) ∧
    written (acts C w (before ++ .call k :: later)).2.os = written (acts C w (before ++ [.call k])).2.os := by
  have hr := mkWorld_ready hm
  have hs : (wcall C (acts C w before).2 k).2.conn.state ≠ .idle := by
    rcases (C85_fresh_or_spoiled C kind timeout a env w hm before hb).2 with h | h
    · rcases wcall_cases (C := C) (w := (acts C w before).2) (by rw [h]; exact hr) k with ⟨⟨v, hv⟩, _⟩ | ⟨_, h⟩ |
        ⟨n, x, hk, hx, hx', _⟩
      · exact absurd hv (hfail v)
      · exact h
      · exact absurd hx' (hparse n x hk hx)
    · rw [wcall_refused h]; exact h
  obtain ⟨h1, h2, _⟩ := C85_spoiled C _ hs later hl
  have hx : act C (acts C w before).2 (.call k) = wcall C (acts C w before).2 k := rfl
  constructor
  · intro i j hi
    have := h1 i j hi
    rw [acts_append]
    simp only [acts, hx]
    rw [List.getElem?_append_right (by rw [acts_length]; omega), acts_length]
    have e : before.length + 1 + i - before.length = i + 1 := by omega
    rw [e, List.getElem?_cons_succ]
    exact this
  · rw [acts_append, acts_append]
    simp only [acts, hx]
    exact h2

/-- C84. A call of a client that has no open connection always raises: RuntimeError, or one of the exceptions of
`send`; the operating system is asked nothing. -/
theorem C84_raises (C : BlockCipher) (w : World) (ht : w.transport.socket = none) (k : Call) :
    ∃ x, (wcall C w k).1 = .raised x ∧ (x = .runtime ∨ x ∈ sendErrors) ∧ (wcall C w k).2.os = w.os ∧
      (wcall C w k).2.transport = w.transport := by
  have hx := exchange_closed (C := C) ht (firstOf w.password k)
  rw [wcall_raised hx]
  refine ⟨_, rfl, ?_, rfl, rfl⟩
  cases h : (w.conn.send C (firstOf w.password k) (w.rands w.draws)).2 with
  | ok d => exact .inl rfl
  | error x => exact .inr (C74_send_exceptions C w.conn _ (firstOf_request _ k) _ x h)

/-- C84. A program that forgets to connect, or that goes on after disconnecting: the client has been used without a
failure, and its transport has no handle. Then a call, with arguments the protocol can express, raises RuntimeError;
and that spoils the client: connecting afterwards does not help, every later call raises LocalElgasProtocolError and
nothing is ever written. -/
theorem C84_unconnected (C : BlockCipher) (kind : Kind) (timeout : Option Int) (a : ClientArgs) (env : OsEnv)
    (w : World) (hm : mkWorld kind timeout a env = .ok w) (hr : ∀ i, PadOk (env.rands i).pw)
    (hpw : IsLatin1 a.password ∧ a.password.length = 6)
    (hkey : a.encryptionKey = none ∨ a.encryptionKeyId = none ∨
      ∃ key keyId, a.encryptionKey = some key ∧ a.encryptionKeyId = some keyId ∧ key.length = 16 ∧ 0 ≤ keyId ∧ keyId ≤ 255)
    (before : List Action) (hb : ∀ a ∈ before, a.Plain) (hret : ∀ o ∈ (acts C w before).1, ∃ v, o = .returned v)
    (ht : (acts C w before).2.transport.socket = none) (k : Call) (hk : k.InRange) (later : List Action)
    (hl : ∀ a ∈ later, a.Plain) :
    (acts C w (before ++ .call k :: later)).1[before.length]? = some (.raised .runtime) ∧
    (∀ (i : Nat) (j : Call), later[i]? = some (.call j) → (acts C w (before ++ .call k :: later)).1[before.length + 1 + i]? =
      some (.raised (.elgas .localProtocol))) ∧
    written (acts C w (before ++ .call k :: later)).2.os = written (acts C w before).2.os := by
  have hconn : (acts C w before).2.conn = w.conn :=
    (C85_fresh_or_spoiled C kind timeout a env w hm before hb).1 fun i j hi => by
      have hlt : i < (acts C w before).1.length := by
        rw [acts_length]
        rw [List.getElem?_eq_some_iff] at hi
        exact hi.1
      obtain ⟨v, hv⟩ := hret _ (List.getElem_mem hlt)
      exact ⟨v, by rw [List.getElem?_eq_getElem hlt, hv]⟩
  have hpass : (acts C w before).2.password = a.password ∧ (acts C w before).2.rands = env.rands := by
    have := acts_config (C := C) before hb w
    obtain ⟨conn, _, rfl⟩ := mkWorld_ok hm
    exact this
  obtain ⟨hp1, hp2⟩ := hpass
  have hsend : ∃ data, ((acts C w before).2.conn.send C (firstOf a.password k)
      (env.rands (acts C w before).2.draws)).2 = .ok data := by
    obtain ⟨conn, hc, rfl⟩ := mkWorld_ok hm
    rw [hconn]
    obtain ⟨b, hb1, hb2⟩ := first_body hpw.1 hpw.2 (hr (acts C _ before).2.draws) hk
    have := C46_send_succeeds C _ conn ⟨conn, [], hc, rfl⟩ (mkWorld_ready hm).1 (firstOf a.password k)
      (firstOf_request _ k) _ b hb1
    rcases hkey with h | h | ⟨key, keyId, h1, h2, h3, h4, h5⟩
    · exact this.1 (.inl (by dsimp only; rw [h]; rfl)) (by omega)
    · exact this.1 (.inr h) (by omega)
    · exact this.2 key keyId (by dsimp only; rw [h1]; cases key with | nil => cases h3 | cons x xs => rfl) h2 h3 h4 h5 hb2
  obtain ⟨data, hdata⟩ := hsend
  have hx := exchange_closed (C := C) ht (firstOf (acts C w before).2.password k)
  rw [hp1, hp2] at hx
  rw [hdata] at hx
  have hw := wcall_raised (C := C) (w := (acts C w before).2) (k := k) (by rw [hp1]; exact hx)
  have hist := C85_history C kind timeout a env w hm before k later hb hl
    (fun v h => by rw [hw] at h; cases h)
    (fun n x _ h => by
      rw [hw] at h
      have : x = .runtime := by injection h with h; exact h.symm
      rw [this]; decide)
  have hact : act C (acts C w before).2 (.call k) = wcall C (acts C w before).2 k := rfl
  refine ⟨?_, hist.1, ?_⟩
  · rw [acts_append, List.getElem?_append_right (by rw [acts_length]; omega), acts_length, Nat.sub_self]
    simp only [acts, hact, hw, List.getElem?_cons_zero]
    rfl
  · rw [hist.2, acts_append]
    simp only [acts, hact, hw]


theorem send_state {C : BlockCipher} {w : World} {e : Event} (he : IsRequest e) {u : Unit} (h : (w.send C e).1 = .returned u) :
    (w.send C e).2.conn.state ≠ .idle := by
  have hrec : ∀ w : World, w.receive.2.conn.state = w.conn.state := by
    intro w
    have hs : ∀ s k, (w.setUnread s k).conn = w.conn := by
      intro s k; unfold World.setUnread; split <;> rfl
    unfold World.receive
    split
    · exact (receiveData_frame _ _).2.2
    · rw [hs]
    · rw [hs]
  have hwr : ∀ (w : World) d, (w.write d).2.conn = w.conn := by
    intro w d; unfold World.write; split <;> rfl
  unfold World.send at h ⊢
  rcases send_request_cases C w.conn e (w.rands w.draws) he with ⟨_, _, h3, _⟩ | ⟨_, h2⟩
  · have hne : (w.conn.send C e (w.rands w.draws)).1.state ≠ .idle := by
      intro hi
      rw [hi] at h3
      unfold IsRequest at he
      rw [← h3] at he
      cases he
    cases hc : w.conn.send C e (w.rands w.draws) with | mk c r =>
    rw [hc] at h hne
    cases r with
    | error x => exact hne
    | ok data =>
      dsimp only at h hne ⊢
      have h1 := hwr { w with conn := c, draws := w.draws + 1 } data
      cases hx : ({ w with conn := c, draws := w.draws + 1 } : World).write data with | mk o w1 =>
      rw [hx] at h1 h
      cases o with
      | returned u => dsimp only; rw [hrec, h1]; exact hne
      | raised x => dsimp only; rw [h1]; exact hne
      | pending => dsimp only; rw [h1]; exact hne
  · rw [h2] at h; cases h

/-- C86. `send` with several requests never returns. If the first of them cannot be sent, or what follows cannot be
received, it ends as for that one alone; otherwise it raises LocalElgasProtocolError, having written only the first
request, and `next_event` then gives the response of that one as if it had been sent alone. -/
theorem C86_several (C : BlockCipher) (w : World) (e e' : Event) (he : IsRequest e) (he' : IsRequest e') (es : List Event) :
    ((∀ u, (w.send C e).1 ≠ .returned u) ∧ w.sendAll C (e :: e' :: es) = w.send C e) ∨
    ((w.sendAll C (e :: e' :: es)).1 = .raised (.elgas .localProtocol) ∧
      written (w.sendAll C (e :: e' :: es)).2.os = written (w.send C e).2.os ∧
      ((w.sendAll C (e :: e' :: es)).2.nextEvent C).1 = (w.exchange C e).1 ∧
      ((w.sendAll C (e :: e' :: es)).2.nextEvent C).2.conn = (w.exchange C e).2.conn) := by
  cases hs : w.send C e with | mk o w1 =>
  cases o with
  | returned u =>
    right
    have hst := send_state (C := C) (w := w) he (u := u) (by rw [hs])
    rw [hs] at hst
    have h2 : w1.send C e' = (.raised (.elgas .localProtocol), { w1 with draws := w1.draws + 1 }) := by
      unfold World.send
      rcases send_request_cases C w1.conn e' (w1.rands w1.draws) he' with ⟨h, _⟩ | ⟨_, h⟩
      · exact absurd h hst
      · rw [h]
    have hall : w.sendAll C (e :: e' :: es) = (.raised (.elgas .localProtocol), { w1 with draws := w1.draws + 1 }) := by
      simp only [World.sendAll, hs, h2]
    have hex : w.exchange C e = w1.nextEvent C := by unfold World.exchange; rw [hs]
    rw [hall, hex]
    refine ⟨rfl, rfl, ?_, ?_⟩ <;> rfl
  | raised x =>
    left
    refine ⟨fun u h => (by cases h), ?_⟩
    simp only [World.sendAll, hs]
  | pending =>
    left
    refine ⟨fun u h => (by cases h), ?_⟩
    simp only [World.sendAll, hs]

/-- C86. `next_event` of a client that waits for nothing never returns. -/
theorem C86_unasked (C : BlockCipher) (w : World) (hi : w.conn.state = .idle) (ev : Event) :
    (w.nextEvent C).1 ≠ .returned ev := by
  have key : ∀ (t : Transport) (c : Conn) (s : List Delivery) (k : Clock), c.state = .idle →
      (worldLoop C t c s k).1 ≠ .returned ev := by
    intro t c s k
    fun_induction worldLoop C t c s k with
    | case1 => intro _ h; cases h
    | case2 c s k c1 ev1 hn =>
      intro hi
      have := (C38_poll_effect C c).2.2 ev1 (by rw [hn])
      rw [hi] at this
      cases this.2
    | case3 c s k c1 hn d s1 k1 hr ih =>
      intro hi
      have := (C38_poll_effect C c).1 (by rw [hn])
      rw [hn] at this
      dsimp only at this
      subst this
      refine ih ?_
      rw [(receiveData_frame c1 d).2.2]; exact hi
    | case4 => intro _ h; cases h
    | case5 => intro _ h; cases h
  unfold World.nextEvent
  exact key _ _ _ _ hi



theorem send_idle_buffer {C : BlockCipher} {w : World} {q : Event} (hi : w.conn.state = .idle) (hq : IsRequest q)
    {u : Unit} (h : (w.send C q).1 = .returned u) :
    awaits (w.send C q).2.conn.state = responseOf q.type ∧ (w.send C q).2.conn.cipherContext = w.conn.cipherContext ∧
      ∃ d, (w.send C q).2.conn.buffer = (w.conn.receiveData d).buffer := by
  obtain ⟨_, h2, h3, _⟩ := (send_request_cases C w.conn q (w.rands w.draws) hq).resolve_right (fun hn => hn.1 hi)
  unfold World.send at h ⊢
  cases hc : w.conn.send C q (w.rands w.draws) with | mk c r =>
  rw [hc] at h h2 h3
  dsimp only at h2 h3
  cases r with
  | error x => cases h
  | ok data =>
    dsimp only at h ⊢
    have hwr : (({ w with conn := c, draws := w.draws + 1 } : World).write data).2.conn = c := by
      unfold World.write; split <;> rfl
    cases hx : ({ w with conn := c, draws := w.draws + 1 } : World).write data with | mk o w1 =>
    rw [hx] at h hwr
    cases o with
    | raised x => cases h
    | pending => cases h
    | returned u =>
      dsimp only at h hwr ⊢
      unfold World.receive at h ⊢
      split at h
      · next d s k hr =>
        dsimp only
        rw [hwr, (receiveData_frame c d).2.1, (receiveData_frame c d).2.2]
        refine ⟨h3, by rw [h2], d, ?_⟩
        rw [h2]
        unfold Conn.receiveData
        split
        · rfl
        · dsimp only
          split <;> rfl
      · cases h
      · cases h

/-- C86. A response that comes in while nothing is asked is refused by `next_event`, but it is not forgotten: whatever
connecting and disconnecting comes then, it is taken for the answer to the next request of its kind, and what the
device answers to that request is thrown away. -/
theorem C86_stale (C : BlockCipher) (w : World) (hr : Ready w.conn) (line : Bytes) (pdu : Event)
    (hl : Response C w.conn.cipherContext line pdu) (s : List Delivery) (k : Clock)
    (hrecv : w.transport.recv w.unread w.clock = (.returned line, s, k)) :
    (w.nextEvent C).1 = .raised (.elgas .localProtocol) ∧
    ∀ (as : List Action), (∀ a ∈ as, a = .connect ∨ a = .disconnect) → ∀ q, responseOf q.type = some pdu.type →
      ∀ u, ((acts C (w.nextEvent C).2 as).2.send C q).1 = .returned u →
        ((acts C (w.nextEvent C).2 as).2.exchange C q).1 = .returned pdu ∧
        Ready ((acts C (w.nextEvent C).2 as).2.exchange C q).2.conn := by
  obtain ⟨x, svc, data, rfl, hx, hd, h1, hdec⟩ := hl
  have hc : w.conn.receiveData (x ++ [0x0D]) = { w.conn with buffer := x ++ [0x0D] } := by
    rw [receiveData_append (fun h => absurd h (delivers_ne hd)), hr.2]; rfl
  have hempty : w.conn.nextEvent C = (w.conn, .ok none) := by
    unfold Conn.nextEvent; rw [hr.2]; rfl
  have hbad := C44_wrong_service_error C { w.conn with buffer := x ++ [0x0D] } x [] svc data pdu rfl hx hd h1 hdec
    (by show awaits w.conn.state ≠ _; rw [hr.1]; intro h; cases h)
  have hn : w.nextEvent C = (.raised (.elgas .localProtocol),
      { w.setUnread s k with conn := { w.conn with buffer := x ++ [0x0D] } }) := by
    unfold World.nextEvent
    have hl1 : worldLoop C w.transport w.conn w.unread w.clock =
        worldLoop C w.transport (w.conn.receiveData (x ++ [0x0D])) s k := by
      rw [worldLoop, hempty]
      dsimp only
      split
      · next hr' => rw [hrecv] at hr'; cases hr'; rfl
      · next hr' => rw [hrecv] at hr'; cases hr'
      · next hr' => rw [hrecv] at hr'; cases hr'
    rw [hl1, hc, worldLoop, hbad]
  rw [hn]
  refine ⟨rfl, ?_⟩
  intro as has q hq u hu
  have hconn : ∀ (as : List Action) (v : World), (∀ a ∈ as, a = .connect ∨ a = .disconnect) →
      (acts C v as).2.conn = v.conn := by
    intro as
    induction as with
    | nil => intro v _; rfl
    | cons a as ih =>
      intro v h
      have h1 : (act C v a).2.conn = v.conn := by
        rcases h a List.mem_cons_self with rfl | rfl
        · exact (connect_frame v).1
        · exact (disconnect_frame v).1
      exact (ih (act C v a).2 fun b hb => h b (List.mem_cons_of_mem _ hb)).trans h1
  have hcn := hconn as { w.setUnread s k with conn := { w.conn with buffer := x ++ [0x0D] } } has
  dsimp only at hu ⊢
  generalize (acts C { w.setUnread s k with conn := { w.conn with buffer := x ++ [0x0D] } } as).2 = v at *
  have hreq : IsRequest q := by unfold IsRequest; rw [hq]; rfl
  obtain ⟨a1, a2, d, a3⟩ := send_idle_buffer (C := C) (w := v) (by rw [hcn]; exact hr.1) hreq hu
  have hbuf : ∃ extra, (v.send C q).2.conn.buffer = x ++ 0x0D :: extra := by
    rw [a3, hcn, receiveData_append (fun _ => by simp)]
    exact ⟨d, by simp⟩
  obtain ⟨extra, hbuf⟩ := hbuf
  have hp : ((v.send C q).2.conn.nextEvent C).2 = .ok (some pdu) :=
    (C44_returns_iff C _ pdu).2 ⟨x, extra, svc, data, hbuf, hx, by rw [a2, hcn]; exact hd, h1, hdec, a1.trans hq⟩
  have he := ((C38_poll_effect C _).2.2 _ hp).1
  have hx2 : v.exchange C q = (v.send C q).2.nextEvent C := by
    unfold World.exchange
    cases hs : v.send C q with | mk o v1 =>
    rw [hs] at hu
    cases hu
    rfl
  rw [hx2]
  unfold World.nextEvent worldLoop
  cases hne : (v.send C q).2.conn.nextEvent C with | mk c1 r =>
  rw [hne] at hp he
  dsimp only at hp he
  subst hp
  dsimp only
  exact ⟨rfl, by rw [he]; exact ⟨rfl, rfl⟩⟩

/-! ### Several sessions -/

theorem writtenTo_append (h : Handle) (l l' : List OsCall) : writtenTo h (l ++ l') = writtenTo h l ++ writtenTo h l' := by
  simp [writtenTo]

theorem writtenTo_writes (h : Handle) (ds : List Bytes) : writtenTo h (ds.map (.write h)) = ds := by
  induction ds with
  | nil => rfl
  | cons d ds ih => simp only [List.map_cons, writtenTo, List.filterMap_cons, if_true]; exact congrArg (d :: ·) ih

theorem writtenTo_other {h g : Handle} (hg : g ≠ h) (ds : List Bytes) : writtenTo h (ds.map (.write g)) = [] := by
  induction ds with
  | nil => rfl
  | cons d ds ih => simp only [List.map_cons, writtenTo, List.filterMap_cons, if_neg hg]; exact ih

theorem writtenTo_closing (h : Handle) (kind : Kind) (g : Handle) : writtenTo h (closing kind g) = [] := by
  cases kind <;> rfl

/-- A client without a handle only asks for one in `connect`. -/
theorem wcall_closed {C : BlockCipher} {w : World} (ht : w.transport.socket = none) (k : Call) :
    (wcall C w k).2.os = w.os ∧ (wcall C w k).2.transport = w.transport ∧ (wcall C w k).2.opens = w.opens := by
  rw [wcall_raised (exchange_closed (C := C) ht (firstOf w.password k))]
  exact ⟨rfl, rfl, rfl⟩

/-- Nothing is written to a handle that is neither open nor going to be opened. -/
theorem act_other {C : BlockCipher} {h : Handle} {w : World} {a : Action} (hp : a.Plain)
    (hs : w.transport.socket ≠ some h) (ho : Except.ok h ∉ w.opens) :
    (act C w a).2.transport.socket ≠ some h ∧ Except.ok h ∉ (act C w a).2.opens ∧
      writtenTo h (act C w a).2.os = writtenTo h w.os := by
  rcases Action.plain_cases hp with rfl | rfl | ⟨k, rfl⟩
  · show w.connect.2.transport.socket ≠ some h ∧ Except.ok h ∉ w.connect.2.opens ∧
      writtenTo h w.connect.2.os = writtenTo h w.os
    unfold World.connect Transport.connect
    split
    · exact ⟨hs, ho, rfl⟩
    · next o os hs1 hs2 =>
      rw [hs1]
      rw [hs2] at ho
      simp only [List.mem_cons, not_or] at ho
      dsimp only
      split
      · next g => 
        refine ⟨fun hg => ho.1 ?_, ho.2, by rw [writtenTo_append]; exact List.append_nil _⟩
        injection hg with hg
        rw [hg]
      · refine ⟨hs1 ▸ hs, ho.2, by rw [writtenTo_append]; exact List.append_nil _⟩
    · exact ⟨hs, ho, rfl⟩
  · show w.disconnect.2.transport.socket ≠ some h ∧ Except.ok h ∉ w.disconnect.2.opens ∧
      writtenTo h w.disconnect.2.os = writtenTo h w.os
    have hd : ∀ a b, writtenTo h (w.transport.disconnect a b).2.1 = [] ∧
        (w.transport.disconnect a b).1.socket ≠ some h := by
      intro a b
      unfold Transport.disconnect
      repeat' split
      all_goals first | exact ⟨rfl, hs⟩ | exact ⟨rfl, fun h => by cases h⟩
    unfold World.disconnect
    split <;> (try exact ⟨hs, ho, rfl⟩) <;> (dsimp only; rw [writtenTo_append]) <;>
      first
      | (rw [(hd _ _).1, List.append_nil]; exact ⟨(hd _ _).2, ho, rfl⟩)
      | (exact ⟨hs, ho, List.append_nil _⟩)
  · show (wcall C w k).2.transport.socket ≠ some h ∧ Except.ok h ∉ (wcall C w k).2.opens ∧
      writtenTo h (wcall C w k).2.os = writtenTo h w.os
    cases ht : w.transport.socket with
    | none =>
      obtain ⟨h1, h2, h3⟩ := wcall_closed (C := C) ht k
      rw [h1, h2, h3]
      exact ⟨hs, ho, rfl⟩
    | some g =>
      obtain ⟨f1, f2, _, _, _, ds, _, f5, _⟩ := wcall_keeps (C := C) w ht k
      rw [f1, f2, f5, writtenTo_append, writtenTo_other (fun hg => hs (by rw [ht, hg])), List.append_nil]
      exact ⟨hs, ho, rfl⟩

theorem acts_other {C : BlockCipher} {h : Handle} (as : List Action) (hp : ∀ a ∈ as, a.Plain) : ∀ w : World,
    w.transport.socket ≠ some h → Except.ok h ∉ w.opens → writtenTo h (acts C w as).2.os = writtenTo h w.os := by
  induction as with
  | nil => intro w _ _; rfl
  | cons a as ih =>
    intro w hs ho
    obtain ⟨h1, h2, h3⟩ := act_other (C := C) (hp a List.mem_cons_self) hs ho
    exact (ih (fun b hb => hp b (List.mem_cons_of_mem _ hb)) _ h1 h2).trans h3

/-- What a session does to the operating system. -/
theorem session_frame {C : BlockCipher} {w : World} (ht : w.transport.socket = none) (s : Session) {lo : List (Res Handle)}
    (hopens : w.opens = .ok s.handle :: lo) {m m' : Nat} (hshut : w.shutdowns = List.replicate (m + 1) (.ok ()))
    (hclose : w.closes = List.replicate (m' + 1) (.ok ())) (w1 : World)
    (hw1 : w1 = { w with
      transport := { w.transport with socket := some s.handle }, opens := lo,
      os := w.os ++ [.create (some s.handle)] }) :
    ∃ (w2 : World) (ds : List Bytes) (j : Nat),
      (acts C w s.program).1 = .returned .nothing :: (callsV C w1.sys s.calls).1 ++ [.returned .nothing] ∧
      w2.sys = (callsV C w1.sys s.calls).2 ∧
      w2.os = w.os ++ .create (some s.handle) :: ds.map (.write s.handle) ∧
      (acts C w s.program).2.os = w.os ++ s.trace w.transport.kind ds ∧
      (acts C w s.program).2.transport = w.transport ∧ (acts C w s.program).2.opens = lo ∧
      (∃ n, m ≤ n ∧ (acts C w s.program).2.shutdowns = List.replicate n (.ok ())) ∧
      (acts C w s.program).2.closes = List.replicate m' (.ok ()) ∧
      (∀ g, g ≠ s.handle → (acts C w s.program).2.inbox g = w.inbox g) ∧
      j ≤ ds.length ∧ (acts C w s.program).2.writes = w.writes.drop j ∧
      (acts C w s.program).2.conn = w2.conn := by
  have hc1 : act C w .connect = (.returned .nothing, w1) := by
    subst hw1
    simp only [act, World.connect, ht, hopens, Transport.connect, Outcome3.andThen]
  have ht1 : w1.transport.socket = some s.handle := by rw [hw1]
  obtain ⟨e1, e2, e3⟩ := acts_calls (C := C) s.calls w1 ht1
  obtain ⟨f1, f2, f3, f4, f6, ds, j, f5, f7, f8⟩ := e3
  generalize hw2 : (acts C w1 (s.calls.map .call)).2 = w2 at *
  have hs2 : w2.transport.socket = some s.handle := by rw [f1, ht1]
  have hk2 : w2.transport.kind = w.transport.kind := by rw [f1, hw1]
  have hsh2 : w2.shutdowns = .ok () :: List.replicate m (.ok ()) := by rw [f3, hw1]; exact hshut
  have hcl2 : w2.closes = .ok () :: List.replicate m' (.ok ()) := by rw [f4, hw1]; exact hclose
  have htr : ({ w2.transport with socket := none } : Transport) = w.transport := by
    rw [f1, hw1]
    have : ∀ t : Transport, t.socket = none → ({ kind := t.kind, timeout := t.timeout, socket := none } : Transport) = t := by
      intro t h; cases t; cases h; rfl
    exact this _ ht
  have hos2 : w2.os = w.os ++ .create (some s.handle) :: ds.map (.write s.handle) := by
    rw [f5, hw1]; simp
  -- `disconnect`
  have hd2 : ∃ w3, act C w2 .disconnect = (.returned .nothing, w3) ∧ w3.os = w2.os ++ closing w.transport.kind s.handle ∧
      w3.transport = w.transport ∧ w3.opens = lo ∧ (∃ n, m ≤ n ∧ w3.shutdowns = List.replicate n (.ok ())) ∧
      w3.closes = List.replicate m' (.ok ()) ∧ w3.inbox = w2.inbox ∧ w3.writes = w2.writes ∧ w3.conn = w2.conn := by
    have ho : w2.opens = lo := by rw [f2, hw1]
    simp only [act, World.disconnect]
    cases hkind : w.transport.kind with
    | tcp =>
      rw [hkind] at hk2
      simp only [hs2, hk2, hsh2, hcl2, Transport.disconnect, Outcome3.andThen]
      exact ⟨_, rfl, rfl, hk2 ▸ htr, ho, ⟨m, Nat.le_refl _, rfl⟩, rfl, rfl, rfl, rfl⟩
    | serial =>
      rw [hkind] at hk2
      simp only [hs2, hk2, hcl2, Transport.disconnect, Outcome3.andThen]
      exact ⟨_, rfl, rfl, hk2 ▸ htr, ho, ⟨m + 1, by omega, hsh2⟩, rfl, rfl, rfl, rfl⟩
  obtain ⟨w3, g1, g2, g3, g4, g5, g6, g7, g8, g9⟩ := hd2
  have hall : acts C w s.program = (.returned .nothing :: (callsV C w1.sys s.calls).1 ++ [.returned .nothing], w3) := by
    unfold Session.program
    rw [List.cons_append]
    show (_ :: (acts C (act C w .connect).2 _).1, (acts C (act C w .connect).2 _).2) = _
    rw [hc1]
    dsimp only
    rw [acts_append, hw2]
    show (_ :: ((acts C w1 (s.calls.map .call)).1 ++ [(act C w2 .disconnect).1]), (act C w2 .disconnect).2) = _
    rw [g1, e1]
    rfl
  rw [hall]
  refine ⟨w2, ds, j, rfl, e2, hos2, ?_, g3, g4, g5, g6, ?_, f7, ?_, g9⟩
  · show w3.os = _
    rw [g2, hos2]; simp [Session.trace]
  · intro g hg
    show w3.inbox g = _
    rw [g7, f6 g hg, hw1]
  · show w3.writes = _
    rw [g8, f8, hw1]

theorem act_os (C : BlockCipher) (w : World) {a : Action} (hp : a.Plain) : ∃ l, (act C w a).2.os = w.os ++ l := by
  rcases Action.plain_cases hp with rfl | rfl | ⟨k, rfl⟩
  · show ∃ l, w.connect.2.os = _
    unfold World.connect
    split <;> first | exact ⟨[], (List.append_nil _).symm⟩ | exact ⟨_, rfl⟩
  · show ∃ l, w.disconnect.2.os = _
    unfold World.disconnect
    split <;> first | exact ⟨[], (List.append_nil _).symm⟩ | exact ⟨_, rfl⟩
  · show ∃ l, (wcall C w k).2.os = _
    cases ht : w.transport.socket with
    | none => exact ⟨[], by rw [(wcall_closed (C := C) ht k).1]; simp⟩
    | some g =>
      obtain ⟨_, _, _, _, _, ds, _, f5, _⟩ := wcall_keeps (C := C) w ht k
      exact ⟨_, f5⟩

theorem acts_os (C : BlockCipher) (as : List Action) (hp : ∀ a ∈ as, a.Plain) : ∀ w : World,
    ∃ l, (acts C w as).2.os = w.os ++ l := by
  induction as with
  | nil => intro w; exact ⟨[], by simp [acts]⟩
  | cons a as ih =>
    intro w
    obtain ⟨l, hl⟩ := act_os C w (hp a List.mem_cons_self)
    obtain ⟨l', hl'⟩ := ih (fun b hb => hp b (List.mem_cons_of_mem _ hb)) (act C w a).2
    exact ⟨l ++ l', by simp only [acts]; rw [hl', hl, List.append_assoc]⟩

theorem ideal_ok {D D' : Device} {k : Call} {r : Outcome3 Value} (h : Ideal D k r D') (hk : k.InRange) (hd : D.Ok) :
    D'.Ok ∧ D'.key = D.key ∧ D'.password = D.password := by
  cases h with
  | writeTime t b =>
    refine ⟨⟨hd.password, ⟨?_, rfl⟩, hd.key, hd.status, hd.summary, hd.crc, hd.objects, hd.records, hd.recordsSince⟩, rfl, rfl⟩
    obtain ⟨h1, h2, h3⟩ := hk
    refine ⟨?_, h2, h3⟩
    unfold DateTime.Valid at h1 ⊢
    simp_all
  | _ => exact ⟨hd, rfl, rfl⟩

theorem ideals_ok {D D' : Device} {ks : List Call} {rs : List (Outcome3 Value)} (h : Ideals D ks rs D')
    (hk : ∀ k ∈ ks, k.InRange) (hd : D.Ok) : D'.Ok ∧ D'.key = D.key ∧ D'.password = D.password := by
  induction h with
  | nil D => exact ⟨hd, rfl, rfl⟩
  | call D D1 D' k ks r rs h1 _ ih =>
    obtain ⟨a1, a2, a3⟩ := ideal_ok h1 (hk k List.mem_cons_self) hd
    obtain ⟨b1, b2, b3⟩ := ih (fun j hj => hk j (List.mem_cons_of_mem _ hj)) a1
    exact ⟨b1, b2.trans a2, b3.trans a3⟩

theorem program_plain (s : Session) : ∀ a ∈ s.program, a.Plain := by
  intro a ha
  simp only [Session.program, List.mem_append, List.mem_cons, List.mem_map, List.not_mem_nil, or_false, List.cons_append] at ha
  rcases ha with rfl | ⟨k, _, rfl⟩ | rfl <;> trivial

theorem programs_plain (ss : List Session) : ∀ a ∈ ss.flatMap Session.program, a.Plain := by
  intro a ha
  obtain ⟨s, _, h⟩ := List.mem_flatMap.1 ha
  exact program_plain s a h

theorem sessions_world {C : BlockCipher} {ca : ConnArgs} {D' : Device} (ss : List Session) :
    ∀ (w : World) (D : Device) (n n1 n2 : Nat) (os : List OsCall), D.Ok → Fit C ca D w.sys → IsLatin1 w.password →
    latin1 w.password = D.password → (∀ s ∈ ss, ∀ k ∈ s.calls, k.InRange) → (ss.map (·.handle)).Nodup →
    w.transport.socket = none → w.opens = (ss.map fun s => .ok s.handle) → w.shutdowns = List.replicate n1 (.ok ()) →
    ss.length ≤ n1 → w.closes = List.replicate n2 (.ok ()) → ss.length ≤ n2 → w.writes = List.replicate n (.ok ()) →
    os = (acts C w (ss.flatMap Session.program)).2.os → (written os).length ≤ n + (written w.os).length →
    (∀ s ∈ ss, writtenTo s.handle w.os = []) → ServedIn C os D ss D' →
    (∀ s ∈ ss, content (w.inbox s.handle) = bytesOnly s.out) →
    SessionsIdeal D ss (acts C w (ss.flatMap Session.program)).1 D' ∧
      os = w.os ++ ss.flatMap (fun s => s.trace w.transport.kind (writtenTo s.handle os)) ∧
      (acts C w (ss.flatMap Session.program)).2.transport = w.transport := by
  induction ss with
  | nil =>
    intro w D n n1 n2 os _ _ _ _ _ _ _ _ _ _ _ _ _ hos _ _ hserve _
    cases hserve
    exact ⟨.nil _, by rw [hos]; simp [acts], rfl⟩
  | cons s ss ih =>
    intro w D n n1 n2 os hd hf hp hpw hks hdist ht hopens hsh hn1 hcl hn2 hwr hos hlen hnone hserve hin
    simp only [List.length_cons] at hn1 hn2
    obtain ⟨m1, rfl⟩ : ∃ m, n1 = m + 1 := ⟨n1 - 1, by omega⟩
    obtain ⟨m2, rfl⟩ : ∃ m, n2 = m + 1 := ⟨n2 - 1, by omega⟩
    rw [List.flatMap_cons, acts_append] at hos ⊢
    obtain ⟨w2, ds, j, e1, e2, e3, e4, e5, e6, ⟨m, hm, e7⟩, e8, e9, e10, e11, e12⟩ := session_frame (C := C) ht s
      (lo := ss.map fun s => .ok s.handle) (by rw [hopens]; rfl) hsh hcl _ rfl
    generalize hw1 : ({ w with
      transport := { w.transport with socket := some s.handle }, opens := ss.map fun s => .ok s.handle,
      os := w.os ++ [.create (some s.handle)] } : World) = w1 at *
    have ht1 : w1.transport.socket = some s.handle := by rw [← hw1]
    have hcfg := acts_config (C := C) s.program (program_plain s) w
    generalize hw' : (acts C w s.program).2 = w' at *
    dsimp only at hos ⊢
    simp only [List.map_cons, List.nodup_cons] at hdist
    have hds : writtenTo s.handle os = ds := by
      rw [hos, acts_other _ (programs_plain ss) w' (by rw [e5, ht]; simp) (by
        rw [e6]
        intro hmem
        obtain ⟨s', hs', h'⟩ := List.mem_map.1 hmem
        injection h' with h'
        exact hdist.1 (List.mem_map.2 ⟨s', hs', h'⟩))]
      rw [e4, writtenTo_append, hnone s List.mem_cons_self]
      unfold Session.trace
      rw [List.cons_append]
      show writtenTo s.handle (ds.map (.write s.handle) ++ closing w.transport.kind s.handle) = ds
      rw [writtenTo_append, writtenTo_writes, writtenTo_closing, List.append_nil]
    cases hserve with
    | session _ D1 _ _ _ hserve1 hserve2 =>
    rw [hds] at hserve1
    have hwd : written w'.os = written w.os ++ ds := by
      rw [e4, written_append]
      congr 1
      unfold Session.trace
      show written (ds.map (.write s.handle) ++ closing w.transport.kind s.handle) = ds
      rw [written_append, written_writes]
      cases w.transport.kind <;> exact List.append_nil _
    have hmono : (written w.os).length + ds.length ≤ (written os).length := by
      obtain ⟨l, hl⟩ := acts_os C _ (programs_plain ss) w'
      rw [hos, hl, written_append, hwd]
      simp only [List.length_append]; omega
    -- the calls
    obtain ⟨rs, k1, k2⟩ := serves_feeds hserve1 w1.transport s.handle ht1 (w.inbox s.handle) w.clock s.out.length
      (hin s List.mem_cons_self) (Nat.le_refl _)
    have hrecv : w1.sys.recvs = rs.map .ok ++ [] := by
      rw [List.append_nil, ← k1, recvs_enough ht1 _ _ _ (by rw [hin s List.mem_cons_self]; simp [bytesOnly])]
      rw [← hw1]
      rfl
    have hhand : (calls C w1.sys s.calls).2.handed = w1.sys.handed ++ ds := by
      rw [← callsV_calls, ← e2]
      show written w2.os = written w1.os ++ ds
      rw [e3, ← hw1]
      show written (w.os ++ ([.create (some s.handle)] ++ ds.map (.write s.handle))) =
        written (w.os ++ [.create (some s.handle)]) ++ ds
      rw [← List.append_assoc, written_append, written_writes]
    have hsess := session_fed (C := C) (ca := ca) (D' := D1) s.calls (hks s List.mem_cons_self) w1.sys D n ds rs [] hd
      (by rw [← hw1]; exact ⟨hf.reach, hf.ready, hf.context, hf.pads⟩) (by rw [← hw1]; exact hp)
      (by rw [← hw1]; exact hpw)
      (by rw [← hw1]; show (w.writes.map _) = _; rw [hwr, List.map_replicate]) hhand (by omega) hrecv k2
    obtain ⟨r1, _, r3⟩ := hsess
    obtain ⟨o1, o2, o3⟩ := ideals_ok r1 (hks s List.mem_cons_self) hd
    have hconn : w'.conn = w.conn := by
      rw [e12]
      have : w2.sys.conn = w1.sys.conn := by rw [e2, callsV_calls, r3]
      have h1 : w1.sys.conn = w.conn := by rw [← hw1]; rfl
      exact this.trans h1
    have hrest := ih w' D1 (n - j) m m2 os o1
      ⟨by show Reachable C ca w'.conn; rw [hconn]; exact hf.reach, by show Ready w'.conn; rw [hconn]; exact hf.ready,
        by rw [o2]; exact hf.context, by intro k; show PadOk (w'.rands k).pw; rw [hcfg.2]; exact hf.pads k⟩
      (by rw [hcfg.1]; exact hp) (by rw [hcfg.1, o3]; exact hpw) (fun x hx => hks x (List.mem_cons_of_mem _ hx))
      hdist.2 (by rw [e5]; exact ht) e6 e7 (by omega) e8 (by omega) (by rw [e11, hwr, List.drop_replicate]) hos
      (by rw [hwd, List.length_append]; omega)
      (fun x hx => by
        have hne : s.handle ≠ x.handle := fun h => hdist.1 (List.mem_map.2 ⟨x, hx, h.symm⟩)
        rw [e4, writtenTo_append, hnone x (List.mem_cons_of_mem _ hx)]
        unfold Session.trace
        show writtenTo x.handle (ds.map (.write s.handle) ++ closing w.transport.kind s.handle) = []
        rw [writtenTo_append, writtenTo_other hne, writtenTo_closing]; rfl)
      hserve2
      (fun x hx => by
        have hne : x.handle ≠ s.handle := fun h => hdist.1 (List.mem_map.2 ⟨x, hx, h⟩)
        rw [e9 _ hne]; exact hin x (List.mem_cons_of_mem _ hx))
    obtain ⟨q1, q2, q3⟩ := hrest
    refine ⟨?_, ?_, by rw [q3, e5]⟩
    · rw [e1]
      have := SessionsIdeal.session D D1 D' s ss _ _ r1 q1
      simpa using this
    · rw [List.flatMap_cons, hds]
      rw [e4, e5] at q2
      rw [← List.append_assoc]; exact q2

/-- C83. The same client object through any number of sessions, each with a handle of its own. -/
theorem C83_sessions (C : BlockCipher) (kind : Kind) (timeout : Option Int) (a : ClientArgs) (env : OsEnv) (w : World)
    (hm : mkWorld kind timeout a env = .ok w) (hr : ∀ i, PadOk (env.rands i).pw)
    (D D' : Device) (hd : D.Ok) (hk : SharesKey a D) (hp : KnowsPassword a D) (ss : List Session)
    (hks : ∀ s ∈ ss, ∀ k ∈ s.calls, k.InRange) (hdistinct : (ss.map (·.handle)).Nodup)
    (hopens : env.opens = ss.map fun s => .ok s.handle)
    (n : Nat) (hshut : env.shutdowns = List.replicate n (.ok ())) (hclose : env.closes = List.replicate n (.ok ()))
    (hwrites : env.writes = List.replicate n (.ok ())) (hn : ss.length ≤ n)
    (program : List Action) (hprog : program = ss.flatMap Session.program)
    (os : List OsCall) (hos : os = (acts C w program).2.os) (hn' : (written os).length ≤ n)
    (hserve : ServedIn C os D ss D') (hin : ∀ s ∈ ss, content (env.inbox s.handle) = bytesOnly s.out) :
    SessionsIdeal D ss (acts C w program).1 D' ∧
      os = ss.flatMap (fun s => s.trace kind (writtenTo s.handle os)) ∧
      (acts C w program).2.transport = mkTransport kind timeout := by
  obtain ⟨conn, hc, rfl⟩ := mkWorld_ok hm
  subst hprog
  have h := sessions_world (C := C) (D' := D') ss _ D n n n os hd
    ⟨⟨conn, [], hc, rfl⟩, mkWorld_ready hm, shares_context hk hd.key rfl, hr⟩ hp.1 hp.2 hks hdistinct rfl hopens hshut hn
    hclose hn hwrites hos hn' (fun _ _ => rfl) hserve hin
  obtain ⟨h1, h2, h3⟩ := h
  exact ⟨h1, h2, h3⟩


/-! ### Examples -/

/-- An operating system that opens the handles 5 and 6, on each of which the device answers once. -/
def exEnv : OsEnv :=
  { opens := [.ok 5, .ok 6], shutdowns := List.replicate 2 (.ok ()), closes := List.replicate 2 (.ok ()),
    writes := List.replicate 2 (.ok ()), inbox := fun h => if h = 5 ∨ h = 6 then exStream else [], clock := exClock,
    rands := fun _ => ⟨('a', 'b'), fun _ => 0⟩ }

def exSessions : List Session := [⟨5, [.readTime], exDeviceTime⟩, ⟨6, [.readTime], exDeviceTime⟩]

/-- The request line for the time. -/
def exAsk : Bytes := escBytes (frame 0x84 0x6C [0, 0, 0, 0, 0, 0] []).dropLast ++ [0x0D]

theorem exSessions_os : ∀ w, mkWorld .serial (some 0) exArgs exEnv = .ok w →
    (acts idCipher w (exSessions.flatMap Session.program)).2.os =
      [.create (some 5), .write 5 exAsk, .close 5, .create (some 6), .write 6 exAsk, .close 6] := by
  intro w hw
  rw [← Except.ok.inj hw]
  decide +kernel

theorem exServes : Serves idCipher (exDevice none (List.replicate 6 0x30)) [exAsk] exDeviceTime
    (exDevice none (List.replicate 6 0x30)) := by
  have := Serves.request (C := idCipher) (exDevice none (List.replicate 6 0x30)) (exDevice none (List.replicate 6 0x30))
    (exDevice none (List.replicate 6 0x30)) exAsk [] exDeviceTime []
    ⟨0x6C, [], .time, _, ⟨[0, 0, 0, 0, 0, 0], [], rfl, by decide, rfl, rfl⟩, .time, .time _ [] exTime_denotes,
      ⟨[0, 0, 0, 0, 0, 0], _, rfl, by decide, rfl, rfl⟩⟩ (.nil _)
  simpa using this

-- the hypotheses of C83_sessions, with two sessions
example : ∃ w, mkWorld .serial (some 0) exArgs exEnv = .ok w ∧
    (written (acts idCipher w (exSessions.flatMap Session.program)).2.os).length ≤ 2 ∧
    ServedIn idCipher (acts idCipher w (exSessions.flatMap Session.program)).2.os
      (exDevice none (List.replicate 6 0x30)) exSessions (exDevice none (List.replicate 6 0x30)) ∧
    ∀ s ∈ exSessions, content (exEnv.inbox s.handle) = bytesOnly s.out := by
  refine ⟨_, rfl, ?_, ?_, ?_⟩
  · rw [exSessions_os _ rfl]; decide +kernel
  · rw [exSessions_os _ rfl]
    exact .session _ _ _ _ _ exServes (.session _ _ _ _ _ exServes (.nil _))
  · intro s hs
    simp only [exSessions, List.mem_cons, List.not_mem_nil, or_false] at hs
    rcases hs with rfl | rfl <;> decide +kernel

-- and the hypotheses of C83_session, with one
example : ∃ w, mkWorld .tcp none exArgs exEnv = .ok w ∧
    (acts idCipher w (.connect :: [Call.readTime].map .call ++ [.disconnect])).2.os =
      [.create (some 5), .write 5 exAsk, .shutdown 5, .close 5] ∧ content (exEnv.inbox 5) = bytesOnly exDeviceTime :=
  ⟨_, rfl, by decide +kernel, by decide +kernel⟩

/-- How the actions of a program end. -/
def exEnds (kind : Kind) (as : List Action) : List Ended :=
  match mkWorld kind (some 0) exArgs exEnv with
  | .ok w => (acts idCipher w as).1.map ended
  | .error _ => []

-- a client that is used before it is connected is lost
example : exEnds .tcp [.call .readTime, .connect, .call .readTime, .disconnect, .connect, .call (.readArchive 1 2 3)] =
    [.raised .runtime, .returned, .raised (.elgas .localProtocol), .returned, .returned,
      .raised (.elgas .localProtocol)] := by decide +kernel
-- and so is one that is used after it has been disconnected
example : exEnds .tcp [.connect, .call .readTime, .disconnect, .call .readTime, .connect, .call .readTime] =
    [.returned, .returned, .returned, .raised .runtime, .returned, .raised (.elgas .localProtocol)] := by
  decide +kernel
-- a call that gets no answer: it does not come back, and the client is lost
example : exEnds .tcp [.connect, .call .readTime, .call .readTime, .disconnect, .connect, .call .readTime] =
    [.returned, .returned, .pending, .returned, .returned, .raised (.elgas .localProtocol)] := by
  decide +kernel
-- without the mistakes the client is of use
example : exEnds .tcp [.connect, .call .readTime, .disconnect, .connect, .call .readTime, .disconnect] =
    [.returned, .returned, .returned, .returned, .returned, .returned] := by decide +kernel

-- two requests at once, and the response of the first
example : exEnds .serial [.connect, .send [.readTimeRequest {}, .readTimeRequest {}], .nextEvent] =
    [.returned, .raised (.elgas .localProtocol), .returned] := by decide +kernel
-- nothing was asked: the line of the device is refused, but after a new connection it answers the request
example : exEnds .tcp [.connect, .nextEvent, .disconnect, .connect, .call .readTime] =
    [.returned, .raised (.elgas .localProtocol), .returned, .returned, .returned] := by decide +kernel

end Elgas
