import Verif.Props.Own
import Verif.Props.Lifecycle
import Verif.Spec.Assign
/-!
C97: programs that assign to the attributes of a client, of its connection and of its transport.
-/
namespace Elgas
open Spec

/-- The client whose connection has the password, password id, key and key id of `l`. -/
def World.named (w : World) (l : ConnArgs) : World := { w with conn := w.conn.named l }

theorem named_named (w : World) (l l' : ConnArgs) : (w.named l).named l' = w.named l' := rfl

theorem worldReceive_named (w : World) (l : ConnArgs) :
    (w.named l).receive = (w.receive.1, w.receive.2.named l) := by
  unfold World.receive
  have h1 : (w.named l).transport = w.transport := rfl
  have h2 : (w.named l).unread = w.unread := rfl
  have h3 : (w.named l).clock = w.clock := rfl
  have h4 : ∀ s c, (w.named l).setUnread s c = (w.setUnread s c).named l := by
    intro s c
    unfold World.setUnread
    rw [h1]
    cases w.transport.socket <;> rfl
  rw [h1, h2, h3]
  cases hr : w.transport.recv w.unread w.clock with | mk o t =>
  obtain ⟨s, c⟩ := t
  cases o with
  | returned d =>
    dsimp only
    rw [h4]
    have : (w.named l).conn.receiveData d = (w.conn.receiveData d).named l := receiveData_named w.conn l d
    rw [this]
    rfl
  | raised e => dsimp only; rw [h4]
  | pending => dsimp only; rw [h4]

theorem worldWrite_named (w : World) (l : ConnArgs) (d : Bytes) :
    (w.named l).write d = ((w.write d).1, (w.write d).2.named l) := by
  unfold World.write
  have h1 : (w.named l).transport = w.transport := rfl
  have h2 : (w.named l).writes = w.writes := rfl
  rw [h1, h2]
  cases w.transport.socket with
  | none => cases w.writes <;> rfl
  | some h => cases w.writes <;> rfl

theorem worldSend_named (C : BlockCipher) (w : World) (l : ConnArgs) (e : Event) :
    (w.named l).send C e = ((w.send C e).1, (w.send C e).2.named l) := by
  unfold World.send
  have h : (w.named l).conn.send C e ((w.named l).rands (w.named l).draws) =
    ((w.conn.send C e (w.rands w.draws)).1.named l, (w.conn.send C e (w.rands w.draws)).2) := send_named C w.conn l e _
  rw [h]
  cases hr : w.conn.send C e (w.rands w.draws) with | mk c o =>
  cases o with
  | error x => rfl
  | ok data =>
    dsimp only
    have hw := worldWrite_named { w with conn := c, draws := w.draws + 1 } l data
    have he : ({ w.named l with conn := c.named l, draws := w.draws + 1 } : World) =
      ({ w with conn := c, draws := w.draws + 1 } : World).named l := rfl
    have he' : (w.named l).draws = w.draws := rfl
    rw [he', he, hw]
    cases ({ w with conn := c, draws := w.draws + 1 } : World).write data with | mk o w1 =>
    cases o with
    | returned u => exact worldReceive_named w1 l
    | raised x => rfl
    | pending => rfl

theorem worldSendAll_named (C : BlockCipher) (l : ConnArgs) (es : List Event) : ∀ w : World,
    (w.named l).sendAll C es = ((w.sendAll C es).1, (w.sendAll C es).2.named l) := by
  induction es with
  | nil => intro w; rfl
  | cons e es ih =>
    intro w
    unfold World.sendAll
    rw [worldSend_named]
    cases w.send C e with | mk o w1 =>
    cases o with
    | returned u => exact ih w1
    | raised x => rfl
    | pending => rfl

theorem worldLoop_named (C : BlockCipher) (t : Transport) (l : ConnArgs) (c : Conn) (s : List Delivery) (k : Clock) :
    worldLoop C t (c.named l) s k =
      ((worldLoop C t c s k).1, (worldLoop C t c s k).2.1.named l, (worldLoop C t c s k).2.2) := by
  fun_induction worldLoop C t c s k with
  | case1 c s k c1 e h =>
    unfold worldLoop
    rw [nextEvent_named, h]
  | case2 c s k c1 ev h =>
    unfold worldLoop
    rw [nextEvent_named, h]
  | case3 c s k c1 h d s1 k1 hr ih =>
    conv => lhs; unfold worldLoop
    rw [nextEvent_named, h]
    dsimp only
    split
    · next d' s' k' hr' =>
      rw [hr] at hr'
      cases hr'
      rw [receiveData_named]
      exact ih
    · next hr' => rw [hr] at hr'; cases hr'
    · next hr' => rw [hr] at hr'; cases hr'
  | case4 c s k c1 h e s1 k1 hr =>
    unfold worldLoop
    rw [nextEvent_named, h]
    dsimp only
    split
    · next hr' => rw [hr] at hr'; cases hr'
    · next hr' => rw [hr] at hr'; cases hr'; rfl
    · next hr' => rw [hr] at hr'; cases hr'
  | case5 c s k c1 h s1 k1 hr =>
    unfold worldLoop
    rw [nextEvent_named, h]
    dsimp only
    split
    · next hr' => rw [hr] at hr'; cases hr'
    · next hr' => rw [hr] at hr'; cases hr'
    · next hr' => rw [hr] at hr'; cases hr'; rfl

theorem worldNext_named (C : BlockCipher) (w : World) (l : ConnArgs) :
    (w.named l).nextEvent C = ((w.nextEvent C).1, (w.nextEvent C).2.named l) := by
  unfold World.nextEvent
  have h : worldLoop C (w.named l).transport (w.named l).conn (w.named l).unread (w.named l).clock =
    ((worldLoop C w.transport w.conn w.unread w.clock).1, (worldLoop C w.transport w.conn w.unread w.clock).2.1.named l,
      (worldLoop C w.transport w.conn w.unread w.clock).2.2) := worldLoop_named C w.transport l w.conn w.unread w.clock
  rw [h]
  cases worldLoop C w.transport w.conn w.unread w.clock with | mk o t =>
  obtain ⟨c, s, k⟩ := t
  dsimp only
  refine Prod.ext rfl ?_
  unfold World.setUnread
  have h1 : (w.named l).transport = w.transport := rfl
  rw [h1]
  cases w.transport.socket <;> rfl

theorem worldExchange_named (C : BlockCipher) (w : World) (l : ConnArgs) (e : Event) :
    (w.named l).exchange C e = ((w.exchange C e).1, (w.exchange C e).2.named l) := by
  unfold World.exchange
  rw [worldSend_named]
  cases w.send C e with | mk o w1 =>
  cases o with
  | returned u => exact worldNext_named C w1 l
  | raised x => rfl
  | pending => rfl

theorem worldPages_named (C : BlockCipher) (l : ConnArgs) (w : World) (n : Int) (total : Bytes) :
    (w.named l).readPages C n total = ((w.readPages C n total).1, (w.readPages C n total).2.named l) := by
  fun_induction World.readPages C w n total with
  | case1 w n total e w1 h =>
    have h' := worldExchange_named C w l (pageRequest w.password n)
    unfold pageRequest at h'
    rw [h] at h'
    unfold World.readPages
    split
    · next hx => rw [show (w.named l).password = w.password from rfl, h'] at hx; cases hx; rfl
    · next hx => rw [show (w.named l).password = w.password from rfl, h'] at hx; cases hx
    · next hx => rw [show (w.named l).password = w.password from rfl, h'] at hx; cases hx
    · next hx => rw [show (w.named l).password = w.password from rfl, h'] at hx; cases hx
  | case2 w n total w1 h =>
    have h' := worldExchange_named C w l (pageRequest w.password n)
    unfold pageRequest at h'
    rw [h] at h'
    unfold World.readPages
    split
    · next hx => rw [show (w.named l).password = w.password from rfl, h'] at hx; cases hx
    · next hx => rw [show (w.named l).password = w.password from rfl, h'] at hx; cases hx; rfl
    · next hx => rw [show (w.named l).password = w.password from rfl, h'] at hx; cases hx
    · next hx => rw [show (w.named l).password = w.password from rfl, h'] at hx; cases hx
  | case3 w n total p w1 h hend =>
    have h' := worldExchange_named C w l (pageRequest w.password n)
    unfold pageRequest at h'
    rw [h] at h'
    unfold World.readPages
    split
    · next hx => rw [show (w.named l).password = w.password from rfl, h'] at hx; cases hx
    · next hx => rw [show (w.named l).password = w.password from rfl, h'] at hx; cases hx
    · next hx =>
      rw [show (w.named l).password = w.password from rfl, h'] at hx; cases hx
      rw [if_pos hend]
    · next hne hx =>
      rw [show (w.named l).password = w.password from rfl, h'] at hx; cases hx
      exact absurd rfl (hne p)
  | case4 w n total p w1 h hend ih =>
    have h' := worldExchange_named C w l (pageRequest w.password n)
    unfold pageRequest at h'
    rw [h] at h'
    conv => lhs; unfold World.readPages
    split
    · next hx => rw [show (w.named l).password = w.password from rfl, h'] at hx; cases hx
    · next hx => rw [show (w.named l).password = w.password from rfl, h'] at hx; cases hx
    · next hx =>
      rw [show (w.named l).password = w.password from rfl, h'] at hx; cases hx
      rw [if_neg hend]
      exact ih
    · next hne hx =>
      rw [show (w.named l).password = w.password from rfl, h'] at hx; cases hx
      exact absurd rfl (hne p)
  | case5 w n total o w1 hne h =>
    have h' := worldExchange_named C w l (pageRequest w.password n)
    unfold pageRequest at h'
    rw [h] at h'
    unfold World.readPages
    split
    · next hx => rw [show (w.named l).password = w.password from rfl, h'] at hx; cases hx
    · next hx => rw [show (w.named l).password = w.password from rfl, h'] at hx; cases hx
    · next p' _ hx =>
      rw [show (w.named l).password = w.password from rfl, h'] at hx
      injection hx with hx _
      injection hx with hx
      exact absurd hx (hne p')
    · next hx => rw [show (w.named l).password = w.password from rfl, h'] at hx; cases hx; rfl

theorem act_named (C : BlockCipher) (w : World) (l : ConnArgs) (a : Action) :
    act C (w.named l) a = ((act C w a).1, (act C w a).2.named l) := by
  cases a with
  | connect =>
    have : (w.named l).connect = (w.connect.1, w.connect.2.named l) := by
      unfold World.connect
      have h1 : (w.named l).transport = w.transport := rfl
      have h2 : (w.named l).opens = w.opens := rfl
      rw [h1, h2]
      cases w.transport.socket with
      | some h => rfl
      | none => cases w.opens <;> rfl
    simp only [act, this]
  | disconnect =>
    have : (w.named l).disconnect = (w.disconnect.1, w.disconnect.2.named l) := by
      unfold World.disconnect
      have h1 : (w.named l).transport = w.transport := rfl
      have h2 : (w.named l).shutdowns = w.shutdowns := rfl
      have h3 : (w.named l).closes = w.closes := rfl
      rw [h1, h2, h3]
      split <;> rfl
    simp only [act, this]
  | call k =>
    have hp : (w.named l).password = w.password := rfl
    cases k with
    | readInstantaneousValues =>
      simp only [act, wcall, World.readInstantaneousValues, hp, worldExchange_named]
    | readTime => simp only [act, wcall, World.readTime, worldExchange_named]
    | writeTime t b => simp only [act, wcall, World.writeTime, hp, worldExchange_named]
    | readParameters n => simp only [act, wcall, World.readParameters, worldPages_named]
    | readArchive a n i => simp only [act, wcall, World.readArchive, hp, worldExchange_named]
    | readArchiveByTime a n t => simp only [act, wcall, World.readArchiveByTime, hp, worldExchange_named]
  | send es => simp only [act, worldSendAll_named]
  | nextEvent => simp only [act, worldNext_named]


/-! ### What a program of actions leaves as it is -/

/-- From `w` to `w'` the client kept its password, and its connection its arguments and cipher context; what was written
are requests of such a connection. -/
structure Goes (C : BlockCipher) (w w' : World) : Prop where
  args : w'.conn.args = w.conn.args
  context : w'.conn.cipherContext = w.conn.cipherContext
  password : w'.password = w.password
  rands : w'.rands = w.rands
  os : ∃ l, w'.os = w.os ++ l ∧ ∀ h d, OsCall.write h d ∈ l →
    ∃ c e r, c.args = w.conn.args ∧ c.cipherContext = w.conn.cipherContext ∧ Conn.serialise C c e r = .ok d

theorem Goes.trans {C : BlockCipher} {w w1 w2 : World} (h : Goes C w w1) (h' : Goes C w1 w2) : Goes C w w2 := by
  obtain ⟨a1, a2, a3, a4, l, a5, a6⟩ := h
  obtain ⟨b1, b2, b3, b4, l', b5, b6⟩ := h'
  refine ⟨b1.trans a1, b2.trans a2, b3.trans a3, b4.trans a4, l ++ l', by rw [b5, a5, List.append_assoc], ?_⟩
  intro h d hd
  rcases List.mem_append.1 hd with hd | hd
  · exact a6 h d hd
  · obtain ⟨c, e, r, h1, h2, h3⟩ := b6 h d hd
    exact ⟨c, e, r, h1.trans a1, h2.trans a2, h3⟩

/-- Steps that write nothing. -/
theorem goes_silent {C : BlockCipher} {w w' : World} (h1 : w'.conn.args = w.conn.args)
    (h2 : w'.conn.cipherContext = w.conn.cipherContext) (h3 : w'.password = w.password) (h4 : w'.rands = w.rands)
    (l : List OsCall) (h5 : w'.os = w.os ++ l) (h6 : ∀ h d, OsCall.write h d ∉ l) : Goes C w w' :=
  ⟨h1, h2, h3, h4, l, h5, fun h d hd => absurd hd (h6 h d)⟩

theorem worldLoop_conn_frame (C : BlockCipher) (t : Transport) (c : Conn) (s : List Delivery) (k : Clock) :
    (worldLoop C t c s k).2.1.args = c.args ∧ (worldLoop C t c s k).2.1.cipherContext = c.cipherContext := by
  fun_induction worldLoop C t c s k with
  | case1 c s k c1 e h => have := nextEvent_frame C c; rw [h] at this; exact this
  | case2 c s k c1 ev h => have := nextEvent_frame C c; rw [h] at this; exact this
  | case3 c s k c1 h d s1 k1 hr ih =>
    have := nextEvent_frame C c; rw [h] at this
    have h2 := receiveData_frame c1 d
    exact ⟨ih.1.trans (h2.1.trans this.1), ih.2.trans (h2.2.1.trans this.2)⟩
  | case4 c s k c1 h e s1 k1 hr => have := nextEvent_frame C c; rw [h] at this; exact this
  | case5 c s k c1 h s1 k1 hr => have := nextEvent_frame C c; rw [h] at this; exact this

theorem setUnread_same (w : World) (s : List Delivery) (k : Clock) : (w.setUnread s k).conn = w.conn ∧
    (w.setUnread s k).password = w.password ∧ (w.setUnread s k).rands = w.rands ∧ (w.setUnread s k).os = w.os := by
  unfold World.setUnread
  split <;> exact ⟨rfl, rfl, rfl, rfl⟩

theorem receive_goes (C : BlockCipher) (w : World) : Goes C w w.receive.2 := by
  unfold World.receive
  split
  · next d s c hr =>
    have h := setUnread_same w s c
    have h2 := receiveData_frame w.conn d
    exact goes_silent h2.1 h2.2.1 h.2.1 h.2.2.1 [] (by rw [List.append_nil]; exact h.2.2.2) (by simp)
  · next s c hr =>
    have h := setUnread_same w s c
    exact goes_silent (by rw [h.1]) (by rw [h.1]) h.2.1 h.2.2.1 [] (by rw [List.append_nil]; exact h.2.2.2) (by simp)
  · next s c hr =>
    have h := setUnread_same w s c
    exact goes_silent (by rw [h.1]) (by rw [h.1]) h.2.1 h.2.2.1 [] (by rw [List.append_nil]; exact h.2.2.2) (by simp)

theorem nextEvent_goes (C : BlockCipher) (w : World) : Goes C w (w.nextEvent C).2 := by
  have h1 := worldLoop_conn_frame C w.transport w.conn w.unread w.clock
  unfold World.nextEvent
  cases hl : worldLoop C w.transport w.conn w.unread w.clock with | mk o t =>
  obtain ⟨c, s, k⟩ := t
  rw [hl] at h1
  dsimp only
  have h := setUnread_same w s k
  exact goes_silent h1.1 h1.2 h.2.1 h.2.2.1 [] (by rw [List.append_nil]; exact h.2.2.2) (by simp)

theorem write_goes {C : BlockCipher} {w : World} {d : Bytes} {c : Conn} {e : Event} {r : Rand}
    (h1 : c.args = w.conn.args) (h2 : c.cipherContext = w.conn.cipherContext) (h3 : c.serialise C e r = .ok d) :
    Goes C w (w.write d).2 := by
  have hone : ∀ (h h' : Handle) (d' : Bytes), OsCall.write h' d' ∈ [OsCall.write h d] →
      ∃ c e r, c.args = w.conn.args ∧ c.cipherContext = w.conn.cipherContext ∧ Conn.serialise C c e r = .ok d' := by
    intro h h' d' hm
    simp only [List.mem_singleton, OsCall.write.injEq] at hm
    rw [hm.2]
    exact ⟨c, e, r, h1, h2, h3⟩
  unfold World.write
  split
  · next h hs hw => exact ⟨rfl, rfl, rfl, rfl, _, rfl, hone h⟩
  · next h os ws hs hw =>
    refine ⟨rfl, rfl, rfl, rfl, _, rfl, ?_⟩
    have : (w.transport.send d os).1 = [.write h d] := by
      unfold Transport.send
      rw [hs]
      cases os <;> rfl
    rw [this]
    exact hone h
  · exact ⟨rfl, rfl, rfl, rfl, [], by simp, by simp⟩

theorem send_goes (C : BlockCipher) (w : World) (e : Event) : Goes C w (w.send C e).2 := by
  unfold World.send Conn.send
  cases processEvent w.conn.state e with
  | error x => exact ⟨rfl, rfl, rfl, rfl, [], by simp, by simp⟩
  | ok s' =>
    dsimp only
    cases hs : ({ w.conn with state := s' } : Conn).serialise C e (w.rands w.draws) with
    | error x => exact ⟨rfl, rfl, rfl, rfl, [], by simp, by simp⟩
    | ok data =>
      dsimp only
      have h0 : Goes C w { w with conn := { w.conn with state := s' }, draws := w.draws + 1 } :=
        ⟨rfl, rfl, rfl, rfl, [], by simp, by simp⟩
      have h1 := write_goes (C := C) (w := { w with conn := { w.conn with state := s' }, draws := w.draws + 1 })
        (c := { w.conn with state := s' }) rfl rfl hs
      cases hw : ({ w with conn := { w.conn with state := s' }, draws := w.draws + 1 } : World).write data with
      | mk o w1 =>
      rw [hw] at h1
      cases o with
      | returned u => exact (h0.trans h1).trans (receive_goes C w1)
      | raised x => exact h0.trans h1
      | pending => exact h0.trans h1

theorem sendAll_goes (C : BlockCipher) (es : List Event) : ∀ w : World, Goes C w (w.sendAll C es).2 := by
  induction es with
  | nil => intro w; exact ⟨rfl, rfl, rfl, rfl, [], by simp [World.sendAll], by simp⟩
  | cons e es ih =>
    intro w
    have h := send_goes C w e
    unfold World.sendAll
    cases hs : w.send C e with | mk o w1 =>
    rw [hs] at h
    cases o with
    | returned u => exact h.trans (ih w1)
    | raised x => exact h
    | pending => exact h

theorem exchange_goes (C : BlockCipher) (w : World) (e : Event) : Goes C w (w.exchange C e).2 := by
  have h := send_goes C w e
  unfold World.exchange
  cases hs : w.send C e with | mk o w1 =>
  rw [hs] at h
  cases o with
  | returned u => exact h.trans (nextEvent_goes C w1)
  | raised x => exact h
  | pending => exact h

theorem readPages_goes (C : BlockCipher) (w : World) (n : Int) (total : Bytes) : Goes C w (w.readPages C n total).2 := by
  fun_induction World.readPages C w n total with
  | case1 w n total e w1 h => have := exchange_goes C w (pageRequest w.password n); unfold pageRequest at this; rw [h] at this; exact this
  | case2 w n total w1 h => have := exchange_goes C w (pageRequest w.password n); unfold pageRequest at this; rw [h] at this; exact this
  | case3 w n total p w1 h hend => have := exchange_goes C w (pageRequest w.password n); unfold pageRequest at this; rw [h] at this; exact this
  | case4 w n total p w1 h hend ih =>
    have := exchange_goes C w (pageRequest w.password n); unfold pageRequest at this; rw [h] at this; exact this.trans ih
  | case5 w n total o w1 hne h => have := exchange_goes C w (pageRequest w.password n); unfold pageRequest at this; rw [h] at this; exact this

theorem disconnect_asked (t : Transport) (a b : Res Unit) (h : Handle) (d : Bytes) :
    OsCall.write h d ∉ (t.disconnect a b).2.1 := by
  unfold Transport.disconnect
  repeat' split
  all_goals simp

theorem act_goes (C : BlockCipher) (w : World) (a : Action) : Goes C w (act C w a).2 := by
  cases a with
  | connect =>
    show Goes C w w.connect.2
    unfold World.connect Transport.connect
    split
    · exact goes_silent rfl rfl rfl rfl [] (by simp) (by simp)
    · next hs _ =>
      rw [hs]
      dsimp only
      split
      · exact goes_silent rfl rfl rfl rfl _ rfl (by simp)
      · exact goes_silent rfl rfl rfl rfl _ rfl (by simp)
    · exact goes_silent rfl rfl rfl rfl [] (by simp) (by simp)
  | disconnect =>
    show Goes C w w.disconnect.2
    unfold World.disconnect
    split
    · exact goes_silent rfl rfl rfl rfl [] (by simp) (by simp)
    · exact goes_silent rfl rfl rfl rfl [] (by simp) (by simp)
    · exact goes_silent rfl rfl rfl rfl _ rfl (by simp)
    · exact goes_silent rfl rfl rfl rfl _ rfl (disconnect_asked _ _ _)
    · exact goes_silent rfl rfl rfl rfl _ rfl (disconnect_asked _ _ _)
    · exact goes_silent rfl rfl rfl rfl [] (by simp) (by simp)
    · exact goes_silent rfl rfl rfl rfl _ rfl (disconnect_asked _ _ _)
  | call k =>
    cases k with
    | readParameters n => exact readPages_goes C w n []
    | readInstantaneousValues => exact exchange_goes C w _
    | readTime => exact exchange_goes C w _
    | writeTime t b => exact exchange_goes C w _
    | readArchive a n i => exact exchange_goes C w _
    | readArchiveByTime a n t => exact exchange_goes C w _
  | send es => exact sendAll_goes C es w
  | nextEvent => exact nextEvent_goes C w

theorem serialise_type {C : BlockCipher} {c : Conn} {e : Event} {r : Rand} {d : Bytes}
    (h : c.serialise C e r = .ok d) :
    d.take 3 = [0x02, 0xFE, if c.cipherContext.isSome then 0x85 else 0x84] := by
  have key : ∀ ty f raw, requestToBytes ty f = .ok raw → escapeCharacters raw = .ok d → escByte ty = [ty] →
      d.take 3 = [0x02, 0xFE, ty] := by
    intro ty f raw hr hd ht
    obtain ⟨z, hz, rfl⟩ := escapeCharacters_eq_ok hd
    unfold requestToBytes at hr
    simp only [bind_eq_ok] at hr
    obtain ⟨a1, _, a2, _, a3, _, a4, _, a5, _, a6, _, hr⟩ := hr
    have hr := Except.ok.inj hr
    unfold appendRedundancy at hr
    simp only [List.cons_append, List.nil_append, List.append_assoc] at hr
    subst hz
    cases z with
    | nil => simp at hr
    | cons z1 z =>
      cases z with
      | nil => simp at hr
      | cons z2 z =>
        cases z with
        | nil => simp at hr
        | cons z3 z =>
          simp only [List.cons_append, List.cons.injEq] at hr
          obtain ⟨rfl, rfl, rfl, _⟩ := hr
          rw [escBytes_cons, escBytes_cons, escBytes_cons, ht]
          rfl
  unfold Conn.serialise at h
  rw [bind_eq_ok] at h
  obtain ⟨body, _, h⟩ := h
  split at h
  · next x hx =>
    simp only [bind_eq_ok] at h
    obtain ⟨sv, _, dat, _, raw, hr, h⟩ := h
    rw [hx]
    exact key encryptedRequestType _ _ hr h (by decide)
  · next hx =>
    simp only [bind_eq_ok] at h
    obtain ⟨sv, _, raw, hr, h⟩ := h
    rw [hx]
    exact key requestType _ _ hr h (by decide)

/-! ### Assignments without effect -/

/-- The objects differ at most in what no method looks at. -/
def Twin (o o' : ClientObject) : Prop := ∃ l, o'.world = o.world.named l

theorem Twin.refl (o : ClientObject) : Twin o o := ⟨o.world.conn.args, rfl⟩

theorem Twin.of_world {o o' : ClientObject} (h : o'.world = o.world) : Twin o o' := ⟨o.world.conn.args, h.trans rfl⟩

theorem Twin.trans {o o1 o2 : ClientObject} (h : Twin o o1) (h' : Twin o1 o2) : Twin o o2 := by
  obtain ⟨l, h⟩ := h
  obtain ⟨l', h'⟩ := h'
  exact ⟨l', by rw [h', h, named_named]⟩

theorem cosmetic_twin (C : BlockCipher) (o : ClientObject) (s : Step) (h : s.cosmetic = true) :
    (perform C o s).1 = .returned .nothing ∧ Twin o (perform C o s).2 := by
  cases s with
  | act a => cases h
  | renew a => cases h
  | set x =>
    cases x <;> first | (exact Bool.noConfusion h) | skip
    · exact ⟨rfl, .of_world rfl⟩
    · exact ⟨rfl, .of_world rfl⟩
    · exact ⟨rfl, .of_world rfl⟩
    · next s => exact ⟨rfl, { o.world.conn.args with password := s }, rfl⟩
    · next n => exact ⟨rfl, { o.world.conn.args with passwordId := n }, rfl⟩
    · next k => exact ⟨rfl, { o.world.conn.args with encryptionKey := k }, rfl⟩
    · next n => exact ⟨rfl, { o.world.conn.args with encryptionKeyId := n }, rfl⟩

theorem twin_step (C : BlockCipher) {o o' : ClientObject} (h : Twin o o') (s : Step) :
    (perform C o' s).1 = (perform C o s).1 ∧ Twin (perform C o s).2 (perform C o' s).2 := by
  obtain ⟨l, h⟩ := h
  cases s with
  | act a =>
    simp only [perform, h, act_named]
    exact ⟨trivial, l, rfl⟩
  | renew a =>
    simp only [perform, ClientObject.renew]
    cases clientConn a with
    | error x => exact ⟨rfl, l, h⟩
    | ok c =>
      simp only [settled, pure, Except.pure, bind, Except.bind, h]
      exact ⟨trivial, c.args, rfl⟩
  | set x =>
    obtain ⟨w, o2, o3, o4, o5, o6, o7, o8, o9⟩ := o
    obtain ⟨w', p2, p3, p4, p5, p6, p7, p8, p9⟩ := o'
    dsimp only at h
    subst h
    cases x with
    | password s => exact ⟨rfl, l, rfl⟩
    | passwordId n => exact ⟨rfl, l, rfl⟩
    | encryptionKey k => exact ⟨rfl, l, rfl⟩
    | encryptionKeyId n => exact ⟨rfl, l, rfl⟩
    | connection a =>
      simp only [perform, ClientObject.set]
      cases mkConn a with
      | error x => exact ⟨rfl, l, rfl⟩
      | ok c => exact ⟨rfl, c.args, rfl⟩
    | timeout t => exact ⟨rfl, l, rfl⟩
    | sourceAddress1 n => exact ⟨rfl, l, rfl⟩
    | sourceAddress2 n => exact ⟨rfl, l, rfl⟩
    | destinationAddress1 n => exact ⟨rfl, l, rfl⟩
    | destinationAddress2 n => exact ⟨rfl, l, rfl⟩
    | connPassword s => exact ⟨rfl, { l with password := s }, rfl⟩
    | connPasswordId n => exact ⟨rfl, { l with passwordId := n }, rfl⟩
    | connEncryptionKey k => exact ⟨rfl, { l with encryptionKey := k }, rfl⟩
    | connEncryptionKeyId n => exact ⟨rfl, { l with encryptionKeyId := n }, rfl⟩
    | buffer b => exact ⟨rfl, l, rfl⟩
    | state s => exact ⟨rfl, l, rfl⟩
    | cipherContext x => exact ⟨rfl, l, rfl⟩

theorem twin_same (C : BlockCipher) {o o' : ClientObject} (h : Twin o o') : SameFromHere C o o' := by
  intro rest
  induction rest generalizing o o' with
  | nil =>
    obtain ⟨l, h⟩ := h
    exact ⟨rfl, by simp only [performs]; rw [h]; rfl⟩
  | cons s rest ih =>
    obtain ⟨h1, h2⟩ := twin_step C h s
    obtain ⟨h3, h4⟩ := ih h2
    exact ⟨by simp only [performs, h1, h3], by simp only [performs]; exact h4⟩

/-- C97. Assigning to `password_id`, `encryption_key` or `encryption_key_id` of a client, or to `password`,
`password_id`, `encryption_key` or `encryption_key_id` of its connection, never has an effect: a program with such
assignments does to the operating system what the program without them does, and all its other steps have the same
results. -/
theorem C97_without_effect (C : BlockCipher) (o : ClientObject) (program : List Step) :
    (performs C o program).2.world.os = (performs C o (program.filter fun s => !s.cosmetic)).2.world.os ∧
    (trace C o program).filter (fun x => !x.1.cosmetic) = trace C o (program.filter fun s => !s.cosmetic) ∧
    ∀ x ∈ trace C o program, x.1.cosmetic = true → x.2 = .returned .nothing := by
  have key : ∀ (program : List Step) (o o' : ClientObject), Twin o o' →
      (performs C o' program).2.world.os = (performs C o (program.filter fun s => !s.cosmetic)).2.world.os ∧
      (trace C o' program).filter (fun x => !x.1.cosmetic) = trace C o (program.filter fun s => !s.cosmetic) ∧
      ∀ x ∈ trace C o' program, x.1.cosmetic = true → x.2 = .returned .nothing := by
    intro program
    induction program with
    | nil =>
      rintro o o' ⟨l, h⟩
      exact ⟨by simp only [performs, List.filter_nil]; rw [h]; rfl, rfl, by simp [trace]⟩
    | cons s rest ih =>
      intro o o' h
      cases hs : s.cosmetic with
      | true =>
        obtain ⟨h1, h2⟩ := cosmetic_twin C o' s hs
        obtain ⟨i1, i2, i3⟩ := ih o _ (h.trans h2)
        rw [List.filter_cons_of_neg (by simp [hs])]
        refine ⟨i1, ?_, ?_⟩
        · rw [← i2]
          show (((s, _) :: trace C _ rest).filter _) = _
          rw [List.filter_cons_of_neg (by simp [hs])]
        · intro x hx
          rcases List.mem_cons.1 hx with rfl | hx
          · intro _; exact h1
          · exact i3 x hx
      | false =>
        obtain ⟨h1, h2⟩ := twin_step C h s
        obtain ⟨i1, i2, i3⟩ := ih _ _ h2
        rw [List.filter_cons_of_pos (by simp [hs])]
        refine ⟨i1, ?_, ?_⟩
        · show (((s, _) :: trace C _ rest).filter _) = (s, _) :: trace C _ _
          rw [List.filter_cons_of_pos (by simp [hs]), i2, h1]
        · intro x hx
          rcases List.mem_cons.1 hx with rfl | hx
          · intro hc; rw [hs] at hc; cases hc
          · exact i3 x hx
  exact key program o o (.refl o)

/-! ### The key -/

theorem mkObject_ok {kind : Kind} {timeout : Option Int} {a : ClientArgs} {env : OsEnv} {o : ClientObject}
    (h : mkObject kind timeout a env = .ok o) : mkWorld kind timeout a env = .ok o.world := by
  unfold mkObject at h
  rw [bind_eq_ok] at h
  obtain ⟨w, hw, h⟩ := h
  rw [hw, ← Except.ok.inj h]

/-- The cipher context of a new client. -/
def contextFor (a : ClientArgs) : Option CipherContext :=
  match a.encryptionKey, a.encryptionKeyId with
  | some (x :: key), some keyId => some ⟨keyId, x :: key⟩
  | _, _ => none

theorem created_context (a : ClientArgs) : createCipherContext
    { sourceAddress1 := 0, sourceAddress2 := 0, destinationAddress1 := 0, destinationAddress2 := 0,
      password := toSecretStr a.password, passwordId := a.passwordId,
      encryptionKey := toSecretByte a.encryptionKey, encryptionKeyId := a.encryptionKeyId } =
    contextFor a := by
  unfold createCipherContext toSecretByte contextFor
  dsimp only
  rcases a.encryptionKey with _ | ⟨_ | ⟨x, key⟩⟩ <;> cases a.encryptionKeyId <;> rfl

/-- What a new client object looks like. -/
theorem mkObject_conn {kind : Kind} {timeout : Option Int} {a : ClientArgs} {env : OsEnv} {o : ClientObject}
    (h : mkObject kind timeout a env = .ok o) : ∃ conn, clientConn a = .ok conn ∧ o.world =
      { password := toSecretStr a.password, conn, transport := mkTransport kind timeout, opens := env.opens,
        shutdowns := env.shutdowns, closes := env.closes, writes := env.writes, inbox := env.inbox,
        clock := env.clock, rands := env.rands } := by
  have := mkObject_ok h
  unfold mkWorld at this
  rw [bind_eq_ok] at this
  obtain ⟨conn, hc, hw⟩ := this
  exact ⟨conn, hc, (Except.ok.inj hw).symm⟩

/-- What can be serialised has addresses in range and is a request. -/
theorem serialise_onLine {C : BlockCipher} {c : Conn} {e : Event} {r : Rand} {d : Bytes}
    (h : c.serialise C e r = .ok d) : OnLine C c.args c.cipherContext e d := by
  have hf : ∃ (ty : UInt8) (f : Frame) (raw : Bytes), requestToBytes ty f = .ok raw ∧
      f.da1 = c.args.destinationAddress1 ∧ f.da2 = c.args.destinationAddress2 ∧ f.sa1 = c.args.sourceAddress1 ∧
      f.sa2 = c.args.sourceAddress2 := by
    unfold Conn.serialise at h
    rw [bind_eq_ok] at h
    obtain ⟨body, _, h⟩ := h
    split at h
    · simp only [bind_eq_ok] at h
      obtain ⟨sv, _, dat, _, raw, hr, h⟩ := h
      exact ⟨_, _, raw, hr, rfl, rfl, rfl, rfl⟩
    · simp only [bind_eq_ok] at h
      obtain ⟨sv, _, raw, hr, h⟩ := h
      exact ⟨_, _, raw, hr, rfl, rfl, rfl, rfl⟩
  obtain ⟨ty, f, raw, hr, h1, h2, h3, h4⟩ := hf
  have hin : f.InRange := by
    by_cases hi : f.InRange
    · exact hi
    · rcases requestToBytes_error ty f hi with hx | hx <;> rw [hx] at hr <;> cases hr
  obtain ⟨⟨a1, a2⟩, ⟨b1, b2⟩, ⟨c1, c2⟩, ⟨d1, d2⟩, _⟩ := hin
  let a : ConnArgs := keyed { c.args with password := [], passwordId := 801 } c.cipherContext
  have ha : ArgsOk a := by
    refine ⟨⟨?_, ?_⟩, ⟨?_, ?_⟩, ⟨?_, ?_⟩, ⟨?_, ?_⟩, Nat.zero_le _, Int.le_refl _, ?_⟩ <;>
      dsimp only [a, keyed] <;> omega
  have hc0 : mkConn a = .ok ⟨a, [], .idle, c.cipherContext⟩ := by
    rw [mkConn_eq, if_pos ha, keyed_context]
  have hreq : ∃ s', processEvent .idle e = .ok s' := by
    unfold Conn.serialise at h
    rw [bind_eq_ok] at h
    obtain ⟨body, hb, h⟩ := h
    cases e <;> first | exact ⟨_, rfl⟩ | (unfold Event.toBytes at hb; cases hb) | skip
    next p =>
      exfalso
      split at h <;> cases h
  obtain ⟨s', hs'⟩ := hreq
  have hsend : ((⟨a, [], .idle, c.cipherContext⟩ : Conn).send C e r).2 = .ok d := by
    unfold Conn.send
    rw [show (⟨a, [], .idle, c.cipherContext⟩ : Conn).state = .idle from rfl, hs']
    exact h
  have := send_onLine (C := C) (a := a) ⟨_, [], hc0, rfl⟩ hsend
  rw [show createCipherContext a = c.cipherContext from keyed_context _ _] at this
  exact this

theorem perform_written {C : BlockCipher} {o : ClientObject} {s : Step} (hs : s.NoContext) :
    (perform C o s).2.world.conn.cipherContext = o.world.conn.cipherContext ∧
    ∃ l, (perform C o s).2.world.os = o.world.os ++ l ∧ ∀ h d, OsCall.write h d ∈ l →
      ∃ (c : Conn) (e : Event) (r : Rand), c.cipherContext = o.world.conn.cipherContext ∧ c.serialise C e r = .ok d := by
  cases s with
  | act a =>
    obtain ⟨h1, h2, _, _, l, h3, h4⟩ := act_goes C o.world a
    refine ⟨h2, l, h3, ?_⟩
    intro h d hd
    obtain ⟨c, e, r, _, hc, hw⟩ := h4 h d hd
    exact ⟨c, e, r, hc, hw⟩
  | renew a => exact absurd hs id
  | set x =>
    cases x with
    | connection a => exact absurd hs id
    | cipherContext x => exact absurd hs id
    | _ => exact ⟨rfl, [], (List.append_nil _).symm, by simp⟩

theorem performs_written {C : BlockCipher} (program : List Step) : ∀ (o : ClientObject),
    (∀ s ∈ program, s.NoContext) → ∃ l, (performs C o program).2.world.os = o.world.os ++ l ∧
      ∀ h d, OsCall.write h d ∈ l →
        ∃ (c : Conn) (e : Event) (r : Rand), c.cipherContext = o.world.conn.cipherContext ∧
          c.serialise C e r = .ok d := by
  induction program with
  | nil => intro o _; exact ⟨[], by simp [performs], by simp⟩
  | cons s rest ih =>
    intro o hp
    obtain ⟨h1, l, h2, h3⟩ := perform_written (C := C) (o := o) (hp s List.mem_cons_self)
    obtain ⟨l', h4, h5⟩ := ih (perform C o s).2 (fun s hs => hp s (List.mem_cons_of_mem _ hs))
    refine ⟨l ++ l', ?_, ?_⟩
    · simp only [performs]
      rw [h4, h2, List.append_assoc]
    · intro h d hd
      rcases List.mem_append.1 hd with hd | hd
      · exact h3 h d hd
      · rw [← h1]; exact h5 h d hd

theorem mkObject_written {C : BlockCipher} {kind : Kind} {timeout : Option Int} {a : ClientArgs} {env : OsEnv}
    {o : ClientObject} (hm : mkObject kind timeout a env = .ok o) (program : List Step)
    (hp : ∀ s ∈ program, s.NoContext) : ∀ line ∈ written (performs C o program).2.world.os,
    ∃ (c : Conn) (e : Event) (r : Rand), c.cipherContext = contextFor a ∧ c.serialise C e r = .ok line := by
  obtain ⟨conn, hc, hw⟩ := mkObject_conn hm
  obtain ⟨_, hconn⟩ := mkConn_ok hc
  obtain ⟨l, h1, h2⟩ := performs_written (C := C) program o hp
  have hcx : o.world.conn.cipherContext = contextFor a := by
    rw [hw]
    show conn.cipherContext = _
    rw [hconn]
    exact created_context a
  have hos : o.world.os = [] := by rw [hw]
  intro line hl
  rw [h1, hos, List.nil_append] at hl
  unfold written at hl
  rw [List.mem_filterMap] at hl
  obtain ⟨x, hx, hl⟩ := hl
  cases x <;> simp at hl
  next h d =>
    subst hl
    obtain ⟨c, e, r, h3, h4⟩ := h2 h d hx
    exact ⟨c, e, r, h3.trans hcx, h4⟩

/-- C97. A client that was made without a key (or without a key id) never encrypts: whatever keys and key ids are assigned
to it and to its connection later, everything it writes is a request in the clear. -/
theorem C97_never_encrypts (C : BlockCipher) (kind : Kind) (timeout : Option Int) (a : ClientArgs) (env : OsEnv)
    (o : ClientObject) (hm : mkObject kind timeout a env = .ok o) (hk : ¬ Encrypting a) (program : List Step)
    (hp : ∀ s ∈ program, s.NoContext) : ∀ line ∈ written (performs C o program).2.world.os, InTheClear line := by
  intro line hl
  obtain ⟨c, e, r, h1, h2⟩ := mkObject_written hm program hp line hl
  have hc : c.cipherContext = none := by
    rw [h1]
    unfold contextFor
    split
    · next x key keyId hk1 hk2 => exact absurd ⟨⟨_, hk1, by simp⟩, _, hk2⟩ hk
    · rfl
  have := serialise_type h2
  rw [hc] at this
  exact this

/-- C97. A client that was made with a key and a key id keeps using them, whatever keys and key ids are assigned to it and
to its connection later: everything it writes is a request sealed under the key it was made with. -/
theorem C97_keeps_key (C : BlockCipher) (kind : Kind) (timeout : Option Int) (a : ClientArgs) (env : OsEnv)
    (o : ClientObject) (hm : mkObject kind timeout a env = .ok o) (key : Bytes) (keyId : Int)
    (hk : a.encryptionKey = some key) (hne : key ≠ []) (hi : a.encryptionKeyId = some keyId) (program : List Step)
    (hp : ∀ s ∈ program, s.NoContext) : ∀ line ∈ written (performs C o program).2.world.os,
      ∃ addresses e, OnLine C addresses (some ⟨keyId, key⟩) e line := by
  intro line hl
  obtain ⟨c, e, r, h1, h2⟩ := mkObject_written hm program hp line hl
  refine ⟨c.args, e, ?_⟩
  have hc : c.cipherContext = some ⟨keyId, key⟩ := by
    rw [h1]
    unfold contextFor
    rw [hk, hi]
    cases key with
    | nil => exact absurd rfl hne
    | cons x key => rfl
  rw [← hc]
  exact serialise_onLine h2

/-! ### Assignments with effect -/

/-- C97. Assigning a password to a new client makes it a client made with that password. -/
theorem C97_password (C : BlockCipher) (kind : Kind) (timeout : Option Int) (a : ClientArgs) (p : PyStr) (env : OsEnv)
    (o o' : ClientObject) (hm : mkObject kind timeout a env = .ok o)
    (hm' : mkObject kind timeout { a with password := p } env = .ok o') :
    (perform C o (.set (.password p))).1 = .returned .nothing ∧
    SameFromHere C (perform C o (.set (.password p))).2 o' := by
  obtain ⟨c, hc, hw⟩ := mkObject_conn hm
  obtain ⟨c', hc', hw'⟩ := mkObject_conn hm'
  obtain ⟨_, rfl⟩ := mkConn_ok hc
  obtain ⟨_, rfl⟩ := mkConn_ok hc'
  refine ⟨rfl, twin_same C ⟨o'.world.conn.args, ?_⟩⟩
  show o'.world = World.named { o.world with password := p } _
  rw [hw, hw']
  rfl

/-- C97. Assigning a timeout to the transport of a new client makes it a client on a transport made with that timeout. -/
theorem C97_timeout (C : BlockCipher) (kind : Kind) (timeout timeout' : Option Int) (a : ClientArgs) (env : OsEnv)
    (o o' : ClientObject) (hm : mkObject kind timeout a env = .ok o) (hm' : mkObject kind timeout' a env = .ok o') :
    (perform C o (.set (.timeout timeout'))).1 = .returned .nothing ∧
    SameFromHere C (perform C o (.set (.timeout timeout'))).2 o' := by
  obtain ⟨c, hc, hw⟩ := mkObject_conn hm
  obtain ⟨c', hc', hw'⟩ := mkObject_conn hm'
  rw [hc] at hc'
  cases hc'
  refine ⟨rfl, twin_same C (.of_world ?_)⟩
  show o'.world = { o.world with transport := { o.world.transport with timeout := timeout' } }
  rw [hw, hw']
  rfl

/-- C97. Assigning a cipher context with a (non-empty) key to the connection of a new client makes it a client made with
that key and key id; assigning None makes it one made without a key. -/
theorem C97_context (C : BlockCipher) (kind : Kind) (timeout : Option Int) (a : ClientArgs)
    (x : Option CipherContext) (hx : ∀ y, x = some y → y.key ≠ []) (env : OsEnv)
    (o o' : ClientObject) (hm : mkObject kind timeout a env = .ok o)
    (hm' : mkObject kind timeout { a with encryptionKey := x.map (·.key), encryptionKeyId := x.map (·.keyId) } env = .ok o') :
    (perform C o (.set (.cipherContext x))).1 = .returned .nothing ∧
    SameFromHere C (perform C o (.set (.cipherContext x))).2 o' := by
  obtain ⟨c, hc, hw⟩ := mkObject_conn hm
  obtain ⟨c', hc', hw'⟩ := mkObject_conn hm'
  obtain ⟨_, rfl⟩ := mkConn_ok hc
  obtain ⟨_, rfl⟩ := mkConn_ok hc'
  refine ⟨rfl, twin_same C ⟨o'.world.conn.args, ?_⟩⟩
  show o'.world = World.named { o.world with conn := { o.world.conn with cipherContext := x } } _
  have hcx : createCipherContext o'.world.conn.args = x := by
    rw [hw']
    refine (created_context
      { a with encryptionKey := x.map (·.key), encryptionKeyId := x.map (·.keyId) }).trans ?_
    cases x with
    | none => rfl
    | some y =>
      have := hx y rfl
      obtain ⟨i, k⟩ := y
      cases k with
      | nil => exact absurd rfl this
      | cons b k => rfl
  rw [hw'] at hcx ⊢
  rw [hw]
  dsimp only at hcx ⊢
  rw [hcx]
  rfl

/-- The steps that assign all four addresses. -/
def addressing (sa1 sa2 da1 da2 : Int) : List Step :=
  [.set (.sourceAddress1 sa1), .set (.sourceAddress2 sa2), .set (.destinationAddress1 da1), .set (.destinationAddress2 da2)]

/-- C97. Assigning addresses in range to the connection of a new client makes it a client with a new connection that was
made with those addresses and the password and key of the client. -/
theorem C97_addresses (C : BlockCipher) (kind : Kind) (timeout : Option Int) (a : ClientArgs) (env : OsEnv)
    (o : ClientObject) (hm : mkObject kind timeout a env = .ok o) (sa1 sa2 da1 da2 : Int)
    (h1 : 0 ≤ sa1 ∧ sa1 ≤ 65535) (h2 : 0 ≤ sa2 ∧ sa2 ≤ 255) (h3 : 0 ≤ da1 ∧ da1 ≤ 65535) (h4 : 0 ≤ da2 ∧ da2 ≤ 255) :
    ∃ o', perform C o (.set (.connection (addressed a sa1 sa2 da1 da2))) =
      (.returned .nothing, o') ∧
    (performs C o (addressing sa1 sa2 da1 da2)).1 = List.replicate 4 (.returned .nothing) ∧
    SameFromHere C (performs C o (addressing sa1 sa2 da1 da2)).2 o' := by
  obtain ⟨c, hc, hw⟩ := mkObject_conn hm
  obtain ⟨hok, rfl⟩ := mkConn_ok hc
  have hmk : mkConn (addressed a sa1 sa2 da1 da2) =
      .ok ⟨addressed a sa1 sa2 da1 da2, [], .idle, createCipherContext (addressed a sa1 sa2 da1 da2)⟩ := by
    rw [mkConn_eq, if_pos (show ArgsOk (addressed a sa1 sa2 da1 da2) from ⟨h1, h2, h3, h4, hok.2.2.2.2⟩)]
  refine ⟨{ o.withConn
      ⟨addressed a sa1 sa2 da1 da2, [], .idle, createCipherContext (addressed a sa1 sa2 da1 da2)⟩ with
        secretConnPassword := false, secretConnKey := false, secretContext := false }, ?_, rfl, ?_⟩
  · simp only [perform, ClientObject.set, hmk]
    rfl
  · refine twin_same C (.of_world ?_)
    simp only [performs, addressing, perform, ClientObject.set, settled, ClientObject.withConn, ClientObject.withArgs]
    rw [hw]
    rfl

/-- C97. Addresses are not checked when they are assigned.  With an address out of range every call on a connection that
is ready raises without writing anything, and the connection waits from then on. -/
theorem C97_address_out_of_range (C : BlockCipher) (w : World) (hi : w.conn.state = .idle)
    (hbad : ¬ ((0 ≤ w.conn.args.sourceAddress1 ∧ w.conn.args.sourceAddress1 ≤ 65535) ∧
      (0 ≤ w.conn.args.sourceAddress2 ∧ w.conn.args.sourceAddress2 ≤ 255) ∧
      (0 ≤ w.conn.args.destinationAddress1 ∧ w.conn.args.destinationAddress1 ≤ 65535) ∧
      (0 ≤ w.conn.args.destinationAddress2 ∧ w.conn.args.destinationAddress2 ≤ 255))) (k : Call) :
    (∃ x, (act C w (.call k)).1 = .raised x) ∧ (act C w (.call k)).2.os = w.os ∧
      (act C w (.call k)).2.conn.state ≠ .idle := by
  have hser : ∀ (c : Conn) e r, c.args = w.conn.args → ∃ x, c.serialise C e r = .error x := by
    intro c e r hc
    cases hs : c.serialise C e r with
    | error x => exact ⟨x, rfl⟩
    | ok d =>
      exfalso
      unfold Conn.serialise at hs
      rw [bind_eq_ok] at hs
      obtain ⟨body, _, hs⟩ := hs
      have key : ∀ ty (f : Frame) raw, requestToBytes ty f = .ok raw → f.da1 = c.args.destinationAddress1 →
          f.da2 = c.args.destinationAddress2 → f.sa1 = c.args.sourceAddress1 → f.sa2 = c.args.sourceAddress2 → False := by
        intro ty f raw hr e1 e2 e3 e4
        have hin : ¬ f.InRange := by
          rintro ⟨a1, a2, a3, a4, _⟩
          rw [hc] at e1 e2 e3 e4
          rw [e1] at a1; rw [e2] at a2; rw [e3] at a3; rw [e4] at a4
          exact hbad ⟨a3, a4, a1, a2⟩
        rcases requestToBytes_error ty f hin with hx | hx <;> rw [hx] at hr <;> cases hr
      split at hs
      · simp only [bind_eq_ok] at hs
        obtain ⟨sv, _, dat, _, raw, hr, _⟩ := hs
        exact key _ _ _ hr rfl rfl rfl rfl
      · simp only [bind_eq_ok] at hs
        obtain ⟨sv, _, raw, hr, _⟩ := hs
        exact key _ _ _ hr rfl rfl rfl rfl
  obtain ⟨s', hs', ha⟩ := C34_idle_accepts (firstOf w.password k) (firstOf_request _ k)
  have hreq := firstOf_request w.password k
  obtain ⟨x, hx⟩ := hser { w.conn with state := s' } (firstOf w.password k) (w.rands w.draws) rfl
  have hex : w.exchange C (firstOf w.password k) =
      (.raised x, { w with conn := { w.conn with state := s' }, draws := w.draws + 1 }) := by
    unfold World.exchange World.send Conn.send
    rw [hi, hs']
    dsimp only
    rw [hx]
  have hc := wcall_raised hex
  show (∃ x, (wcall C w k).1 = .raised x) ∧ (wcall C w k).2.os = w.os ∧ (wcall C w k).2.conn.state ≠ .idle
  rw [hc]
  refine ⟨⟨x, rfl⟩, rfl, ?_⟩
  show s' ≠ .idle
  rintro rfl
  unfold IsRequest at hreq
  rw [← ha] at hreq
  simp [awaits] at hreq

/-! ### Repairing a client from outside -/

theorem performs_actions (C : BlockCipher) (actions : List Action) : ∀ o : ClientObject,
    performs C o (actions.map .act) = ((acts C o.world actions).1, { o with world := (acts C o.world actions).2 }) := by
  induction actions with
  | nil => intro o; rfl
  | cons a as ih =>
    intro o
    simp only [List.map_cons, performs, acts, perform, ih]

theorem performs_append (C : BlockCipher) (p q : List Step) : ∀ o : ClientObject,
    performs C o (p ++ q) = ((performs C o p).1 ++ (performs C (performs C o p).2 q).1, (performs C (performs C o p).2 q).2) := by
  induction p with
  | nil => intro o; rfl
  | cons s p ih => intro o; simp only [List.cons_append, performs, ih]

theorem acts_goes (C : BlockCipher) (actions : List Action) : ∀ w : World, Goes C w (acts C w actions).2 := by
  induction actions with
  | nil => intro w; exact ⟨rfl, rfl, rfl, rfl, [], by simp [acts], by simp⟩
  | cons a as ih => intro w; exact (act_goes C w a).trans (ih _)

/-- C97. Whatever was done with a client, emptying the buffer of its connection and setting the state to IDLE make it as
good as a new one: it goes on exactly as a new client, made with the same arguments, on the same transport, and as the
same client with a new connection. -/
theorem C97_reset (C : BlockCipher) (kind : Kind) (timeout : Option Int) (a : ClientArgs) (env : OsEnv)
    (o : ClientObject) (hm : mkObject kind timeout a env = .ok o) (actions : List Action) :
    ∃ o1 o2 o3, (performs C o (actions.map .act)).2 = o1 ∧
      perform C o1 (.renew a) = (.returned .nothing, o2) ∧
      perform C o1 (.set (.connection (addressed a 0 0 0 0))) =
        (.returned .nothing, o3) ∧
      SameFromHere C (performs C o1 [.set (.buffer []), .set (.state .idle)]).2 o2 ∧
      SameFromHere C (performs C o1 [.set (.buffer []), .set (.state .idle)]).2 o3 := by
  obtain ⟨c, hc, hw⟩ := mkObject_conn hm
  obtain ⟨hok, hce⟩ := mkConn_ok hc
  obtain ⟨g1, g2, g3, _, _⟩ := acts_goes C actions o.world
  have e1 : o.world.conn = c := by rw [hw]
  have e2 : o.world.password = toSecretStr a.password := by rw [hw]
  refine ⟨(performs C o (actions.map .act)).2,
    { (performs C o (actions.map .act)).2 with
        world := { (performs C o (actions.map .act)).2.world with password := toSecretStr a.password, conn := c },
        passwordId := a.passwordId, encryptionKey := toSecretByte a.encryptionKey,
        encryptionKeyId := a.encryptionKeyId, secretPassword := true, secretKey := true, secretConnPassword := true,
        secretConnKey := true, secretContext := true },
    { (performs C o (actions.map .act)).2.withConn c with
        secretConnPassword := false, secretConnKey := false, secretContext := false }, rfl, ?_, ?_, ?_, ?_⟩
  · simp only [perform, ClientObject.renew, hc]
    rfl
  · simp only [perform, ClientObject.set]
    rw [show mkConn (addressed a 0 0 0 0) = .ok c from hc]
    rfl
  all_goals
    refine twin_same C (.of_world ?_)
    rw [performs_actions]
    simp only [performs, perform, ClientObject.set, settled, ClientObject.withConn]
    rw [e1] at g1 g2
    rw [e2] at g3
    generalize (acts C o.world actions).2 = w at *
    obtain ⟨pw, ⟨ca, cb, cs, cx⟩, _⟩ := w
    dsimp only at g1 g2 g3 ⊢
    rw [g1, g2, g3, hce]

/-- C97. Emptying the buffer alone is no repair: after a call that failed, whatever was done before, every later call is
refused and nothing is written any more. -/
theorem C97_buffer_only (C : BlockCipher) (kind : Kind) (timeout : Option Int) (a : ClientArgs) (env : OsEnv)
    (o : ClientObject) (hm : mkObject kind timeout a env = .ok o) (before : List Action) (k : Call) (later : List Action)
    (hb : ∀ a ∈ before, a.Plain) (hl : ∀ a ∈ later, a.Plain)
    (hfail : ∀ v, (performs C o ((before ++ [Action.call k]).map .act)).1.getLast? ≠ some (.returned v))
    (hparse : ∀ n x, k = .readParameters n →
      (performs C o ((before ++ [Action.call k]).map .act)).1.getLast? = some (.raised x) → x ∉ parseErrors) :
    (∀ (i : Nat) (j : Call), later[i]? = some (.call j) →
      (performs C o ((before ++ [Action.call k]).map .act ++ .set (.buffer []) :: later.map .act)).1[before.length + 2 + i]? =
        some (.raised (.elgas .localProtocol))) ∧
    written (performs C o ((before ++ [Action.call k]).map .act ++ .set (.buffer []) :: later.map .act)).2.world.os =
      written (performs C o ((before ++ [Action.call k]).map .act)).2.world.os := by
  have hlast : (performs C o ((before ++ [Action.call k]).map .act)).1.getLast? = some (wcall C (acts C o.world before).2 k).1 := by
    rw [performs_actions, acts_append]
    simp [acts, act]
  have hs : (wcall C (acts C o.world before).2 k).2.conn.state ≠ .idle := by
    have hr := mkWorld_ready (mkObject_ok hm)
    rcases (C85_fresh_or_spoiled C kind timeout a env o.world (mkObject_ok hm) before hb).2 with h | h
    · rcases wcall_cases (C := C) (w := (acts C o.world before).2) (by rw [h]; exact hr) k with ⟨⟨v, hv⟩, _⟩ | ⟨_, h⟩ |
        ⟨n, x, hk, hx, hx', _⟩
      · exact absurd (by rw [hlast, hv]) (hfail v)
      · exact h
      · exact absurd hx' (hparse n x hk (by rw [hlast, hx]))
    · rw [wcall_refused h]; exact h
  have hend : (performs C o ((before ++ [Action.call k]).map .act)).2.world = (wcall C (acts C o.world before).2 k).2 := by
    rw [performs_actions, acts_append]
    rfl
  have hlen : (performs C o ((before ++ [Action.call k]).map .act)).1.length = before.length + 1 := by
    rw [performs_actions, acts_length]; simp
  rw [performs_append]
  generalize performs C o ((before ++ [Action.call k]).map .act) = r at hend hlen ⊢
  obtain ⟨rs, o1⟩ := r
  dsimp only at hend hlen ⊢
  simp only [performs, perform, ClientObject.set, settled]
  rw [performs_actions]
  obtain ⟨h1, h2, _⟩ := C85_spoiled C (o1.withConn { o1.world.conn with buffer := [] }).world
    (by show o1.world.conn.state ≠ _; rw [hend]; exact hs) later hl
  refine ⟨?_, h2⟩
  intro i j hi
  rw [List.getElem?_append_right (by omega), hlen, show before.length + 2 + i - (before.length + 1) = i + 1 by omega,
    List.getElem?_cons_succ]
  exact h1 i j hi

/-! ### Setting the state only -/

/-- The buffer of the connection begins with this byte. -/
def Begins (x : UInt8) (c : Conn) : Prop := ∃ t, c.buffer = x :: t

theorem Begins.poll {x : UInt8} (hx : x ≠ 0x02) {c : Conn} (C : BlockCipher) (h : Begins x c) :
    (c.nextEvent C).2 = .ok none ∧ Begins x (c.nextEvent C).1 := by
  obtain ⟨t, ht⟩ := h
  obtain ⟨h1, u, h2⟩ := C73_noise C c x t ht hx [.poll]
  simp only [run, step] at h1 h2
  exact ⟨h1 _ (List.mem_cons_self ..), _, h2⟩

theorem Begins.receive {x : UInt8} {c : Conn} (h : Begins x c) (d : Bytes) : Begins x (c.receiveData d) := by
  obtain ⟨t, ht⟩ := h
  have hd : c.receiveData d = { c with buffer := c.buffer ++ d } := receiveData_append (fun _ => by rw [ht]; simp)
  exact ⟨t ++ d, by rw [hd, ht]; rfl⟩

theorem begins_loop {x : UInt8} (hx : x ≠ 0x02) (C : BlockCipher) (t : Transport) (c : Conn) (s : List Delivery)
    (k : Clock) (h : Begins x c) :
    (∀ v, (worldLoop C t c s k).1 ≠ .returned v) ∧ Begins x (worldLoop C t c s k).2.1 := by
  fun_induction worldLoop C t c s k with
  | case1 c s k c1 e hn => have := h.poll hx C; rw [hn] at this; cases this.1
  | case2 c s k c1 ev hn => have := h.poll hx C; rw [hn] at this; cases this.1
  | case3 c s k c1 hn d s1 k1 hr ih => have := h.poll hx C; rw [hn] at this; exact ih (this.2.receive d)
  | case4 c s k c1 hn e s1 k1 hr => have := h.poll hx C; rw [hn] at this; exact ⟨(by simp), this.2⟩
  | case5 c s k c1 hn s1 k1 hr => have := h.poll hx C; rw [hn] at this; exact ⟨(by simp), this.2⟩

theorem begins_next {x : UInt8} (hx : x ≠ 0x02) (C : BlockCipher) (w : World) (h : Begins x w.conn) :
    (∀ v, (w.nextEvent C).1 ≠ .returned v) ∧ Begins x (w.nextEvent C).2.conn := by
  have := begins_loop hx C w.transport w.conn w.unread w.clock h
  unfold World.nextEvent
  exact this

theorem begins_receive {x : UInt8} (w : World) (h : Begins x w.conn) : Begins x w.receive.2.conn := by
  unfold World.receive
  split
  · next d s c hr => exact h.receive d
  · next s c hr => rw [(setUnread_same w _ _).1]; exact h
  · next s c hr => rw [(setUnread_same w _ _).1]; exact h

theorem write_conn (w : World) (d : Bytes) : (w.write d).2.conn = w.conn := by
  unfold World.write
  repeat' split
  all_goals rfl

theorem begins_send {x : UInt8} (C : BlockCipher) (w : World) (e : Event) (h : Begins x w.conn) :
    Begins x (w.send C e).2.conn := by
  have h1 : Begins x (w.conn.send C e (w.rands w.draws)).1 := by
    obtain ⟨t, ht⟩ := h
    exact ⟨t, by rw [(send_frame C w.conn e _).2.2, ht]⟩
  unfold World.send
  cases hs : w.conn.send C e (w.rands w.draws) with | mk c r =>
  rw [hs] at h1
  cases r with
  | error y => exact h1
  | ok data =>
    dsimp only
    have hc := write_conn { w with conn := c, draws := w.draws + 1 } data
    cases hw : ({ w with conn := c, draws := w.draws + 1 } : World).write data with | mk o w1 =>
    rw [hw] at hc
    have h2 : Begins x w1.conn := by rw [hc]; exact h1
    cases o with
    | returned u => exact begins_receive w1 h2
    | raised e => exact h2
    | pending => exact h2

theorem begins_sendAll {x : UInt8} (C : BlockCipher) (es : List Event) : ∀ w : World, Begins x w.conn →
    Begins x (w.sendAll C es).2.conn := by
  induction es with
  | nil => intro w h; exact h
  | cons e es ih =>
    intro w h
    have h1 := begins_send C w e h
    unfold World.sendAll
    cases hs : w.send C e with | mk o w1 =>
    rw [hs] at h1
    cases o with
    | returned u => exact ih w1 h1
    | raised e => exact h1
    | pending => exact h1

theorem begins_exchange {x : UInt8} (hx : x ≠ 0x02) (C : BlockCipher) (w : World) (e : Event) (h : Begins x w.conn) :
    (∀ v, (w.exchange C e).1 ≠ .returned v) ∧ Begins x (w.exchange C e).2.conn := by
  have h1 := begins_send C w e h
  unfold World.exchange
  cases hs : w.send C e with | mk o w1 =>
  rw [hs] at h1
  cases o with
  | returned u => exact begins_next hx C w1 h1
  | raised e => exact ⟨(by simp), h1⟩
  | pending => exact ⟨(by simp), h1⟩

theorem wcall_pending {C : BlockCipher} {w w' : World} {k : Call}
    (h : w.exchange C (firstOf w.password k) = (.pending, w')) : wcall C w k = (.pending, w') := by
  cases k with
  | readParameters n =>
    have : w.readPages C n [] = (.pending, w') := by
      have h' : w.exchange C (.readDeviceParametersRequest
        { password := w.password, objectCount := n, bufferLength := 1024 }) = _ := h
      rw [World.readPages]
      split <;> simp_all
    unfold wcall World.readParameters
    dsimp only
    rw [this]; rfl
  | readInstantaneousValues =>
    have h' : w.exchange C (.readInstantaneousValuesRequest { password := w.password }) = _ := h
    unfold wcall World.readInstantaneousValues; dsimp only; rw [h']; rfl
  | readTime =>
    have h' : w.exchange C (.readTimeRequest {}) = _ := h
    unfold wcall World.readTime; dsimp only; rw [h']; rfl
  | writeTime t b =>
    have h' : w.exchange C (.writeTimeRequest { password := w.password, deviceTime := t, cryout := b }) = _ := h
    unfold wcall World.writeTime; dsimp only; rw [h']; rfl
  | readArchive a n i =>
    have h' : w.exchange C (.readArchiveRequest
      { password := w.password, archive := a, amount := n, oldestRecordId := i }) = _ := h
    unfold wcall World.readArchive; dsimp only; rw [h']; rfl
  | readArchiveByTime a n t =>
    have h' : w.exchange C (.readArchiveByTimeRequest ⟨w.password, a, n, t⟩) = _ := h
    unfold wcall World.readArchiveByTime; dsimp only; rw [h']; rfl

theorem begins_call {x : UInt8} (hx : x ≠ 0x02) (C : BlockCipher) (w : World) (k : Call) (h : Begins x w.conn) :
    (∀ v, (wcall C w k).1 ≠ .returned v) ∧ Begins x (wcall C w k).2.conn := by
  have h1 := begins_exchange hx C w (firstOf w.password k) h
  cases hs : w.exchange C (firstOf w.password k) with | mk o w1 =>
  rw [hs] at h1
  cases o with
  | returned v => exact absurd rfl (h1.1 v)
  | raised y => rw [wcall_raised hs]; exact ⟨(by simp), h1.2⟩
  | pending => rw [wcall_pending hs]; exact ⟨(by simp), h1.2⟩

theorem begins_act {x : UInt8} (hx : x ≠ 0x02) (C : BlockCipher) (w : World) (a : Action) (h : Begins x w.conn) :
    Begins x (act C w a).2.conn := by
  cases a with
  | connect => show Begins x w.connect.2.conn; rw [(connect_frame w).1]; exact h
  | disconnect => show Begins x w.disconnect.2.conn; rw [(disconnect_frame w).1]; exact h
  | call k => exact (begins_call hx C w k h).2
  | send es => exact begins_sendAll C es w h
  | nextEvent => exact (begins_next hx C w h).2

/-- C97. Setting the state alone is no repair either: while the buffer begins with another byte than the start byte, no
call and no `next_event` returns, whatever else is assigned. -/
theorem C97_state_only (C : BlockCipher) (o : ClientObject) (x : UInt8) (t : Bytes) (hb : o.world.conn.buffer = x :: t)
    (hx : x ≠ 0x02) (program : List Step) (hp : ∀ s ∈ program, s.KeepsBuffer) :
    ∀ s r, (s, r) ∈ trace C o program → ((∃ k, s = .act (.call k)) ∨ s = .act .nextEvent) → ∀ v, r ≠ .returned v := by
  have h0 : Begins x o.world.conn := ⟨t, hb⟩
  clear hb
  induction program generalizing o with
  | nil => intro s r h; simp [trace] at h
  | cons s0 rest ih =>
    intro s r h hs v
    rcases List.mem_cons.1 h with h | h
    · obtain ⟨rfl, rfl⟩ := Prod.mk.inj h
      rcases hs with ⟨k, rfl⟩ | rfl
      · exact (begins_call hx C o.world k h0).1 v
      · have := (begins_next hx C o.world h0).1
        show (World.nextEvent C o.world).1.andThen _ ≠ _
        cases hn : (o.world.nextEvent C).1 with
        | returned e => exact absurd hn (this e)
        | raised e => simp [Outcome3.andThen]
        | pending => simp [Outcome3.andThen]
    · refine ih (perform C o s0).2 (fun s hs => hp s (List.mem_cons_of_mem _ hs)) ?_ s r h hs v
      have hk := hp s0 List.mem_cons_self
      cases s0 with
      | act a => exact begins_act hx C o.world a h0
      | renew a => exact absurd hk id
      | set y =>
        cases y with
        | buffer b => exact absurd hk id
        | connection a => exact absurd hk id
        | _ => exact h0

/-! ### Assigned secrets are shown -/

theorem mkObject_val {kind : Kind} {timeout : Option Int} {a : ClientArgs} {env : OsEnv} {o : ClientObject}
    (hm : mkObject kind timeout a env = .ok o) (tr : PyVal) : o.val tr = clientVal a tr o.world.conn := by
  unfold mkObject at hm
  rw [bind_eq_ok] at hm
  obtain ⟨w, hw, hm⟩ := hm
  obtain ⟨conn, hc, rfl⟩ := mkWorld_ok hw
  obtain ⟨_, rfl⟩ := mkConn_ok hc
  rw [← Except.ok.inj hm]
  rfl

theorem shown_password (p : Printing) (stack : List String) (tr : PyVal) (o : ClientObject)
    (h : o.secretPassword = false) :
    "password=".toList ++ strRepr p o.world.password <:+: (o.val tr).repr p stack := by
  unfold ClientObject.val
  refine obj_infix p stack _ _ "password" (passwordVal false o.world.password) ?_
  rw [h]
  simp

theorem shown_key (p : Printing) (stack : List String) (tr : PyVal) (o : ClientObject) (k : Bytes)
    (h : o.secretKey = false) (hk : o.encryptionKey = some k) :
    "encryption_key=".toList ++ bytesRepr k <:+: (o.val tr).repr p stack := by
  unfold ClientObject.val
  refine obj_infix p stack _ _ "encryption_key" (.bytes k) ?_
  rw [h, hk]
  simp [optVal, keyVal]

/-- C97. An assigned password or key is not wrapped: `repr(client)` shows it in full from then on, whatever is done with
the client until it is assigned again or the client is replaced. -/
theorem C97_shown (C : BlockCipher) (p : Printing) (stack : List String) (transport : PyVal) (o : ClientObject)
    (program : List Step) :
    (∀ s, (∀ x ∈ program, ∀ s' a, x ≠ .set (.password s') ∧ x ≠ .renew a) →
      "password=".toList ++ strRepr p s <:+:
        ((performs C o (.set (.password s) :: program)).2.val transport).repr p stack) ∧
    (∀ k, (∀ x ∈ program, ∀ k' a, x ≠ .set (.encryptionKey k') ∧ x ≠ .renew a) →
      "encryption_key=".toList ++ bytesRepr k <:+:
        ((performs C o (.set (.encryptionKey (some k)) :: program)).2.val transport).repr p stack) := by
  constructor
  · intro s hp
    have key : ∀ (program : List Step) (o : ClientObject), o.secretPassword = false → o.world.password = s →
        (∀ x ∈ program, ∀ s' a, x ≠ .set (.password s') ∧ x ≠ .renew a) →
        (performs C o program).2.secretPassword = false ∧ (performs C o program).2.world.password = s := by
      intro program
      induction program with
      | nil => intro o h1 h2 _; exact ⟨h1, h2⟩
      | cons x rest ih =>
        intro o h1 h2 hp
        have hx := hp x List.mem_cons_self
        have : (perform C o x).2.secretPassword = false ∧ (perform C o x).2.world.password = s := by
          cases x with
          | act a => exact ⟨h1, (act_goes C o.world a).password.trans h2⟩
          | renew a => exact absurd rfl (hx [] a).2
          | set y =>
            cases y with
            | password s' => exact absurd rfl (hx s' exArgs).1
            | connection a =>
              simp only [perform, ClientObject.set]
              cases mkConn a with
              | error e => exact ⟨h1, h2⟩
              | ok c => exact ⟨h1, h2⟩
            | _ => exact ⟨h1, h2⟩
        exact ih _ this.1 this.2 fun x hx => hp x (List.mem_cons_of_mem _ hx)
    obtain ⟨h1, h2⟩ := key program (perform C o (.set (.password s))).2 rfl rfl hp
    have := shown_password p stack transport _ h1
    rw [h2] at this
    exact this
  · intro k hp
    have key : ∀ (program : List Step) (o : ClientObject), o.secretKey = false → o.encryptionKey = some k →
        (∀ x ∈ program, ∀ s' a, x ≠ .set (.encryptionKey s') ∧ x ≠ .renew a) →
        (performs C o program).2.secretKey = false ∧ (performs C o program).2.encryptionKey = some k := by
      intro program
      induction program with
      | nil => intro o h1 h2 _; exact ⟨h1, h2⟩
      | cons x rest ih =>
        intro o h1 h2 hp
        have hx := hp x List.mem_cons_self
        have : (perform C o x).2.secretKey = false ∧ (perform C o x).2.encryptionKey = some k := by
          cases x with
          | act a => exact ⟨h1, h2⟩
          | renew a => exact absurd rfl (hx none a).2
          | set y =>
            cases y with
            | encryptionKey s' => exact absurd rfl (hx s' exArgs).1
            | connection a =>
              simp only [perform, ClientObject.set]
              cases mkConn a with
              | error e => exact ⟨h1, h2⟩
              | ok c => exact ⟨h1, h2⟩
            | _ => exact ⟨h1, h2⟩
        exact ih _ this.1 this.2 fun x hx => hp x (List.mem_cons_of_mem _ hx)
    obtain ⟨h1, h2⟩ := key program (perform C o (.set (.encryptionKey (some k)))).2 rfl rfl hp
    exact shown_key p stack transport _ k h1 h2


/-! ### Examples -/

/-- How the steps of a program with assignments end, and the type bytes of what is written. -/
def exSteps (a : ClientArgs) (ss : List Step) : List Ended × List Bytes :=
  match mkObject .tcp (some 0) a exEnv with
  | .ok o => ((performs idCipher o ss).1.map ended, (written (performs idCipher o ss).2.world.os).map (·.take 3))
  | .error _ => ([], [])

/-- The arguments of a client with a key. -/
def exKeyed : ClientArgs := { exArgs with encryptionKey := some (List.replicate 16 7), encryptionKeyId := some 1 }

-- the hypotheses of C97_never_encrypts and C97_keeps_key: a key that is assigned to the client and to its connection is
-- not used, and a key that is taken away from both still is
example : exSteps exArgs [.set (.encryptionKey (some (List.replicate 16 7))), .set (.encryptionKeyId (some 1)),
    .set (.connEncryptionKey (some (List.replicate 16 7))), .set (.connEncryptionKeyId (some 1)), .act .connect,
    .act (.call .readTime)] =
      ([.returned, .returned, .returned, .returned, .returned, .returned], [[0x02, 0xFE, 0x84]]) := by decide +kernel
example : exSteps exKeyed [.set (.encryptionKey none), .set (.connEncryptionKey none), .act .connect,
    .act (.send [.readTimeRequest {}])] =
      ([.returned, .returned, .returned, .returned], [[0x02, 0xFE, 0x85]]) := by decide +kernel
example : ¬ Encrypting exArgs := by rintro ⟨⟨k, h, _⟩, _⟩; cases h
example : ∀ s ∈ [Step.set (.encryptionKey none), .set (.connEncryptionKey none), .act .connect,
    .act (.send [.readTimeRequest {}])], s.NoContext := by simp [Step.NoContext]
-- assigning a cipher context does change what is written
example : exSteps exArgs [.set (.cipherContext (some ⟨1, List.replicate 16 7⟩)), .act .connect,
    .act (.send [.readTimeRequest {}])] = ([.returned, .returned, .returned], [[0x02, 0xFE, 0x85]]) := by decide +kernel
example : exSteps exKeyed [.set (.cipherContext none), .act .connect, .act (.send [.readTimeRequest {}])] =
    ([.returned, .returned, .returned], [[0x02, 0xFE, 0x84]]) := by decide +kernel
-- an address out of range is noticed by the next call only, and spoils the client
example : exSteps exArgs [.act .connect, .set (.destinationAddress2 256), .act (.call .readTime),
    .set (.destinationAddress2 1), .act (.call .readTime)] =
      ([.returned, .returned, .raised .value, .returned, .raised (.elgas .localProtocol)], []) := by decide +kernel
example : exSteps exArgs [.act .connect, .set (.destinationAddress2 1), .act (.call .readTime)] =
      ([.returned, .returned, .returned], [[0x02, 0xFE, 0x84]]) := by decide +kernel
-- but a connection with such an address cannot be made
example : exSteps exArgs [.act .connect, .set (.connection (addressed exArgs 0 0 0 256)), .act (.call .readTime)] =
      ([.returned, .raised .value, .returned], [[0x02, 0xFE, 0x84]]) := by decide +kernel
-- a client that is used before it is connected is lost (the hypotheses of C97_buffer_only), also with an empty buffer;
-- setting the state repairs it, and so does a new client on the transport
example : exSteps exArgs [.act (.call .readTime), .act .connect, .set (.buffer []), .act (.call .readTime)] =
    ([.raised .runtime, .returned, .returned, .raised (.elgas .localProtocol)], []) := by decide +kernel
example : exSteps exArgs [.act (.call .readTime), .act .connect, .set (.buffer []), .set (.state .idle),
    .act (.call .readTime)] =
      ([.raised .runtime, .returned, .returned, .returned, .returned], [[0x02, 0xFE, 0x84]]) := by decide +kernel
example : exSteps exArgs [.act (.call .readTime), .act .connect, .renew exArgs, .act (.call .readTime)] =
    ([.raised .runtime, .returned, .returned, .returned], [[0x02, 0xFE, 0x84]]) := by decide +kernel
-- the hypothesis of C97_state_only: with noise in the buffer no call returns until the buffer is emptied
example : exSteps exArgs [.set (.buffer [0x41]), .act .connect, .act (.call .readTime), .set (.state .idle),
    .act .disconnect, .act .connect, .set (.buffer []), .act (.call .readTime)] =
      ([.returned, .returned, .pending, .returned, .returned, .returned, .returned, .returned],
        [[0x02, 0xFE, 0x84], [0x02, 0xFE, 0x84]]) := by decide +kernel
-- the hypotheses of C97_shown; what is shown before and after
example : ∀ x ∈ [Step.act .connect, .set (.buffer []), .act (.call .readTime)],
    ∀ s' a, x ≠ .set (.password s') ∧ x ≠ .renew a := by simp
example : ∃ o, mkObject .tcp (some 0) exArgs exEnv = .ok o ∧
    ((o.val .none).repr exPrint []).take 45 = "ElgasClient(transport=None, password=<SECRET>".toList ∧
    (((perform idCipher o (.set (.password "123456".toList))).2.val .none).repr exPrint []).take 45 =
      "ElgasClient(transport=None, password='123456'".toList := ⟨_, rfl, by decide +kernel, by decide +kernel⟩

/-- The connection of a client as `repr` shows it is part of what is shown of the client. -/
theorem conn_shown (p : Printing) (stack : List String) (tr : PyVal) (o : ClientObject) :
    (o.secretConnPassword = false →
      "password=".toList ++ strRepr p o.world.conn.args.password <:+: (o.val tr).repr p stack) ∧
    (∀ k, o.secretConnKey = false → o.world.conn.args.encryptionKey = some k →
      "encryption_key=".toList ++ bytesRepr k <:+: (o.val tr).repr p stack) ∧
    (∀ x, o.secretContext = false → o.world.conn.cipherContext = some x →
      "key=".toList ++ bytesRepr x.key ++ [')'] <:+: (o.val tr).repr p stack) := by
  have outer : ∀ s v, ("elgas_connection", v) ∈ [("transport", tr),
      ("password", passwordVal o.secretPassword o.world.password),
      ("password_id", .int o.passwordId), ("encryption_key", optVal (keyVal o.secretKey) o.encryptionKey),
      ("encryption_key_id", optVal .int o.encryptionKeyId), ("elgas_connection", v)] →
      s <:+: PyVal.repr p ("__repr__" :: stack) v →
      s <:+: PyVal.repr p stack (.obj "ElgasClient" (.of [("transport", tr),
      ("password", passwordVal o.secretPassword o.world.password),
      ("password_id", .int o.passwordId), ("encryption_key", optVal (keyVal o.secretKey) o.encryptionKey),
      ("encryption_key_id", optVal .int o.encryptionKeyId), ("elgas_connection", v)])) := by
    intro s v hm h
    exact (infix_left _ h).trans (obj_infix p stack _ _ "elgas_connection" v hm)
  refine ⟨?_, ?_, ?_⟩
  · intro h
    unfold ClientObject.val
    refine outer _ _ (by simp) ?_
    refine obj_infix p _ _ _ "password" (passwordVal false o.world.conn.args.password) ?_
    rw [h]
    simp
  · intro k h hk
    unfold ClientObject.val
    refine outer _ _ (by simp) ?_
    refine obj_infix p _ _ _ "encryption_key" (.bytes k) ?_
    rw [h, hk]
    simp [optVal, keyVal]
  · intro x h hk
    unfold ClientObject.val
    refine outer _ _ (by simp) ?_
    refine List.IsInfix.trans ?_ (obj_infix p _ _ _ "cipher_context" (contextVal false x) ?_)
    · refine infix_left _ ?_
      unfold contextVal keyVal
      exact ⟨"CipherContext(key_id=".toList ++ PyVal.repr p [] (.int x.keyId) ++ ", ".toList, [], by simp [PyVal.repr, Attrs.of, Attrs.repr]⟩
    · rw [h, hk]
      simp [optVal]

theorem performs_acts (C : BlockCipher) : ∀ (program : List Action) (o : ClientObject),
    (performs C o (program.map .act)).2 = { o with world := (acts C o.world program).2 } := by
  intro program
  induction program with
  | nil => intro o; rfl
  | cons a rest ih =>
    intro o
    show (performs C (perform C o (.act a)).2 (rest.map .act)).2 = _
    rw [ih]
    rfl

/-- C97. The same for the connection of the client: a password, key or cipher context assigned to it, and those of a
connection assigned to the client, are shown in full by `repr(client)`, whatever calls follow. -/
theorem C97_shown_connection (C : BlockCipher) (p : Printing) (stack : List String) (transport : PyVal)
    (o : ClientObject) (program : List Action) :
    (∀ s, "password=".toList ++ strRepr p s <:+:
      ((performs C o (.set (.connPassword s) :: program.map .act)).2.val transport).repr p stack) ∧
    (∀ k, "encryption_key=".toList ++ bytesRepr k <:+:
      ((performs C o (.set (.connEncryptionKey (some k)) :: program.map .act)).2.val transport).repr p stack) ∧
    (∀ x, "key=".toList ++ bytesRepr x.key ++ [')'] <:+:
      ((performs C o (.set (.cipherContext (some x)) :: program.map .act)).2.val transport).repr p stack) ∧
    (∀ a c, mkConn a = .ok c →
      "password=".toList ++ strRepr p a.password <:+:
        ((performs C o (.set (.connection a) :: program.map .act)).2.val transport).repr p stack ∧
      (∀ k, a.encryptionKey = some k → "encryption_key=".toList ++ bytesRepr k <:+:
        ((performs C o (.set (.connection a) :: program.map .act)).2.val transport).repr p stack) ∧
      (∀ x, c.cipherContext = some x → "key=".toList ++ bytesRepr x.key ++ [')'] <:+:
        ((performs C o (.set (.connection a) :: program.map .act)).2.val transport).repr p stack)) := by
  refine ⟨?_, ?_, ?_, ?_⟩
  · intro s
    show _ <:+: ((performs C (perform C o (.set (.connPassword s))).2 (program.map .act)).2.val transport).repr p stack
    rw [performs_acts]
    have g := acts_goes C program (perform C o (.set (.connPassword s))).2.world
    have := (conn_shown p stack transport { (perform C o (.set (.connPassword s))).2 with
      world := (acts C (perform C o (.set (.connPassword s))).2.world program).2 }).1 rfl
    dsimp only at this
    rw [g.args] at this
    exact this
  · intro k
    show _ <:+: ((performs C (perform C o (.set (.connEncryptionKey (some k)))).2 (program.map .act)).2.val
      transport).repr p stack
    rw [performs_acts]
    have g := acts_goes C program (perform C o (.set (.connEncryptionKey (some k)))).2.world
    refine (conn_shown p stack transport { (perform C o (.set (.connEncryptionKey (some k)))).2 with
      world := (acts C (perform C o (.set (.connEncryptionKey (some k)))).2.world program).2 }).2.1 k rfl ?_
    dsimp only
    rw [g.args]
    rfl
  · intro x
    show _ <:+: ((performs C (perform C o (.set (.cipherContext (some x)))).2 (program.map .act)).2.val
      transport).repr p stack
    rw [performs_acts]
    have g := acts_goes C program (perform C o (.set (.cipherContext (some x)))).2.world
    refine (conn_shown p stack transport { (perform C o (.set (.cipherContext (some x)))).2 with
      world := (acts C (perform C o (.set (.cipherContext (some x)))).2.world program).2 }).2.2 x rfl ?_
    dsimp only
    rw [g.context]
    rfl
  · intro a c hc
    have hargs : c.args = a := by obtain ⟨_, rfl⟩ := mkConn_ok hc; rfl
    have hset : (perform C o (.set (.connection a))).2 =
        { o.withConn c with secretConnPassword := false, secretConnKey := false, secretContext := false } := by
      simp only [perform, ClientObject.set, hc, bind_ok]
      rfl
    have hp : (performs C o (.set (.connection a) :: program.map .act)).2 =
        (performs C (perform C o (.set (.connection a))).2 (program.map .act)).2 := rfl
    rw [hp, hset, performs_acts]
    generalize hw : ({ o.withConn c with secretConnPassword := false, secretConnKey := false, secretContext := false } :
      ClientObject) = o'
    have g := acts_goes C program o'.world
    have h1 : o'.secretConnPassword = false ∧ o'.secretConnKey = false ∧ o'.secretContext = false ∧
        o'.world.conn = c := by subst hw; exact ⟨rfl, rfl, rfl, rfl⟩
    have e1 : (acts C o'.world program).2.conn.args = a := by rw [g.args, h1.2.2.2, hargs]
    have e2 : (acts C o'.world program).2.conn.cipherContext = c.cipherContext := by rw [g.context, h1.2.2.2]
    have := conn_shown p stack transport { o' with world := (acts C o'.world program).2 }
    dsimp only at this
    rw [e1, e2] at this
    exact ⟨this.1 h1.1, fun k hk => this.2.1 k h1.2.1 hk, fun x hx => this.2.2 x h1.2.2.1 hx⟩

-- C97_shown_connection: before and after
example : ∃ o, mkObject .tcp (some 0) exKeyed exEnv = .ok o ∧
    (((o.val .none).repr exPrint []).drop 233).take 17 = "password=<SECRET>".toList ∧
    ((((perform idCipher o (.set (.connPassword "123456".toList))).2.val .none).repr exPrint []).drop 233).take 17 =
      "password='123456'".toList := ⟨_, rfl, by decide +kernel, by decide +kernel⟩

end Elgas
