import Verif.Props.Blind
/-!
C100, continued: programs that do not need the password.
-/
namespace Spec
open Elgas

/-- The action is not a call whose request carries the password of the client. -/
def Action.Keyless : Action → Prop
  | .call .readTime => True
  | .call _ => False
  | _ => True

end Spec
namespace Elgas
open Spec

/-- The client with another password, which has done the same. -/
def swapped (pw q : PyStr) (w : World) : World := { w with password := pw, conn := reconn q w.conn }

variable (pw q : PyStr)

theorem swapped_conn (w : World) (c : Conn) : ({ swapped pw q w with conn := reconn q c } : World) =
    swapped pw q { w with conn := c } := rfl

theorem swapped_setUnread (w : World) (s : List Delivery) (k : Clock) :
    (swapped pw q w).setUnread s k = swapped pw q (w.setUnread s k) := by
  unfold World.setUnread
  rw [show (swapped pw q w).transport = w.transport from rfl]
  cases w.transport.socket <;> rfl

theorem reconn_nextEvent (C : BlockCipher) (c : Conn) :
    (reconn q c).nextEvent C = (reconn q (c.nextEvent C).1, (c.nextEvent C).2) := by
  unfold Conn.nextEvent
  rw [show (reconn q c).buffer = c.buffer from rfl]
  split
  · rfl
  · cases indexEnd c.buffer with
    | none => rfl
    | some i =>
      dsimp only
      rw [show (reconn q c).interpret C (sliceTo c.buffer ((i : Int) + 1)) =
        c.interpret C (sliceTo c.buffer ((i : Int) + 1)) from rfl]
      cases c.interpret C (sliceTo c.buffer ((i : Int) + 1)) with
      | error e => dsimp only; split <;> rfl
      | ok f =>
        dsimp only
        cases pduFromResponse f with
        | error e => rfl
        | ok pdu =>
          dsimp only
          rw [show (reconn q c).state = c.state from rfl]
          cases processEvent c.state pdu <;> rfl

theorem reconn_loop (C : BlockCipher) (t : Transport) (c : Conn) (s : List Delivery) (k : Clock) :
    worldLoop C t (reconn q c) s k = ((worldLoop C t c s k).1, reconn q (worldLoop C t c s k).2.1, (worldLoop C t c s k).2.2) := by
  fun_induction worldLoop C t c s k with
  | case1 c s k c1 e hn => unfold worldLoop; rw [reconn_nextEvent, hn]
  | case2 c s k c1 ev hn => unfold worldLoop; rw [reconn_nextEvent, hn]
  | case3 c s k c1 hn d s1 k1 hr ih =>
    rw [worldLoop, reconn_nextEvent, hn]
    dsimp only
    split
    · next d' s' k' hr' =>
      rw [hr] at hr'
      cases hr'
      rw [receiveData_reconn]; exact ih
    · next hr' => rw [hr] at hr'; cases hr'
    · next hr' => rw [hr] at hr'; cases hr'
  | case4 c s k c1 hn e s1 k1 hr =>
    rw [worldLoop, reconn_nextEvent, hn]
    dsimp only
    split
    · next hr' => rw [hr] at hr'; cases hr'
    · next hr' => rw [hr] at hr'; cases hr'; rfl
    · next hr' => rw [hr] at hr'; cases hr'
  | case5 c s k c1 hn s1 k1 hr =>
    rw [worldLoop, reconn_nextEvent, hn]
    dsimp only
    split
    · next hr' => rw [hr] at hr'; cases hr'
    · next hr' => rw [hr] at hr'; cases hr'
    · next hr' => rw [hr] at hr'; cases hr'; rfl

theorem swapped_nextEvent (C : BlockCipher) (w : World) :
    (swapped pw q w).nextEvent C = ((w.nextEvent C).1, swapped pw q (w.nextEvent C).2) := by
  unfold World.nextEvent
  rw [show (swapped pw q w).transport = w.transport from rfl, show (swapped pw q w).unread = w.unread from rfl,
    show (swapped pw q w).clock = w.clock from rfl, show (swapped pw q w).conn = reconn q w.conn from rfl, reconn_loop]
  dsimp only
  rw [swapped_setUnread]
  rfl

theorem swapped_receive (w : World) : (swapped pw q w).receive = (w.receive.1, swapped pw q w.receive.2) := by
  unfold World.receive
  rw [show (swapped pw q w).transport = w.transport from rfl, show (swapped pw q w).unread = w.unread from rfl,
    show (swapped pw q w).clock = w.clock from rfl, show (swapped pw q w).conn = reconn q w.conn from rfl]
  cases w.transport.recv w.unread w.clock with | mk o r =>
  obtain ⟨s, k⟩ := r
  cases o with
  | returned d => dsimp only; rw [swapped_setUnread, receiveData_reconn]; rfl
  | raised e => dsimp only; rw [swapped_setUnread]
  | pending => dsimp only; rw [swapped_setUnread]

theorem swapped_write (w : World) (d : Bytes) : (swapped pw q w).write d = ((w.write d).1, swapped pw q (w.write d).2) := by
  unfold World.write
  rw [show (swapped pw q w).transport = w.transport from rfl, show (swapped pw q w).writes = w.writes from rfl,
    show (swapped pw q w).os = w.os from rfl]
  cases w.transport.socket with
  | none => rfl
  | some h => cases w.writes <;> rfl

theorem reconn_send (C : BlockCipher) (c : Conn) (e : Event) (r : Rand) :
    (reconn q c).send C e r = (reconn q (c.send C e r).1, (c.send C e r).2) := by
  unfold Conn.send
  rw [show (reconn q c).state = c.state from rfl]
  cases processEvent c.state e <;> rfl

theorem swapped_send (C : BlockCipher) (w : World) (e : Event) :
    (swapped pw q w).send C e = ((w.send C e).1, swapped pw q (w.send C e).2) := by
  unfold World.send
  rw [show (swapped pw q w).conn = reconn q w.conn from rfl, show (swapped pw q w).rands = w.rands from rfl,
    show (swapped pw q w).draws = w.draws from rfl, reconn_send]
  cases w.conn.send C e (w.rands w.draws) with | mk c r =>
  cases r with
  | error x => rfl
  | ok d =>
    dsimp only
    show (match (swapped pw q { w with conn := c, draws := w.draws + 1 }).write d with
      | (.returned (), w) => w.receive
      | r => r) = _
    rw [swapped_write]
    cases ({ w with conn := c, draws := w.draws + 1 } : World).write d with | mk o w1 =>
    cases o with
    | returned u => exact swapped_receive pw q w1
    | raised x => rfl
    | pending => rfl

theorem swapped_sendAll (C : BlockCipher) (es : List Event) : ∀ w : World,
    (swapped pw q w).sendAll C es = ((w.sendAll C es).1, swapped pw q (w.sendAll C es).2) := by
  induction es with
  | nil => intro w; rfl
  | cons e es ih =>
    intro w
    unfold World.sendAll
    rw [swapped_send]
    cases w.send C e with | mk o w1 =>
    cases o with
    | returned u => exact ih w1
    | raised x => rfl
    | pending => rfl

theorem swapped_exchange (C : BlockCipher) (w : World) (e : Event) :
    (swapped pw q w).exchange C e = ((w.exchange C e).1, swapped pw q (w.exchange C e).2) := by
  unfold World.exchange
  rw [swapped_send]
  cases w.send C e with | mk o w1 =>
  cases o with
  | returned u => exact swapped_nextEvent pw q C w1
  | raised x => rfl
  | pending => rfl

theorem swapped_connect (w : World) : (swapped pw q w).connect = (w.connect.1, swapped pw q w.connect.2) := by
  unfold World.connect
  rw [show (swapped pw q w).transport = w.transport from rfl, show (swapped pw q w).opens = w.opens from rfl,
    show (swapped pw q w).os = w.os from rfl]
  cases w.transport.socket with
  | some h => rfl
  | none => cases w.opens <;> rfl

theorem swapped_disconnect (w : World) : (swapped pw q w).disconnect = (w.disconnect.1, swapped pw q w.disconnect.2) := by
  unfold World.disconnect
  rw [show (swapped pw q w).transport = w.transport from rfl, show (swapped pw q w).shutdowns = w.shutdowns from rfl,
    show (swapped pw q w).closes = w.closes from rfl, show (swapped pw q w).os = w.os from rfl]
  cases w.transport.socket with
  | none => rfl
  | some h =>
    cases w.transport.kind with
    | tcp =>
      cases w.shutdowns with
      | nil => rfl
      | cons o os => cases o <;> cases w.closes <;> rfl
    | serial => cases w.closes <;> rfl

theorem swapped_act (C : BlockCipher) (w : World) (a : Action) (ha : Action.Keyless a) :
    act C (swapped pw q w) a = ((act C w a).1, swapped pw q (act C w a).2) := by
  cases a with
  | connect => unfold act; dsimp only; rw [swapped_connect]
  | disconnect => unfold act; dsimp only; rw [swapped_disconnect]
  | send es => unfold act; dsimp only; rw [swapped_sendAll]
  | nextEvent => unfold act; dsimp only; rw [swapped_nextEvent]
  | call k =>
    cases k with
    | readTime => unfold act wcall World.readTime; dsimp only; rw [swapped_exchange]
    | _ => exact absurd ha id

theorem swapped_acts (C : BlockCipher) (as : List Action) : ∀ w : World, (∀ a ∈ as, Action.Keyless a) →
    acts C (swapped pw q w) as = ((acts C w as).1, swapped pw q (acts C w as).2) := by
  induction as with
  | nil => intro w _; rfl
  | cons a as ih =>
    intro w h
    have h1 := swapped_act pw q C w a (h a List.mem_cons_self)
    have h2 := ih (act C w a).2 (fun x hx => h x (List.mem_cons_of_mem _ hx))
    unfold acts
    rw [h1]
    dsimp only
    rw [h2]

/-- C100. A program that connects, disconnects, reads the time and sends requests of its own does not use the password of
the client at all: two clients made with the same arguments except for their passwords (any, not only Latin-1 ones) return
and raise the same and ask the same of the operating system, byte for byte. -/
theorem C100_unused (C : BlockCipher) (kind : Kind) (timeout : Option Int) (a : ClientArgs) (pw pw' : PyStr) (env : OsEnv)
    (w w' : World) (h : mkWorld kind timeout { a with password := pw } env = .ok w)
    (h' : mkWorld kind timeout { a with password := pw' } env = .ok w')
    (program : List Action) (hp : ∀ x ∈ program, Action.Keyless x) :
    (acts C w program).1 = (acts C w' program).1 ∧ (acts C w program).2.os = (acts C w' program).2.os := by
  unfold mkWorld at h h'
  rw [bind_eq_ok] at h h'
  obtain ⟨c, hc, h⟩ := h
  obtain ⟨c', hc', h'⟩ := h'
  obtain ⟨ok, rfl⟩ := mkConn_ok hc
  obtain ⟨ok', rfl⟩ := mkConn_ok hc'
  have hw : w' = swapped pw' pw' w := by
    rw [← Except.ok.inj h, ← Except.ok.inj h']
    rfl
  rw [hw, swapped_acts pw' pw' C program w hp]
  exact ⟨rfl, rfl⟩

/-! ### Concrete cases -/

/-- A program that reads the time, and sends a request of its own. -/
def exKeyless : List Action :=
  [.connect, .call .readTime, .nextEvent, .disconnect, .connect, .send [.readTimeRequest {}], .nextEvent]

/-- What a client with this password returns and asks of the operating system in that program. -/
def exUnused (pw : PyStr) : List (Outcome3 Value) × List OsCall :=
  match mkWorld .tcp (some 0) { exArgs with password := pw } exEnv with
  | .ok w => ((acts idCipher w exKeyless).1, (acts idCipher w exKeyless).2.os)
  | .error _ => ([], [])

-- the hypotheses of C100_unused, for a password that has no bytes
example : ∃ w w', mkWorld .tcp (some 0) { exArgs with password := "000000".toList } exEnv = .ok w ∧
    mkWorld .tcp (some 0) { exArgs with password := "a€".toList } exEnv = .ok w' ∧ ∀ x ∈ exKeyless, Action.Keyless x :=
  ⟨_, _, rfl, rfl, fun x hx => by
    simp only [exKeyless, List.mem_cons, List.not_mem_nil, or_false] at hx
    rcases hx with rfl | rfl | rfl | rfl | rfl | rfl | rfl <;> exact trivial⟩
-- the program does something, and the request of the time is written
example : (exUnused "000000".toList).2 = (exUnused "a€".toList).2 ∧ 3 < (exUnused "000000".toList).2.length ∧
    (exUnused "000000".toList).2.any (fun c => match c with | .write .. => true | _ => false) = true := by decide +kernel

end Elgas
