import Verif.Props.Program
/-!
C87: the life cycle of the handle over whole programs.
-/
namespace Elgas
open Spec

/-- What every action but `connect` and `disconnect` does to the transport and the trace of OS calls. -/
theorem sendAll_keeps {C : BlockCipher} (es : List Event) : ∀ {w : World} {h : Handle}, w.transport.socket = some h →
    Keeps h w (w.sendAll C es).2 := by
  induction es with
  | nil => intro w h _; exact Keeps.refl h w
  | cons e es ih =>
    intro w h ht
    have h1 := send_keeps (C := C) ht e
    unfold World.sendAll
    split
    · next w1 hw =>
      rw [hw] at h1
      exact h1.trans (ih (w := w1) (by rw [h1.transport]; exact ht))
    · exact h1

/-- Nothing the operating system is asked about handles has changed. -/
structure Untouched (w w' : World) : Prop where
  transport : w'.transport = w.transport
  opens : w'.opens = w.opens
  shutdowns : w'.shutdowns = w.shutdowns
  closes : w'.closes = w.closes
  os : w'.os = w.os

theorem Untouched.trans {w w1 w2 : World} (h1 : Untouched w w1) (h2 : Untouched w1 w2) : Untouched w w2 :=
  ⟨h2.1.trans h1.1, h2.2.trans h1.2, h2.3.trans h1.3, h2.4.trans h1.4, h2.5.trans h1.5⟩

theorem Untouched.refl (w : World) : Untouched w w := ⟨rfl, rfl, rfl, rfl, rfl⟩

theorem setUnread_closed (w : World) (ht : w.transport.socket = none) (s : List Delivery) (k : Clock) :
    w.setUnread s k = { w with clock := k } := by
  unfold World.setUnread; rw [ht]

theorem send_closed (C : BlockCipher) {w : World} (ht : w.transport.socket = none) (e : Event) :
    Untouched w (w.send C e).2 := by
  unfold World.send
  split
  · exact ⟨rfl, rfl, rfl, rfl, rfl⟩
  · next c data _ =>
    have : (World.write { w with conn := c, draws := w.draws + 1 } data) =
        (.raised .runtime, { w with conn := c, draws := w.draws + 1 }) := by
      unfold World.write; dsimp only; rw [ht]
    rw [this]
    exact ⟨rfl, rfl, rfl, rfl, rfl⟩

theorem sendAll_closed (C : BlockCipher) (es : List Event) : ∀ {w : World}, w.transport.socket = none →
    Untouched w (w.sendAll C es).2 := by
  induction es with
  | nil => intro w _; exact Untouched.refl w
  | cons e es ih =>
    intro w ht
    have h1 := send_closed C ht e
    unfold World.sendAll
    split
    · next w1 hw =>
      rw [hw] at h1
      exact h1.trans (ih (w := w1) (by rw [h1.transport]; exact ht))
    · exact h1

theorem nextEvent_closed (C : BlockCipher) {w : World} (ht : w.transport.socket = none) :
    Untouched w (w.nextEvent C).2 := by
  unfold World.nextEvent
  dsimp only
  rw [setUnread_closed w ht]
  exact ⟨rfl, rfl, rfl, rfl, rfl⟩

theorem exchange_untouched (C : BlockCipher) {w : World} (ht : w.transport.socket = none) (e : Event) :
    Untouched w (w.exchange C e).2 := by
  have h1 := send_closed C ht e
  unfold World.exchange
  split
  · next w1 hw =>
    rw [hw] at h1
    exact h1.trans (nextEvent_closed C (by rw [h1.transport]; exact ht))
  · next w1 hw => rw [hw] at h1; exact h1
  · next w1 hw => rw [hw] at h1; exact h1

theorem exchange_untouched_of {C : BlockCipher} {w w1 : World} {e : Event} {o : Outcome3 Event}
    (hx : w.exchange C e = (o, w1)) (ht : w.transport.socket = none) : Untouched w w1 := by
  have h := exchange_untouched C ht e
  rw [hx] at h
  exact h

theorem readPages_untouched (C : BlockCipher) (w : World) (ht : w.transport.socket = none) (count : Int) (total : Bytes) :
    Untouched w (w.readPages C count total).2 := by
  fun_induction World.readPages C w count total with
  | case1 w count total e w1 hx => exact exchange_untouched_of hx ht
  | case2 w count total w1 hx => exact exchange_untouched_of hx ht
  | case3 w count total p w1 hx he => exact exchange_untouched_of hx ht
  | case4 w count total p w1 hx he ih =>
    have h1 := exchange_untouched_of hx ht
    exact h1.trans (ih (by rw [h1.transport]; exact ht))
  | case5 w count total ev w1 hn hx => exact exchange_untouched_of hx ht

theorem wcall_untouched (C : BlockCipher) {w : World} (ht : w.transport.socket = none) (k : Call) :
    Untouched w (wcall C w k).2 := by
  cases k with
  | readInstantaneousValues => exact exchange_untouched C ht _
  | readTime => exact exchange_untouched C ht _
  | writeTime t b => exact exchange_untouched C ht _
  | readParameters n => exact readPages_untouched C w ht n []
  | readArchive a n i => exact exchange_untouched C ht _
  | readArchiveByTime a n t => exact exchange_untouched C ht _

/-- Every action but `connect` and `disconnect`: with a handle it only writes to it, without one it asks nothing. -/
theorem act_between {C : BlockCipher} (w : World) {a : Action} (h1 : a ≠ .connect) (h2 : a ≠ .disconnect) :
    (∀ h, w.transport.socket = some h → Keeps h w (act C w a).2) ∧
    (w.transport.socket = none → Untouched w (act C w a).2) := by
  cases a with
  | connect => exact absurd rfl h1
  | disconnect => exact absurd rfl h2
  | call k => exact ⟨fun h ht => wcall_keeps w ht k, fun ht => wcall_untouched C ht k⟩
  | send es => exact ⟨fun h ht => sendAll_keeps es ht, fun ht => sendAll_closed C es ht⟩
  | nextEvent => exact ⟨fun h ht => nextEvent_keeps C ht, fun ht => nextEvent_closed C ht⟩

/-- The parts of the environment that concern handles only raise `OSError`. -/
structure Mild (w : World) : Prop where
  opens : ∀ r ∈ w.opens, OsErr r
  shutdowns : ∀ r ∈ w.shutdowns, OsErr r
  closes : ∀ r ∈ w.closes, OsErr r

/-- `connect`. -/
theorem connect_step {w : World} (hm : Mild w) : Mild w.connect.2 ∧ w.connect.2.transport.kind = w.transport.kind ∧
    ((∃ h, w.transport.socket = some h ∧ w.connect = (.raised .runtime, w)) ∨
     (w.transport.socket = none ∧ w.opens = [] ∧ w.connect = (.pending, w)) ∨
     (∃ h l, w.transport.socket = none ∧ w.opens = .ok h :: l ∧ w.connect.1 = .returned () ∧
        w.connect.2.transport.socket = some h ∧ w.connect.2.os = w.os ++ [.create (some h)]) ∨
     (∃ l, w.transport.socket = none ∧ w.opens = .error .os :: l ∧ w.connect.1 = .raised (.elgas .communication) ∧
        w.connect.2.transport.socket = none ∧ w.connect.2.os = w.os ++ [.create none])) := by
  unfold World.connect Transport.connect
  split
  · next hs ho => exact ⟨hm, rfl, .inr (.inl ⟨hs, ho, rfl⟩)⟩
  · next os opens hs ho =>
    have hmo : ∀ r ∈ opens, OsErr r := fun r hr => hm.opens r (by rw [ho]; exact List.mem_cons_of_mem _ hr)
    rw [hs]
    dsimp only
    cases os with
    | ok h => exact ⟨⟨hmo, hm.shutdowns, hm.closes⟩, rfl, .inr (.inr (.inl ⟨h, opens, rfl, ho, rfl, rfl, rfl⟩))⟩
    | error e =>
      have he : e = .os := hm.opens _ (by rw [ho]; exact List.mem_cons_self) e rfl
      subst he
      exact ⟨⟨hmo, hm.shutdowns, hm.closes⟩, rfl, .inr (.inr (.inr ⟨opens, rfl, ho, rfl, hs, rfl⟩))⟩
  · next h hs => exact ⟨hm, rfl, .inl ⟨h, hs, rfl⟩⟩

/-- `disconnect`. -/
theorem disconnect_step {w : World} (hm : Mild w) : Mild w.disconnect.2 ∧
    w.disconnect.2.transport.kind = w.transport.kind ∧ w.disconnect.2.opens = w.opens ∧
    ((w.transport.socket = none ∧ w.disconnect = (.returned (), w)) ∨
     (∃ h, w.transport.socket = some h ∧ w.disconnect.1 = .pending ∧ w.disconnect.2.transport = w.transport ∧
        (w.disconnect.2.os = w.os ∨ w.disconnect.2.os = w.os ++ [.shutdown h])) ∨
     (∃ h, w.transport.socket = some h ∧ w.disconnect.2.transport.socket = none ∧
        ((w.disconnect.1 = .returned () ∧ w.disconnect.2.os = w.os ++ closing w.transport.kind h) ∨
         (w.disconnect.1 = .raised (.elgas .communication) ∧
          (w.disconnect.2.os = w.os ++ closing w.transport.kind h ∨
            (w.transport.kind = .tcp ∧ w.disconnect.2.os = w.os ++ [.shutdown h])))))) := by
  have hs' : ∀ {r l}, w.shutdowns = r :: l → OsErr r ∧ ∀ x ∈ l, OsErr x := fun {r l} h =>
    ⟨hm.shutdowns _ (by rw [h]; exact List.mem_cons_self), fun x hx => hm.shutdowns x (by rw [h]; exact List.mem_cons_of_mem _ hx)⟩
  have hc' : ∀ {r l}, w.closes = r :: l → OsErr r ∧ ∀ x ∈ l, OsErr x := fun {r l} h =>
    ⟨hm.closes _ (by rw [h]; exact List.mem_cons_self), fun x hx => hm.closes x (by rw [h]; exact List.mem_cons_of_mem _ hx)⟩
  cases hs : w.transport.socket with
  | none =>
    have : w.disconnect = (.returned (), w) := by unfold World.disconnect; rw [hs]
    rw [this]
    exact ⟨hm, rfl, rfl, .inl ⟨rfl, rfl⟩⟩
  | some h =>
    cases hk : w.transport.kind with
    | tcp =>
      cases hsh : w.shutdowns with
      | nil =>
        have : w.disconnect = (.pending, w) := by simp only [World.disconnect, hs, hk, hsh]
        rw [this]
        exact ⟨hm, hk, rfl, .inr (.inl ⟨h, rfl, rfl, rfl, .inl rfl⟩)⟩
      | cons r shutdowns =>
        cases r with
        | ok u =>
          cases hcl : w.closes with
          | nil =>
            have : w.disconnect = (.pending, { w with shutdowns := shutdowns, os := w.os ++ [.shutdown h] }) := by
              simp only [World.disconnect, hs, hk, hsh, hcl]
            rw [this]
            exact ⟨⟨hm.opens, (hs' hsh).2, hm.closes⟩, hk, rfl, .inr (.inl ⟨h, rfl, rfl, rfl, .inr rfl⟩)⟩
          | cons c closes =>
            cases c with
            | ok u =>
              have : w.disconnect = (.returned (), { w with
                  transport := { w.transport with socket := none }
                  os := w.os ++ [.shutdown h, .close h]
                  shutdowns := shutdowns
                  closes := closes }) := by
                simp only [World.disconnect, Transport.disconnect, hs, hk, hsh, hcl]
              rw [this]
              exact ⟨⟨hm.opens, (hs' hsh).2, (hc' hcl).2⟩, hk, rfl, .inr (.inr ⟨h, rfl, rfl, .inl ⟨rfl, rfl⟩⟩)⟩
            | error e =>
              have he := (hc' hcl).1 e rfl
              subst he
              have : w.disconnect = (.raised (.elgas .communication), { w with
                  transport := { w.transport with socket := none }
                  os := w.os ++ [.shutdown h, .close h]
                  shutdowns := shutdowns
                  closes := closes }) := by
                simp only [World.disconnect, Transport.disconnect, hs, hk, hsh, hcl, if_true]
              rw [this]
              exact ⟨⟨hm.opens, (hs' hsh).2, (hc' hcl).2⟩, hk, rfl,
                .inr (.inr ⟨h, rfl, rfl, .inr ⟨rfl, .inl rfl⟩⟩)⟩
        | error e =>
          have he := (hs' hsh).1 e rfl
          subst he
          have : w.disconnect = (.raised (.elgas .communication), { w with
              transport := { w.transport with socket := none }
              os := w.os ++ [.shutdown h]
              shutdowns := shutdowns }) := by
            simp only [World.disconnect, Transport.disconnect, hs, hk, hsh, if_true]
          rw [this]
          exact ⟨⟨hm.opens, (hs' hsh).2, hm.closes⟩, hk, rfl,
            .inr (.inr ⟨h, rfl, rfl, .inr ⟨rfl, .inr ⟨rfl, rfl⟩⟩⟩)⟩
    | serial =>
      cases hcl : w.closes with
      | nil =>
        have : w.disconnect = (.pending, w) := by simp only [World.disconnect, hs, hk, hcl]
        rw [this]
        exact ⟨hm, hk, rfl, .inr (.inl ⟨h, rfl, rfl, rfl, .inl rfl⟩)⟩
      | cons c closes =>
        cases c with
        | ok u =>
          have : w.disconnect = (.returned (), { w with
              transport := { w.transport with socket := none }
              os := w.os ++ [.close h]
              closes := closes }) := by
            simp only [World.disconnect, Transport.disconnect, hs, hk, hcl]
          rw [this]
          exact ⟨⟨hm.opens, hm.shutdowns, (hc' hcl).2⟩, hk, rfl, .inr (.inr ⟨h, rfl, rfl, .inl ⟨rfl, rfl⟩⟩)⟩
        | error e =>
          have he := (hc' hcl).1 e rfl
          subst he
          have : w.disconnect = (.raised (.elgas .communication), { w with
              transport := { w.transport with socket := none }
              os := w.os ++ [.close h]
              closes := closes }) := by
            simp only [World.disconnect, Transport.disconnect, hs, hk, hcl, if_true]
          rw [this]
          exact ⟨⟨hm.opens, hm.shutdowns, (hc' hcl).2⟩, hk, rfl,
            .inr (.inr ⟨h, rfl, rfl, .inr ⟨rfl, .inl rfl⟩⟩)⟩

/-- The invariant over programs. -/
theorem acts_lifecycle {C : BlockCipher} (as : List Action) : ∀ {w : World}, Mild w → ∀ (now : List (Action × Outcome3 Value)),
    connected now = w.transport.socket.isSome →
    Mild (acts C w as).2 ∧ (acts C w as).2.transport.kind = w.transport.kind ∧
    connected (now ++ as.zip (acts C w as).1) = (acts C w as).2.transport.socket.isSome := by
  induction as with
  | nil => intro w hm now hn; exact ⟨hm, rfl, by simpa [acts] using hn⟩
  | cons a as ih =>
    intro w hm now hn
    have key : Mild (act C w a).2 ∧ (act C w a).2.transport.kind = w.transport.kind ∧
        connected (now ++ [(a, (act C w a).1)]) = (act C w a).2.transport.socket.isSome := by
      by_cases h1 : a = .connect
      · subst h1
        obtain ⟨m, k, hc⟩ := connect_step hm
        refine ⟨m, k, ?_⟩
        show connected (now ++ [(Action.connect, w.connect.1.andThen fun _ => .returned .nothing)]) =
          w.connect.2.transport.socket.isSome
        rcases hc with ⟨h, hs, hc⟩ | ⟨hs, _, hc⟩ | ⟨h, l, hs, _, c1, c2, _⟩ | ⟨l, hs, _, c1, c2, _⟩
        · rw [hc]; simpa [connected, Outcome3.andThen, hs] using hn
        · rw [hc]; simpa [connected, Outcome3.andThen, hs] using hn
        · rw [c1, c2]; simp [connected, Outcome3.andThen]
        · rw [c1, c2]; rw [hs] at hn; simpa [connected, Outcome3.andThen] using hn
      · by_cases h2 : a = .disconnect
        · subst h2
          obtain ⟨m, k, _, hc⟩ := disconnect_step hm
          refine ⟨m, k, ?_⟩
          show connected (now ++ [(Action.disconnect, w.disconnect.1.andThen fun _ => .returned .nothing)]) =
            w.disconnect.2.transport.socket.isSome
          rcases hc with ⟨hs, hc⟩ | ⟨h, hs, c1, c2, _⟩ | ⟨h, hs, c1, ⟨c2, _⟩ | ⟨c2, _⟩⟩
          · rw [hc]; simp [connected, Outcome3.andThen, hs]
          · rw [c1, c2]; simpa [connected, Outcome3.andThen] using hn
          · rw [c1, c2]; simp [connected, Outcome3.andThen]
          · rw [c1, c2]; simp [connected, Outcome3.andThen]
        · obtain ⟨b1, b2⟩ := act_between (C := C) w h1 h2
          have hcon : connected (now ++ [(a, (act C w a).1)]) = connected now := by
            cases a with
            | connect => exact absurd rfl h1
            | disconnect => exact absurd rfl h2
            | call k => simp [connected]
            | send es => simp [connected]
            | nextEvent => simp [connected]
          rw [hcon, hn]
          cases hs : w.transport.socket with
          | none =>
            obtain ⟨u1, u2, u3, u4, u5⟩ := b2 hs
            exact ⟨⟨by rw [u2]; exact hm.opens, by rw [u3]; exact hm.shutdowns, by rw [u4]; exact hm.closes⟩,
              by rw [u1], by rw [u1, hs]⟩
          | some h =>
            obtain ⟨u1, u2, u3, u4, _, _⟩ := b1 h hs
            exact ⟨⟨by rw [u2]; exact hm.opens, by rw [u3]; exact hm.shutdowns, by rw [u4]; exact hm.closes⟩,
              by rw [u1], by rw [u1, hs]⟩
    obtain ⟨k1, k2, k3⟩ := key
    obtain ⟨i1, i2, i3⟩ := ih k1 _ k3
    refine ⟨i1, i2.trans k2, ?_⟩
    simpa [acts] using i3

theorem mkWorld_mild {kind : Kind} {timeout : Option Int} {a : ClientArgs} {env : OsEnv} {w : World}
    (hm : mkWorld kind timeout a env = .ok w) (he : OnlyOsErrors env) : Mild w ∧ w.transport = mkTransport kind timeout ∧
      w.os = [] := by
  obtain ⟨conn, _, rfl⟩ := mkWorld_ok hm
  exact ⟨⟨he.opens, he.shutdowns, he.closes⟩, rfl, rfl⟩

/-- C87. Whether `connect` and `disconnect` succeed depends on the program only through whether it is connected.  A
program that is connected is refused a second connection with `RuntimeError`, and nothing happens; one that is not
gets what the operating system gives, `CommunicationError` if it fails.  `disconnect` never fails without a connection
and asks for nothing; with one it gives it up, also when the operating system fails (`CommunicationError`). Neither
touches the protocol state. -/
theorem C87_life_cycle (C : BlockCipher) (kind : Kind) (timeout : Option Int) (a : ClientArgs) (env : OsEnv) (w : World)
    (hm : mkWorld kind timeout a env = .ok w) (he : OnlyOsErrors env) (as : List Action)
    (now : World) (hnow : now = (acts C w as).2) (is : Bool) (his : is = connected (as.zip (acts C w as).1)) :
    (is = true → act C now .connect = (.raised .runtime, now)) ∧
    (is = false → ∀ h l, now.opens = .ok h :: l → (act C now .connect).1 = .returned .nothing ∧
      (act C now .connect).2.os = now.os ++ [.create (some h)]) ∧
    (is = false → ∀ e l, now.opens = .error e :: l → (act C now .connect).1 = .raised (.elgas .communication) ∧
      (act C now .connect).2.os = now.os ++ [.create none]) ∧
    (is = false → act C now .disconnect = (.returned .nothing, now)) ∧
    (is = true → ∃ h, (act C now .disconnect).1 = .pending ∨
      (((act C now .disconnect).1 = .returned .nothing ∧ (act C now .disconnect).2.os = now.os ++ closing kind h) ∨
        ((act C now .disconnect).1 = .raised (.elgas .communication) ∧ ∃ given, given ≠ [] ∧ given <+: closing kind h ∧
          (act C now .disconnect).2.os = now.os ++ given))) ∧
    (act C now .connect).2.conn = now.conn ∧ (act C now .disconnect).2.conn = now.conn := by
  obtain ⟨m, mt, _⟩ := mkWorld_mild hm he
  obtain ⟨i1, i2, i3⟩ := acts_lifecycle (C := C) as m [] (by rw [mt]; rfl)
  rw [← hnow] at i1 i2 i3
  rw [List.nil_append, ← his] at i3
  rw [mt] at i2
  have ik : now.transport.kind = kind := i2
  obtain ⟨_, _, hc⟩ := connect_step i1
  obtain ⟨_, _, _, hd⟩ := disconnect_step i1
  have ec : act C now .connect = (now.connect.1.andThen fun _ => .returned .nothing, now.connect.2) := rfl
  have ed : act C now .disconnect = (now.disconnect.1.andThen fun _ => .returned .nothing, now.disconnect.2) := rfl
  refine ⟨fun h1 => ?_, fun h0 h l ho => ?_, fun h0 e l ho => ?_, fun h0 => ?_, fun h1 => ?_,
    (connect_frame now).1, (disconnect_frame now).1⟩
  · rw [h1] at i3
    rcases hc with ⟨h, hs, hc⟩ | ⟨hs, _⟩ | ⟨h, l, hs, _⟩ | ⟨l, hs, _⟩
    · rw [ec, hc]; rfl
    all_goals rw [hs] at i3; cases i3
  · rw [h0] at i3
    rcases hc with ⟨h, hs, hc⟩ | ⟨hs, hl, _⟩ | ⟨h, l, hs, hl, c1, c2, c3⟩ | ⟨l, hs, hl, _⟩
    · rw [hs] at i3; cases i3
    · rw [ho] at hl; cases hl
    · rw [ho] at hl; cases hl
      rw [ec]; dsimp only; rw [c1]; exact ⟨rfl, c3⟩
    · rw [ho] at hl; cases hl
  · rw [h0] at i3
    rcases hc with ⟨h, hs, hc⟩ | ⟨hs, hl, _⟩ | ⟨h, l, hs, hl, c1, c2, c3⟩ | ⟨l, hs, hl, c1, c2, c3⟩
    · rw [hs] at i3; cases i3
    · rw [ho] at hl; cases hl
    · rw [ho] at hl; cases hl
    · rw [ec]; dsimp only; rw [c1]; exact ⟨rfl, c3⟩
  · rw [h0] at i3
    rcases hd with ⟨hs, hd⟩ | ⟨h, hs, _⟩ | ⟨h, hs, _⟩
    · rw [ed, hd]; rfl
    all_goals rw [hs] at i3; cases i3
  · rw [h1] at i3
    rcases hd with ⟨hs, hd⟩ | ⟨h, hs, c1, _⟩ | ⟨h, hs, _, hd⟩
    · rw [hs] at i3; cases i3
    · exact ⟨h, .inl (by rw [ed, c1]; rfl)⟩
    · refine ⟨h, .inr ?_⟩
      rw [ed]; dsimp only
      rw [ik] at hd
      rcases hd with ⟨c1, c2⟩ | ⟨c1, c2⟩
      · rw [c1]; exact .inl ⟨rfl, c2⟩
      · rw [c1]
        refine .inr ⟨rfl, ?_⟩
        rcases c2 with c2 | ⟨hk, c2⟩
        · exact ⟨_, by cases kind <;> exact List.cons_ne_nil _ _, List.prefix_rfl, c2⟩
        · subst hk
          exact ⟨_, List.cons_ne_nil _ _, ⟨[.close h], rfl⟩, c2⟩

theorem oneAtATime_writes {k : Kind} {h : Handle} {rest : List OsCall} (ds : List Bytes)
    (hr : OneAtATime k (some h) rest) : OneAtATime k (some h) (ds.map (.write h) ++ rest) := by
  induction ds with
  | nil => exact hr
  | cons d ds ih => exact .written h d _ ih

/-- What the actions have asked of the operating system. -/
theorem acts_asked {C : BlockCipher} (as : List Action) : ∀ {w : World}, Mild w →
    (∀ i : Nat, as[i]? = some .disconnect → (acts C w as).1[i]? ≠ some .pending) →
    ∃ l, (acts C w as).2.os = w.os ++ l ∧ OneAtATime w.transport.kind w.transport.socket l := by
  induction as with
  | nil => intro w _ _; exact ⟨[], by simp [acts], .done _⟩
  | cons a as ih =>
    intro w hm hp
    have hp' : ∀ i : Nat, as[i]? = some .disconnect → (acts C (act C w a).2 as).1[i]? ≠ some .pending :=
      fun i hi => by have := hp (i + 1) (by simpa using hi); simpa [acts] using this
    have hgo : ∀ {l1 : List OsCall}, (act C w a).2.os = w.os ++ l1 → Mild (act C w a).2 →
        (∀ l, OneAtATime (act C w a).2.transport.kind (act C w a).2.transport.socket l →
          OneAtATime w.transport.kind w.transport.socket (l1 ++ l)) →
        ∃ l, (acts C w (a :: as)).2.os = w.os ++ l ∧ OneAtATime w.transport.kind w.transport.socket l := by
      intro l1 h1 hm1 h2
      obtain ⟨l, hl, ho⟩ := ih hm1 hp'
      exact ⟨l1 ++ l, by simp only [acts]; rw [hl, h1, List.append_assoc], h2 l ho⟩
    by_cases h1 : a = .connect
    · subst h1
      obtain ⟨m, k, hc⟩ := connect_step hm
      have e2 : (act C w .connect).2 = w.connect.2 := rfl
      rw [e2] at hgo
      rcases hc with ⟨h, hs, hc⟩ | ⟨hs, _, hc⟩ | ⟨h, l, hs, _, c1, c2, c3⟩ | ⟨l, hs, _, c1, c2, c3⟩
      · rw [hc] at hgo; exact hgo (l1 := []) (by simp) hm (fun l hl => hl)
      · rw [hc] at hgo; exact hgo (l1 := []) (by simp) hm (fun l hl => hl)
      · exact hgo c3 m (fun l hl => by rw [hs]; rw [c2, k] at hl; exact .opened h l hl)
      · exact hgo c3 m (fun l hl => by rw [hs]; rw [c2, k] at hl; exact .failed l hl)
    · by_cases h2 : a = .disconnect
      · subst h2
        obtain ⟨m, k, _, hd⟩ := disconnect_step hm
        have e2 : (act C w .disconnect).2 = w.disconnect.2 := rfl
        rw [e2] at hgo
        rcases hd with ⟨hs, hd⟩ | ⟨h, hs, c1, _⟩ | ⟨h, hs, c1, hd⟩
        · rw [hd] at hgo; exact hgo (l1 := []) (by simp) hm (fun l hl => hl)
        · have := hp 0 rfl
          have e1 : (act C w .disconnect).1 = .pending := by
            show (w.disconnect.1.andThen fun _ => .returned Value.nothing) = _
            rw [c1]; rfl
          exact absurd (by simp [acts, e1]) this
        · have hclose : ∀ l, OneAtATime w.transport.kind none l →
              OneAtATime w.transport.kind (some h) (closing w.transport.kind h ++ l) := by
            intro l hl
            cases hk : w.transport.kind with
            | tcp => rw [hk] at hl; exact .tcpClosed h l rfl hl
            | serial => rw [hk] at hl; exact .serialClosed h l rfl hl
          rcases hd with ⟨_, c3⟩ | ⟨_, c3 | ⟨hk, c3⟩⟩
          · exact hgo c3 m (fun l hl => by rw [hs]; rw [c1, k] at hl; exact hclose l hl)
          · exact hgo c3 m (fun l hl => by rw [hs]; rw [c1, k] at hl; exact hclose l hl)
          · exact hgo c3 m (fun l hl => by rw [hs]; rw [c1, k] at hl; exact .tcpDropped h l hk hl)
      · obtain ⟨b1, b2⟩ := act_between (C := C) w h1 h2
        cases hs : w.transport.socket with
        | none =>
          rw [hs] at hgo
          obtain ⟨u1, u2, u3, u4, u5⟩ := b2 hs
          exact hgo (l1 := []) (by rw [u5]; simp)
            ⟨by rw [u2]; exact hm.opens, by rw [u3]; exact hm.shutdowns, by rw [u4]; exact hm.closes⟩
            (fun l hl => by rw [u1, hs] at hl; exact hl)
        | some h =>
          rw [hs] at hgo
          obtain ⟨u1, u2, u3, u4, _, ds, _, u5, _, _⟩ := b1 h hs
          exact hgo u5
            ⟨by rw [u2]; exact hm.opens, by rw [u3]; exact hm.shutdowns, by rw [u4]; exact hm.closes⟩
            (fun l hl => by rw [u1, hs] at hl; exact oneAtATime_writes ds hl)

/-- C87. In every program, whatever it does with the client in whatever order, at most one handle is held at a time: one
is opened only when the one before has been given up, only the held one is written to, and it is given up in the right
order.  (A `disconnect` that hangs in the operating system is left out.) -/
theorem C87_one_handle (C : BlockCipher) (kind : Kind) (timeout : Option Int) (a : ClientArgs) (env : OsEnv) (w : World)
    (hm : mkWorld kind timeout a env = .ok w) (he : OnlyOsErrors env) (as : List Action)
    (hp : ∀ i : Nat, as[i]? = some .disconnect → (acts C w as).1[i]? ≠ some .pending) :
    OneAtATime kind none (acts C w as).2.os := by
  obtain ⟨m, mt, mo⟩ := mkWorld_mild hm he
  obtain ⟨l, hl, ho⟩ := acts_asked (C := C) as m hp
  rw [mo, List.nil_append] at hl
  rw [hl]
  rw [mt] at ho
  exact ho

/-- C87. A program that has not connected (or no longer) and uses the client all the same reaches nobody: no OS call is
made. -/
theorem C87_unconnected (C : BlockCipher) (kind : Kind) (timeout : Option Int) (a : ClientArgs) (env : OsEnv) (w : World)
    (hm : mkWorld kind timeout a env = .ok w) (he : OnlyOsErrors env) (as : List Action)
    (hnot : connected (as.zip (acts C w as).1) = false) (later : List Action) (hl : .connect ∉ later) :
    (acts C w (as ++ later)).2.os = (acts C w as).2.os ∧
    (∀ o ∈ (acts C w (as ++ later)).1.drop as.length, o ≠ .pending) := by
  obtain ⟨m, mt, _⟩ := mkWorld_mild hm he
  obtain ⟨_, _, i3⟩ := acts_lifecycle (C := C) as m [] (by rw [mt]; rfl)
  rw [List.nil_append, hnot] at i3
  have hs : (acts C w as).2.transport.socket = none := by
    cases h : (acts C w as).2.transport.socket with
    | none => rfl
    | some _ => rw [h] at i3; cases i3
  rw [acts_append]
  dsimp only
  have hlen : (acts C w as).1.length = as.length := acts_length C as w
  rw [← hlen, List.drop_left]
  clear i3 hnot hm m mt
  generalize (acts C w as).2 = w0 at hs
  clear hlen
  induction later generalizing w0 with
  | nil => exact ⟨rfl, fun o ho => by cases ho⟩
  | cons a later ih =>
    have h1 : a ≠ .connect := fun h => hl (by rw [h]; exact List.mem_cons_self)
    have key : (act C w0 a).2.transport = w0.transport ∧ (act C w0 a).2.os = w0.os ∧ (act C w0 a).1 ≠ .pending := by
      cases a with
      | connect => exact absurd rfl h1
      | disconnect =>
        have : w0.disconnect = (.returned (), w0) := by unfold World.disconnect; rw [hs]
        show w0.disconnect.2.transport = _ ∧ w0.disconnect.2.os = _ ∧ (w0.disconnect.1.andThen fun _ => .returned Value.nothing) ≠ _
        rw [this]
        exact ⟨rfl, rfl, by intro h; cases h⟩
      | call k =>
        obtain ⟨u1, _, _, _, u5⟩ := wcall_untouched C hs k
        obtain ⟨x, hx, _⟩ := C84_raises C w0 hs k
        refine ⟨u1, u5, ?_⟩
        show (wcall C w0 k).1 ≠ _
        rw [hx]; intro h; cases h
      | send es =>
        obtain ⟨u1, _, _, _, u5⟩ := sendAll_closed C es hs
        refine ⟨u1, u5, ?_⟩
        show ((w0.sendAll C es).1.andThen fun _ => .returned Value.nothing) ≠ _
        have hsend : ∀ (e : Event), ∃ x, (w0.send C e).1 = .raised x := by
          intro e
          unfold World.send
          split
          · exact ⟨_, rfl⟩
          · next c data _ =>
            have : (World.write { w0 with conn := c, draws := w0.draws + 1 } data) =
                (.raised .runtime, { w0 with conn := c, draws := w0.draws + 1 }) := by
              unfold World.write; dsimp only; rw [hs]
            rw [this]
            exact ⟨_, rfl⟩
        cases es with
        | nil => intro h; cases h
        | cons e es =>
          obtain ⟨x, hx⟩ := hsend e
          unfold World.sendAll
          split
          · next hw => rw [hw] at hx; cases hx
          · rw [hx]; intro h; cases h
      | nextEvent =>
        obtain ⟨u1, _, _, _, u5⟩ := nextEvent_closed C hs
        refine ⟨u1, u5, ?_⟩
        show ((w0.nextEvent C).1.andThen (.returned ∘ Value.event)) ≠ _
        unfold World.nextEvent
        dsimp only
        have := recv_closed w0.transport w0.unread w0.clock hs
        unfold worldLoop
        split
        · intro h; cases h
        · intro h; cases h
        · split
          · next hr => rw [hr] at this; cases this
          · intro h; cases h
          · next hr => rw [hr] at this; cases this
    obtain ⟨i1, i2⟩ := ih (fun h => hl (List.mem_cons_of_mem _ h)) (act C w0 a).2 (by rw [key.1]; exact hs)
    simp only [acts]
    refine ⟨i1.trans key.2.1, fun o ho => ?_⟩
    rcases List.mem_cons.1 ho with rfl | ho
    · exact key.2.2
    · exact i2 o ho

/-- A program that goes through everything: the second `connect` is refused, the operating system fails to shut the
first connection down, the next attempt to connect fails, and the one after succeeds. -/
def exHardEnv : OsEnv :=
  { exEnv with opens := [.ok 5, .error .os, .ok 6], shutdowns := [.error .os, .ok ()], closes := [.ok ()] }

def exHardProgram : List Action :=
  [.disconnect, .connect, .connect, .call .readTime, .disconnect, .connect, .nextEvent, .connect, .disconnect]

example : OnlyOsErrors exHardEnv := by
  refine ⟨?_, ?_, ?_⟩ <;> intro r hr e he <;> subst he <;> simp [exHardEnv] at hr <;> exact hr

example : ∃ w, mkWorld .tcp none exArgs exHardEnv = .ok w ∧
    (acts idCipher w exHardProgram).1.map ended = [.returned, .returned, .raised .runtime, .returned,
      .raised (.elgas .communication), .raised (.elgas .communication), .raised .runtime, .returned, .returned] ∧
    (acts idCipher w exHardProgram).2.os = [.create (some 5), .write 5 exAsk, .shutdown 5, .create none, .create (some 6),
      .shutdown 6, .close 6] := by
  refine ⟨_, rfl, ?_, ?_⟩ <;> decide +kernel

end Elgas
