import Verif.Props.Interrupt
import Verif.Props.Lifecycle
import Verif.Props.Assign
import Verif.Spec.Cut
/-!
C106: programs that are stopped inside `connect` and `disconnect`, and what makes of the client a new one.
-/
namespace Elgas
open Spec

theorem laps_ended (w : World) (o : Outcome3 Unit) (n : Nat) : w.laps (.ended o) n = (w, .ended o) := by
  induction n with
  | zero => rfl
  | succ n ih => exact ih

theorem laps_stay {w : World} {l : Lap} (h : w.lap l = (w, l)) (n : Nat) : w.laps l n = (w, l) := by
  induction n with
  | zero => rfl
  | succ n ih => simp only [World.laps, h]; exact ih

theorem laps_end {w w1 : World} {l : Lap} {o : Outcome3 Unit} (h : w.lap l = (w1, .ended o)) (n : Nat) :
    w.laps l (n + 1) = (w1, .ended o) := by
  simp only [World.laps, h]; exact laps_ended w1 o n

theorem laps_go {w w1 : World} {l l1 : Lap} (h : w.lap l = (w1, l1)) (n : Nat) :
    w.laps l (n + 1) = w1.laps l1 n := by
  simp only [World.laps, h]

/-- `connect()` in steps. -/
theorem connect_laps (w : World) : (∀ n, cutConnect w n = w ∨ cutConnect w n = w.connect.2 ∨
      ∃ h, Lost w h (cutConnect w n) ∧ cutConnect w n =
        { w with opens := (cutConnect w n).opens, os := (cutConnect w n).os }) ∧
    (w.connect.1 ≠ .pending → ∀ n, w.laps .connecting (n + 2) = (w.connect.2, .ended w.connect.1)) ∧
    (w.connect.1 = .pending → ∀ n, cutConnect w n = w.connect.2) := by
  cases hs : w.transport.socket with
  | some h =>
    have hl : w.lap .connecting = (w, .ended (.raised .runtime)) := by simp only [World.lap, hs]
    have hc : w.connect = (.raised .runtime, w) := by simp only [World.connect, hs]
    rw [hc]
    refine ⟨?_, fun _ n => laps_end hl (n + 1), fun h => by cases h⟩
    intro n
    left
    cases n with
    | zero => rfl
    | succ n => exact congrArg Prod.fst (laps_end hl n)
  | none =>
    cases ho : w.opens with
    | nil =>
      have hl : w.lap .connecting = (w, .connecting) := by simp only [World.lap, hs, ho]
      have hc : w.connect = (.pending, w) := by simp only [World.connect, hs, ho]
      rw [hc]
      exact ⟨fun n => .inl (congrArg Prod.fst (laps_stay hl n)), fun h => absurd rfl h,
        fun _ n => congrArg Prod.fst (laps_stay hl n)⟩
    | cons r l =>
      cases r with
      | ok h =>
        have hl : w.lap .connecting = ({ w with opens := l, os := w.os ++ [.create (some h)] }, .opened (.ok h)) := by
          simp only [World.lap, hs, ho]
        have hc : w.connect = (.returned (), { w with transport := { w.transport with socket := some h }, os := w.os ++ [.create (some h)], opens := l }) := by
          simp only [World.connect, hs, ho, Transport.connect]
        have h2 : ∀ n, w.laps .connecting (n + 2) = ({ w with transport := { w.transport with socket := some h }, os := w.os ++ [.create (some h)], opens := l }, .ended (.returned ())) :=
          fun n => (laps_go hl (n + 1)).trans (laps_end rfl n)
        rw [hc]
        refine ⟨?_, fun _ n => h2 n, fun h => by cases h⟩
        intro n
        match n with
        | 0 => exact .inl rfl
        | 1 =>
          have e : cutConnect w 1 = { w with opens := l, os := w.os ++ [.create (some h)] } :=
            congrArg Prod.fst (laps_go hl 0)
          refine .inr (.inr ⟨h, ?_, ?_⟩)
          · rw [e]; exact ⟨⟨hs, hs⟩, rfl, ho⟩
          · rw [e]
        | n + 2 => exact .inr (.inl (congrArg Prod.fst (h2 n)))
      | error e =>
        have hl : w.lap .connecting = ({ w with opens := l, os := w.os ++ [.create none] }, .opened (.error e)) := by
          simp only [World.lap, hs, ho]
        have hc : w.connect = (.raised (wrapOs e), { w with os := w.os ++ [.create none], opens := l }) := by
          simp only [World.connect, hs, ho, Transport.connect]
        have h2 : ∀ n, w.laps .connecting (n + 2) = ({ w with os := w.os ++ [.create none], opens := l },
            .ended (.raised (wrapOs e))) :=
          fun n => (laps_go hl (n + 1)).trans (laps_end rfl n)
        rw [hc]
        refine ⟨?_, fun _ n => h2 n, fun h => by cases h⟩
        intro n
        match n with
        | 0 => exact .inl rfl
        | 1 => exact .inr (.inl (congrArg Prod.fst (laps_go hl 0)))
        | n + 2 => exact .inr (.inl (congrArg Prod.fst (h2 n)))

/-- What of the client a stopped `disconnect()` that still holds the handle leaves alone. -/
structure Alone (w w' : World) : Prop where
  password : w'.password = w.password
  opens : w'.opens = w.opens
  writes : w'.writes = w.writes
  inbox : w'.inbox = w.inbox
  clock : w'.clock = w.clock
  rands : w'.rands = w.rands
  draws : w'.draws = w.draws
  shutdowns : w'.shutdowns <:+ w.shutdowns
  closes : w'.closes <:+ w.closes

/-- `disconnect()` in steps. -/
theorem disconnect_laps (w : World) : (∀ n, cutDisconnect w n = w ∨ cutDisconnect w n = w.disconnect.2 ∨
      ∃ h, StillHeld w h (cutDisconnect w n) ∧ Alone w (cutDisconnect w n)) ∧
    (w.disconnect.1 ≠ .pending → ∀ n, w.laps .disconnecting (n + 3) = (w.disconnect.2, .ended w.disconnect.1)) ∧
    (w.disconnect.1 = .pending → ∀ n, cutDisconnect w (n + 1) = w.disconnect.2) := by
  have zero : ∀ {P : World → Prop}, P w → P (cutDisconnect w 0) := fun h => h
  cases hs : w.transport.socket with
  | none =>
    have hl : w.lap .disconnecting = (w, .ended (.returned ())) := by simp only [World.lap, hs]
    have hc : w.disconnect = (.returned (), w) := by simp only [World.disconnect, hs]
    rw [hc]
    refine ⟨?_, fun _ n => laps_end hl (n + 2), fun h => by cases h⟩
    intro n
    left
    cases n with
    | zero => rfl
    | succ n => exact congrArg Prod.fst (laps_end hl n)
  | some h =>
    cases hk : w.transport.kind with
    | serial =>
      cases hcl : w.closes with
      | nil =>
        have hl : w.lap .disconnecting = (w, .disconnecting) := by simp only [World.lap, hs, hk, World.giveUp, hcl]
        have hc : w.disconnect = (.pending, w) := by simp only [World.disconnect, hs, hk, hcl]
        rw [hc]
        exact ⟨fun n => .inl (congrArg Prod.fst (laps_stay hl n)), fun h => absurd rfl h,
          fun _ n => congrArg Prod.fst (laps_stay hl _)⟩
      | cons r closes =>
        have hl : w.lap .disconnecting = ({ w with closes := closes, os := w.os ++ [.close h] }, .closed r) := by
          simp only [World.lap, hs, hk, World.giveUp, hcl]
        have h2 : ∀ n, w.laps .disconnecting (n + 2) = (w.disconnect.2, .ended w.disconnect.1) ∧
            w.disconnect.1 ≠ .pending := by
          intro n
          rw [laps_go hl (n + 1)]
          cases r with
          | ok u =>
            have hc : w.disconnect = (.returned (), { w with
                transport := { w.transport with socket := none }
                os := w.os ++ [.close h]
                closes := closes }) := by
              simp only [World.disconnect, Transport.disconnect, hs, hk, hcl]
            rw [hc]
            exact ⟨laps_end rfl n, by simp⟩
          | error e =>
            by_cases he : e = .os
            · have hc : w.disconnect = (.raised (.elgas .communication), { w with
                  transport := { w.transport with socket := none }
                  os := w.os ++ [.close h]
                  closes := closes }) := by
                simp only [World.disconnect, Transport.disconnect, hs, hk, hcl, he, if_true]
              rw [hc]
              exact ⟨laps_end (by simp only [World.lap, World.given, he, if_true]) n, by simp⟩
            · have hc : w.disconnect = (.raised e, { w with os := w.os ++ [.close h], closes := closes }) := by
                simp only [World.disconnect, Transport.disconnect, hs, hk, hcl, he, if_false]
              rw [hc]
              exact ⟨laps_end (by simp only [World.lap, World.given, he, if_false]) n, by simp⟩
        refine ⟨?_, fun _ n => (h2 (n + 1)).1, fun h => absurd h (h2 0).2⟩
        intro n
        match n with
        | 0 => exact .inl rfl
        | 1 =>
          have e : cutDisconnect w 1 = { w with closes := closes, os := w.os ++ [.close h] } :=
            congrArg Prod.fst (laps_go hl 0)
          rw [e]
          exact .inr (.inr ⟨h, ⟨⟨hs, rfl⟩, ⟨[.close h], by simp, by rw [hk]; exact List.prefix_refl _, rfl⟩, rfl⟩,
            ⟨rfl, rfl, rfl, rfl, rfl, rfl, rfl, List.suffix_refl _, by rw [hcl]; exact ⟨[r], rfl⟩⟩⟩)
        | n + 2 => exact .inr (.inl (congrArg Prod.fst (h2 n).1))
    | tcp =>
      cases hsh : w.shutdowns with
      | nil =>
        have hl : w.lap .disconnecting = (w, .disconnecting) := by simp only [World.lap, hs, hk, hsh]
        have hc : w.disconnect = (.pending, w) := by simp only [World.disconnect, hs, hk, hsh]
        rw [hc]
        exact ⟨fun n => .inl (congrArg Prod.fst (laps_stay hl n)), fun h => absurd rfl h,
          fun _ n => congrArg Prod.fst (laps_stay hl _)⟩
      | cons r shutdowns =>
        have hl : w.lap .disconnecting = ({ w with shutdowns := shutdowns, os := w.os ++ [.shutdown h] }, .shut r) := by
          simp only [World.lap, hs, hk, hsh]
        have h1 : ∃ h, StillHeld w h (cutDisconnect w 1) ∧ Alone w (cutDisconnect w 1) := by
          have e : cutDisconnect w 1 = { w with shutdowns := shutdowns, os := w.os ++ [.shutdown h] } :=
            congrArg Prod.fst (laps_go hl 0)
          rw [e]
          exact ⟨h, ⟨⟨hs, rfl⟩, ⟨[.shutdown h], by simp, by rw [hk]; exact ⟨[.close h], rfl⟩, rfl⟩, rfl⟩,
            ⟨rfl, rfl, rfl, rfl, rfl, rfl, rfl, by rw [hsh]; exact ⟨[r], rfl⟩, List.suffix_refl _⟩⟩
        cases r with
        | error e =>
          have h2 : ∀ n, w.laps .disconnecting (n + 2) = (w.disconnect.2, .ended w.disconnect.1) ∧
              w.disconnect.1 ≠ .pending := by
            intro n
            rw [laps_go hl (n + 1)]
            by_cases he : e = .os
            · have hc : w.disconnect = (.raised (.elgas .communication), { w with
                  transport := { w.transport with socket := none }
                  os := w.os ++ [.shutdown h]
                  shutdowns := shutdowns }) := by
                simp only [World.disconnect, Transport.disconnect, hs, hk, hsh, he, if_true]
              rw [hc]
              exact ⟨laps_end (by simp only [World.lap, World.given, he, if_true]) n, by simp⟩
            · have hc : w.disconnect = (.raised e, { w with os := w.os ++ [.shutdown h], shutdowns := shutdowns }) := by
                simp only [World.disconnect, Transport.disconnect, hs, hk, hsh, he, if_false]
              rw [hc]
              exact ⟨laps_end (by simp only [World.lap, World.given, he, if_false]) n, by simp⟩
          refine ⟨?_, fun _ n => (h2 (n + 1)).1, fun h => absurd h (h2 0).2⟩
          intro n
          match n with
          | 0 => exact .inl rfl
          | 1 => exact .inr (.inr h1)
          | n + 2 => exact .inr (.inl (congrArg Prod.fst (h2 n).1))
        | ok u =>
          cases hcl : w.closes with
          | nil =>
            have hc : w.disconnect = (.pending, { w with shutdowns := shutdowns, os := w.os ++ [.shutdown h] }) := by
              simp only [World.disconnect, hs, hk, hsh, hcl]
            have h2 : ∀ n, cutDisconnect w (n + 1) = { w with shutdowns := shutdowns, os := w.os ++ [.shutdown h] } := by
              intro n
              unfold cutDisconnect
              rw [laps_go hl n, laps_stay (by simp only [World.lap, hs, World.giveUp, hcl])]
            rw [hc]
            refine ⟨?_, fun h => absurd rfl h, fun _ n => h2 n⟩
            intro n
            cases n with
            | zero => exact .inl rfl
            | succ n => exact .inr (.inl (h2 n))
          | cons c closes =>
            have hl2 : ({ w with shutdowns := shutdowns, os := w.os ++ [.shutdown h] } : World).lap (.shut (.ok u)) =
                ({ w with shutdowns := shutdowns, closes := closes, os := w.os ++ [.shutdown h] ++ [.close h] },
                  .closed c) := by
              simp only [World.lap, hs, World.giveUp, hcl]
            have ea : w.os ++ [.shutdown h] ++ [.close h] = w.os ++ [.shutdown h, .close h] := by simp
            have h2 : ∀ n, w.laps .disconnecting (n + 3) = (w.disconnect.2, .ended w.disconnect.1) ∧
                w.disconnect.1 ≠ .pending := by
              intro n
              rw [laps_go hl (n + 2), laps_go hl2 (n + 1), ea]
              cases c with
              | ok u =>
                have hc : w.disconnect = (.returned (), { w with
                    transport := { w.transport with socket := none }
                    os := w.os ++ [.shutdown h, .close h]
                    shutdowns := shutdowns
                    closes := closes }) := by
                  simp only [World.disconnect, Transport.disconnect, hs, hk, hsh, hcl]
                rw [hc]
                exact ⟨laps_end rfl n, by simp⟩
              | error e =>
                by_cases he : e = .os
                · have hc : w.disconnect = (.raised (.elgas .communication), { w with
                      transport := { w.transport with socket := none }
                      os := w.os ++ [.shutdown h, .close h]
                      shutdowns := shutdowns
                      closes := closes }) := by
                    simp only [World.disconnect, Transport.disconnect, hs, hk, hsh, hcl, he, if_true]
                  rw [hc]
                  exact ⟨laps_end (by simp only [World.lap, World.given, he, if_true]) n, by simp⟩
                · have hc : w.disconnect = (.raised e, { w with
                      os := w.os ++ [.shutdown h, .close h], shutdowns := shutdowns, closes := closes }) := by
                    simp only [World.disconnect, Transport.disconnect, hs, hk, hsh, hcl, he, if_false]
                  rw [hc]
                  exact ⟨laps_end (by simp only [World.lap, World.given, he, if_false]) n, by simp⟩
            refine ⟨?_, fun _ n => (h2 n).1, fun h => absurd h (h2 0).2⟩
            intro n
            match n with
            | 0 => exact .inl rfl
            | 1 => exact .inr (.inr h1)
            | 2 =>
              have e : cutDisconnect w 2 = { w with shutdowns := shutdowns, closes := closes, os := w.os ++ [.shutdown h, .close h] } := by
                unfold cutDisconnect
                rw [laps_go hl 1, laps_go hl2 0, ea]
                rfl
              rw [e]
              exact .inr (.inr ⟨h, ⟨⟨hs, rfl⟩, ⟨[.shutdown h, .close h], by simp, by rw [hk]; exact List.prefix_refl _, rfl⟩,
                rfl⟩, ⟨rfl, rfl, rfl, rfl, rfl, rfl, rfl, by rw [hsh]; exact ⟨[_], rfl⟩, by rw [hcl]; exact ⟨[_], rfl⟩⟩⟩)
            | n + 3 => exact .inr (.inl (congrArg Prod.fst (h2 n).1))


/-! ### What no deed changes -/

/-- What every deed leaves alone. -/
structure Frames (w w' : World) : Prop where
  args : w'.conn.args = w.conn.args
  context : w'.conn.cipherContext = w.conn.cipherContext
  password : w'.password = w.password
  rands : w'.rands = w.rands
  kind : w'.transport.kind = w.transport.kind
  timeout : w'.transport.timeout = w.transport.timeout
  opens : w'.opens <:+ w.opens
  shutdowns : w'.shutdowns <:+ w.shutdowns
  closes : w'.closes <:+ w.closes
  gone : ∀ h, Gone w h → Gone w' h ∧ ∃ l, w'.os = w.os ++ l ∧ ∀ c ∈ l, callHandle c ≠ some h

theorem Frames.refl (w : World) : Frames w w :=
  ⟨rfl, rfl, rfl, rfl, rfl, rfl, List.suffix_refl _, List.suffix_refl _, List.suffix_refl _,
    fun _ hg => ⟨hg, [], (List.append_nil _).symm, fun _ h => by cases h⟩⟩

theorem Frames.trans {w w1 w2 : World} (h1 : Frames w w1) (h2 : Frames w1 w2) : Frames w w2 := by
  refine ⟨h2.args.trans h1.args, h2.context.trans h1.context, h2.password.trans h1.password, h2.rands.trans h1.rands,
    h2.kind.trans h1.kind, h2.timeout.trans h1.timeout, h2.opens.trans h1.opens, h2.shutdowns.trans h1.shutdowns,
    h2.closes.trans h1.closes, fun h hg => ?_⟩
  obtain ⟨g1, l1, e1, n1⟩ := h1.gone h hg
  obtain ⟨g2, l2, e2, n2⟩ := h2.gone h g1
  refine ⟨g2, l1 ++ l2, by rw [e2, e1, List.append_assoc], fun c hc => ?_⟩
  rcases List.mem_append.1 hc with hc | hc
  · exact n1 c hc
  · exact n2 c hc

/-- A change that keeps the transport and asks the operating system only things about the handle it holds. -/
theorem frames_of {w w' : World} (h1 : w'.conn.args = w.conn.args) (h2 : w'.conn.cipherContext = w.conn.cipherContext)
    (h3 : w'.password = w.password) (h4 : w'.rands = w.rands) (h5 : w'.transport = w.transport)
    (h6 : w'.opens = w.opens) (h7 : w'.shutdowns <:+ w.shutdowns) (h8 : w'.closes <:+ w.closes)
    (h9 : ∃ l, w'.os = w.os ++ l ∧ ∀ c ∈ l, callHandle c = w.transport.socket) : Frames w w' := by
  obtain ⟨l, e, hl⟩ := h9
  refine ⟨h1, h2, h3, h4, by rw [h5], by rw [h5], by rw [h6]; exact List.suffix_refl _, h7, h8, fun h hg => ⟨?_, l, e, ?_⟩⟩
  · unfold Gone; rw [h5, h6]; exact hg
  · intro c hc; rw [hl c hc]; exact hg.1

theorem step_frames (C : BlockCipher) (plan : Nat → List (Nat × Event × Outcome3 Event) → Option Event) (m : Threads)
    (tid : Nat) : Frames m.world (m.step C plan tid).world := by
  obtain ⟨c1, c2⟩ := step_config C plan m tid
  have hw : (m.step C plan tid).world.password = m.world.password ∧ (m.step C plan tid).world.rands = m.world.rands ∧
      (m.step C plan tid).world.transport = m.world.transport ∧ (m.step C plan tid).world.opens = m.world.opens ∧
      (m.step C plan tid).world.shutdowns = m.world.shutdowns ∧ (m.step C plan tid).world.closes = m.world.closes ∧
      ∃ l, (m.step C plan tid).world.os = m.world.os ++ l ∧ ∀ c ∈ l, callHandle c = m.world.transport.socket := by
    have none : ∃ l, m.world.os = m.world.os ++ l ∧ ∀ c ∈ l, callHandle c = m.world.transport.socket :=
      ⟨[], (List.append_nil _).symm, fun _ h => by cases h⟩
    have hset : ∀ r k, (m.world.setUnread r k).password = m.world.password ∧ (m.world.setUnread r k).rands = m.world.rands ∧
        (m.world.setUnread r k).transport = m.world.transport ∧ (m.world.setUnread r k).opens = m.world.opens ∧
        (m.world.setUnread r k).shutdowns = m.world.shutdowns ∧ (m.world.setUnread r k).closes = m.world.closes ∧
        ∃ l, (m.world.setUnread r k).os = m.world.os ++ l ∧ ∀ c ∈ l, callHandle c = m.world.transport.socket := by
      intro r k
      unfold World.setUnread
      split <;> exact ⟨rfl, rfl, rfl, rfl, rfl, rfl, none⟩
    unfold Threads.step
    repeat' split
    all_goals (try exact ⟨rfl, rfl, rfl, rfl, rfl, rfl, none⟩)
    next e p _ =>
      unfold Threads.advance
      repeat' split
      all_goals (try exact ⟨rfl, rfl, rfl, rfl, rfl, rfl, none⟩)
      · next data hf _ h hs =>
        exact ⟨rfl, rfl, rfl, rfl, rfl, rfl, [.write h data], rfl, fun c hc => by
          rw [List.mem_singleton.1 hc, hs]; rfl⟩
      · unfold Threads.read
        repeat' split
        all_goals first
          | exact ⟨rfl, rfl, rfl, rfl, rfl, rfl, none⟩
          | exact hset _ _
  obtain ⟨h1, h2, h3, h4, h5, h6, h7⟩ := hw
  exact frames_of c1 c2 h1 h2 h3 h4 (by rw [h5]; exact List.suffix_refl _) (by rw [h6]; exact List.suffix_refl _) h7

theorem stopped_frames (C : BlockCipher) (next : List (Event × Outcome3 Event) → Option Event) (w : World) (n : Nat) :
    Frames w (stopped C next w n).world := by
  induction n with
  | zero => exact Frames.refl w
  | succ n ih =>
    have : stopped C next w (n + 1) =
        (stopped C next w n).step C (fun _ past => next (past.map Prod.snd)) 0 := by
      unfold stopped
      rw [List.replicate_succ', threads_run_append]
      rfl
    rw [this]
    exact ih.trans (step_frames C _ _ 0)

theorem connect_frames (w : World) : Frames w w.connect.2 := by
  cases hs : w.transport.socket with
  | some h =>
    have hc : w.connect = (.raised .runtime, w) := by simp only [World.connect, hs]
    rw [hc]; exact Frames.refl w
  | none =>
    cases ho : w.opens with
    | nil =>
      have hc : w.connect = (.pending, w) := by simp only [World.connect, hs, ho]
      rw [hc]; exact Frames.refl w
    | cons r l =>
      have hsuf : l <:+ w.opens := by rw [ho]; exact ⟨[r], rfl⟩
      cases r with
      | ok h =>
        have hc : w.connect = (.returned (), { w with transport := { w.transport with socket := some h }, os := w.os ++ [.create (some h)], opens := l }) := by
          simp only [World.connect, hs, ho, Transport.connect]
        rw [hc]
        refine ⟨rfl, rfl, rfl, rfl, rfl, rfl, hsuf, List.suffix_refl _, List.suffix_refl _, fun g hg => ?_⟩
        have hne : g ≠ h := by
          rintro rfl
          exact hg.2 (by rw [ho]; exact List.mem_cons_self)
        exact ⟨⟨fun e => hne (Option.some.inj e).symm, fun hm => hg.2 (hsuf.subset hm)⟩, _, rfl, fun c hc => by
          rw [List.mem_singleton.1 hc]; exact fun e => hne (Option.some.inj e).symm⟩
      | error e =>
        have hc : w.connect = (.raised (wrapOs e), { w with os := w.os ++ [.create none], opens := l }) := by
          simp only [World.connect, hs, ho, Transport.connect]
        rw [hc]
        refine ⟨rfl, rfl, rfl, rfl, rfl, rfl, hsuf, List.suffix_refl _, List.suffix_refl _, fun g hg => ?_⟩
        exact ⟨⟨hg.1, fun hm => hg.2 (hsuf.subset hm)⟩, _, rfl, fun c hc => by
          rw [List.mem_singleton.1 hc]; exact fun e => by cases e⟩

theorem cutConnect_frames (w : World) (n : Nat) : Frames w (cutConnect w n) := by
  rcases (connect_laps w).1 n with e | e | ⟨h, hl, e⟩
  · rw [e]; exact Frames.refl w
  · rw [e]; exact connect_frames w
  · have hsuf : (cutConnect w n).opens <:+ w.opens := ⟨[.ok h], hl.taken.symm⟩
    rw [e]
    refine ⟨rfl, rfl, rfl, rfl, rfl, rfl, hsuf, List.suffix_refl _, List.suffix_refl _, fun g hg => ?_⟩
    have hne : g ≠ h := by
      rintro rfl
      exact hg.2 (by rw [hl.taken]; exact List.mem_cons_self)
    exact ⟨⟨hg.1, fun hm => hg.2 (hsuf.subset hm)⟩, _, hl.opened, fun c hc => by
      rw [List.mem_singleton.1 hc]; exact fun e => hne (Option.some.inj e).symm⟩

/-- What a `disconnect` that comes back or not leaves. -/
theorem disconnect_cases (w : World) : (w.transport.socket = none ∧ w.disconnect.2 = w) ∨
    ∃ h, w.transport.socket = some h ∧
    ∃ (t : Transport) (part : List OsCall) (s c : List (Res Unit)), (t = w.transport ∨ t = { w.transport with socket := none }) ∧
      (∀ x ∈ part, callHandle x = some h) ∧ s <:+ w.shutdowns ∧ c <:+ w.closes ∧
      w.disconnect.2 = { w with transport := t, os := w.os ++ part, shutdowns := s, closes := c } := by
  cases hs : w.transport.socket with
  | none => exact .inl ⟨rfl, by simp only [World.disconnect, hs]⟩
  | some h =>
    refine .inr ⟨h, rfl, ?_⟩
    have p0 : ∀ x ∈ ([] : List OsCall), callHandle x = some h := fun _ h => by cases h
    have p1 : ∀ x ∈ ([.shutdown h] : List OsCall), callHandle x = some h := by intro x hx; rw [List.mem_singleton.1 hx]; rfl
    have p2 : ∀ x ∈ ([.close h] : List OsCall), callHandle x = some h := by intro x hx; rw [List.mem_singleton.1 hx]; rfl
    have p3 : ∀ x ∈ ([.shutdown h, .close h] : List OsCall), callHandle x = some h := by
      intro x hx
      rcases List.mem_cons.1 hx with rfl | hx
      · rfl
      · rw [List.mem_singleton.1 hx]; rfl
    have pend : ∃ (t : Transport) (part : List OsCall) (s c : List (Res Unit)), (t = w.transport ∨ t = { w.transport with socket := none }) ∧
        (∀ x ∈ part, callHandle x = some h) ∧ s <:+ w.shutdowns ∧ c <:+ w.closes ∧
        w = { w with transport := t, os := w.os ++ part, shutdowns := s, closes := c } :=
      ⟨w.transport, [], w.shutdowns, w.closes, .inl rfl, p0, List.suffix_refl _, List.suffix_refl _, by
        rw [List.append_nil]⟩
    cases hk : w.transport.kind with
    | tcp =>
      cases hsh : w.shutdowns with
      | nil => 
        have hc : w.disconnect = (.pending, w) := by simp only [World.disconnect, hs, hk, hsh]
        rw [hc, ← hsh]; exact pend
      | cons r shutdowns =>
        have hsu : shutdowns <:+ r :: shutdowns := ⟨[r], rfl⟩
        cases r with
        | error e =>
          by_cases he : e = .os
          · exact ⟨_, _, _, _, .inr rfl, p1, hsu, List.suffix_refl _, by
              simp only [World.disconnect, Transport.disconnect, hs, hk, hsh, he, if_true]⟩
          · exact ⟨_, _, _, _, .inl rfl, p1, hsu, List.suffix_refl _, by
              simp only [World.disconnect, Transport.disconnect, hs, hk, hsh, he, if_false]⟩
        | ok u =>
          cases hcl : w.closes with
          | nil =>
            refine ⟨_, _, _, _, .inl rfl, p1, hsu, List.suffix_refl _, ?_⟩
            simp only [World.disconnect, hs, hk, hsh, hcl]
          | cons c closes =>
            have hcu : closes <:+ c :: closes := ⟨[c], rfl⟩
            cases c with
            | ok u => exact ⟨_, _, _, _, .inr rfl, p3, hsu, hcu, by
                simp only [World.disconnect, Transport.disconnect, hs, hk, hsh, hcl]⟩
            | error e =>
              by_cases he : e = .os
              · exact ⟨_, _, _, _, .inr rfl, p3, hsu, hcu, by
                  simp only [World.disconnect, Transport.disconnect, hs, hk, hsh, hcl, he, if_true]⟩
              · exact ⟨_, _, _, _, .inl rfl, p3, hsu, hcu, by
                  simp only [World.disconnect, Transport.disconnect, hs, hk, hsh, hcl, he, if_false]⟩
    | serial =>
      cases hcl : w.closes with
      | nil =>
        have hc : w.disconnect = (.pending, w) := by simp only [World.disconnect, hs, hk, hcl]
        rw [hc, ← hcl]; exact pend
      | cons c closes =>
        have hcu : closes <:+ c :: closes := ⟨[c], rfl⟩
        cases c with
        | ok u => exact ⟨_, _, _, _, .inr rfl, p2, List.suffix_refl _, hcu, by
            simp only [World.disconnect, Transport.disconnect, hs, hk, hcl]⟩
        | error e =>
          by_cases he : e = .os
          · exact ⟨_, _, _, _, .inr rfl, p2, List.suffix_refl _, hcu, by
              simp only [World.disconnect, Transport.disconnect, hs, hk, hcl, he, if_true]⟩
          · exact ⟨_, _, _, _, .inl rfl, p2, List.suffix_refl _, hcu, by
              simp only [World.disconnect, Transport.disconnect, hs, hk, hcl, he, if_false]⟩

theorem disconnect_frames (w : World) : Frames w w.disconnect.2 := by
  rcases disconnect_cases w with ⟨_, e⟩ | ⟨h, hs, t, part, s, c, ht, hp, h1, h2, e⟩
  · rw [e]; exact Frames.refl w
  · rw [e]
    refine ⟨rfl, rfl, rfl, rfl, ?_, ?_, List.suffix_refl _, h1, h2, fun g hg => ⟨⟨?_, hg.2⟩, part, rfl, ?_⟩⟩
    · rcases ht with rfl | rfl <;> rfl
    · rcases ht with rfl | rfl <;> rfl
    · rcases ht with rfl | rfl
      · exact hg.1
      · exact fun e => by cases e
    · intro x hx
      rw [hp x hx, ← hs]
      exact hg.1

theorem cutDisconnect_frames (w : World) (n : Nat) : Frames w (cutDisconnect w n) := by
  rcases (disconnect_laps w).1 n with e | e | ⟨h, hl, ha⟩
  · rw [e]; exact Frames.refl w
  · rw [e]; exact disconnect_frames w
  · obtain ⟨part, _, hp, ho⟩ := hl.asked
    refine frames_of (congrArg Conn.args hl.conn) (congrArg Conn.cipherContext hl.conn) ha.password ha.rands hl.held.2
      ha.opens ha.shutdowns ha.closes ⟨part, ho, fun c hc => ?_⟩
    rw [hl.held.1]
    have := hp.subset hc
    unfold closing at this
    split at this
    · rcases List.mem_cons.1 this with rfl | this
      · rfl
      · rw [List.mem_singleton.1 this]; rfl
    · rw [List.mem_singleton.1 this]; rfl

theorem act_frames (C : BlockCipher) (w : World) (a : Action) : Frames w (act C w a).2 := by
  by_cases h1 : a = .connect
  · rw [h1]; exact connect_frames w
  by_cases h2 : a = .disconnect
  · rw [h2]; exact disconnect_frames w
  have g := act_goes C w a
  obtain ⟨k1, k2⟩ := act_between (C := C) w h1 h2
  cases hs : w.transport.socket with
  | none =>
    have k := k2 hs
    exact frames_of g.args g.context g.password g.rands k.transport k.opens (by rw [k.shutdowns]; exact List.suffix_refl _)
      (by rw [k.closes]; exact List.suffix_refl _) ⟨[], by rw [k.os, List.append_nil], fun _ h => by cases h⟩
  | some h =>
    have k := k1 h hs
    obtain ⟨ds, j, ho, _⟩ := k.os
    exact frames_of g.args g.context g.password g.rands k.transport k.opens (by rw [k.shutdowns]; exact List.suffix_refl _)
      (by rw [k.closes]; exact List.suffix_refl _) ⟨_, ho, fun c hc => by
        obtain ⟨d, _, rfl⟩ := List.mem_map.1 hc
        rw [hs]; rfl⟩

theorem deed_frames (C : BlockCipher) (w : World) (d : Deed) : Frames w (deed C w d) := by
  cases d with
  | act a => exact act_frames C w a
  | connect n => exact cutConnect_frames w n
  | disconnect n => exact cutDisconnect_frames w n
  | requests next n => exact stopped_frames C next w n
  | repair =>
    exact frames_of (w := w) (w' := repaired w) rfl rfl rfl rfl rfl rfl (List.suffix_refl _) (List.suffix_refl _)
      ⟨[], (List.append_nil _).symm, fun _ h => by cases h⟩

theorem deeds_frames (C : BlockCipher) (ds : List Deed) : ∀ w, Frames w (deeds C w ds) := by
  induction ds with
  | nil => exact Frames.refl
  | cons d ds ih => exact fun w => (deed_frames C w d).trans (ih _)

/-! ### C106 -/

/-- C106. `connect()` stopped at any moment: nothing has happened, or everything has that ever will, or the operating
system has opened a handle that nobody has. The connection is as it was. -/
theorem C106_connect (w : World) (n : Nat) :
    (cutConnect w n = w ∨ cutConnect w n = w.connect.2 ∨ ∃ h, Lost w h (cutConnect w n)) ∧
    (cutConnect w n).conn = w.conn := by
  rcases (connect_laps w).1 n with e | e | ⟨h, hl, e⟩
  · exact ⟨.inl e, by rw [e]⟩
  · exact ⟨.inr (.inl e), by rw [e]; exact (connect_frame w).1⟩
  · exact ⟨.inr (.inr ⟨h, hl⟩), by rw [e]⟩

/-- C106. Each of these happens: whenever `connect()` opens a handle, there is a moment at which it is lost. -/
theorem C106_connect_moment (w : World) (h : Handle) (l : List (Res Handle)) (hs : w.transport.socket = none)
    (ho : w.opens = .ok h :: l) :
    w.connect.1 = .returned () ∧ w.connect.2.transport.socket = some h ∧ ∃ n, Lost w h (cutConnect w n) := by
  have hl : w.lap .connecting = ({ w with opens := l, os := w.os ++ [.create (some h)] }, .opened (.ok h)) := by
    simp only [World.lap, hs, ho]
  have hc : w.connect = (.returned (), { w with transport := { w.transport with socket := some h }, os := w.os ++ [.create (some h)], opens := l }) := by
    simp only [World.connect, hs, ho, Transport.connect]
  have e : cutConnect w 1 = { w with opens := l, os := w.os ++ [.create (some h)] } :=
    congrArg Prod.fst (laps_go hl 0)
  refine ⟨by rw [hc], by rw [hc], 1, ?_⟩
  rw [e]
  exact ⟨⟨hs, hs⟩, rfl, ho⟩

/-- C106. `disconnect()` stopped at any moment: nothing has happened, or everything has that ever will, or the operating
system has been asked to give up the handle and the transport still has it. The connection is as it was. -/
theorem C106_disconnect (w : World) (n : Nat) :
    (cutDisconnect w n = w ∨ cutDisconnect w n = w.disconnect.2 ∨ ∃ h, StillHeld w h (cutDisconnect w n)) ∧
    (cutDisconnect w n).conn = w.conn := by
  rcases (disconnect_laps w).1 n with e | e | ⟨h, hl, _⟩
  · exact ⟨.inl e, by rw [e]⟩
  · exact ⟨.inr (.inl e), by rw [e]; exact (disconnect_frame w).1⟩
  · exact ⟨.inr (.inr ⟨h, hl⟩), hl.conn⟩

/-- C106. Whenever `disconnect()` closes a handle, there is a moment at which it is closed and the transport still has
it. -/
theorem C106_disconnect_moment (w : World) (h : Handle) (hs : w.transport.socket = some h)
    (hd : w.disconnect.1 = .returned ()) :
    w.disconnect.2.transport.socket = none ∧
    ∃ n, StillHeld w h (cutDisconnect w n) ∧ (cutDisconnect w n).os = w.os ++ closing w.transport.kind h := by
  cases hk : w.transport.kind with
  | serial =>
    cases hcl : w.closes with
    | nil => simp [World.disconnect, hs, hk, hcl] at hd
    | cons c closes =>
      cases c with
      | error e =>
        by_cases he : e = .os
        · simp [World.disconnect, Transport.disconnect, hs, hk, hcl, he] at hd
        · simp [World.disconnect, Transport.disconnect, hs, hk, hcl, he] at hd
      | ok u =>
        refine ⟨by simp [World.disconnect, Transport.disconnect, hs, hk, hcl], 1, ?_⟩
        have e : cutDisconnect w 1 = { w with closes := closes, os := w.os ++ [.close h] } :=
          congrArg Prod.fst (laps_go (w1 := { w with closes := closes, os := w.os ++ [.close h] }) (l1 := .closed (.ok u))
            (by simp only [World.lap, hs, hk, World.giveUp, hcl]) 0)
        rw [e]
        exact ⟨⟨⟨hs, rfl⟩, ⟨[.close h], by simp, by rw [hk]; exact List.prefix_refl _, rfl⟩, rfl⟩, rfl⟩
  | tcp =>
    cases hsh : w.shutdowns with
    | nil => simp [World.disconnect, hs, hk, hsh] at hd
    | cons r shutdowns =>
      cases r with
      | error e =>
        by_cases he : e = .os
        · simp [World.disconnect, Transport.disconnect, hs, hk, hsh, he] at hd
        · simp [World.disconnect, Transport.disconnect, hs, hk, hsh, he] at hd
      | ok u =>
        cases hcl : w.closes with
        | nil => simp [World.disconnect, hs, hk, hsh, hcl] at hd
        | cons c closes =>
          cases c with
          | error e =>
            by_cases he : e = .os
            · simp [World.disconnect, Transport.disconnect, hs, hk, hsh, hcl, he] at hd
            · simp [World.disconnect, Transport.disconnect, hs, hk, hsh, hcl, he] at hd
          | ok v =>
            refine ⟨by simp [World.disconnect, Transport.disconnect, hs, hk, hsh, hcl], 2, ?_⟩
            have e : cutDisconnect w 2 = { w with shutdowns := shutdowns, closes := closes, os := w.os ++ [.shutdown h] ++ [.close h] } := by
              unfold cutDisconnect
              rw [laps_go (w1 := { w with shutdowns := shutdowns, os := w.os ++ [.shutdown h] }) (l1 := .shut (.ok u))
                (by simp only [World.lap, hs, hk, hsh]) 1]
              rw [laps_go (w1 := { w with shutdowns := shutdowns, closes := closes, os := w.os ++ [.shutdown h] ++ [.close h] })
                (l1 := .closed (.ok v)) (by simp only [World.lap, hs, World.giveUp, hcl]) 0]
              rfl
            rw [e]
            have ea : w.os ++ [.shutdown h] ++ [.close h] = w.os ++ [.shutdown h, .close h] := by simp
            exact ⟨⟨⟨hs, rfl⟩, ⟨[.shutdown h, .close h], by simp, by rw [hk]; exact List.prefix_refl _, ea⟩, rfl⟩, ea⟩

/-- C106. Not stopped, the steps are those of the calls: after three of them at most, unless the operating system does
not come back, the call has come back. -/
theorem C106_uninterrupted (w : World) (n : Nat) (hn : 3 ≤ n) :
    (w.connect.1 ≠ .pending → w.laps .connecting n = (w.connect.2, .ended w.connect.1)) ∧
    (w.disconnect.1 ≠ .pending → w.laps .disconnecting n = (w.disconnect.2, .ended w.disconnect.1)) ∧
    (w.connect.1 = .pending → cutConnect w n = w.connect.2) ∧
    (w.disconnect.1 = .pending → cutDisconnect w n = w.disconnect.2) := by
  obtain ⟨m, rfl⟩ : ∃ m, n = m + 3 := ⟨n - 3, by omega⟩
  exact ⟨fun h => (connect_laps w).2.1 h (m + 1), fun h => (disconnect_laps w).2.1 h m,
    fun h => (connect_laps w).2.2 h _, fun h => (disconnect_laps w).2.2 h _⟩

/-- C106. A handle that was lost stays lost: whatever the program does afterwards with the client, it never again asks the
operating system anything about it, in particular never to close it. -/
theorem C106_lost (C : BlockCipher) (w : World) (n : Nat) (h : Handle) (hl : Lost w h (cutConnect w n))
    (once : .ok h ∉ (cutConnect w n).opens) (ds : List Deed) :
    ∃ later, (deeds C (cutConnect w n) ds).os = w.os ++ .create (some h) :: later ∧
      ∀ c ∈ later, callHandle c ≠ some h := by
  obtain ⟨_, l, e, hn⟩ := (deeds_frames C ds (cutConnect w n)).gone h ⟨by rw [hl.nobody.2]; simp, once⟩
  exact ⟨l, by rw [e, hl.opened, List.append_assoc]; rfl, hn⟩

/-- `disconnect()` when the operating system fails with `OSError` only. -/
theorem disconnect_frees (w : World) (ho : OnlyOs w) (hd : w.disconnect.1 ≠ .pending) :
    (w.disconnect.1 = .returned () ∨ w.disconnect.1 = .raised (.elgas .communication)) ∧
    w.disconnect.2.transport.socket = none := by
  obtain ⟨_, _, _, h⟩ := disconnect_step (w := w) ⟨ho.opens, ho.shutdowns, ho.closes⟩
  rcases h with ⟨h1, h2⟩ | ⟨h, _, h2, _⟩ | ⟨h, _, h2, h3⟩
  · rw [h2]; exact ⟨.inl rfl, h1⟩
  · exact absurd h2 hd
  · rcases h3 with ⟨h3, _⟩ | ⟨h3, _⟩
    · exact ⟨.inl h3, h2⟩
    · exact ⟨.inr h3, h2⟩

theorem only_os_frames {w w' : World} (ho : OnlyOs w) (hf : Frames w w') : OnlyOs w' :=
  ⟨fun r hr => ho.opens r (hf.opens.subset hr), fun r hr => ho.shutdowns r (hf.shutdowns.subset hr),
    fun r hr => ho.closes r (hf.closes.subset hr)⟩

/-- C106. With a handle that a stopped `disconnect()` left in the transport, `connect()` raises RuntimeError and does
nothing; the next `disconnect()` that comes back takes it away, even if the operating system complains that it has been
closed already. -/
theorem C106_still_held (w : World) (n : Nat) (h : Handle) (hl : StillHeld w h (cutDisconnect w n)) (ho : OnlyOs w) :
    (cutDisconnect w n).connect = (.raised .runtime, cutDisconnect w n) ∧
    ((cutDisconnect w n).disconnect.1 ≠ .pending →
      ((cutDisconnect w n).disconnect.1 = .returned () ∨
        (cutDisconnect w n).disconnect.1 = .raised (.elgas .communication)) ∧
      (cutDisconnect w n).disconnect.2.transport.socket = none) := by
  have hs : (cutDisconnect w n).transport.socket = some h := by rw [hl.held.2, hl.held.1]
  exact ⟨by simp only [World.connect, hs], disconnect_frees _ (only_os_frames ho (cutDisconnect_frames w n))⟩

/-! ### A client with a past -/

/-- The client `w` after a past: it has made `k` random draws more, the coming ones are those of `w`, and the operating
system has been asked `pre` before. -/
def World.later (w : World) (k : Nat) (R : Nat → Rand) (pre : List OsCall) : World :=
  { w with draws := k + w.draws, rands := R, os := pre ++ w.os }

theorem world_setUnread_later (w : World) (k : Nat) (R : Nat → Rand) (pre : List OsCall) (s : List Delivery) (c : Clock) :
    (w.later k R pre).setUnread s c = (w.setUnread s c).later k R pre := by
  unfold World.setUnread
  have h1 : (w.later k R pre).transport = w.transport := rfl
  rw [h1]
  cases w.transport.socket <;> rfl

theorem worldReceive_later (w : World) (k : Nat) (R : Nat → Rand) (pre : List OsCall) :
    (w.later k R pre).receive = (w.receive.1, w.receive.2.later k R pre) := by
  unfold World.receive
  have h1 : (w.later k R pre).transport = w.transport := rfl
  have h2 : (w.later k R pre).unread = w.unread := rfl
  have h3 : (w.later k R pre).clock = w.clock := rfl
  rw [h1, h2, h3]
  cases hr : w.transport.recv w.unread w.clock with | mk o t =>
  obtain ⟨s, c⟩ := t
  cases o with
  | returned d => dsimp only; rw [world_setUnread_later]; rfl
  | raised e => dsimp only; rw [world_setUnread_later]
  | pending => dsimp only; rw [world_setUnread_later]

theorem worldWrite_later (w : World) (k : Nat) (R : Nat → Rand) (pre : List OsCall) (d : Bytes) :
    (w.later k R pre).write d = ((w.write d).1, (w.write d).2.later k R pre) := by
  unfold World.write
  have h1 : (w.later k R pre).transport = w.transport := rfl
  have h2 : (w.later k R pre).writes = w.writes := rfl
  have h3 : (w.later k R pre).os = pre ++ w.os := rfl
  rw [h1, h2, h3]
  cases w.transport.socket with
  | none => cases w.writes <;> rfl
  | some h =>
    cases w.writes with
    | nil => dsimp only; rw [List.append_assoc]; rfl
    | cons x l => dsimp only; rw [List.append_assoc]; rfl

theorem worldSend_later (C : BlockCipher) (w : World) (k : Nat) (R : Nat → Rand) (pre : List OsCall)
    (hR : ∀ i, R (k + i) = w.rands i) (e : Event) :
    (w.later k R pre).send C e = ((w.send C e).1, (w.send C e).2.later k R pre) := by
  unfold World.send
  have h : (w.later k R pre).conn.send C e ((w.later k R pre).rands (w.later k R pre).draws) =
      w.conn.send C e (w.rands w.draws) := by rw [← hR]; rfl
  rw [h]
  cases hr : w.conn.send C e (w.rands w.draws) with | mk c o =>
  cases o with
  | error x => rfl
  | ok data =>
    dsimp only
    have hw := worldWrite_later { w with conn := c, draws := w.draws + 1 } k R pre data
    have he : ({ w.later k R pre with conn := c, draws := (w.later k R pre).draws + 1 } : World) =
      ({ w with conn := c, draws := w.draws + 1 } : World).later k R pre := rfl
    rw [he, hw]
    cases ({ w with conn := c, draws := w.draws + 1 } : World).write data with | mk o w1 =>
    cases o with
    | returned u => exact worldReceive_later w1 k R pre
    | raised x => rfl
    | pending => rfl

theorem worldNext_later (C : BlockCipher) (w : World) (k : Nat) (R : Nat → Rand) (pre : List OsCall) :
    (w.later k R pre).nextEvent C = ((w.nextEvent C).1, (w.nextEvent C).2.later k R pre) := by
  unfold World.nextEvent
  have h : worldLoop C (w.later k R pre).transport (w.later k R pre).conn (w.later k R pre).unread (w.later k R pre).clock =
    worldLoop C w.transport w.conn w.unread w.clock := rfl
  rw [h]
  cases worldLoop C w.transport w.conn w.unread w.clock with | mk o t =>
  obtain ⟨c, s, q⟩ := t
  dsimp only
  rw [world_setUnread_later]
  rfl

theorem worldSend_rands (C : BlockCipher) (w : World) (e : Event) : (w.send C e).2.rands = w.rands :=
  (send_goes C w e).rands

theorem worldSendAll_later (C : BlockCipher) (k : Nat) (R : Nat → Rand) (pre : List OsCall) (es : List Event) :
    ∀ w : World, (∀ i, R (k + i) = w.rands i) →
    (w.later k R pre).sendAll C es = ((w.sendAll C es).1, (w.sendAll C es).2.later k R pre) := by
  induction es with
  | nil => intro w _; rfl
  | cons e es ih =>
    intro w hR
    unfold World.sendAll
    have hr := worldSend_rands C w e
    rw [worldSend_later C w k R pre hR]
    cases hx : w.send C e with | mk o w1 =>
    rw [hx] at hr
    cases o with
    | returned u => exact ih w1 (by rw [hr]; exact hR)
    | raised x => rfl
    | pending => rfl

theorem worldExchange_later (C : BlockCipher) (w : World) (k : Nat) (R : Nat → Rand) (pre : List OsCall)
    (hR : ∀ i, R (k + i) = w.rands i) (e : Event) :
    (w.later k R pre).exchange C e = ((w.exchange C e).1, (w.exchange C e).2.later k R pre) := by
  unfold World.exchange
  rw [worldSend_later C w k R pre hR]
  cases w.send C e with | mk o w1 =>
  cases o with
  | returned u => exact worldNext_later C w1 k R pre
  | raised x => rfl
  | pending => rfl

theorem worldPages_later (C : BlockCipher) (k : Nat) (R : Nat → Rand) (pre : List OsCall) (w : World) (n : Int) (total : Bytes)
    (hR : ∀ i, R (k + i) = w.rands i) :
    (w.later k R pre).readPages C n total = ((w.readPages C n total).1, (w.readPages C n total).2.later k R pre) := by
  fun_induction World.readPages C w n total with
  | case1 w n total e w1 h =>
    have h' := worldExchange_later C w k R pre hR (pageRequest w.password n)
    unfold pageRequest at h'
    rw [h] at h'
    unfold World.readPages
    split
    · next hx => rw [show (w.later k R pre).password = w.password from rfl, h'] at hx; cases hx; rfl
    · next hx => rw [show (w.later k R pre).password = w.password from rfl, h'] at hx; cases hx
    · next hx => rw [show (w.later k R pre).password = w.password from rfl, h'] at hx; cases hx
    · next hx => rw [show (w.later k R pre).password = w.password from rfl, h'] at hx; cases hx
  | case2 w n total w1 h =>
    have h' := worldExchange_later C w k R pre hR (pageRequest w.password n)
    unfold pageRequest at h'
    rw [h] at h'
    unfold World.readPages
    split
    · next hx => rw [show (w.later k R pre).password = w.password from rfl, h'] at hx; cases hx
    · next hx => rw [show (w.later k R pre).password = w.password from rfl, h'] at hx; cases hx; rfl
    · next hx => rw [show (w.later k R pre).password = w.password from rfl, h'] at hx; cases hx
    · next hx => rw [show (w.later k R pre).password = w.password from rfl, h'] at hx; cases hx
  | case3 w n total p w1 h hend =>
    have h' := worldExchange_later C w k R pre hR (pageRequest w.password n)
    unfold pageRequest at h'
    rw [h] at h'
    unfold World.readPages
    split
    · next hx => rw [show (w.later k R pre).password = w.password from rfl, h'] at hx; cases hx
    · next hx => rw [show (w.later k R pre).password = w.password from rfl, h'] at hx; cases hx
    · next hx =>
      rw [show (w.later k R pre).password = w.password from rfl, h'] at hx; cases hx
      rw [if_pos hend]
    · next hne hx =>
      rw [show (w.later k R pre).password = w.password from rfl, h'] at hx; cases hx
      exact absurd rfl (hne p)
  | case4 w n total p w1 h hend ih =>
    have hR1 : w1.rands = w.rands := by
      have := (exchange_config C w (pageRequest w.password n)).2
      unfold pageRequest at this
      rw [h] at this
      exact this
    have h' := worldExchange_later C w k R pre hR (pageRequest w.password n)
    unfold pageRequest at h'
    rw [h] at h'
    conv => lhs; unfold World.readPages
    split
    · next hx => rw [show (w.later k R pre).password = w.password from rfl, h'] at hx; cases hx
    · next hx => rw [show (w.later k R pre).password = w.password from rfl, h'] at hx; cases hx
    · next hx =>
      rw [show (w.later k R pre).password = w.password from rfl, h'] at hx; cases hx
      rw [if_neg hend]
      exact ih (by rw [hR1]; exact hR)
    · next hne hx =>
      rw [show (w.later k R pre).password = w.password from rfl, h'] at hx; cases hx
      exact absurd rfl (hne p)
  | case5 w n total o w1 hne h =>
    have h' := worldExchange_later C w k R pre hR (pageRequest w.password n)
    unfold pageRequest at h'
    rw [h] at h'
    unfold World.readPages
    split
    · next hx => rw [show (w.later k R pre).password = w.password from rfl, h'] at hx; cases hx
    · next hx => rw [show (w.later k R pre).password = w.password from rfl, h'] at hx; cases hx
    · next p' _ hx =>
      rw [show (w.later k R pre).password = w.password from rfl, h'] at hx
      injection hx with hx _
      injection hx with hx
      exact absurd hx (hne p')
    · next hx => rw [show (w.later k R pre).password = w.password from rfl, h'] at hx; cases hx; rfl

theorem connect_later (w : World) (k : Nat) (R : Nat → Rand) (pre : List OsCall) :
    (w.later k R pre).connect = (w.connect.1, w.connect.2.later k R pre) := by
  unfold World.connect
  have h1 : (w.later k R pre).transport = w.transport := rfl
  have h2 : (w.later k R pre).opens = w.opens := rfl
  have h3 : (w.later k R pre).os = pre ++ w.os := rfl
  rw [h1, h2, h3]
  cases w.transport.socket with
  | some h => rfl
  | none =>
    cases w.opens with
    | nil => rfl
    | cons x l => dsimp only; rw [List.append_assoc]; rfl

theorem disconnect_later (w : World) (k : Nat) (R : Nat → Rand) (pre : List OsCall) :
    (w.later k R pre).disconnect = (w.disconnect.1, w.disconnect.2.later k R pre) := by
  unfold World.disconnect
  have h1 : (w.later k R pre).transport = w.transport := rfl
  have h2 : (w.later k R pre).shutdowns = w.shutdowns := rfl
  have h3 : (w.later k R pre).closes = w.closes := rfl
  have h4 : (w.later k R pre).os = pre ++ w.os := rfl
  rw [h1, h2, h3, h4]
  simp only [List.append_assoc]
  split <;> rfl

theorem act_later (C : BlockCipher) (w : World) (k : Nat) (R : Nat → Rand) (pre : List OsCall)
    (hR : ∀ i, R (k + i) = w.rands i) (a : Action) :
    act C (w.later k R pre) a = ((act C w a).1, (act C w a).2.later k R pre) := by
  have hp : (w.later k R pre).password = w.password := rfl
  have he := worldExchange_later C w k R pre hR
  cases a with
  | connect => simp only [act, connect_later]
  | disconnect => simp only [act, disconnect_later]
  | call q =>
    cases q with
    | readInstantaneousValues => simp only [act, wcall, World.readInstantaneousValues, hp, he]
    | readTime => simp only [act, wcall, World.readTime, he]
    | writeTime t b => simp only [act, wcall, World.writeTime, hp, he]
    | readParameters n => simp only [act, wcall, World.readParameters, worldPages_later C k R pre w _ _ hR]
    | readArchive a n i => simp only [act, wcall, World.readArchive, hp, he]
    | readArchiveByTime a n t => simp only [act, wcall, World.readArchiveByTime, hp, he]
  | send es => simp only [act, worldSendAll_later C k R pre es w hR]
  | nextEvent => simp only [act, worldNext_later]

theorem acts_later (C : BlockCipher) (k : Nat) (R : Nat → Rand) (pre : List OsCall) (as : List Action) : ∀ w : World,
    (∀ i, R (k + i) = w.rands i) →
    acts C (w.later k R pre) as = ((acts C w as).1, (acts C w as).2.later k R pre) := by
  induction as with
  | nil => intro w _; rfl
  | cons a as ih =>
    intro w hR
    have h1 := act_later C w k R pre hR a
    have h2 := ih (act C w a).2 (by rw [(act_goes C w a).rands]; exact hR)
    simp only [acts, h1, h2]

/-- C106. The way back: after any program, stopped any number of times wherever it happened to be, repairing the
connection and disconnecting (which ends well or with CommunicationError) makes of the client a new one: whatever a
program does from then on has the outcomes, and asks the operating system the things, it has and asks with a client newly
made with the same arguments. -/
theorem C106_recover (C : BlockCipher) (kind : Kind) (timeout : Option Int) (a : ClientArgs) (env : OsEnv) (w0 : World)
    (hm : mkWorld kind timeout a env = .ok w0) (ho : OnlyOsErrors env) (ds : List Deed)
    (w1 w2 : World) (o : Outcome3 Unit) (hw1 : deeds C w0 ds = w1)
    (hw2 : (repaired w1).disconnect = (o, w2)) (hd : o ≠ .pending) :
    (o = .returned () ∨ o = .raised (.elgas .communication)) ∧
    ∃ new, mkWorld kind timeout a (envOf w2) = .ok new ∧
      ∀ program : List Action, (acts C w2 program).1 = (acts C new program).1 ∧
        (acts C w2 program).2.os = w2.os ++ (acts C new program).2.os := by
  have hready := mkWorld_ready hm
  obtain ⟨c, hc, hw⟩ : ∃ c, clientConn a = .ok c ∧ w0 = { password := toSecretStr a.password, conn := c, transport := mkTransport kind timeout, opens := env.opens, shutdowns := env.shutdowns, closes := env.closes, writes := env.writes, inbox := env.inbox, clock := env.clock, rands := env.rands } := by
    unfold mkWorld at hm
    obtain ⟨c, hc, hw⟩ := bind_eq_ok.1 hm
    exact ⟨c, hc, by cases hw; rfl⟩
  have f1 : Frames w0 (repaired w1) := hw1 ▸ (deeds_frames C ds w0).trans (deed_frames C _ .repair)
  have oo : OnlyOs w0 := by rw [hw]; exact ⟨ho.opens, ho.shutdowns, ho.closes⟩
  have hdc := disconnect_frees (repaired w1) (only_os_frames oo f1) (by rw [hw2]; exact hd)
  have f2 : Frames w0 w2 := by
    have := f1.trans (disconnect_frames (repaired w1))
    rw [hw2] at this; exact this
  rw [hw2] at hdc
  have hconn : w2.conn = c := by
    have e1 : w2.conn = (repaired w1).conn := by
      have := (disconnect_frame (repaired w1)).1
      rw [hw2] at this; exact this
    have e2 := f2.args
    have e3 := f2.context
    have e4 : w0.conn = c := by rw [hw]
    rw [e4] at e2 e3 hready
    obtain ⟨r1, r2⟩ := hready
    have e5 : w2.conn.state = .idle := by rw [e1]; rfl
    have e6 : w2.conn.buffer = [] := by rw [e1]; rfl
    cases hh : w2.conn with | mk a1 a2 a3 a4 =>
    cases c with | mk b1 b2 b3 b4 =>
    rw [hh] at e2 e3 e5 e6
    dsimp only at e2 e3 e5 e6 r1 r2
    rw [e2, e3, e5, e6, r1, r2]
  have hk : w2.transport.kind = kind := by rw [f2.kind, hw]; rfl
  have ht : w2.transport.timeout = timeout := by rw [f2.timeout, hw]; rfl
  have hp : w2.password = toSecretStr a.password := by rw [f2.password, hw]
  refine ⟨hdc.1, { password := toSecretStr a.password, conn := c, transport := mkTransport kind timeout, opens := w2.opens, shutdowns := w2.shutdowns, closes := w2.closes, writes := w2.writes, inbox := w2.inbox, clock := w2.clock, rands := fun i => w2.rands (w2.draws + i) }, ?_, ?_⟩
  · unfold mkWorld; rw [hc, bind_ok]; rfl
  · intro program
    have key : w2 = ({ password := toSecretStr a.password, conn := c, transport := mkTransport kind timeout, opens := w2.opens, shutdowns := w2.shutdowns, closes := w2.closes, writes := w2.writes, inbox := w2.inbox, clock := w2.clock, rands := fun i => w2.rands (w2.draws + i) } : World).later w2.draws w2.rands w2.os := by
      unfold World.later
      cases hw2' : w2 with | mk v1 v2 v3 v4 v5 v6 v7 v8 v9 v10 v11 v12 =>
      cases v3 with | mk t1 t2 t3 =>
      rw [hw2'] at hconn hk ht hp hdc
      dsimp only at hconn hk ht hp hdc
      obtain ⟨_, rfl⟩ := hdc
      subst hconn hk ht hp
      dsimp only
      rw [List.append_nil]
      rfl
    have := acts_later C w2.draws w2.rands w2.os program { password := toSecretStr a.password, conn := c, transport := mkTransport kind timeout, opens := w2.opens, shutdowns := w2.shutdowns, closes := w2.closes, writes := w2.writes, inbox := w2.inbox, clock := w2.clock, rands := fun i => w2.rands (w2.draws + i) } (fun _ => rfl)
    rw [← key] at this
    rw [this]
    exact ⟨rfl, rfl⟩

/-- C106. In particular the sessions with a device that follow are as they should be. -/
theorem C106_sessions (C : BlockCipher) (kind : Kind) (timeout : Option Int) (a : ClientArgs) (env : OsEnv) (w0 : World)
    (hm : mkWorld kind timeout a env = .ok w0) (ho : OnlyOsErrors env) (ds : List Deed)
    (w1 w2 : World) (o : Outcome3 Unit) (hw1 : deeds C w0 ds = w1)
    (hw2 : (repaired w1).disconnect = (o, w2)) (hd : o ≠ .pending)
    (hr : ∀ i, PadOk (env.rands i).pw)
    (D D' : Device) (hok : D.Ok) (hk : SharesKey a D) (hp : KnowsPassword a D) (ss : List Session)
    (hks : ∀ s ∈ ss, ∀ k ∈ s.calls, k.InRange) (hdistinct : (ss.map (·.handle)).Nodup)
    (hopens : w2.opens = ss.map fun s => .ok s.handle)
    (n : Nat) (hshut : w2.shutdowns = List.replicate n (.ok ())) (hclose : w2.closes = List.replicate n (.ok ()))
    (hwrites : w2.writes = List.replicate n (.ok ())) (hn : ss.length ≤ n)
    (program : List Action) (hprog : program = ss.flatMap Session.program)
    (os : List OsCall) (hos : (acts C w2 program).2.os = w2.os ++ os) (hn' : (written os).length ≤ n)
    (hserve : ServedIn C os D ss D') (hin : ∀ s ∈ ss, content (w2.inbox s.handle) = bytesOnly s.out) :
    SessionsIdeal D ss (acts C w2 program).1 D' ∧
      os = ss.flatMap (fun s => s.trace kind (writtenTo s.handle os)) := by
  obtain ⟨_, new, hnew, hsame⟩ := C106_recover C kind timeout a env w0 hm ho ds w1 w2 o hw1 hw2 hd
  obtain ⟨s1, s2⟩ := hsame program
  have e : os = (acts C new program).2.os := List.append_cancel_left (hos.symm.trans s2)
  have hrands : w2.rands = env.rands := by
    have f1 : Frames w0 (repaired w1) := hw1 ▸ (deeds_frames C ds w0).trans (deed_frames C _ .repair)
    have := (f1.trans (disconnect_frames (repaired w1))).rands
    rw [hw2] at this
    obtain ⟨c, _, rfl⟩ := mkWorld_ok hm
    exact this
  have h := C83_sessions C kind timeout a (envOf w2) new hnew
    (fun i => by show PadOk (w2.rands (w2.draws + i)).pw; rw [hrands]; exact hr _)
    D D' hok hk hp ss hks hdistinct hopens n hshut hclose hwrites hn program hprog os e hn' hserve hin
  exact ⟨by rw [s1]; exact h.1, h.2.1⟩

/-! ### Examples -/

/-- An operating system that opens three handles, shuts down one and then complains. -/
def exCutEnv : OsEnv :=
  { exEnv with opens := [.ok 5, .ok 6, .ok 7], shutdowns := [.ok (), .error .os], closes := [.ok ()] }

/-- A program that is stopped in `connect()`, connects, is stopped in `read_time()`, and is stopped in `disconnect()`. -/
def exCut : List Deed := [.connect 1, .act .connect, .requests (wants [] .readTime) 4, .disconnect 2]

theorem exCutEnv_os : OnlyOsErrors exCutEnv := by
  refine ⟨?_, ?_, ?_⟩ <;> intro r hr e he <;> subst he <;> simp [exCutEnv] at hr
  exact hr

-- C106_recover: 5 is lost, 6 is asked to be closed and still held, waiting for an answer; the way back gives 7
example : ∃ w0, mkWorld .tcp (some 0) exArgs exCutEnv = .ok w0 ∧
    (deeds idCipher w0 exCut).transport.socket = some 6 ∧
    (deeds idCipher w0 exCut).conn.state = .awaitingReadTimeResponse ∧
    (deeds idCipher w0 exCut).os = [.create (some 5), .create (some 6), .write 6 exAsk, .shutdown 6, .close 6] ∧
    (repaired (deeds idCipher w0 exCut)).disconnect.1 = .raised (.elgas .communication) ∧
    (repaired (deeds idCipher w0 exCut)).disconnect.2.opens = [.ok 7] ∧
    (repaired (deeds idCipher w0 exCut)).disconnect.2.connect.2.os =
      [.create (some 5), .create (some 6), .write 6 exAsk, .shutdown 6, .close 6, .shutdown 6, .create (some 7)] :=
  ⟨_, rfl, by decide +kernel, by decide +kernel, by decide +kernel, by decide +kernel, by decide +kernel, by decide +kernel⟩

-- C106_connect, C106_lost, C106_disconnect, C106_still_held: the cases are met
example : ∃ w0, mkWorld .tcp (some 0) exArgs exCutEnv = .ok w0 ∧ Lost w0 5 (cutConnect w0 1) ∧
    .ok 5 ∉ (cutConnect w0 1).opens ∧ w0.connect.1 = .returned () ∧
    StillHeld w0.connect.2 5 (cutDisconnect w0.connect.2 1) ∧
    (cutDisconnect w0.connect.2 1).disconnect.1 ≠ .pending ∧ OnlyOs w0.connect.2 := by
  refine ⟨_, rfl, ⟨⟨rfl, rfl⟩, rfl, rfl⟩, by decide +kernel, by decide +kernel,
    ⟨⟨rfl, rfl⟩, ⟨[.shutdown 5], by simp, ⟨[.close 5], rfl⟩, rfl⟩, rfl⟩, by decide +kernel, ?_⟩
  have := exCutEnv_os
  exact ⟨fun r hr => this.opens r (List.mem_cons_of_mem _ hr), this.shutdowns, this.closes⟩

/-- A serial port that is opened as 8 and then as 5. -/
def exBackEnv : OsEnv :=
  { exEnv with opens := [.ok 8, .ok 5], shutdowns := [.ok ()], closes := [.ok (), .error .os, .ok ()], writes := [.ok ()] }

/-- A program that is stopped in `read_time()` and in `disconnect()`. -/
def exBack : List Deed := [.act .connect, .requests (wants [] .readTime) 4, .disconnect 1]

-- C106_sessions: its hypotheses, with one session after the way back
example : ∃ w0, mkWorld .serial (some 0) exArgs exBackEnv = .ok w0 ∧ OnlyOsErrors exBackEnv ∧
    (∀ i, PadOk (exBackEnv.rands i).pw) ∧
    ∃ o w2, (repaired (deeds idCipher w0 exBack)).disconnect = (o, w2) ∧ o = .raised (.elgas .communication) ∧
      w2.os = [.create (some 8), .write 8 exAsk, .close 8, .close 8] ∧
      w2.opens = [(⟨5, [.readTime], exDeviceTime⟩ : Session)].map (fun s => .ok s.handle) ∧
      w2.shutdowns = List.replicate 1 (.ok ()) ∧ w2.closes = List.replicate 1 (.ok ()) ∧
      w2.writes = List.replicate 1 (.ok ()) ∧ content (w2.inbox 5) = bytesOnly exDeviceTime ∧
      (acts idCipher w2 [.connect, .call .readTime, .disconnect]).2.os =
        w2.os ++ [.create (some 5), .write 5 exAsk, .close 5] ∧
      ServedIn idCipher [.create (some 5), .write 5 exAsk, .close 5] (exDevice none (List.replicate 6 0x30))
        [⟨5, [.readTime], exDeviceTime⟩] (exDevice none (List.replicate 6 0x30)) := by
  refine ⟨_, rfl, ?_, ?_, _, _, rfl, by decide +kernel, by decide +kernel, by decide +kernel, by decide +kernel,
    by decide +kernel, by decide +kernel, by decide +kernel, by decide +kernel, .session _ _ _ _ _ exServes (.nil _)⟩
  · refine ⟨?_, ?_, ?_⟩ <;> intro r hr e he <;> subst he <;> simp [exBackEnv] at hr
    exact hr
  · intro i
    show PadOk ('a', 'b')
    decide +kernel

end Elgas
