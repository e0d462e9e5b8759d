import Verif.Spec.ProgramLog
import Verif.Props.CallLog
import Verif.Props.Lifecycle
/-! Property C91, first part: from the steps of a client to whole programs (transport.py, client.py). -/
namespace Elgas
open Spec

theorem worldReadPagesL_erase (p : Printing) (look : Look) (C : BlockCipher) (w : World) (n : Int) (total : Bytes) :
    (w.readPagesL p look C n total).2 = w.readPages C n total := by
  fun_induction World.readPages C w n total with
  | case1 w n total e w' h =>
    unfold World.readPagesL
    rw [← worldExchangeL_erase p look] at h
    split <;> simp_all
  | case2 w n total w' h =>
    unfold World.readPagesL
    rw [← worldExchangeL_erase p look] at h
    split <;> simp_all
  | case3 w n total r w' h he =>
    unfold World.readPagesL
    rw [← worldExchangeL_erase p look] at h
    split <;> simp_all
  | case4 w n total r w' h he ih =>
    unfold World.readPagesL
    rw [← worldExchangeL_erase p look] at h
    split <;> simp_all
  | case5 w n total ev w' hne h =>
    unfold World.readPagesL
    rw [← worldExchangeL_erase p look] at h
    split
    · simp_all
    · simp_all
    · next h' => rw [h'] at h; injection h with h _; injection h with h; exact absurd h.symm (hne _)
    · simp_all

theorem worldReadParametersL_erase (p : Printing) (look : Look) (C : BlockCipher) (w : World) (n : Int) :
    (w.readParametersL p look C n).2 = w.readParameters C n := by
  unfold World.readParametersL World.readParameters
  rw [← worldReadPagesL_erase p look]
  cases w.readPagesL p look C n [] with
  | mk l o => obtain ⟨o, w⟩ := o; cases o <;> rfl

theorem wcallL_erase (p : Printing) (look : Look) (C : BlockCipher) (w : World) (k : Call) :
    (wcallL p look C w k).2 = wcall C w k := by
  cases k <;> unfold wcallL wcall <;> dsimp only
  · rw [← worldReadInstantaneousValuesL_erase p look]
  · rw [← worldReadTimeL_erase p look]
  · rw [← worldWriteTimeL_erase p look]
  · rw [← worldReadParametersL_erase p look]
  · unfold World.readArchiveL World.readArchive; rw [← worldExchangeL_erase p look]
  · unfold World.readArchiveByTimeL World.readArchiveByTime; rw [← worldExchangeL_erase p look]

theorem actL_erase (p : Printing) (look : Look) (C : BlockCipher) (w : World) (a : Action) :
    (actL p look C w a).2 = act C w a := by
  cases a <;> unfold actL act <;> dsimp only
  · rw [← connectL_erase p look]
  · rw [← disconnectL_erase p look]
  · exact wcallL_erase p look C w _
  · rw [← sendAllL_erase p look false]
  · rw [← worldNextEventL_erase p look]

/-! ### From the steps of the client to programs -/

/-- `next_event`, one poll at a time. -/
theorem nextEventL_unfold (p : Printing) (look : Look) (C : BlockCipher) (w : World) :
    w.nextEventL p look C =
      match w.conn.nextEventL p C with
      | (l, c, .error e) => (l, .raised e, { w with conn := c })
      | (l, c, .ok (some ev)) => (l, .returned ev, { w with conn := c })
      | (l, c, .ok none) =>
        match ({ w with conn := c } : World).receiveL look with
        | (l', .returned (), w') => (l ++ l' ++ (w'.nextEventL p look C).1, (w'.nextEventL p look C).2)
        | (l', .raised e, w') => (l ++ l', .raised e, w')
        | (l', .pending, w') => (l ++ l', .pending, w') := by
  have hset : ∀ c, ({ w.setUnread w.unread w.clock with conn := c } : World) = { w with conn := c } := by
    intro c
    unfold World.setUnread World.unread
    cases hs : w.transport.socket with
    | none => rfl
    | some h =>
      dsimp only
      have : (fun g => if g = h then w.inbox h else w.inbox g) = w.inbox := by
        funext g
        by_cases hg : g = h
        · rw [if_pos hg, hg]
        · rw [if_neg hg]
      rw [this]
  conv => lhs; unfold World.nextEventL
  conv => lhs; unfold worldLoopL
  cases hn : w.conn.nextEventL p C with | mk l o =>
  obtain ⟨c, o⟩ := o
  rcases o with e | _ | ev
  · dsimp only; rw [hset]
  · dsimp only
    unfold World.receiveL
    have hu : ({ w with conn := c } : World).unread = w.unread := rfl
    dsimp only
    rw [hu]
    split
    · next d s k hr =>
      rw [hr]
      dsimp only
      have hsock : ∃ h, w.transport.socket = some h := by
        cases hs : w.transport.socket with
        | some h => exact ⟨h, rfl⟩
        | none =>
          have := recv_closed w.transport w.unread w.clock hs
          rw [hr] at this; cases this
      obtain ⟨h, hs⟩ := hsock
      have ht : (({ w with conn := c } : World).setUnread s k).transport = w.transport := by
        unfold World.setUnread; simp only [hs]
      have hun : (({ w with conn := c } : World).setUnread s k).unread = s := by
        unfold World.unread World.setUnread; simp [hs]
      have hk : (({ w with conn := c } : World).setUnread s k).clock = k := by
        unfold World.setUnread; simp [hs]
      unfold World.nextEventL
      dsimp only
      have hun' : ({ ({ w with conn := c } : World).setUnread s k with conn := (c.receiveDataL d).2 } : World).unread = s := hun
      rw [hun', ht, hk]
      cases hl : worldLoopL p look C w.transport (c.receiveDataL d).2 s k with | mk l2 o2 =>
      obtain ⟨o2, c2, s2, k2⟩ := o2
      dsimp only
      refine Prod.ext (by simp) (Prod.ext rfl ?_)
      dsimp only
      unfold World.setUnread
      simp only [hs]
      congr 1
      funext g
      by_cases hg : g = h <;> simp [hg]
    · next e s k hr =>
      rw [hr]
      dsimp only
      rw [List.append_nil]
      refine Prod.ext rfl (Prod.ext rfl ?_)
      unfold World.setUnread
      cases hs : w.transport.socket <;> simp [hs]
    · next s k hr =>
      rw [hr]
      dsimp only
      rw [List.append_nil]
      refine Prod.ext rfl (Prod.ext rfl ?_)
      unfold World.setUnread
      cases hs : w.transport.socket <;> simp [hs]
  · dsimp only; rw [hset]

/-- Something that holds of the log so far and the client, and is kept by every step of an exchange; `E` is what is
then known of a response, `S` what a sent event has to meet. -/
structure Follows (p : Printing) (look : Look) (C : BlockCipher) (S : Bool → Event → Prop)
    (E : List Record → Event → Prop) (I : List Record → World → Prop) : Prop where
  request : ∀ H w secret e, I H w → S secret e →
    I (H ++ (w.conn.sendL p secret C e (w.rands w.draws)).1)
      { w with conn := (w.conn.sendL p secret C e (w.rands w.draws)).2.1, draws := w.draws + 1 }
  write : ∀ H w d, I H w → I (H ++ (w.writeL look d).1) (w.writeL look d).2.2
  receive : ∀ H w, I H w → I (H ++ (w.receiveL look).1) (w.receiveL look).2.2
  poll : ∀ H w, I H w → I (H ++ (w.conn.nextEventL p C).1) { w with conn := (w.conn.nextEventL p C).2.1 } ∧
    ∀ ev, (w.conn.nextEventL p C).2.2 = .ok (some ev) → E (H ++ (w.conn.nextEventL p C).1) ev

/-- ... and by the records that the calls add. -/
structure Tracks (p : Printing) (look : Look) (C : BlockCipher) (S : Bool → Event → Prop) (E : List Record → Event → Prop)
    (I : List Record → World → Prop) : Prop extends Follows p look C S E I where
  mono : ∀ H l e, E H e → E (H ++ l) e
  record : ∀ H w r, I H w → ClientRecord (E H) r → I (H ++ [r]) w

section
variable {p : Printing} {look : Look} {C : BlockCipher} {S : Bool → Event → Prop} {E : List Record → Event → Prop}
  {I : List Record → World → Prop} (L : Follows p look C S E I)
include L

theorem send_track {H : List Record} {w : World} {secret : Bool} {e : Event} (hI : I H w) (hS : S secret e) :
    I (H ++ (w.sendL p look secret C e).1) (w.sendL p look secret C e).2.2 := by
  have h1 := L.request H w secret e hI hS
  unfold World.sendL
  cases hs : w.conn.sendL p secret C e (w.rands w.draws) with | mk l o =>
  obtain ⟨c, o⟩ := o
  rw [hs] at h1
  cases o with
  | error x => exact h1
  | ok data =>
    dsimp only at h1 ⊢
    have h2 := L.write _ _ data h1
    cases hw : ({ w with conn := c, draws := w.draws + 1 } : World).writeL look data with | mk l' o =>
    obtain ⟨o, w1⟩ := o
    rw [hw] at h2
    cases o with
    | raised x => dsimp only; rw [← List.append_assoc]; exact h2
    | pending => dsimp only; rw [← List.append_assoc]; exact h2
    | returned u =>
      dsimp only
      have h3 := L.receive _ _ h2
      rw [← List.append_assoc, ← List.append_assoc]
      exact h3

theorem sendAll_track {H : List Record} {w : World} {secret : Bool} (es : List Event) (hI : I H w)
    (hS : ∀ e ∈ es, S secret e) :
    I (H ++ (w.sendAllL p look secret C es).1) (w.sendAllL p look secret C es).2.2 := by
  induction es generalizing H w with
  | nil => unfold World.sendAllL; simpa using hI
  | cons e es ih =>
    have h1 := send_track L hI (hS e (List.mem_cons_self ..))
    unfold World.sendAllL
    cases hs : w.sendL p look secret C e with | mk l o =>
    obtain ⟨o, w1⟩ := o
    rw [hs] at h1
    cases o with
    | raised x => exact h1
    | pending => exact h1
    | returned u =>
      dsimp only
      have h2 := ih h1 (fun e he => hS e (List.mem_cons_of_mem _ he))
      rw [← List.append_assoc]
      exact h2

theorem next_track {H : List Record} {w : World} (hI : I H w) :
    I (H ++ (w.nextEventL p look C).1) (w.nextEventL p look C).2.2 ∧
    ∀ ev, (w.nextEventL p look C).2.1 = .returned ev → E (H ++ (w.nextEventL p look C).1) ev := by
  induction hn : weight w.unread using Nat.strongRecOn generalizing H w with
  | ind n ih =>
  subst hn
  obtain ⟨h1, h2⟩ := L.poll H w hI
  rw [nextEventL_unfold]
  cases hp : w.conn.nextEventL p C with | mk l o =>
  obtain ⟨c, o⟩ := o
  rw [hp] at h1 h2
  rcases o with e | _ | ev
  · exact ⟨h1, fun ev h => by cases h⟩
  · dsimp only at h1 ⊢
    have h3 := L.receive _ _ h1
    have her := worldReceiveL_erase look ({ w with conn := c } : World)
    cases hr : ({ w with conn := c } : World).receiveL look with | mk l' o =>
    obtain ⟨o, w1⟩ := o
    rw [hr] at h3 her
    dsimp only at her
    cases o with
    | raised x => dsimp only; rw [← List.append_assoc]; exact ⟨h3, fun ev h => by cases h⟩
    | pending => dsimp only; rw [← List.append_assoc]; exact ⟨h3, fun ev h => by cases h⟩
    | returned u =>
      have hlt := (world_receive_weight her.symm).1
      obtain ⟨i1, i2⟩ := ih _ hlt h3 rfl
      dsimp only
      rw [← List.append_assoc, ← List.append_assoc]
      exact ⟨i1, i2⟩
  · exact ⟨h1, fun ev' h => by cases h; exact h2 ev rfl⟩

theorem exchange_track {H : List Record} {w : World} {e : Event} (hI : I H w) (hS : S true e) :
    I (H ++ (w.exchangeL p look C e).1) (w.exchangeL p look C e).2.2 ∧
    ∀ ev, (w.exchangeL p look C e).2.1 = .returned ev → E (H ++ (w.exchangeL p look C e).1) ev := by
  have h1 := send_track L hI hS
  unfold World.exchangeL
  cases hs : w.sendL p look true C e with | mk l o =>
  obtain ⟨o, w1⟩ := o
  rw [hs] at h1
  cases o with
  | raised x => exact ⟨h1, fun ev h => by cases h⟩
  | pending => exact ⟨h1, fun ev h => by cases h⟩
  | returned u =>
    obtain ⟨i1, i2⟩ := next_track L h1
    dsimp only
    rw [← List.append_assoc]
    exact ⟨i1, i2⟩

end

section
variable {p : Printing} {look : Look} {C : BlockCipher} {S : Bool → Event → Prop} {E : List Record → Event → Prop}
  {I : List Record → World → Prop} (L : Tracks p look C S E I)
include L

theorem pages_track (hS : ∀ e, S true e) (H : List Record) (w : World) (n : Int) (total : Bytes)
    (rs : List ReadDeviceParametersResponse)
    (hE : ∀ r ∈ rs, E H (.readDeviceParametersResponse r)) (ht : total = (rs.map (·.data)).flatten) (hI : I H w) :
    I (H ++ (w.readPagesL p look C n total).1) (w.readPagesL p look C n total).2.2 ∧
    ∀ d, (w.readPagesL p look C n total).2.1 = .returned d →
      ∃ rs : List ReadDeviceParametersResponse,
        (∀ r ∈ rs, E (H ++ (w.readPagesL p look C n total).1) (.readDeviceParametersResponse r)) ∧
        d = (rs.map (·.data)).flatten := by
  have hask : ∀ H n, ClientRecord (E H) (info "Requesting device parameters" [("object_count", .int n)]) :=
    fun H n => .number _ (by decide) _ n
  fun_induction World.readPagesL p look C w n total generalizing rs H with
  | case1 w n total ask l e w' h =>
    obtain ⟨h1, _⟩ := exchange_track L.toFollows (L.record _ _ _ hI (hask H n)) (hS (.readDeviceParametersRequest { password := w.password, objectCount := n, bufferLength := 1024 }))
    rw [h] at h1
    rw [List.append_assoc] at h1
    exact ⟨h1, fun d h => by cases h⟩
  | case2 w n total ask l w' h =>
    obtain ⟨h1, _⟩ := exchange_track L.toFollows (L.record _ _ _ hI (hask H n)) (hS (.readDeviceParametersRequest { password := w.password, objectCount := n, bufferLength := 1024 }))
    rw [h] at h1
    rw [List.append_assoc] at h1
    exact ⟨h1, fun d h => by cases h⟩
  | case3 w n total ask l r w' h l' he =>
    obtain ⟨h1, h3⟩ := exchange_track L.toFollows (L.record _ _ _ hI (hask H n)) (hS (.readDeviceParametersRequest { password := w.password, objectCount := n, bufferLength := 1024 }))
    rw [h] at h1 h3
    rw [List.append_assoc] at h1 h3
    have h4 := L.record _ _ _ h1 (.number "Received device parameters" (by decide) "object_amount" r.objectAmount)
    rw [List.append_assoc] at h4
    refine ⟨h4, fun d hd => ?_⟩
    cases hd
    refine ⟨rs ++ [r], fun r' hr' => ?_, by simp [ht]⟩
    rcases List.mem_append.1 hr' with hr' | hr'
    · exact L.mono _ _ _ (hE _ hr')
    · rw [List.mem_singleton.1 hr']
      show E (H ++ (ask ++ l ++ _)) _
      rw [← List.append_assoc]
      exact L.mono _ _ _ (h3 _ rfl)
  | case4 w n total ask l r w' h l' he l'' o hrec ih =>
    obtain ⟨h1, h3⟩ := exchange_track L.toFollows (L.record _ _ _ hI (hask H n)) (hS (.readDeviceParametersRequest { password := w.password, objectCount := n, bufferLength := 1024 }))
    rw [h] at h1 h3
    rw [List.append_assoc] at h1 h3
    have h4 := L.record _ _ _ h1 (.number "Received device parameters" (by decide) "object_amount" r.objectAmount)
    have h5 := L.record _ _ _ h4 (.number "More parameters available" (by decide) "next_object_count" (n + r.objectAmount))
    obtain ⟨i1, i3⟩ := ih _ (rs ++ [r]) (fun r' hr' => by
      rcases List.mem_append.1 hr' with hr' | hr'
      · rw [List.append_assoc, List.append_assoc]
        exact L.mono _ _ _ (hE _ hr')
      · rw [List.mem_singleton.1 hr', List.append_assoc]
        exact L.mono _ _ _ (h3 _ rfl)) (by simp [ht]) h5
    rw [hrec] at i1 i3
    have hassoc : H ++ (l' ++ [info "More parameters available" [("next_object_count", .int (n + r.objectAmount))]] ++ l'')
        = H ++ (ask ++ l) ++ [info "Received device parameters" [("object_amount", .int r.objectAmount)]] ++
          [info "More parameters available" [("next_object_count", .int (n + r.objectAmount))]] ++ l'' := by
      simp [l']
    dsimp only
    rw [hassoc]
    exact ⟨i1, i3⟩
  | case5 w n total ask l ev w' hne h =>
    obtain ⟨h1, _⟩ := exchange_track L.toFollows (L.record _ _ _ hI (hask H n)) (hS (.readDeviceParametersRequest { password := w.password, objectCount := n, bufferLength := 1024 }))
    rw [h] at h1
    rw [List.append_assoc] at h1
    exact ⟨h1, fun d h => by cases h⟩

theorem wcall_track (hS : ∀ e, S true e) (H : List Record) (w : World) (k : Call) (hI : I H w) :
    I (H ++ (wcallL p look C w k).1) (wcallL p look C w k).2.2 := by
  cases k with
  | readInstantaneousValues =>
    have h1 := (exchange_track L.toFollows (L.record _ _ _ hI (.text "Reading instantaneous values" (by decide)))
      (hS (.readInstantaneousValuesRequest { password := w.password }))).1
    unfold wcallL World.readInstantaneousValuesL
    dsimp only
    cases hx : w.exchangeL p look C (.readInstantaneousValuesRequest { password := w.password }) with
    | mk l o =>
      obtain ⟨o, w'⟩ := o
      rw [hx, List.append_assoc] at h1
      cases o with
      | returned ev =>
        have := L.record _ _ _ h1 (.text "Received instantaneous values" (by decide))
        rw [List.append_assoc] at this
        exact this
      | raised x => exact h1
      | pending => exact h1
  | readTime =>
    have h1 := (exchange_track L.toFollows (L.record _ _ _ hI (.text "Reading device time" (by decide)))
      (hS (.readTimeRequest {}))).1
    unfold wcallL World.readTimeL
    dsimp only
    cases hx : w.exchangeL p look C (.readTimeRequest {}) with
    | mk l o =>
      obtain ⟨o, w'⟩ := o
      rw [hx, List.append_assoc] at h1
      dsimp only
      cases o.andThen timeOf with
      | returned t =>
        have := L.record _ _ _ h1 (.time "Got device time" (by decide) t)
        rw [List.append_assoc] at this
        exact this
      | raised x => exact h1
      | pending => exact h1
  | writeTime t cry =>
    have h1 := (exchange_track L.toFollows (L.record _ _ _ hI (.time "Writing time to device" (by decide) t))
      (hS (.writeTimeRequest { password := w.password, deviceTime := t, cryout := cry }))).1
    unfold wcallL World.writeTimeL
    dsimp only
    cases hx : w.exchangeL p look C (.writeTimeRequest { password := w.password, deviceTime := t, cryout := cry }) with
    | mk l o =>
      obtain ⟨o, w'⟩ := o
      rw [hx, List.append_assoc] at h1
      cases o with
      | returned ev =>
        have := L.record _ _ _ h1 (.text "Finished writing time to device" (by decide))
        rw [List.append_assoc] at this
        exact this
      | raised x => exact h1
      | pending => exact h1
  | readArchive a n i => exact (exchange_track L.toFollows hI (hS _)).1
  | readArchiveByTime a n t => exact (exchange_track L.toFollows hI (hS _)).1
  | readParameters n =>
    obtain ⟨h1, h3⟩ := pages_track L hS _ w n [] [] (by simp) rfl
      (L.record _ _ _ hI (.number "Reading device parameters" (by decide) "read_from" n))
    unfold wcallL World.readParametersL
    dsimp only
    cases hx : w.readPagesL p look C n [] with
    | mk l o =>
      obtain ⟨o, w'⟩ := o
      rw [hx, List.append_assoc] at h1 h3
      cases o with
      | returned d =>
        obtain ⟨rs, hrs, rfl⟩ := h3 d rfl
        have := L.record _ _ _ h1 (.pages rs hrs)
        rw [List.append_assoc] at this
        exact this
      | raised x => exact h1
      | pending => exact h1

theorem acts_track (hS : ∀ e, S true e)
    (hcon : ∀ H w, I H w → I (H ++ (w.connectL p look).1) (w.connectL p look).2.2)
    (hdis : ∀ H w, I H w → I (H ++ (w.disconnectL p look).1) (w.disconnectL p look).2.2)
    (as : List Action) (hsend : ∀ es, .send es ∈ as → ∀ e ∈ es, S false e) (H : List Record) (w : World) (hI : I H w) :
    I (H ++ logOf p look C w as) (acts C w as).2 := by
  induction as generalizing H w with
  | nil => simpa [logOf, acts] using hI
  | cons a as ih =>
    unfold logOf acts
    rw [← List.append_assoc]
    have h1 : I (H ++ (actL p look C w a).1) (actL p look C w a).2.2 := by
      cases a with
      | connect => exact hcon H w hI
      | disconnect => exact hdis H w hI
      | call k => exact wcall_track L hS H w k hI
      | send es => exact sendAll_track L.toFollows es hI (hsend es (List.mem_cons_self ..))
      | nextEvent => exact (next_track L.toFollows hI).1
    rw [actL_erase] at h1
    exact ih (fun es h => hsend es (List.mem_cons_of_mem _ h)) _ _ h1
end

end Elgas
