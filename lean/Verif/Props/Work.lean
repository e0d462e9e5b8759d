import Verif.Props.Tasks
import Verif.Props.EndToEnd
import Verif.Spec.Work
/-!
C94: tasks that share a client of a device.
-/
namespace Elgas
open Spec

theorem request_request (pw : PyStr) (k : Call) (pages : Option (Int × Bytes)) : IsRequest (requestOf pw k pages) := by
  cases k <;> exact rfl

theorem request_isRequest {pw : PyStr} {k : Work} {e : Event} (h : k.request pw = some e) : IsRequest e := by
  unfold Work.request at h
  cases ht : k.todo with
  | nil => rw [ht] at h; cases h
  | cons c cs => rw [ht] at h; cases h; exact request_request _ _ _

/-- The entries of the history are what the tasks' work asks for. -/
def WorksOn (pw : PyStr) (work : Nat → Work) : List (Nat × Event × Outcome3 Event) → Prop
  | [] => True
  | (tid, e, o) :: rest => (work tid).request pw = some e ∧
      WorksOn pw (fun j => if j = tid then ((work tid).answered o).2 else work j) rest

theorem works_snoc (hist : List (Nat × Event × Outcome3 Event)) (tid : Nat) (e : Event) (o : Outcome3 Event) :
    ∀ work : Nat → Work, (works work (hist ++ [(tid, e, o)])).1 = fun j =>
      if j = tid then (((works work hist).1 tid).answered o).2 else (works work hist).1 j := by
  induction hist with
  | nil => intro work; rfl
  | cons x xs ih =>
    intro work
    obtain ⟨t, e', o'⟩ := x
    exact ih _

theorem worksOn_snoc {pw : PyStr} (hist : List (Nat × Event × Outcome3 Event)) (tid : Nat) (e : Event) (o : Outcome3 Event) :
    ∀ work : Nat → Work, WorksOn pw work hist → ((works work hist).1 tid).request pw = some e →
      WorksOn pw work (hist ++ [(tid, e, o)]) := by
  induction hist with
  | nil => intro work _ h; exact ⟨h, trivial⟩
  | cons x xs ih =>
    intro work h1 h2
    obtain ⟨t, e', o'⟩ := x
    exact ⟨h1.1, ih _ h1.2 h2⟩

/-- What a step of a task is. -/
theorem step_shape (C : BlockCipher) (plan : Nat → List (Nat × Event × Outcome3 Event) → Option Event) (m : Machine)
    (tid : Nat) : m.step C plan tid = m ∨ ∃ e,
      ((∃ p, m.flights tid = some (e, p)) ∨ (m.flights tid = none ∧ plan tid m.history = some e)) ∧
      ((∃ p w, m.step C plan tid = m.wait tid e p w) ∨ ∃ o w, m.step C plan tid = m.finish tid e o w) := by
  unfold Machine.step
  have harr : ∀ e line w, (∃ p w', m.arrived C tid e line w = m.wait tid e p w') ∨
      ∃ o w', m.arrived C tid e line w = m.finish tid e o w' := by
    intro e line w
    unfold Machine.arrived Machine.startRecv
    cases hn : (w.conn.receiveData line).nextEvent C with | mk c r =>
    cases r with
    | error x => exact .inr ⟨_, _, rfl⟩
    | ok o => cases o with
      | none => exact .inl ⟨_, _, rfl⟩
      | some ev => exact .inr ⟨_, _, rfl⟩
  cases hf : m.flights tid with
  | none =>
    dsimp only
    cases hp : plan tid m.history with
    | none => exact .inl rfl
    | some e =>
      refine .inr ⟨e, .inr ⟨rfl, rfl⟩, ?_⟩
      dsimp only
      unfold Machine.start
      split
      · exact .inr ⟨_, _, rfl⟩
      · split
        · exact .inr ⟨_, _, rfl⟩
        · split
          · exact .inr ⟨_, _, rfl⟩
          · exact .inl ⟨_, _, rfl⟩
  | some x =>
    obtain ⟨e, p⟩ := x
    cases p with
    | writing =>
      dsimp only
      unfold Machine.wrote
      split
      · exact .inl rfl
      · exact .inr ⟨e, .inl ⟨_, rfl⟩, .inl ⟨_, _, rfl⟩⟩
      · exact .inr ⟨e, .inl ⟨_, rfl⟩, .inr ⟨_, _, rfl⟩⟩
    | reading t line =>
      dsimp only
      unfold Machine.read
      split
      · exact .inl rfl
      · exact .inr ⟨e, .inl ⟨_, rfl⟩, .inr ⟨_, _, rfl⟩⟩
      · refine .inr ⟨e, .inl ⟨_, rfl⟩, ?_⟩
        split
        · exact .inl ⟨_, _, rfl⟩
        · split
          · exact harr _ _ _
          · split
            · exact .inr ⟨_, _, rfl⟩
            · exact harr _ _ _
            · exact .inl ⟨_, _, rfl⟩

/-- The invariant: everybody does his work. -/
structure Working (pw : PyStr) (work : Nat → Work) (m : Machine) : Prop where
  past : WorksOn pw work m.history
  now : ∀ tid e p, m.flights tid = some (e, p) → ((works work m.history).1 tid).request pw = some e

theorem working_step {C : BlockCipher} {pw : PyStr} {calls : Nat → List Call} {m : Machine}
    (h : Working pw (fun j => { todo := calls j }) m) (tid : Nat) :
    Working pw (fun j => { todo := calls j }) (m.step C (planOf pw calls) tid) := by
  rcases step_shape C (planOf pw calls) m tid with h0 | ⟨e, he, hs⟩
  · rw [h0]; exact h
  · have hreq : ((works (fun j => { todo := calls j }) m.history).1 tid).request pw = some e := by
      rcases he with ⟨p, hp⟩ | ⟨_, hp⟩
      · exact h.now _ _ _ hp
      · exact hp
    rcases hs with ⟨p, w, hs⟩ | ⟨o, w, hs⟩
    · rw [hs]
      refine ⟨h.past, fun t e' p' hf => ?_⟩
      change (if t = tid then some (e, p) else m.flights t) = some (e', p') at hf
      split at hf
      · next ht => subst ht; cases hf; exact hreq
      · exact h.now _ _ _ hf
    · rw [hs]
      refine ⟨worksOn_snoc _ _ _ _ _ h.past hreq, fun t e' p' hf => ?_⟩
      change (if t = tid then none else m.flights t) = some (e', p') at hf
      split at hf
      · cases hf
      · next ht =>
        change ((works _ (m.history ++ [(tid, e, o)])).1 t).request pw = _
        rw [works_snoc]
        dsimp only
        rw [if_neg ht]
        exact h.now _ _ _ hf

theorem working_run {C : BlockCipher} {pw : PyStr} {calls : Nat → List Call} (schedule : List Nat) : ∀ {m : Machine},
    Working pw (fun j => { todo := calls j }) m → Working pw (fun j => { todo := calls j }) (m.run C (planOf pw calls) schedule) := by
  induction schedule with
  | nil => intro m h; exact h
  | cons t ts ih => intro m h; exact ih (working_step h t)

/-- Where a call that reads pages has got to. -/
def PageOk (D : Device) (k : Call) (pages : Option (Int × Bytes)) : Prop :=
  ∀ c t, pages = some (c, t) → ∃ n, k = .readParameters n ∧ (0 ≤ c ∧ c ≤ 65535) ∧
    t ++ (D.objects.drop c.toNat).flatten = (D.objects.drop n.toNat).flatten

theorem firstOf_requestOf (pw : PyStr) (k : Call) : requestOf pw k none = firstOf pw k := by cases k <;> rfl

theorem andThen_returned {α β : Type} {o : Outcome3 α} {f : α → Outcome3 β} {v : β} (h : o.andThen f = .returned v) :
    ∃ a, o = .returned a := by
  cases o with
  | returned a => exact ⟨a, rfl⟩
  | raised e => cases h
  | pending => cases h

theorem ideal_returned {D D1 : Device} {k : Call} {r : Outcome3 Value} (h : Ideal D k r D1)
    (hk : ∀ n, k ≠ .readParameters n) : ∃ v, r = .returned v := by
  cases h with
  | values => exact ⟨_, rfl⟩
  | time => exact ⟨_, rfl⟩
  | writeTime => exact ⟨_, rfl⟩
  | parameters n => exact absurd rfl (hk n)
  | unparsable n => exact absurd rfl (hk n)
  | archive => exact ⟨_, rfl⟩
  | archiveSince => exact ⟨_, rfl⟩

/-- One exchange of a task at work with the device. -/
theorem work_fed {C : BlockCipher} {ca : ConnArgs} {D D' : Device} (hd : D.Ok) {s : Sys} (hf : Fit C ca D s)
    (hp : IsLatin1 s.password) (hpw : latin1 s.password = D.password) {k : Call} (hk : k.InRange)
    {pages : Option (Int × Bytes)} (hpg : PageOk D k pages) {n : Nat}
    (hss : s.sends = List.replicate n (.ok ())) {ws more rs : List Bytes}
    (hh : (s.exchange C (requestOf s.password k pages)).2.handed ++ more = s.handed ++ ws) (hn : ws.length ≤ n)
    {rest : List (Res Bytes)} (hr : s.recvs = rs.map .ok ++ rest) (hfeed : Feeds C D ws rs D') :
    ∃ D1 rs2 ws1 ev, ws = ws1 ++ more ∧ Feeds C D1 more rs2 D' ∧
      (s.exchange C (requestOf s.password k pages)).1 = .returned ev ∧
      (D1 = D ∨ ∃ t, Expressible t ∧ D1 = { D with clock := { t with microsecond := 0 } }) ∧
      Onward s (s.exchange C (requestOf s.password k pages)).2 n ws1 rs2 rest ∧
      (∀ v, goesOn k pages (.returned ev) = .inl v → Ideal D k v D1) ∧
      (∀ p, goesOn k pages (.returned ev) = .inr p → D1 = D ∧ PageOk D k (some p)) := by
  by_cases hpar : ∃ i, k = .readParameters i
  · obtain ⟨i, rfl⟩ := hpar
    obtain ⟨c, t, hct, hc, htot⟩ : ∃ c t, pages.getD (i, []) = (c, t) ∧ (0 ≤ c ∧ c ≤ 65535) ∧
        t ++ (D.objects.drop c.toNat).flatten = (D.objects.drop i.toNat).flatten := by
      cases pages with
      | none => exact ⟨i, [], rfl, hk, rfl⟩
      | some x =>
        obtain ⟨c, t⟩ := x
        obtain ⟨n, h1, h2, h3⟩ := hpg c t rfl
        cases h1
        exact ⟨c, t, rfl, h2, h3⟩
    have hreq : requestOf s.password (.readParameters i) pages = pageRequest s.password c := by
      simp only [requestOf, pageRequest, hct]
    rw [hreq] at hh ⊢
    have h6 : s.password.length = 6 := by
      have := congrArg List.length hpw
      rw [hd.password] at this
      simpa [latin1] using this
    obtain ⟨b, hb, hbl⟩ := pageBody_ok hp h6 hc (hf.pads s.draws)
    obtain ⟨w, hw⟩ := send_fits hf hd (isRequest_of rfl) hb hbl
    obtain ⟨D1, rs2, n', reply, hn', rfl, g1, g2, g3, _⟩ := exchange_fed (ws2 := []) (more := more) hf
      (show TimeFits (pageRequest s.password c) from trivial) rfl rfl hw hss hh hn hr (by simpa using hfeed)
    rw [List.append_nil] at g1
    subst hn'
    obtain ⟨rfl, k, flag, k1, k2, rfl⟩ := does_parameters g2 hpw
    have hobj := hd.objects
    have hdec := decode_page (first := c.toNat) (k := k) (by omega) (by omega) flag
      ((D1.objects.drop c.toNat).take k).flatten
    have hx := g3 _ (not_oneBit (by simp [le2])) (.parameters _ _ hdec)
    have hsplit : ((D1.objects.drop c.toNat).take k).flatten ++ (D1.objects.drop (c.toNat + k)).flatten =
        (D1.objects.drop c.toNat).flatten := by
      rw [← List.flatten_append, ← List.drop_drop, List.take_append_drop]
    rw [hx]
    refine ⟨D1, rs2, [w], _, rfl, g1, rfl, .inl rfl, ⟨rfl, rfl, rfl, by simp, by simp, rfl, rfl⟩, ?_, ?_⟩
    · intro v hv
      simp only [goesOn, hct] at hv
      by_cases hflag : flag = 0
      · rw [if_neg (by simp [hflag])] at hv; cases hv
      · rw [if_pos (by simp [hflag])] at hv
        cases hv
        rw [List.drop_of_length_le (k2.1 hflag)] at hsplit
        simp only [List.flatten_nil, List.append_nil] at hsplit
        rw [hsplit, htot]
        cases hparse : parseParameters none (some (D1.objects.drop i.toNat).flatten) with
        | ok os => exact .parameters i os hparse
        | error x => exact .unparsable i x hparse
    · intro p hv
      simp only [goesOn, hct] at hv
      by_cases hflag : flag = 0
      · rw [if_neg (by simp [hflag])] at hv
        cases hv
        refine ⟨rfl, fun c' t' h => ?_⟩
        cases h
        have hlt : ¬ D1.objects.length ≤ c.toNat + k := fun h => (k2.2 h) hflag
        refine ⟨i, rfl, by omega, ?_⟩
        rw [show (c + (k : Int)).toNat = c.toNat + k by omega, List.append_assoc, hsplit, htot]
      · rw [if_pos (by simp [hflag])] at hv; cases hv
  · have hnp : ∀ i, k ≠ .readParameters i := fun i h => hpar ⟨i, h⟩
    have hcall : callV C s k = (match goesOn k pages (s.exchange C (requestOf s.password k pages)).1 with
        | .inl v => v | .inr _ => .pending, (s.exchange C (requestOf s.password k pages)).2) ∧
        ∀ o p, goesOn k pages o ≠ .inr p := by
      cases k with
      | readParameters i => exact absurd rfl (hnp i)
      | writeTime t b =>
        refine ⟨?_, fun o p h => by cases h⟩
        simp only [callV, Sys.writeTime, goesOn, requestOf]
        cases (s.exchange C (.writeTimeRequest { password := s.password, deviceTime := t, cryout := b })).1 <;> rfl
      | _ => exact ⟨rfl, fun o p h => by cases h⟩
    obtain ⟨D1, rs2, ws1, g1, g2, g3, g4, g5⟩ := call_fed hd hf hp hpw hk hss
      (by rw [hcall.1]; exact hh) hn hr hfeed
    rw [hcall.1] at g3 g5
    dsimp only at g3 g5
    obtain ⟨v, hv⟩ := ideal_returned g3 hnp
    obtain ⟨ev, hev⟩ : ∃ ev, (s.exchange C (requestOf s.password k pages)).1 = .returned ev := by
      cases k with
      | readParameters i => exact absurd rfl (hnp i)
      | readTime => exact (andThen_returned hv).elim fun a ha => andThen_returned ha
      | _ => exact andThen_returned hv
    rw [hev] at g3
    refine ⟨D1, rs2, ws1, ev, g1, g2, hev, g4, g5, fun v hv => ?_, fun p hp => absurd hp (hcall.2 _ _)⟩
    rw [hv] at g3
    exact g3


/-- The work of a task is something the device can do. -/
def WorkOk (D : Device) (k : Work) : Prop :=
  (∀ c ∈ k.todo, c.InRange) ∧ ∀ c cs, k.todo = c :: cs → PageOk D c k.pages

theorem pageOk_clock {D : Device} {k : Call} {pages : Option (Int × Bytes)} (h : PageOk D k pages) (t : DateTime) :
    PageOk { D with clock := t } k pages := h

theorem sharedIdeal_clock {D D1 : Device} (h : D1 = D ∨ ∃ t, Expressible t ∧ D1 = { D with clock := { t with microsecond := 0 } })
    (hd : D.Ok) : D1.Ok ∧ D1.key = D.key ∧ D1.password = D.password ∧ D1.objects = D.objects := by
  rcases h with rfl | ⟨t, ht, rfl⟩
  · exact ⟨hd, rfl, rfl, rfl⟩
  · exact ⟨clock_ok hd ht, rfl, rfl, rfl⟩

theorem goesOn_refused (k : Call) (pages : Option (Int × Bytes)) (x : PyErr) :
    goesOn k pages (.raised x) = .inl (.raised x) := by
  cases k <;> rfl

theorem oneByOne_written {C : BlockCipher} {h : Handle} {w w1 : World} {hist : List (Nat × Event × Outcome3 Event)}
    (ho : OneByOne C w hist w1) : w.transport.socket = some h → ∃ more, written w1.os = written w.os ++ more := by
  induction ho with
  | nil w => intro _; exact ⟨[], by simp⟩
  | refused w w' t e r _ ih => exact ih
  | took w w' t e r _ ih =>
    intro ht
    obtain ⟨ds, _, hos, _⟩ := (exchange_keeps (C := C) ht e).os
    obtain ⟨more, hm⟩ := ih (by rw [(exchange_keeps (C := C) ht e).transport]; exact ht)
    exact ⟨ds ++ more, by rw [hm, hos, written_append, written_writes, List.append_assoc]⟩

/-- Calls made one by one, or refused, with the device. -/
theorem shared_fed {C : BlockCipher} {ca : ConnArgs} {D' : Device} {h : Handle} {w w1 : World}
    {hist : List (Nat × Event × Outcome3 Event)} (ho : OneByOne C w hist w1) :
    ∀ (D : Device) (n : Nat) (work : Nat → Work) (ws tail rs : List Bytes) (rest : List (Res Bytes)), D.Ok → Fit C ca D w.sys →
    IsLatin1 w.password → latin1 w.password = D.password → w.transport.socket = some h →
    w.sys.sends = List.replicate n (.ok ()) → WorksOn w.password work hist → (∀ j, WorkOk D (work j)) →
    written w1.os ++ tail = written w.os ++ ws → ws.length ≤ n → w.sys.recvs = rs.map .ok ++ rest →
    Feeds C D ws rs D' →
    ∃ D1 rs1 ws1, ws = ws1 ++ tail ∧ Feeds C D1 tail rs1 D' ∧ SharedIdeal D (works work hist).2 D1 ∧
      Onward w.sys w1.sys n ws1 rs1 rest ∧ w1.transport = w.transport ∧ D1.Ok ∧ D1.key = D.key ∧
      D1.password = D.password ∧ (∀ j, WorkOk D1 ((works work hist).1 j)) ∧
      ∀ x ∈ hist, x.2.2 = .raised (.elgas .localProtocol) ∨ ∃ ev, x.2.2 = .returned ev := by
  induction ho with
  | nil w =>
    intro D n work ws tail rs rest hd hf hp hpw ht hss hwk hok hh hn hr hfeed
    have : ws = tail := (List.append_cancel_left hh).symm
    subst this
    exact ⟨D, rs, [], rfl, hfeed, .nil D, ⟨rfl, rfl, rfl, by simp, by simpa using hss, hr, by simp⟩, rfl, hd, rfl, rfl, hok,
      fun x hx => by cases hx⟩
  | refused w w' tid e r _ ih =>
    intro D n work ws tail rs rest hd hf hp hpw ht hss hwk hok hh hn hr hfeed
    obtain ⟨hreq, hwk'⟩ := hwk
    have hans : ∃ c cs, (work tid).todo = c :: cs ∧ (work tid).answered (.raised (.elgas .localProtocol)) =
        ([(c, .raised (.elgas .localProtocol))], { todo := cs }) := by
      unfold Work.request at hreq
      unfold Work.answered
      cases htodo : (work tid).todo with
      | nil => rw [htodo] at hreq; cases hreq
      | cons c cs =>
        refine ⟨c, cs, rfl, ?_⟩
        dsimp only
        rw [goesOn_refused]
    obtain ⟨c, cs, htodo, hans⟩ := hans
    rw [hans] at hwk'
    have hok' : ∀ j, WorkOk D (if j = tid then { todo := cs } else work j) := by
      intro j
      split
      · refine ⟨fun c' hc => (hok tid).1 c' (by rw [htodo]; exact List.mem_cons_of_mem _ hc), fun c cs h => ?_⟩
        intro c' t h'; cases h'
      · exact hok j
    obtain ⟨D1, rs1, ws1, g1, g2, g3, g4, g5, g6, g7, g8, g9, g10⟩ :=
      ih D n _ ws tail rs rest hd hf hp hpw ht hss hwk' hok' hh hn hr hfeed
    refine ⟨D1, rs1, ws1, g1, g2, ?_, g4, g5, g6, g7, g8, ?_, ?_⟩
    · show SharedIdeal D (((work tid).answered _).1.map _ ++ (works (fun j => if j = tid then ((work tid).answered _).2 else work j) r).2) D1
      rw [hans]
      exact .refused D D1 tid c _ g3
    · show ∀ j, WorkOk D1 ((works (fun j => if j = tid then ((work tid).answered _).2 else work j) r).1 j)
      rw [hans]; exact g9
    · intro x hx
      rcases List.mem_cons.1 hx with rfl | hx
      · exact .inl rfl
      · exact g10 x hx
  | took w w' tid e r ho ih =>
    intro D n work ws tail rs rest hd hf hp hpw ht hss hwk hok hh hn hr hfeed
    obtain ⟨hreq, hwk'⟩ := hwk
    obtain ⟨c, cs, htodo⟩ : ∃ c cs, (work tid).todo = c :: cs := by
      unfold Work.request at hreq
      cases htodo : (work tid).todo with
      | nil => rw [htodo] at hreq; cases hreq
      | cons c cs => exact ⟨c, cs, rfl⟩
    have he : requestOf w.sys.password c (work tid).pages = e := by
      unfold Work.request at hreq
      rw [htodo] at hreq
      exact Option.some.inj hreq
    obtain ⟨hx1, hx2⟩ := exchange_sys (C := C) ht e
    obtain ⟨wk1, wk3⟩ := hok tid
    obtain ⟨more, hmore⟩ := oneByOne_written ho (by rw [hx2]; exact ht)
    have hh2 : (w.sys.exchange C e).2.handed ++ (more ++ tail) = w.sys.handed ++ ws := by
      rw [hx1]
      show written (w.exchange C e).2.os ++ (more ++ tail) = written w.os ++ ws
      rw [← List.append_assoc, ← hmore]; exact hh
    obtain ⟨D2, rs2, ws2, ev, k1, k2, k3, k4, k5, k6, k7⟩ := work_fed hd hf hp hpw (wk1 c (by rw [htodo]; exact List.mem_cons_self))
      (wk3 c cs htodo) hss (by rw [he]; exact hh2) hn hr hfeed
    rw [he, hx1] at k3 k5
    dsimp only at k3 k5
    obtain ⟨d1, d2, d3, d4⟩ := sharedIdeal_clock k4 hd
    have hpw2 : (w.exchange C e).2.password = w.password := k5.password
    have hlen : ws.length = ws2.length + (more ++ tail).length := by rw [k1]; simp
    have hfit : Fit C ca D2 (w.exchange C e).2.sys :=
      ⟨k5.conn ▸ hf.reach, k5.conn ▸ hf.ready, d2 ▸ hf.context, k5.rands ▸ hf.pads⟩
    have hansw : ∀ k, WorkOk D k → WorkOk D2 k := by
      intro k hk
      refine ⟨hk.1, fun c cs h => ?_⟩
      have := hk.2 c cs h
      unfold PageOk at this ⊢
      rw [d4]; exact this
    have hok2 : ∀ j, WorkOk D2 (if j = tid then ((work tid).answered (.returned ev)).2 else work j) := by
      intro j
      split
      · unfold Work.answered
        rw [htodo]
        dsimp only
        cases hg : goesOn c (work tid).pages (.returned ev) with
        | inl v =>
          refine ⟨fun c' hc => wk1 c' (by rw [htodo]; exact List.mem_cons_of_mem _ hc), fun _ _ _ => ?_⟩
          intro c' t h'; cases h'
        | inr p =>
          obtain ⟨rfl, hp2⟩ := k7 p hg
          refine ⟨fun c' hc => wk1 c' (by rw [htodo]; exact hc), fun c' cs' h => ?_⟩
          cases h
          exact hp2
      · exact hansw _ (hok j)
    rw [k3] at hwk'
    obtain ⟨D1, rs1, ws1, g1, g2, g3, g4, g5, g6, g7, g8, g9, g10⟩ :=
      ih D2 (n - ws2.length) _ (more ++ tail) tail rs2 rest d1 hfit (hpw2 ▸ hp) (by rw [hpw2, d3]; exact hpw)
        (by rw [hx2]; exact ht) k5.sends (by rw [hpw2]; exact hwk') hok2
        (by rw [← List.append_assoc, ← hmore]) (by omega) k5.recvs k2
    refine ⟨D1, rs1, ws2 ++ ws1, by rw [k1, g1, List.append_assoc], g2, ?_, ?_, g5.trans hx2, g6, g7.trans d2,
      g8.trans d3, ?_, ?_⟩
    · show SharedIdeal D (((work tid).answered _).1.map _ ++ (works (fun j => if j = tid then ((work tid).answered _).2 else work j) r).2) D1
      rw [k3]
      generalize works _ r = q at g3 ⊢
      unfold Work.answered
      rw [htodo]
      dsimp only
      cases hg : goesOn c (work tid).pages (.returned ev) with
      | inl v => exact .took D D2 D1 tid c v _ (k6 v hg) g3
      | inr p =>
        obtain ⟨rfl, _⟩ := k7 p hg
        exact g3
    · have hr1 := g4.room
      refine ⟨g4.conn.trans k5.conn, g4.password.trans k5.password, g4.rands.trans k5.rands, ?_, ?_, g4.recvs, ?_⟩
      · have := k5.room; simp; omega
      · rw [g4.sends]; simp [Nat.sub_sub]
      · rw [g4.handed, k5.handed, List.append_assoc]
    · show ∀ j, WorkOk D1 ((works (fun j => if j = tid then ((work tid).answered _).2 else work j) r).1 j)
      rw [k3]; exact g9
    · intro x hx
      rcases List.mem_cons.1 hx with rfl | hx
      · exact .inr ⟨ev, k3⟩
      · exact g10 x hx


/-- Everything there is to know about a state of the tasks. -/
structure Sees (C : BlockCipher) (ca : ConnArgs) (a : ClientArgs) (calls : Nat → List Call) (D D' D1 : Device) (m : Machine) (w0 w1 : World)
    (n : Nat) (tail rs : List Bytes) : Prop where
  inv : TasksInv C w0 m w1
  working : Working a.password (fun j => { todo := calls j }) m
  trace : written m.world.os = written w1.os ++ tail
  feeds : Feeds C D1 tail rs D'
  ideal : SharedIdeal D (endedCalls calls m.history) D1
  ok : D1.Ok
  fit : Fit C ca D1 w1.sys
  password : w1.password = a.password
  latin : IsLatin1 a.password
  known : latin1 a.password = D1.password
  sends : w1.sys.sends = List.replicate n (.ok ())
  room : tail.length ≤ n
  recvs : w1.sys.recvs = rs.map .ok
  socket : ∃ h, w1.transport.socket = some h
  works : ∀ j, WorkOk D1 ((works (fun j => { todo := calls j }) m.history).1 j)
  ends : ∀ x ∈ m.history, x.2.2 = .raised (.elgas .localProtocol) ∨ ∃ ev, x.2.2 = .returned ev

theorem planOf_request {pw : PyStr} {calls : Nat → List Call} (tid : Nat) (hist : List (Nat × Event × Outcome3 Event)) (e : Event)
    (h : planOf pw calls tid hist = some e) : IsRequest e := request_isRequest h

theorem sharing_sees {C : BlockCipher} {a : ClientArgs} {calls : Nat → List Call} {D D' : Device} {m : Machine}
    (hs : Sharing C a calls D D' m) : ∃ ca D1 w0 w1 n tail rs, Sees C ca a calls D D' D1 m w0 w1 n tail rs := by
  obtain ⟨hd, hk, hp, hrange, kind, timeout, env, w, h, n, out, schedule, hm, hr, ⟨lo, hopens⟩, hwrites, hrun, hn, hserve, hin⟩ := hs
  have hready := mkWorld_ready hm
  obtain ⟨conn, hconn, rfl⟩ := mkWorld_ok hm
  let w0 : World := {
    password := toSecretStr a.password, conn := conn,
    transport := { mkTransport kind timeout with socket := some h }, opens := lo,
    shutdowns := env.shutdowns, closes := env.closes, writes := env.writes, inbox := env.inbox,
    clock := env.clock, rands := env.rands, os := [.create (some h)] }
  have hc1 : act C { w0 with transport := mkTransport kind timeout, opens := env.opens, os := [] } .connect =
      (.returned .nothing, w0) := by
    simp only [act, World.connect, mkTransport, hopens, Transport.connect, Outcome3.andThen]
    rfl
  have hrun' : m = Machine.run C (planOf a.password calls) { world := w0 } schedule := by
    rw [hrun]
    show Machine.run C _ { world := (act C { w0 with transport := mkTransport kind timeout, opens := env.opens, os := [] } .connect).2 } _ = _
    rw [hc1]
  obtain ⟨w1, hi⟩ := inv_run (plan := planOf a.password calls) planOf_request schedule (inv_init C w0)
  have hwork := working_run (C := C) (pw := a.password) (calls := calls) schedule (m := { world := w0 })
    ⟨trivial, fun tid e p hf => by cases hf⟩
  rw [← hrun'] at hi hwork
  have ht0 : w0.transport.socket = some h := rfl
  obtain ⟨tail, htail⟩ : ∃ tail, written m.world.os = written w1.os ++ tail := by
    rcases hi.now with ⟨_, hw⟩ | ⟨tid, e, p, hf⟩
    · exact ⟨[], by rw [hw]; simp⟩
    · obtain ⟨h', line, _, _, hos, _⟩ := hf.handle
      exact ⟨[line], by rw [hos, written_append]; rfl⟩
  obtain ⟨more, hmore⟩ := oneByOne_written hi.past ht0
  have hw0 : written w0.os = [] := rfl
  rw [hw0, List.nil_append] at hmore
  obtain ⟨rs, hrs, hfeed⟩ := serves_feeds hserve w0.transport h ht0 (env.inbox h) env.clock out.length hin (Nat.le_refl _)
  rw [recvs_enough ht0 out.length (env.inbox h) env.clock (by rw [hin]; simp [bytesOnly])] at hrs
  have hfit : Fit C ⟨0, 0, 0, 0, toSecretStr a.password, a.passwordId, toSecretByte a.encryptionKey, a.encryptionKeyId⟩ D w0.sys :=
    ⟨⟨conn, [], hconn, rfl⟩, hready, shares_context hk hd.key rfl, hr⟩
  have hs0 : w0.sys.sends = List.replicate n (.ok ()) := by
    show (env.writes.map _) = _
    rw [hwrites, List.map_replicate]
  obtain ⟨D1, rs1, ws1, g1, g2, g3, g4, g5, g6, g7, g8, g9, g10⟩ := shared_fed (h := h) hi.past D n _ (written m.world.os) tail rs []
    hd hfit hp.1 hp.2 ht0 hs0 hwork.past
    (fun j => ⟨hrange j, fun c cs h c' t h' => by cases h'⟩) (by rw [hw0, htail]; rfl) hn
    (by rw [List.append_nil]; exact hrs) hfeed
  refine ⟨_, D1, w0, w1, n - ws1.length, tail, rs1, hi, hwork, htail, g2, g3, g6,
    ⟨g4.conn ▸ hfit.reach, g4.conn ▸ hfit.ready, g7 ▸ hfit.context, g4.rands ▸ hfit.pads⟩,
    g4.password, hp.1, g8 ▸ hp.2, g4.sends, ?_, by simpa using g4.recvs, ⟨h, by rw [g5]⟩, g9, g10⟩
  have := congrArg List.length g1
  simp at this
  omega

/-- The call under way will be answered. -/
theorem sees_flight {C : BlockCipher} {ca : ConnArgs} {a : ClientArgs} {calls : Nat → List Call} {D D' D1 : Device} {m : Machine}
    {w0 w1 : World} {n : Nat} {tail rs : List Bytes} (hs : Sees C ca a calls D D' D1 m w0 w1 n tail rs) {tid : Nat} {e : Event}
    {p : Phase} (hf : Flying C m w1 tid e p) : ∃ ev, (w1.exchange C e).1 = .returned ev := by
  obtain ⟨h, ht⟩ := hs.socket
  have hreq := hs.working.now tid e p hf.flight
  have hok := hs.works tid
  generalize (works _ m.history).1 tid = k at hreq hok
  obtain ⟨c, cs, htodo⟩ : ∃ c cs, k.todo = c :: cs := by
    unfold Work.request at hreq
    cases htodo : k.todo with
    | nil => rw [htodo] at hreq; cases hreq
    | cons c cs => exact ⟨c, cs, rfl⟩
  have he : requestOf w1.sys.password c k.pages = e := by
    unfold Work.request at hreq
    rw [htodo] at hreq
    show requestOf w1.password _ _ = _
    rw [hs.password]
    exact Option.some.inj hreq
  obtain ⟨hx1, hx2⟩ := exchange_sys (C := C) ht e
  obtain ⟨h', line, k1, k2, k3, k4⟩ := hf.handle
  have htl : tail = [line] := by
    have := hs.trace
    rw [k3, written_append] at this
    exact (List.append_cancel_left this).symm
  have hroom := hs.room
  have hss := hs.sends
  cases n with
  | zero => rw [htl] at hroom; simp at hroom
  | succ n =>
  have hh : (w1.sys.exchange C e).2.handed ++ [] = w1.sys.handed ++ tail := by
    rw [exchange_loop C w1.sys e line (List.replicate n (.ok ())) hs.fit.ready.2 k2 hss, htl]
    simp
  obtain ⟨_, _, _, ev, _, _, h3, _⟩ := work_fed hs.ok hs.fit (by show IsLatin1 w1.password; rw [hs.password]; exact hs.latin)
    (by show latin1 w1.password = _; rw [hs.password]; exact hs.known) (hok.1 c (by rw [htodo]; exact List.mem_cons_self))
    (hok.2 c cs htodo) hss (by rw [he]; exact hh) hs.room (rest := []) (by rw [List.append_nil]; exact hs.recvs) hs.feeds
  rw [he, hx1] at h3
  exact ⟨ev, h3⟩

/-- C94. Tasks that share one client, each making its own calls, in any interleaving: with a device at the other end, each
call that has ended was either refused with `LocalElgasProtocolError`, or gave back what the device held when the call
ended, as if the calls had been made one after the other; also `read_parameters`, between the pages of which other tasks
may have got in.  At most one request is under way, which the device has yet to be seen to answer. -/
theorem C94_device (C : BlockCipher) (a : ClientArgs) (calls : Nat → List Call) (D D' : Device) (m : Machine)
    (hs : Sharing C a calls D D' m) :
    ∃ D1, SharedIdeal D (endedCalls calls m.history) D1 ∧
      (((∀ tid, m.flights tid = none) ∧ D1 = D') ∨
       ∃ tid x line answer, m.flights tid = some x ∧ (∀ j, j ≠ tid → m.flights j = none) ∧
        (written m.world.os).getLast? = some line ∧ Replies C D1 line D' answer) := by
  obtain ⟨ca, D1, w0, w1, n, tail, rs, hv⟩ := sharing_sees hs
  refine ⟨D1, hv.ideal, ?_⟩
  have hfeed := hv.feeds
  rcases hv.inv.now with ⟨h0, hw⟩ | ⟨tid, e, p, hf⟩
  · have : tail = [] := by
      have := hv.trace
      rw [hw] at this
      simpa using this
    subst this
    generalize hl : ([] : List Bytes) = l at hfeed
    cases hfeed with
    | nil => exact .inl ⟨h0, rfl⟩
    | request => cases hl
  · obtain ⟨h', line, k1, k2, k3, k4⟩ := hf.handle
    have htl : tail = [line] := by
      have := hv.trace
      rw [k3, written_append] at this
      exact (List.append_cancel_left this).symm
    subst htl
    cases hfeed with
    | request _ D2 _ _ _ pieces last rs2 h1 h2 h3 =>
      generalize hl : ([] : List Bytes) = l at h3
      cases h3 with
      | nil => exact .inr ⟨tid, _, line, _, hf.flight, hf.alone, by rw [hv.trace]; simp, h1⟩
      | request => cases hl

/-- C94. The call under way goes on when its task is scheduled often enough: its request is answered. -/
theorem C94_answered (C : BlockCipher) (a : ClientArgs) (calls : Nat → List Call) (D D' : Device) (m : Machine)
    (hs : Sharing C a calls D D' m) (tid : Nat) (e : Event) (p : Phase) (hf : m.flights tid = some (e, p)) :
    ∃ n ev, (m.run C (planOf a.password calls) (List.replicate n tid)).history = m.history ++ [(tid, e, .returned ev)] := by
  obtain ⟨ca, D1, w0, w1, n, tail, rs, hv⟩ := sharing_sees hs
  rcases hv.inv.now with ⟨h0, _⟩ | ⟨t, e', p', hfly⟩
  · rw [h0 tid] at hf; cases hf
  · have ht : tid = t := by
      refine Classical.byContradiction fun hne => ?_
      rw [hfly.alone tid hne] at hf
      cases hf
    subst ht
    have := hfly.flight
    rw [hf] at this
    injection this with this
    injection this with h1 h2
    subst h1; subst h2
    obtain ⟨ev, hev⟩ := sees_flight hv hfly
    have hrest : (rest C m.world p).1 = .returned ev := by rw [← hfly.left]; exact hev
    obtain ⟨h, _, hsock, _⟩ := hfly.handle
    obtain ⟨k, hk⟩ := own_run (C := C) (plan := planOf a.password calls) (remaining m p) (Nat.le_refl _) hf hsock
      (by rw [hrest]; intro h; cases h)
    rw [hrest] at hk
    exact ⟨k, ev, hk⟩


theorem request_body {D : Device} {pw : PyStr} (hp : IsLatin1 pw) (h6 : pw.length = 6) {r : Rand} (hr : PadOk r.pw) {k : Call}
    (hk : k.InRange) {pages : Option (Int × Bytes)} (hpg : PageOk D k pages) :
    ∃ b, (requestOf pw k pages).toBytes r = .ok b ∧ b.length ≤ 65500 := by
  cases pages with
  | none => rw [firstOf_requestOf]; exact first_body hp h6 hr hk
  | some x =>
    obtain ⟨c, t⟩ := x
    obtain ⟨n, rfl, hc, _⟩ := hpg c t rfl
    exact pageBody_ok hp h6 hc hr

/-- C94. When no call is under way, the next request of any task is accepted and written. -/
theorem C94_accepted (C : BlockCipher) (a : ClientArgs) (calls : Nat → List Call) (D D' : Device) (m : Machine)
    (hs : Sharing C a calls D D' m) (hnone : ∀ j, m.flights j = none) (tid : Nat) (e : Event)
    (he : planOf a.password calls tid m.history = some e) :
    (m.step C (planOf a.password calls) tid).flights tid = some (e, .writing) ∧
    (m.step C (planOf a.password calls) tid).history = m.history := by
  obtain ⟨ca, D1, w0, w1, n, tail, rs, hv⟩ := sharing_sees hs
  have hw : m.world = w1 := by
    rcases hv.inv.now with ⟨_, hw⟩ | ⟨t, e', p', hf⟩
    · exact hw
    · have := hf.flight; rw [hnone t] at this; cases this
  have hq := planOf_request tid m.history e he
  have hidle : m.world.conn.state = .idle := by rw [hw]; exact hv.fit.ready.1
  obtain ⟨s', hpe, _⟩ := C34_idle_accepts e hq
  obtain ⟨h, ht⟩ := hv.socket
  have hok := hv.works tid
  have he' := he
  unfold planOf at he'
  generalize (works _ m.history).1 tid = k at he' hok
  unfold Work.request at he'
  obtain ⟨c, cs, htodo⟩ : ∃ c cs, k.todo = c :: cs := by
    cases htodo : k.todo with
    | nil => rw [htodo] at he'; cases he'
    | cons c cs => exact ⟨c, cs, rfl⟩
  rw [htodo] at he'
  have h6 : a.password.length = 6 := by
    have := congrArg List.length hv.known
    rw [hv.ok.password] at this
    simpa [latin1] using this
  obtain ⟨b, hb, hbl⟩ := request_body hv.latin h6 (hv.fit.pads w1.draws) (hok.1 c (by rw [htodo]; exact List.mem_cons_self))
    (hok.2 c cs htodo)
  rw [Option.some.inj he'] at hb
  obtain ⟨line, hline⟩ := send_fits hv.fit hv.ok hq hb hbl
  have hline' : (m.world.conn.send C e (m.world.rands m.world.draws)).2 = .ok line := by rw [hw]; exact hline
  unfold Machine.step
  rw [hnone tid, he]
  dsimp only
  unfold Machine.start
  rw [hidle, hpe]
  dsimp only
  cases hsd : m.world.conn.send C e (m.world.rands m.world.draws) with | mk c r =>
  rw [hsd] at hline'
  cases hline'
  dsimp only
  rw [show m.world.transport.socket = some h by rw [hw]; exact ht]
  dsimp only
  exact ⟨by simp [Machine.wait], rfl⟩

theorem snoc_ne {α : Type} {l : List α} {x : α} : l ≠ l ++ [x] := by
  intro h
  have := congrArg List.length h
  simp at this

/-- C94. A task sees an exception only because another task's request is under way, and then it is
`LocalElgasProtocolError`. -/
theorem C94_refused (C : BlockCipher) (a : ClientArgs) (calls : Nat → List Call) (D D' : Device) (m : Machine)
    (hs : Sharing C a calls D D' m) (tid : Nat) (e : Event) (x : PyErr)
    (hx : (m.step C (planOf a.password calls) tid).history = m.history ++ [(tid, e, .raised x)]) :
    x = .elgas .localProtocol ∧ ∃ j y, j ≠ tid ∧ m.flights j = some y := by
  obtain ⟨ca, D1, w0, w1, n, tail, rs, hv⟩ := sharing_sees hs
  rcases hv.inv.now with ⟨hnone, hw⟩ | ⟨t, e', p', hf⟩
  · exfalso
    cases hp : planOf a.password calls tid m.history with
    | none =>
      unfold Machine.step at hx
      rw [hnone tid, hp] at hx
      exact snoc_ne hx
    | some e' =>
      have := (C94_accepted C a calls D D' m hs hnone tid e' hp).2
      rw [hx] at this
      exact snoc_ne this.symm
  · by_cases ht : tid = t
    · exfalso
      subst ht
      obtain ⟨ev, hev⟩ := sees_flight hv hf
      have hrest : (rest C m.world p').1 = .returned ev := by rw [← hf.left]; exact hev
      obtain ⟨h, _, hsock, _⟩ := hf.handle
      rcases own_step (C := C) (plan := planOf a.password calls) hf.flight hsock with h1 | h1 | ⟨p, h1⟩
      · rw [hrest] at h1; cases h1
      · rw [hx, hrest] at h1
        have := List.append_cancel_left h1
        cases this
      · rw [h1.history] at hx
        exact snoc_ne hx
    · refine ⟨?_, t, _, fun h => ht h.symm, hf.flight⟩
      have hfl := hf.alone tid ht
      cases hp : planOf a.password calls tid m.history with
      | none =>
        unfold Machine.step at hx
        rw [hfl, hp] at hx
        exact absurd hx snoc_ne
      | some e2 =>
        have he := planOf_request tid m.history e2 hp
        have hpe : processEvent m.world.conn.state e2 = .error (.elgas .localProtocol) := by
          apply C34_refuses
          have := not_idle_of_awaits hf.request hf.waiting
          refine ⟨fun h => this h.1, fun ha => ?_⟩
          cases hs : m.world.conn.state <;> rw [hs] at ha <;> simp [awaits] at ha <;>
            (unfold IsRequest at he; rw [← ha] at he; simp [responseOf] at he)
        unfold Machine.step at hx
        rw [hfl, hp] at hx
        dsimp only at hx
        unfold Machine.start at hx
        rw [hpe] at hx
        have := List.append_cancel_left hx
        cases this
        rfl

theorem works_order (hist : List (Nat × Event × Outcome3 Event)) (tid : Nat) : ∀ work : Nat → Work,
    ((works work hist).2.filter (·.1 = tid)).map (·.2.1) ++ ((works work hist).1 tid).todo = (work tid).todo := by
  induction hist with
  | nil => intro work; rfl
  | cons x xs ih =>
    intro work
    obtain ⟨t, e, o⟩ := x
    have := ih (fun j => if j = t then ((work t).answered o).2 else work j)
    show (((((work t).answered o).1.map fun x => (t, x)) ++
      (works (fun j => if j = t then ((work t).answered o).2 else work j) xs).2).filter (·.1 = tid)).map (·.2.1) ++
      ((works (fun j => if j = t then ((work t).answered o).2 else work j) xs).1 tid).todo = _
    rw [List.filter_append, List.map_append, List.append_assoc, this]
    by_cases ht : tid = t
    · subst ht
      rw [if_pos rfl]
      unfold Work.answered
      cases htodo : (work tid).todo with
      | nil => exact htodo
      | cons c cs =>
        dsimp only
        cases goesOn c (work tid).pages o with
        | inl v => simp
        | inr p => simp
    · rw [if_neg ht]
      have : ∀ l : List (Call × Outcome3 Value), ((l.map fun x => (t, x)).filter (·.1 = tid)) = [] := by
        intro l
        rw [List.filter_eq_nil_iff]
        intro a ha
        obtain ⟨b, _, rfl⟩ := List.mem_map.1 ha
        simp; exact fun h => ht h.symm
      rw [this]; rfl

/-- C94. The calls of each task end in the order in which the task makes them, and none is left out or made twice. -/
theorem C94_order (calls : Nat → List Call) (hist : List (Nat × Event × Outcome3 Event)) (tid : Nat) :
    ∃ todo, ((endedCalls calls hist).filter (·.1 = tid)).map (·.2.1) ++ todo = calls tid :=
  ⟨_, works_order hist tid _⟩


theorem wreadPages_eq (C : BlockCipher) (w : World) (count : Int) (total : Bytes) : w.readPages C count total =
    match w.exchange C (pageRequest w.password count) with
    | (.raised e, w) => (.raised e, w)
    | (.pending, w) => (.pending, w)
    | (.returned (.readDeviceParametersResponse p), w) =>
      if p.isEnd then (.returned (total ++ p.data), w)
      else w.readPages C (count + p.objectAmount) (total ++ p.data)
    | (.returned _, w) => (.raised .attribute, w) := by
  unfold pageRequest
  rw [World.readPages]
  split <;> simp_all

/-- What is left of a call. -/
def resume (C : BlockCipher) (w : World) (k : Call) (pages : Option (Int × Bytes)) : Outcome3 Value × World :=
  match k with
  | .readParameters i =>
    (((w.readPages C (pages.getD (i, [])).1 (pages.getD (i, [])).2).1.andThen fun d =>
      .ofRes (parseParameters none (some d))).andThen (.returned ∘ .objects),
     (w.readPages C (pages.getD (i, [])).1 (pages.getD (i, [])).2).2)
  | k => wcall C w k

theorem resume_step (C : BlockCipher) (w : World) (k : Call) (pages : Option (Int × Bytes)) :
    resume C w k pages = match goesOn k pages (w.exchange C (requestOf w.password k pages)).1 with
      | .inl v => (v, (w.exchange C (requestOf w.password k pages)).2)
      | .inr p => resume C (w.exchange C (requestOf w.password k pages)).2 k (some p) := by
  cases k with
  | readParameters i =>
    unfold resume
    dsimp only
    rw [wreadPages_eq]
    have hreq : requestOf w.password (.readParameters i) pages = pageRequest w.password (pages.getD (i, [])).1 := rfl
    rw [hreq]
    cases hx : w.exchange C (pageRequest w.password (pages.getD (i, [])).1) with | mk o w1 =>
    cases o with
    | raised e => rfl
    | pending => rfl
    | returned ev =>
      by_cases hev : ∃ p, ev = .readDeviceParametersResponse p
      · obtain ⟨p, rfl⟩ := hev
        simp only [goesOn]
        split
        · rfl
        · rfl
      · have h1 : goesOn (.readParameters i) pages (.returned ev) = .inl (.raised .attribute) := by
          cases ev <;> first | rfl | exact absurd ⟨_, rfl⟩ hev
        rw [h1]
        cases ev <;> first | rfl | exact absurd ⟨_, rfl⟩ hev
  | writeTime t b =>
    simp only [resume, wcall, World.writeTime, goesOn, requestOf]
    cases (w.exchange C (.writeTimeRequest { password := w.password, deviceTime := t, cryout := b })).1 <;> rfl
  | _ => rfl

theorem worksOn_nothing {pw : PyStr} {work : Nat → Work} {hist : List (Nat × Event × Outcome3 Event)}
    (h : ∀ j, (work j).todo = []) (hw : WorksOn pw work hist) : hist = [] := by
  cases hist with
  | nil => rfl
  | cons x xs =>
    obtain ⟨t, e, o⟩ := x
    have := hw.1
    unfold Work.request at this
    rw [h t] at this
    cases this

theorem alone_work {C : BlockCipher} {w w1 : World} {hist : List (Nat × Event × Outcome3 Event)} (ho : OneByOne C w hist w1) :
    ∀ (work : Nat → Work) (tid : Nat) (k : Call) (pages : Option (Int × Bytes)),
    (∀ j, j ≠ tid → (work j).todo = []) → work tid = ⟨[k], pages⟩ → WorksOn w.password work hist →
    ∀ v, v ≠ .raised (.elgas .localProtocol) → (works work hist).2 = [(tid, k, v)] → resume C w k pages = (v, w1) := by
  induction ho with
  | nil w => intro work tid k pages _ _ _ v _ h; cases h
  | refused w w' t e r _ ih =>
    intro work tid k pages hothers hwk hon v hv h
    have ht : t = tid := by
      refine Classical.byContradiction fun hne => ?_
      have := hon.1
      unfold Work.request at this
      rw [hothers t hne] at this
      cases this
    subst ht
    exfalso
    have h' : ((work t).answered (.raised (.elgas .localProtocol))).1.map (fun x => (t, x)) ++ (works _ r).2 = [(t, k, v)] := h
    unfold Work.answered at h'
    rw [hwk] at h'
    dsimp only at h'
    rw [goesOn_refused] at h'
    injection h' with h1 _
    injection h1 with _ h1
    injection h1 with _ h1
    exact hv h1.symm
  | took w w' t e r ho ih =>
    intro work tid k pages hothers hwk hon v hv h
    have ht : t = tid := by
      refine Classical.byContradiction fun hne => ?_
      have := hon.1
      unfold Work.request at this
      rw [hothers t hne] at this
      cases this
    subst ht
    have he : requestOf w.password k pages = e := by
      have := hon.1
      unfold Work.request at this
      rw [hwk] at this
      exact Option.some.inj this
    have hon2 := hon.2
    have h' : ((work t).answered (w.exchange C e).1).1.map (fun x => (t, x)) ++
      (works (fun j => if j = t then ((work t).answered (w.exchange C e).1).2 else work j) r).2 = [(t, k, v)] := h
    rw [resume_step, he]
    have hans : (work t).answered (w.exchange C e).1 = match goesOn k pages (w.exchange C e).1 with
        | .inl v => ([(k, v)], { todo := [] })
        | .inr p => ([], ⟨[k], some p⟩) := by
      unfold Work.answered; rw [hwk]; dsimp only; cases goesOn k pages (w.exchange C e).1 <;> rfl
    rw [hans] at h' hon2
    cases hg : goesOn k pages (w.exchange C e).1 with
    | inl v' =>
      rw [hg] at h' hon2
      dsimp only at h' hon2
      have hr : r = [] := worksOn_nothing (fun j => by
        by_cases hj : j = t
        · rw [if_pos hj]
        · rw [if_neg hj]; exact hothers j hj) hon2
      subst hr
      cases ho
      injection h' with h1 _
      injection h1 with _ h1
      injection h1 with _ h1
      rw [h1]
    | inr p =>
      rw [hg] at h' hon2
      dsimp only at h' hon2 ⊢
      exact ih _ t k (some p) (fun j hj => by rw [if_neg hj]; exact hothers j hj) (by rw [if_pos rfl])
        (by rw [(exchange_config C w e).1]; exact hon2) v hv h'

/-- C94. A call that a task makes alone, cut at its exchanges, is the call of the client: same result, same state of
everything. -/
theorem C94_alone (C : BlockCipher) (w : World) (tid : Nat) (k : Call) (calls : Nat → List Call)
    (hc : calls = fun j => if j = tid then [k] else []) (schedule : List Nat) (m : Machine)
    (hm : m = Machine.run C (planOf w.password calls) { world := w } schedule) (v : Outcome3 Value)
    (hv : v ≠ .raised (.elgas .localProtocol)) (he : endedCalls calls m.history = [(tid, k, v)]) :
    wcall C w k = (v, m.world) := by
  obtain ⟨w1, hi⟩ := inv_run (plan := planOf w.password calls) planOf_request schedule (inv_init C w)
  have hwork := working_run (C := C) (pw := w.password) (calls := calls) schedule (m := { world := w })
    ⟨trivial, fun tid e p hf => by cases hf⟩
  rw [← hm] at hi hwork
  have hw : m.world = w1 := by
    rcases hi.now with ⟨_, h⟩ | ⟨t, e, p, hf⟩
    · exact h
    · exfalso
      have hreq := hwork.now t e p hf.flight
      have hord := works_order m.history t (fun j => { todo := calls j })
      have hend : (works (fun j => { todo := calls j }) m.history).2 = [(tid, k, v)] := he
      rw [hend] at hord
      unfold Work.request at hreq
      have h0 : ((works (fun j => { todo := calls j }) m.history).1 t).todo = [] := by
        generalize ((works (fun j => ({ todo := calls j } : Work)) m.history).1 t).todo = l at hord
        rw [hc] at hord
        by_cases ht : t = tid
        · subst ht; simpa using hord
        · have h2 : ¬ tid = t := fun h => ht h.symm
          simpa [ht, h2] using hord
      rw [h0] at hreq
      cases hreq
  have := alone_work hi.past _ tid k none (fun j hj => by rw [hc]; dsimp only; rw [if_neg hj])
    (by rw [hc]; dsimp only; rw [if_pos rfl]) hwork.past v hv he
  rw [hw, ← this]
  cases k <;> rfl

/-! ### Examples -/

/-- Two tasks that each ask for the time. -/
def exTwoTasks : Nat → List Call := fun tid => if tid = 1 ∨ tid = 2 then [.readTime] else []

def exTwoRun (schedule : List Nat) : Machine :=
  match mkWorld .serial (some 0) exArgs exEnv with
  | .ok w => Machine.run idCipher (planOf exArgs.password exTwoTasks) { world := (act idCipher w .connect).2 } schedule
  | .error _ => { world := exShared }

def exEndedShort (l : List (Nat × Call × Outcome3 Value)) : List (Nat × Ended) := l.map fun x => (x.1, ended x.2.2)

/-- Task 1 asks, task 2 is refused meanwhile, task 1 gets its answer. -/
def exSchedule : List Nat := [1, 2] ++ List.replicate 60 1

example : written (exTwoRun exSchedule).world.os = [exAsk] ∧
    exEndedShort (endedCalls exTwoTasks (exTwoRun exSchedule).history) =
      [(2, .raised (.elgas .localProtocol)), (1, .returned)] := by decide +kernel

theorem exTwo_os (n : List Nat) (hn : n = exSchedule ∨ n = [2]) : written (exTwoRun n).world.os = [exAsk] := by
  rcases hn with rfl | rfl <;> decide +kernel

-- the hypothesis of the theorems, when all is over and when a request is under way
theorem exSharing (n : List Nat) (hn : n = exSchedule ∨ n = [2]) :
    Sharing idCipher exArgs exTwoTasks (exDevice none (List.replicate 6 0x30))
      (exDevice none (List.replicate 6 0x30)) (exTwoRun n) := by
  refine ⟨(exDevice_ok none (fun i k h => by cases h) (List.replicate 6 0x30) rfl).2, ?_, ?_, ?_, ?_⟩
  · show ¬ Encrypting exArgs
    rintro ⟨⟨k, hk, _⟩, _⟩
    cases hk
  · exact ⟨by decide +kernel, by decide +kernel⟩
  · intro tid k hk
    unfold exTwoTasks at hk
    split at hk
    · rw [List.mem_singleton.1 hk]; trivial
    · cases hk
  · refine ⟨.serial, some 0, exEnv, _, 5, 2, exDeviceTime, n, rfl, fun i => ?_, ⟨_, rfl⟩, rfl, rfl, ?_, ?_, ?_⟩
    · show PadOk ('a', 'b')
      decide +kernel
    · rw [exTwo_os n hn]; decide
    · rw [exTwo_os n hn]; exact exServes
    · decide +kernel

example : (exTwoRun [2]).flights 2 ≠ none ∧ (exTwoRun [2]).flights 1 = none := by
  constructor
  · intro h
    have : ((exTwoRun [2]).flights 2).isNone = true := by rw [h]; rfl
    revert this; decide +kernel
  · have : ((exTwoRun [2]).flights 1).isNone = true := by decide +kernel
    exact Option.isNone_iff_eq_none.1 this

-- a task reads the parameters in two pages; between them another one gets in
example (o : Outcome3 Event) :
    planOf [] (fun tid => if tid = 1 then [.readParameters 3, .readTime] else [.readTime])  1
      [(1, pageRequest [] 3, .returned (.readDeviceParametersResponse
         { objectNumber := 3, objectAmount := 2, isEnd := false, data := [7] })), (2, .readTimeRequest {}, o)] =
      some (pageRequest [] 5) := rfl

end Elgas
