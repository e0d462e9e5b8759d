import Verif.Spec.Client
import Verif.Props.Connection
import Verif.Props.Parameters
/-!
C52-C55: the client.
-/
set_option linter.unusedVariables false
namespace Elgas
open Spec

/-! ### Feeding data -/

theorem eq_nil_or_snoc {α : Type} (l : List α) : l = [] ∨ ∃ init last, l = init ++ [last] := by
  rcases List.eq_nil_or_concat l with h | ⟨i, x, h⟩
  · exact .inl h
  · exact .inr ⟨i, x, by rw [h, List.concat_eq_append]⟩

/-- `receive_data` for each piece. -/
def feed (c : Conn) (ps : List Bytes) : Conn := ps.foldl Conn.receiveData c

theorem feed_nonempty (c : Conn) (ps : List Bytes) (h : c.buffer ≠ []) :
    feed c ps = { c with buffer := c.buffer ++ ps.flatten } := by
  induction ps generalizing c with
  | nil => simp [feed]
  | cons p ps ih =>
    have h1 : c.receiveData p = { c with buffer := c.buffer ++ p } := receiveData_append (fun _ => h)
    show feed (c.receiveData p) ps = _
    rw [h1, ih _ (by simp [h])]
    simp

theorem feed_empty (c : Conn) (ps : List Bytes) (h : c.buffer = []) :
    feed c ps = { c with buffer := gathered ps } := by
  induction ps with
  | nil => obtain ⟨a, b, s, x⟩ := c; simp at h; simp [feed, gathered, h]
  | cons p ps ih =>
    show feed (c.receiveData p) ps = _
    by_cases hp : p = [] ∨ p = [0x0D]
    · have h1 : c.receiveData p = c := by
        rcases hp with rfl | rfl
        · rfl
        · unfold Conn.receiveData; simp [h]
      rw [h1, ih]
      simp [gathered, hp]
    · have h1 : c.receiveData p = { c with buffer := c.buffer ++ p } :=
        receiveData_append (fun hh => absurd (.inr hh) hp)
      rw [h1, feed_nonempty _ _ (by simp only [h, List.nil_append]; exact fun hh => hp (.inl hh))]
      simp [gathered, hp, h]

theorem feed_append (c : Conn) (ps qs : List Bytes) : feed c (ps ++ qs) = feed (feed c ps) qs := by
  simp [feed]

theorem feed_frame (c : Conn) (ps : List Bytes) :
    (feed c ps).state = c.state ∧ (feed c ps).cipherContext = c.cipherContext := by
  induction ps generalizing c with
  | nil => exact ⟨rfl, rfl⟩
  | cons p ps ih =>
    have := ih (c.receiveData p)
    have hf := receiveData_frame c p
    exact ⟨this.1.trans hf.2.2, this.2.trans hf.2.1⟩

/-- The loop of `next_event`. -/
theorem loop_returned (C : BlockCipher) (c c' : Conn) (rs rest : List (Res Bytes)) (ev : Event) :
    nextEventLoop C c rs = (.returned ev, c', rest) ↔
      ∃ ps, rs = ps.map .ok ++ rest ∧
        (∀ qs tl, ps = qs ++ tl → tl ≠ [] → ((feed c qs).nextEvent C).2 = .ok none) ∧
        (feed c ps).nextEvent C = (c', .ok (some ev)) := by
  induction rs generalizing c with
  | nil =>
    unfold nextEventLoop
    constructor
    · intro h
      refine ⟨[], ?_, ?_, ?_⟩
      · split at h <;> first | (cases h; done) | (cases h; rfl)
      · intro qs tl h1 h2
        have := List.append_eq_nil_iff.1 h1.symm
        exact absurd this.2 h2
      · split at h
        · cases h
        · next hn => cases h; exact hn
        · cases h
    · rintro ⟨ps, h1, h2, h3⟩
      have := List.append_eq_nil_iff.1 h1.symm
      obtain ⟨hp, rfl⟩ := this
      have : ps = [] := List.map_eq_nil_iff.1 hp
      subst this
      have h3' : c.nextEvent C = (c', .ok (some ev)) := h3
      rw [h3']
  | cons r rs ih =>
    unfold nextEventLoop
    constructor
    · intro h
      split at h
      · cases h
      · next c1 ev1 hn =>
        cases h
        refine ⟨[], rfl, ?_, hn⟩
        intro qs tl h1 h2
        exact absurd (List.append_eq_nil_iff.1 h1.symm).2 h2
      · next c1 hn =>
        have hc1 : c1 = c := by
          have := (C38_poll_effect C c).1 (by rw [hn])
          rw [hn] at this; exact this
        subst hc1
        cases r with
        | error e => cases h
        | ok d =>
          obtain ⟨ps, h1, h2, h3⟩ := (ih _).1 h
          refine ⟨d :: ps, by rw [h1]; rfl, ?_, h3⟩
          intro qs tl h4 h5
          cases qs with
          | nil => show (c1.nextEvent C).2 = _; rw [hn]
          | cons q qs =>
            rw [List.cons_append, List.cons.injEq] at h4
            obtain ⟨rfl, h4⟩ := h4
            exact h2 qs tl h4 h5
    · rintro ⟨ps, h1, h2, h3⟩
      cases ps with
      | nil =>
        have h3' : c.nextEvent C = (c', .ok (some ev)) := h3
        rw [h3']
        dsimp only
        have : r :: rs = rest := h1
        rw [this]
      | cons p ps =>
        rw [List.map_cons, List.cons_append, List.cons.injEq] at h1
        obtain ⟨rfl, h1⟩ := h1
        have hn : (c.nextEvent C).2 = .ok none := h2 [] (p :: ps) rfl (by simp)
        have hc := (C38_poll_effect C c).1 hn
        have : c.nextEvent C = (c, .ok none) := Prod.ext hc hn
        rw [this]
        dsimp only
        rw [ih]
        refine ⟨ps, h1, fun qs tl h4 h5 => ?_, h3⟩
        exact h2 (p :: qs) tl (by rw [h4]; rfl) h5

theorem gathered_prefix (ps qs : List Bytes) (h : gathered ps ≠ []) :
    gathered (ps ++ qs) = gathered ps ++ qs.flatten := by
  induction ps with
  | nil => simp [gathered] at h
  | cons p ps ih =>
    by_cases hp : p = [] ∨ p = [0x0D]
    · have e1 : ∀ l, gathered (p :: l) = gathered l := by intro l; simp [gathered, hp]
      rw [e1] at h
      rw [List.cons_append, e1, e1, ih h]
    · simp [gathered, hp]

/-- A prefix of the pieces without a line in it. -/
theorem gathered_mono (ps qs : List Bytes) (b : UInt8) (h : b ∈ gathered ps) : b ∈ gathered (ps ++ qs) := by
  rw [gathered_prefix ps qs (by intro h0; rw [h0] at h; cases h)]
  exact List.mem_append_left _ h

/-- The loop of `next_event` on a connection with an empty buffer, after at least one piece. -/
theorem loop_gathered (C : BlockCipher) (c c' : Conn) (rs rest : List (Res Bytes)) (ev : Event)
    (hb : c.buffer = []) :
    nextEventLoop C c rs = (.returned ev, c', rest) ↔
      ∃ init last w extra, rs = (init ++ [last]).map .ok ++ rest ∧ 0x0D ∉ gathered init ∧
        gathered (init ++ [last]) = w ++ 0x0D :: extra ∧ 0x0D ∉ w ∧
        Response C c.cipherContext (w ++ [0x0D]) ev ∧ awaits c.state = some ev.type ∧
        c' = { c with state := .idle } := by
  rw [loop_returned]
  constructor
  · rintro ⟨ps, h1, h2, h3⟩
    rw [feed_empty c ps hb] at h3
    have h3b : (({ c with buffer := gathered ps } : Conn).nextEvent C).2 = .ok (some ev) := by rw [h3]
    obtain ⟨w, extra, svc, data, k1, k2, k3, k4, k5, k6⟩ := (C44_returns_iff C _ ev).1 h3b
    have k1' : gathered ps = w ++ 0x0D :: extra := k1
    rcases eq_nil_or_snoc ps with rfl | ⟨init, last, rfl⟩
    · simp [gathered] at k1'
    · refine ⟨init, last, w, extra, h1, ?_, k1', k2, ⟨w, svc, data, rfl, k2, k3, k4, k5⟩, k6, ?_⟩
      · intro hm
        rcases line_cases (gathered init) with hn | ⟨w1, rest1, hg, hw1⟩
        · exact hn hm
        · have hne : gathered init ≠ [] := by rw [hg]; simp
          have hg2 := gathered_prefix init [last] hne
          rw [hg, k1'] at hg2
          have : w = w1 := by
            have hg3 : w ++ 0x0D :: extra = w1 ++ 0x0D :: (rest1 ++ [last].flatten) := by rw [hg2]; simp
            exact (line_inj k2 hw1 hg3).1
          subst this
          have h4 := h2 init [last] rfl (by simp)
          rw [feed_empty c init hb] at h4
          have h5 := (C44_returns_iff C { c with buffer := gathered init } ev).2
            ⟨w, rest1, svc, data, hg, hw1, k3, k4, k5, k6⟩
          rw [h5] at h4
          cases h4
      · have := ((C38_poll_effect C _).2.2 ev h3b).1
        rw [h3] at this
        simp only at this
        rw [this]
        obtain ⟨a, b, s, x⟩ := c
        simp at hb
        simp [hb]
  · rintro ⟨init, last, w, extra, h1, h2, h3, h4, ⟨w', svc, data, e1, e2, k3, k4, k5⟩, h6, h7⟩
    refine ⟨init ++ [last], h1, ?_, ?_⟩
    · intro qs tl h8 h9
      rw [feed_empty c qs hb]
      have : ∃ tl', init = qs ++ tl' := by
        rcases eq_nil_or_snoc tl with rfl | ⟨tl', t, rfl⟩
        · exact absurd rfl h9
        · refine ⟨tl', ?_⟩
          rw [← List.append_assoc] at h8
          exact (List.append_inj' h8 rfl).1
      obtain ⟨tl', rfl⟩ := this
      rw [nextEvent_none]
      exact fun hm => h2 (gathered_mono qs tl' _ hm)
    · rw [feed_empty c _ hb]
      have h5 := (C44_returns_iff C { c with buffer := gathered (init ++ [last]) } ev).2
        ⟨w, extra, svc, data, h3, h4, k3, k4, k5, h6⟩
      have := ((C38_poll_effect C _).2.2 ev h5).1
      refine Prod.ext ?_ h5
      rw [this, h7]
      obtain ⟨a, b, s, x⟩ := c
      simp at hb
      simp [hb]

/-! ### One exchange -/

/-- A request on a connection that is not idle is refused: nothing else happens. -/
theorem exchange_refused (C : BlockCipher) (s : Sys) (e : Event) (he : IsRequest e)
    (hs : s.conn.state ≠ .idle) :
    s.exchange C e = (.raised (.elgas .localProtocol), { s with draws := s.draws + 1 }) := by
  rcases send_request_cases C s.conn e (s.rands s.draws) he with ⟨h, _⟩ | ⟨_, h⟩
  · exact absurd h hs
  · unfold Sys.exchange Sys.send
    rw [h]

/-- With an accepted request and a successful `transport.send`, the exchange is the loop of
`next_event` (the first `recv` is made before the first poll, which makes no difference on an empty
buffer). -/
theorem exchange_loop (C : BlockCipher) (s : Sys) (e : Event) (req : Bytes) (ss : List (Res Unit))
    (hb : s.conn.buffer = []) (hreq : (s.conn.send C e (s.rands s.draws)).2 = .ok req)
    (hss : s.sends = .ok () :: ss) :
    s.exchange C e =
      ((nextEventLoop C (s.conn.send C e (s.rands s.draws)).1 s.recvs).1,
        { s with conn := (nextEventLoop C (s.conn.send C e (s.rands s.draws)).1 s.recvs).2.1
                 recvs := (nextEventLoop C (s.conn.send C e (s.rands s.draws)).1 s.recvs).2.2
                 sends := ss, draws := s.draws + 1, handed := s.handed ++ [req] }) := by
  cases hsend : s.conn.send C e (s.rands s.draws) with | mk c1 r =>
  rw [hsend] at hreq
  dsimp only at hreq
  subst hreq
  have hb1 : c1.buffer = [] := by
    have := (send_frame C s.conn e (s.rands s.draws)).2.2
    rw [hsend] at this
    rw [← hb]; exact this
  have hpoll : c1.nextEvent C = (c1, .ok none) := nextEvent_none (by rw [hb1]; simp)
  unfold Sys.exchange Sys.send
  rw [hsend]
  dsimp only
  rw [hss]
  dsimp only
  unfold Sys.receive
  dsimp only
  cases hr : s.recvs with
  | nil =>
    dsimp only
    unfold nextEventLoop
    rw [hpoll]
  | cons x rs =>
    cases x with
    | error x =>
      dsimp only
      unfold nextEventLoop
      rw [hpoll]
    | ok d =>
      dsimp only
      unfold Sys.nextEvent
      rw [nextEventLoop.eq_def C c1, hpoll]

theorem exchange_unsent (C : BlockCipher) (s : Sys) (e : Event) (x : PyErr)
    (hreq : (s.conn.send C e (s.rands s.draws)).2 = .error x) :
    s.exchange C e = (.raised x,
      { s with conn := (s.conn.send C e (s.rands s.draws)).1, draws := s.draws + 1 }) := by
  cases hsend : s.conn.send C e (s.rands s.draws) with | mk c1 r =>
  rw [hsend] at hreq
  dsimp only at hreq
  subst hreq
  unfold Sys.exchange Sys.send
  rw [hsend]

theorem exchange_untransmitted (C : BlockCipher) (s : Sys) (e : Event) (req : Bytes)
    (hreq : (s.conn.send C e (s.rands s.draws)).2 = .ok req) :
    (s.sends = [] → s.exchange C e = (.pending,
      { s with conn := (s.conn.send C e (s.rands s.draws)).1, draws := s.draws + 1,
               handed := s.handed ++ [req] })) ∧
    (∀ x ss, s.sends = .error x :: ss → s.exchange C e = (.raised x,
      { s with conn := (s.conn.send C e (s.rands s.draws)).1, draws := s.draws + 1, sends := ss,
               handed := s.handed ++ [req] })) := by
  cases hsend : s.conn.send C e (s.rands s.draws) with | mk c1 r =>
  rw [hsend] at hreq
  dsimp only at hreq
  subst hreq
  unfold Sys.exchange Sys.send
  rw [hsend]
  dsimp only
  constructor
  · intro h; rw [h]
  · intro x ss h; rw [h]

/-- C52. An exchange on a ready client returns an event exactly when the device delivered it. -/
theorem C52_exchange_iff (C : BlockCipher) (s s' : Sys) (e pdu : Event) (he : IsRequest e)
    (hr : Ready s.conn) :
    s.exchange C e = (.returned pdu, s') ↔ ∃ req, Exchanged C s e req pdu s' := by
  obtain ⟨hidle, hbuf⟩ := hr
  obtain ⟨_, h2, h3, _⟩ := (send_request_cases C s.conn e (s.rands s.draws) he).resolve_right
    (fun hn => hn.1 hidle)
  have hfr := send_frame C s.conn e (s.rands s.draws)
  have hc1 : { (s.conn.send C e (s.rands s.draws)).1 with state := .idle } = s.conn := by
    rw [h2]
    obtain ⟨pw, ⟨a, b, st, x⟩, _, _, _, _, _⟩ := s
    simp at hidle
    simp [hidle]
  constructor
  · intro h
    cases hreq : (s.conn.send C e (s.rands s.draws)).2 with
    | error x => rw [exchange_unsent C s e x hreq] at h; cases h
    | ok req =>
      have hu := exchange_untransmitted C s e req hreq
      cases hss : s.sends with
      | nil => rw [hu.1 hss] at h; cases h
      | cons x ss =>
        cases x with
        | error x => rw [hu.2 x ss hss] at h; cases h
        | ok u =>
          cases u
          rw [exchange_loop C s e req ss hbuf hreq hss] at h
          cases hl : nextEventLoop C (s.conn.send C e (s.rands s.draws)).1 s.recvs with | mk o y =>
          obtain ⟨c', rest⟩ := y
          rw [hl] at h
          dsimp only at h
          injection h with ho hs'
          subst ho
          obtain ⟨init, last, w, extra, k1, k2, k3, k4, k5, k6, k7⟩ :=
            (loop_gathered C _ c' s.recvs rest pdu (by rw [hfr.2.2, hbuf])).1 hl
          rw [hc1] at k7
          rw [hfr.2.1] at k5
          subst hs'
          refine ⟨req, hreq, hss, ⟨init, last, w, extra, k1, k2, k3, k4, k5⟩, ?_, rfl, ?_, rfl, rfl, rfl⟩
          · rw [← h3]; exact k6
          · exact k7
  · rintro ⟨req, x1, x2, ⟨init, last, w, extra, k1, k2, k3, k4, k5⟩, x4, x5, x6, x7, x8, x9⟩
    have hl := (loop_gathered C (s.conn.send C e (s.rands s.draws)).1 s.conn s.recvs s'.recvs pdu
      (by rw [hfr.2.2, hbuf])).2 ⟨init, last, w, extra, k1, k2, k3, k4, by rw [hfr.2.1]; exact k5,
        by rw [h3]; exact x4, hc1.symm⟩
    rw [exchange_loop C s e req s'.sends hbuf x1 x2, hl]
    dsimp only
    rw [← x5, ← x7, ← x8, ← x9]
    obtain ⟨_, _, _, _, _, _, _⟩ := s'
    dsimp only at x6 x8 x9 ⊢
    rw [x6, x8, x9]

theorem exchanged_ready {C : BlockCipher} {s s' : Sys} {e pdu : Event} {req : Bytes}
    (h : Exchanged C s e req pdu s') (hr : Ready s.conn) : Ready s'.conn := by
  rw [h.conn]; exact hr

/-! ### C52: the calls -/

theorem isRequest_of {e : Event} {u : EventType} (h : responseOf e.type = some u) : IsRequest e := by
  unfold IsRequest; rw [h]; rfl

/-- C52. `read_instantaneous_values` returns the response the device delivered, and nothing else. -/
theorem C52_read_instantaneous_values (C : BlockCipher) (s s' : Sys) (hr : Ready s.conn) (ev : Event) :
    s.readInstantaneousValues C = (.returned ev, s') ↔
      ∃ req p, ev = .readInstantaneousValuesResponse p ∧
        Exchanged C s (.readInstantaneousValuesRequest { password := s.password }) req ev s' := by
  unfold Sys.readInstantaneousValues
  rw [C52_exchange_iff C s s' _ ev (isRequest_of rfl) hr]
  constructor
  · rintro ⟨req, h⟩
    have hf := h.fits
    cases ev <;> simp [Event.type, responseOf] at hf
    exact ⟨req, _, rfl, h⟩
  · rintro ⟨req, p, _, h⟩; exact ⟨req, h⟩

theorem C52_read_time (C : BlockCipher) (s s' : Sys) (hr : Ready s.conn) (t : DateTime) :
    s.readTime C = (.returned t, s') ↔
      ∃ req p, p.time = t ∧ Exchanged C s (.readTimeRequest {}) req (.readTimeResponse p) s' := by
  have hx := fun ev => C52_exchange_iff C s s' (.readTimeRequest {}) ev (isRequest_of rfl) hr
  unfold Sys.readTime
  constructor
  · intro h
    cases he : s.exchange C (.readTimeRequest {}) with | mk o s1 =>
    rw [he] at h
    injection h with h1 h2
    subst h2
    cases o with
    | raised e => cases h1
    | pending => cases h1
    | returned ev =>
      obtain ⟨req, h⟩ := (hx ev).1 he
      have hf := h.fits
      cases ev <;> simp [Event.type, responseOf] at hf
      injection h1 with h1
      exact ⟨req, _, h1, h⟩
  · rintro ⟨req, p, rfl, h⟩
    rw [(hx _).2 ⟨req, h⟩]
    rfl

/-- C52. `write_time` returns (nothing) exactly when the device confirmed. -/
theorem C52_write_time (C : BlockCipher) (s s' : Sys) (hr : Ready s.conn) (t : DateTime) (b : Bool) :
    s.writeTime C t b = (.returned (), s') ↔
      ∃ req p, Exchanged C s (.writeTimeRequest { password := s.password, deviceTime := t, cryout := b }) req
        (.writeTimeResponse p) s' := by
  have hx := fun ev => C52_exchange_iff C s s' (.writeTimeRequest ⟨s.password, t, b⟩) ev (isRequest_of rfl) hr
  unfold Sys.writeTime
  constructor
  · intro h
    cases he : s.exchange C (.writeTimeRequest ⟨s.password, t, b⟩) with | mk o s1 =>
    rw [he] at h
    injection h with h1 h2
    subst h2
    cases o with
    | raised e => cases h1
    | pending => cases h1
    | returned ev =>
      obtain ⟨req, h⟩ := (hx ev).1 he
      have hf := h.fits
      cases ev <;> simp [Event.type, responseOf] at hf
      exact ⟨req, _, h⟩
  · rintro ⟨req, p, h⟩
    rw [(hx _).2 ⟨req, h⟩]
    rfl

theorem C52_read_archive (C : BlockCipher) (s s' : Sys) (hr : Ready s.conn) (a n i : Int) (ev : Event) :
    s.readArchive C a n i = (.returned ev, s') ↔
      ∃ req p, ev = .readArchiveResponse p ∧
        Exchanged C s (.readArchiveRequest
          { password := s.password, archive := a, amount := n, oldestRecordId := i }) req ev s' := by
  unfold Sys.readArchive
  rw [C52_exchange_iff C s s' _ ev (isRequest_of rfl) hr]
  constructor
  · rintro ⟨req, h⟩
    have hf := h.fits
    cases ev <;> simp [Event.type, responseOf] at hf
    exact ⟨req, _, rfl, h⟩
  · rintro ⟨req, p, _, h⟩; exact ⟨req, h⟩

theorem C52_read_archive_by_time (C : BlockCipher) (s s' : Sys) (hr : Ready s.conn) (a n : Int) (t : DateTime)
    (ev : Event) :
    s.readArchiveByTime C a n t = (.returned ev, s') ↔
      ∃ req p, ev = .readArchiveByTimeResponse p ∧
        Exchanged C s (.readArchiveByTimeRequest
          { password := s.password, archive := a, amount := n, oldestTimestamp := t }) req ev s' := by
  unfold Sys.readArchiveByTime
  rw [C52_exchange_iff C s s' _ ev (isRequest_of rfl) hr]
  constructor
  · rintro ⟨req, h⟩
    have hf := h.fits
    cases ev <;> simp [Event.type, responseOf] at hf
    exact ⟨req, _, rfl, h⟩
  · rintro ⟨req, p, _, h⟩; exact ⟨req, h⟩

/-! ### C52: devices -/

theorem gathered_plain (init : List Bytes) (h : 0x0D ∉ init.flatten) : gathered init = init.flatten := by
  induction init with
  | nil => rfl
  | cons p ps ih =>
    have h1 : p ≠ [0x0D] := by rintro rfl; exact h (by simp)
    by_cases hp : p = []
    · subst hp
      have : gathered ([] :: ps) = gathered ps := by simp [gathered]
      rw [this, ih (by simpa using h)]; rfl
    · simp [gathered, hp, h1]

theorem gathered_line (init : List Bytes) (last w : Bytes) (hl : last ≠ []) (hw : w ≠ [])
    (hn : 0x0D ∉ w) (extra : Bytes) (x : Bytes) (hx : x ≠ []) (hlast : last = x ++ extra)
    (h : init.flatten ++ x = w ++ [0x0D]) :
    0x0D ∉ gathered init ∧ gathered (init ++ [last]) = w ++ 0x0D :: extra := by
  obtain ⟨x', b, rfl⟩ : ∃ x' b, x = x' ++ [b] := by
    rcases eq_nil_or_snoc x with rfl | ⟨i, l, rfl⟩
    · exact absurd rfl hx
    · exact ⟨i, l, rfl⟩
  rw [← List.append_assoc] at h
  obtain ⟨h1, h2⟩ := List.append_inj' h rfl
  have hni : 0x0D ∉ init.flatten := fun hm => hn (h1 ▸ List.mem_append_left _ hm)
  refine ⟨by rw [gathered_plain init hni]; exact hni, ?_⟩
  cases h2
  by_cases hi : init.flatten = []
  · have hall : ∀ p ∈ init, p = [] := by
      intro p hp
      have := List.flatten_eq_nil_iff.1 hi p hp
      exact this
    have hg : gathered (init ++ [last]) = gathered [last] := by
      clear h hni h1 hi
      induction init with
      | nil => rfl
      | cons p ps ih =>
        have : p = [] := hall p (by simp)
        subst this
        rw [List.cons_append, ← ih (fun q hq => hall q (by simp [hq]))]
        simp [gathered]
    rw [hg]
    have h3 : x' = w := by rw [hi] at h1; exact h1
    have h4 : last ≠ [0x0D] := by
      rw [hlast, h3]
      intro hh
      cases w with
      | nil => exact hw rfl
      | cons a w => simp at hh
    have : gathered [last] = last := by simp [gathered, hl, h4]
    rw [this, hlast, h3]; simp
  · have hgi : gathered init ≠ [] := by rw [gathered_plain init hni]; exact hi
    rw [gathered_prefix init [last] hgi, gathered_plain init hni, hlast, ← h1]
    simp

/-- C52. A device that answers the request with a response frame of the right service whose body the
response class accepts, plain or encrypted under the configured key, delivered in any pieces (and with
any surplus data after it in the last piece): the call hands exactly one request to the transport and
returns the response; the client is as ready as before. -/
theorem C52_answered (C : BlockCipher) (s : Sys) (e : Event) (req : Bytes) (hr : Ready s.conn)
    (hsend : (s.conn.send C e (s.rands s.draws)).2 = .ok req) (ss : List (Res Unit))
    (hss : s.sends = .ok () :: ss)
    (u : EventType) (hu : responseOf e.type = some u) (svc : ServiceNumber) (hsvc : serviceOf u = some svc)
    (f : Frame) (enc : Bool) (body : Bytes) (pdu : Event) (raw wire : Bytes) (hf : f.service = svc)
    (hbody : if enc then ∃ ctx, s.conn.cipherContext = some ctx ∧ ctx.decrypt C f.data = .ok body
      else f.data = body)
    (hone : ∀ b, body = [b] → ¬ OneBit b) (hdec : Decodes svc body pdu)
    (hraw : responseToBytes (if enc then encryptedResponseType else responseType) f = .ok raw)
    (hwire : escapeCharacters raw = .ok wire)
    (chunks : List Bytes) (last extra : Bytes) (hl : last ≠ []) (hch : chunks.flatten ++ last = wire)
    (rest : List (Res Bytes)) (hrecv : s.recvs = (chunks ++ [last ++ extra]).map .ok ++ rest) :
    s.exchange C e = (.returned pdu,
      { s with sends := ss, recvs := rest, draws := s.draws + 1, handed := s.handed ++ [req] }) := by
  rw [C52_exchange_iff C s _ e pdu (isRequest_of hu) hr]
  obtain ⟨w, hw1, hw2, hw3, hdel⟩ := delivers_wire C s.conn.cipherContext f enc raw wire body hraw hwire hbody
  rw [hf] at hdel
  obtain ⟨g1, g2⟩ := gathered_line chunks (last ++ extra) w (by simp [hl]) hw3 hw2 extra last hl rfl
    (by rw [hch, hw1])
  refine ⟨req, hsend, hss, ⟨chunks, last ++ extra, w, extra, hrecv, g1, g2, hw2, w, svc, body, rfl, hw2, hdel,
    hone, hdec⟩, ?_, rfl, rfl, rfl, rfl, rfl⟩
  · rw [hu, serviceOf_inj (decodes_type hdec) hsvc]

/-! ### C53: paging -/

theorem readPages_raised {C : BlockCipher} {s s' : Sys} {count : Int} {total : Bytes} {e : PyErr}
    (h : s.exchange C (pageRequest s.password count) = (.raised e, s')) :
    s.readPages C count total = (.raised e, s') := by
  unfold pageRequest at h
  rw [Sys.readPages]
  split <;> simp_all

theorem readPages_pending {C : BlockCipher} {s s' : Sys} {count : Int} {total : Bytes}
    (h : s.exchange C (pageRequest s.password count) = (.pending, s')) :
    s.readPages C count total = (.pending, s') := by
  unfold pageRequest at h
  rw [Sys.readPages]
  split <;> simp_all

theorem readPages_page {C : BlockCipher} {s s' : Sys} {count : Int} {total : Bytes}
    {p : ReadDeviceParametersResponse}
    (h : s.exchange C (pageRequest s.password count) = (.returned (.readDeviceParametersResponse p), s')) :
    s.readPages C count total =
      if p.isEnd then (.returned (total ++ p.data), s')
      else s'.readPages C (count + p.objectAmount) (total ++ p.data) := by
  unfold pageRequest at h
  rw [Sys.readPages]
  split <;> simp_all

theorem page_exchange {C : BlockCipher} {s s' : Sys} {count : Int} {ev : Event} (hr : Ready s.conn)
    (h : s.exchange C (pageRequest s.password count) = (.returned ev, s')) :
    ∃ p req, ev = .readDeviceParametersResponse p ∧
      Exchanged C s (pageRequest s.password count) req (.readDeviceParametersResponse p) s' := by
  obtain ⟨req, h⟩ := (C52_exchange_iff C s s' _ ev (isRequest_of rfl) hr).1 h
  have hf := h.fits
  cases ev <;> simp [Event.type, responseOf, pageRequest] at hf
  exact ⟨_, req, rfl, h⟩

theorem partly_rands {C : BlockCipher} {s s' : Sys} {count count' : Int} {ps : List ReadDeviceParametersResponse}
    (h : Partly C s count ps s' count') : s'.rands = s.rands := by
  induction h with
  | nil => rfl
  | page s s1 s' count count' p ps req h1 _ _ ih => rw [ih, h1.rands]

theorem partly_conn {C : BlockCipher} {s s' : Sys} {count count' : Int} {ps : List ReadDeviceParametersResponse}
    (h : Partly C s count ps s' count') : s'.conn = s.conn ∧ s'.password = s.password := by
  induction h with
  | nil => exact ⟨rfl, rfl⟩
  | page s s1 s' count count' p ps req h1 _ _ ih =>
    exact ⟨ih.1.trans h1.conn, ih.2.trans h1.password⟩

/-- C53/C54. After some pages the call goes on as if it had been started for the next object, with the
data read so far in front. -/
theorem C53_continues (C : BlockCipher) (s s' : Sys) (count count' : Int)
    (ps : List ReadDeviceParametersResponse) (hr : Ready s.conn) (h : Partly C s count ps s' count') (total : Bytes) :
    s.readPages C count total = s'.readPages C count' (total ++ (ps.map (·.data)).flatten) := by
  induction h generalizing total with
  | nil => simp
  | page s s1 s' count count' p ps req h1 h2 _ ih =>
    have hx := (C52_exchange_iff C s s1 _ _ (isRequest_of rfl) hr).2 ⟨req, h1⟩
    rw [readPages_page hx, h2, ih (exchanged_ready h1 hr)]
    simp [List.append_assoc]

/-- C53. The paging loop returns exactly the joined data of the pages the device delivered, up to and
including the first page marked as the last. -/
theorem C53_pages_iff (C : BlockCipher) (s s' : Sys) (count : Int) (hr : Ready s.conn) (data : Bytes) :
    s.readPages C count [] = (.returned data, s') ↔
      ∃ ps, Paged C s count ps s' ∧ data = (ps.map (·.data)).flatten := by
  constructor
  · suffices H : ∀ k, ∀ s : Sys, s.recvs.length = k → Ready s.conn → ∀ count total,
        s.readPages C count total = (.returned data, s') →
        ∃ ps, Paged C s count ps s' ∧ data = total ++ (ps.map (·.data)).flatten by
      intro h
      obtain ⟨ps, h1, h2⟩ := H _ s rfl hr count [] h
      exact ⟨ps, h1, by simpa using h2⟩
    intro k
    induction k using Nat.strongRecOn with
    | _ k ih =>
      intro s hk hr count total h
      cases hx : s.exchange C (pageRequest s.password count) with | mk o s1 =>
      cases o with
      | raised e => rw [readPages_raised hx] at h; cases h
      | pending => rw [readPages_pending hx] at h; cases h
      | returned ev =>
        obtain ⟨p, req, rfl, h1⟩ := page_exchange hr hx
        rw [readPages_page hx] at h
        cases he : p.isEnd with
        | true =>
          rw [he, if_pos rfl] at h
          cases h
          exact ⟨[p], ⟨[], p, s, count, req, rfl, .nil s count, h1, he⟩, by simp⟩
        | false =>
          rw [he] at h
          have hlt := exchange_recvs hx
          obtain ⟨ps, ⟨init, last, s2, c2, req2, e1, e2, e3, e4⟩, h4⟩ :=
            ih s1.recvs.length (by omega) s1 rfl (exchanged_ready h1 hr) _ _ h
          refine ⟨p :: ps, ⟨p :: init, last, s2, c2, req2, by rw [e1]; rfl, ?_, ?_, e4⟩, ?_⟩
          · exact .page s s1 s2 count c2 p init req h1 he e2
          · rw [← h1.password]; exact e3
          · rw [h4]; simp
  · rintro ⟨ps, ⟨init, last, s1, c1, req, rfl, h1, h2, h3⟩, rfl⟩
    rw [C53_continues C s s1 count c1 init hr h1]
    have hc := partly_conn h1
    have hr1 : Ready s1.conn := by rw [hc.1]; exact hr
    rw [← hc.2] at h2
    have hx := (C52_exchange_iff C s1 s' _ _ (isRequest_of rfl) hr1).2 ⟨req, h2⟩
    rw [readPages_page hx, h3, if_pos rfl]
    simp

/-- C53. `read_parameters` returns the parse of the joined page data. -/
theorem C53_read_parameters (C : BlockCipher) (s s' : Sys) (readFrom : Int) (hr : Ready s.conn)
    (objs : List PObj) :
    s.readParameters C readFrom = (.returned objs, s') ↔
      ∃ ps, Paged C s readFrom ps s' ∧
        parseParameters none (some (ps.map (·.data)).flatten) = .ok objs := by
  unfold Sys.readParameters
  cases hp : s.readPages C readFrom [] with | mk o s1 =>
  dsimp only
  constructor
  · intro h
    injection h with h1 h2
    subst h2
    cases o with
    | raised e => cases h1
    | pending => cases h1
    | returned d =>
      obtain ⟨ps, h3, rfl⟩ := (C53_pages_iff C s s1 readFrom hr d).1 hp
      refine ⟨ps, h3, ?_⟩
      change Outcome3.ofRes (parseParameters none (some (ps.map (·.data)).flatten)) = _ at h1
      cases hq : parseParameters none (some (ps.map (·.data)).flatten) with
      | error e => rw [hq] at h1; cases h1
      | ok x => rw [hq] at h1; injection h1 with h1; rw [h1]
  · rintro ⟨ps, h1, h2⟩
    have := (C53_pages_iff C s s' readFrom hr _).2 ⟨ps, h1, rfl⟩
    rw [this] at hp
    injection hp with e1 e2
    subst e1 e2
    show (Outcome3.ofRes (parseParameters none (some (ps.map (·.data)).flatten)), s') = _
    rw [h2]
    rfl

/-- C53. The requests: for each page read one request is handed to the transport, the one for page `k`
asking for object `count` plus the object amounts of the pages before. -/
theorem C53_requests (C : BlockCipher) (s s' : Sys) (count count' : Int)
    (ps : List ReadDeviceParametersResponse) (h : Partly C s count ps s' count') :
    count' = count + (ps.map fun p => (p.objectAmount : Int)).sum ∧
    (∀ p ∈ ps, p.isEnd = false) ∧
    ∃ reqs, s'.handed = s.handed ++ reqs ∧ reqs.length = ps.length ∧ s'.draws = s.draws + ps.length ∧
      s'.rands = s.rands ∧
      ∀ k, k < ps.length → (s.conn.send C
        (pageRequest s.password (count + ((ps.take k).map fun p => (p.objectAmount : Int)).sum))
        (s.rands (s.draws + k))).2 = .ok (reqs.getD k []) := by
  induction h with
  | nil s count => exact ⟨by simp, by simp, [], by simp, rfl, rfl, rfl, by simp⟩
  | page s s1 s' count count' p ps req h1 h2 _ ih =>
    obtain ⟨i1, i2, reqs, i3, i4, i5, i6, i7⟩ := ih
    refine ⟨by rw [i1]; simp; omega, by simpa [h2] using i2, req :: reqs, ?_, by simp [i4], ?_, ?_, ?_⟩
    · rw [i3, h1.handed]; simp
    · rw [i5, h1.draws]; simp; omega
    · rw [i6, h1.rands]
    · intro k hk
      cases k with
      | zero => simpa using h1.request
      | succ k =>
        have := i7 k (by simpa using hk)
        rw [h1.conn, h1.password, h1.rands, h1.draws] at this
        rw [List.take_succ_cons, List.map_cons, List.sum_cons, List.getD_cons_succ]
        rw [show s.draws + (k + 1) = s.draws + 1 + k by omega, ← Int.add_assoc]
        exact this

/-- C53. All requests of a complete reading, and which pages are marked as last. -/
theorem C53_complete (C : BlockCipher) (s s' : Sys) (count : Int)
    (ps : List ReadDeviceParametersResponse) (h : Paged C s count ps s') :
    ps ≠ [] ∧ (∀ k (hk : k < ps.length), ps[k].isEnd = decide (k + 1 = ps.length)) ∧
    ∃ reqs, s'.handed = s.handed ++ reqs ∧ reqs.length = ps.length ∧
      ∀ k, k < ps.length → (s.conn.send C
        (pageRequest s.password (count + ((ps.take k).map fun p => (p.objectAmount : Int)).sum))
        (s.rands (s.draws + k))).2 = .ok (reqs.getD k []) := by
  obtain ⟨init, last, s1, c1, req, rfl, h1, h2, h3⟩ := h
  obtain ⟨i1, i2, reqs, i3, i4, i5, i6, i7⟩ := C53_requests C s s1 count c1 init h1
  have hc := partly_conn h1
  refine ⟨by simp, ?_, reqs ++ [req], by rw [h2.handed, i3]; simp, by simp [i4], ?_⟩
  · intro k hk
    rw [List.length_append, List.length_singleton] at hk ⊢
    by_cases hlt : k < init.length
    · rw [List.getElem_append_left hlt, i2 _ (List.getElem_mem hlt)]
      simp; omega
    · have : k = init.length := by omega
      subst this
      simp [h3]
  · intro k hk
    rw [List.length_append, List.length_singleton] at hk
    by_cases hlt : k < init.length
    · have := i7 k hlt
      rw [List.take_append_of_le_length (by omega)]
      rw [this, List.getD_eq_getElem?_getD, List.getD_eq_getElem?_getD, List.getElem?_append_left (by omega)]
    · have : k = init.length := by omega
      subst this
      have hr := h2.request
      rw [hc.1, i5, i6, i1] at hr
      rw [List.take_left]
      rw [hr, List.getD_eq_getElem?_getD, ← i4]
      simp

/-! ### C54: endless and overlong readings -/

/-- C54. There is no other way to return than through a page marked as the last. -/
theorem C54_needs_end (C : BlockCipher) (s s' : Sys) (readFrom : Int) (hr : Ready s.conn) (objs : List PObj)
    (h : s.readParameters C readFrom = (.returned objs, s')) :
    ∃ ps last s1 req, ∃ count1, Partly C s readFrom ps s1 count1 ∧ last.isEnd = true ∧
      Exchanged C s1 (pageRequest s.password count1) req (.readDeviceParametersResponse last) s' := by
  obtain ⟨_, ⟨init, last, s1, c1, req, _, h1, h2, h3⟩, _⟩ := (C53_read_parameters C s s' readFrom hr objs).1 h
  exact ⟨init, last, s1, req, c1, h1, h3, h2⟩

/-- C54. A device that goes on delivering the same page, not marked as the last and without objects: the
client hands the same request (up to the random padding) to the transport again and again, for any
number `n` of pages, and is still waiting. -/
theorem C54_endless (C : BlockCipher) (s : Sys) (count : Int) (hr : Ready s.conn)
    (p : ReadDeviceParametersResponse) (w : Bytes) (hw : w ≠ [])
    (hline : Response C s.conn.cipherContext (w ++ [0x0D]) (.readDeviceParametersResponse p)) (hn : 0x0D ∉ w)
    (hend : p.isEnd = false) (hamount : p.objectAmount = 0)
    (hsend : ∀ k, ∃ req, (s.conn.send C (pageRequest s.password count) (s.rands k)).2 = .ok req)
    (n : Nat) (hs : s.sends = List.replicate (n + 1) (.ok ()))
    (hv : s.recvs = List.replicate n (.ok (w ++ [0x0D]))) :
    ∃ s' reqs, s.readParameters C count = (.pending, s') ∧ s'.handed = s.handed ++ reqs ∧
      reqs.length = n + 1 ∧
      ∀ k, k < n + 1 → (s.conn.send C (pageRequest s.password count) (s.rands (s.draws + k))).2 =
        .ok (reqs.getD k []) := by
  have key : ∀ n, ∀ s1 : Sys, ∀ total, s1.conn = s.conn → s1.password = s.password → s1.rands = s.rands →
      s1.sends = List.replicate (n + 1) (.ok ()) → s1.recvs = List.replicate n (.ok (w ++ [0x0D])) →
      ∃ s' reqs, s1.readPages C count total = (.pending, s') ∧ s'.handed = s1.handed ++ reqs ∧
      reqs.length = n + 1 ∧
      ∀ k, k < n + 1 → (s.conn.send C (pageRequest s.password count) (s.rands (s1.draws + k))).2 =
        .ok (reqs.getD k []) := by
    intro n
    induction n with
    | zero =>
      intro s1 total hc hp hrd hs1 hv1
      obtain ⟨req, hreq⟩ := hsend s1.draws
      have hreq' : (s1.conn.send C (pageRequest s1.password count) (s1.rands s1.draws)).2 = .ok req := by
        rw [hc, hp, hrd]; exact hreq
      have hloop := exchange_loop C s1 (pageRequest s1.password count) req [] (by rw [hc]; exact hr.2) hreq' hs1
      have hb : (s1.conn.send C (pageRequest s1.password count) (s1.rands s1.draws)).1.buffer = [] := by
        rw [(send_frame C _ _ _).2.2, hc]; exact hr.2
      have hq : nextEventLoop C (s1.conn.send C (pageRequest s1.password count) (s1.rands s1.draws)).1 s1.recvs =
          (.pending, (s1.conn.send C (pageRequest s1.password count) (s1.rands s1.draws)).1, []) := by
        rw [hv1]
        unfold nextEventLoop
        rw [nextEvent_none (by rw [hb]; simp)]
        rfl
      rw [hq] at hloop
      refine ⟨_, [req], readPages_pending hloop, rfl, rfl, ?_⟩
      intro k hk
      have : k = 0 := by omega
      subst this
      exact hreq
    | succ n ih =>
      intro s1 total hc hp hrd hs1 hv1
      obtain ⟨req, hreq⟩ := hsend s1.draws
      have hreq' : (s1.conn.send C (pageRequest s1.password count) (s1.rands s1.draws)).2 = .ok req := by
        rw [hc, hp, hrd]; exact hreq
      have hr1 : Ready s1.conn := by rw [hc]; exact hr
      let s2 : Sys := { s1 with sends := List.replicate (n + 1) (.ok ()), recvs := List.replicate n (.ok (w ++ [0x0D])), draws := s1.draws + 1, handed := s1.handed ++ [req] }
      obtain ⟨g1, g2⟩ := gathered_line [] (w ++ [0x0D]) w (by simp) hw hn [] (w ++ [0x0D]) (by simp) (by simp) rfl
      have hex : Exchanged C s1 (pageRequest s1.password count) req (.readDeviceParametersResponse p) s2 :=
        { request := hreq'
          sent := by rw [hs1]; rfl
          data := ⟨[], w ++ [0x0D], w, [], by rw [hv1]; rfl, g1, g2, hn, by rw [hc]; exact hline⟩
          fits := rfl
          handed := rfl
          conn := rfl
          draws := rfl
          rands := rfl
          password := rfl }
      have hx := (C52_exchange_iff C s1 s2 _ _ (isRequest_of rfl) hr1).2 ⟨req, hex⟩
      obtain ⟨s', reqs, h1, h2, h3, h4⟩ := ih s2 (total ++ p.data) hc hp hrd rfl rfl
      refine ⟨s', req :: reqs, ?_, ?_, by simp [h3], ?_⟩
      · rw [readPages_page hx, hend, hamount]
        simpa using h1
      · rw [h2]; simp [s2]
      · intro k hk
        cases k with
        | zero => exact hreq
        | succ k =>
          have := h4 k (by omega)
          rw [List.getD_cons_succ, ← this]
          simp [s2, Nat.add_assoc, Nat.add_comm 1 k]
  obtain ⟨s', reqs, h1, h2, h3, h4⟩ := key n s [] rfl rfl rfl hs hv
  refine ⟨s', reqs, ?_, h2, h3, h4⟩
  unfold Sys.readParameters
  rw [h1]
  rfl

/-- C54. An object count that does not fit in two bytes: `OverflowError`, nothing is handed to the
transport, and the connection is left waiting for a response that was never asked for. -/
theorem C54_overflow (C : BlockCipher) (s s1 : Sys) (readFrom count : Int)
    (ps : List ReadDeviceParametersResponse) (hr : Ready s.conn) (hp : Partly C s readFrom ps s1 count)
    (hpw : IsLatin1 s.password) (hpad : ∀ k, PadOk (s.rands k).pw) (hc : count < 0 ∨ 65535 < count) :
    ∃ s', s.readParameters C readFrom = (.raised .overflow, s') ∧ s'.handed = s1.handed ∧
      awaits s'.conn.state = some .readDeviceParametersResponse := by
  have hc1 := partly_conn hp
  have hr1 : Ready s1.conn := by rw [hc1.1]; exact hr
  have hreq : (s1.conn.send C (pageRequest s1.password count) (s1.rands s1.draws)).2 = .error .overflow := by
    obtain ⟨s', hs', _⟩ := C34_idle_accepts (pageRequest s1.password count) (isRequest_of rfl)
    rw [← hr1.1] at hs'
    rw [send_accepted hs']
    dsimp only
    unfold Conn.serialise
    have : (pageRequest s1.password count).toBytes (s1.rands s1.draws) = .error .overflow := by
      have hb := passwordBlock_ok (hpad s1.draws) hpw
      rw [← partly_rands hp, ← hc1.2] at hb
      show ReadDeviceParametersRequest.toBytes _ _ = _
      unfold ReadDeviceParametersRequest.toBytes
      dsimp only
      rw [hb, bind_ok]
      have : toBytesLE 2 count = .error .overflow := by
        unfold toBytesLE
        rw [if_neg (by omega)]
        rfl
      rw [this]
      rfl
    rw [this]
    rfl
  have hx := exchange_unsent C s1 (pageRequest s1.password count) _ hreq
  refine ⟨{ s1 with conn := (s1.conn.send C (pageRequest s1.password count) (s1.rands s1.draws)).1,
                    draws := s1.draws + 1 }, ?_, rfl, ?_⟩
  · unfold Sys.readParameters
    rw [C53_continues C s s1 readFrom count ps hr hp, readPages_raised hx]
    rfl
  · rcases send_request_cases C s1.conn (pageRequest s1.password count) (s1.rands s1.draws) (isRequest_of rfl) with
      ⟨_, _, h3, _⟩ | ⟨hn, _⟩
    · exact h3
    · exact absurd hr1.1 hn

/-! ### C55: a failed call leaves the client unusable -/

/-- Polling without a PDU leaves the protocol state alone. -/
theorem loop_failed (C : BlockCipher) (c : Conn) (rs : List (Res Bytes))
    (h : ∀ ev, (nextEventLoop C c rs).1 ≠ .returned ev) :
    (nextEventLoop C c rs).2.1.state = c.state := by
  induction rs generalizing c with
  | nil =>
    cases hn : c.nextEvent C with | mk c1 r =>
    have hp := C38_poll_effect C c
    rw [hn] at hp
    unfold nextEventLoop at h ⊢
    rw [hn] at h ⊢
    cases r with
    | error e => exact congrArg Conn.state (hp.2.1 e rfl)
    | ok o =>
      cases o with
      | none => exact congrArg Conn.state (hp.1 rfl)
      | some ev => exact absurd rfl (h ev)
  | cons x rs ih =>
    cases hn : c.nextEvent C with | mk c1 r =>
    have hp := C38_poll_effect C c
    rw [hn] at hp
    unfold nextEventLoop at h ⊢
    rw [hn] at h ⊢
    cases r with
    | error e => exact congrArg Conn.state (hp.2.1 e rfl)
    | ok o =>
      cases o with
      | some ev => exact absurd rfl (h ev)
      | none =>
        have hc : c1 = c := hp.1 rfl
        subst hc
        cases x with
        | error e => rfl
        | ok d =>
          dsimp only at h ⊢
          rw [ih _ h]
          exact (receiveData_frame c1 d).2.2

/-- C55. An exchange on a ready client either returns and leaves the client ready, with the same
connection, or leaves the connection waiting for the response. -/
theorem C55_exchange (C : BlockCipher) (s : Sys) (e : Event) (he : IsRequest e) (hr : Ready s.conn) :
    (∃ pdu, (s.exchange C e).1 = .returned pdu ∧ (s.exchange C e).2.conn = s.conn) ∨
    ((∀ pdu, (s.exchange C e).1 ≠ .returned pdu) ∧
      awaits (s.exchange C e).2.conn.state = responseOf e.type ∧
      (s.exchange C e).2.conn.state ≠ .idle) := by
  by_cases hret : ∃ pdu, (s.exchange C e).1 = .returned pdu
  · obtain ⟨pdu, h⟩ := hret
    obtain ⟨req, hx⟩ := (C52_exchange_iff C s (s.exchange C e).2 e pdu he hr).1 (Prod.ext h rfl)
    exact .inl ⟨pdu, h, hx.conn⟩
  · have hno : ∀ pdu, (s.exchange C e).1 ≠ .returned pdu := fun pdu h => hret ⟨pdu, h⟩
    have key : awaits (s.exchange C e).2.conn.state = responseOf e.type := by
      obtain ⟨_, _, h3, _⟩ := (send_request_cases C s.conn e (s.rands s.draws) he).resolve_right
        (fun hn => hn.1 hr.1)
      cases hreq : (s.conn.send C e (s.rands s.draws)).2 with
      | error x => rw [exchange_unsent C s e x hreq]; exact h3
      | ok req =>
        have hu := exchange_untransmitted C s e req hreq
        cases hss : s.sends with
        | nil => rw [hu.1 hss]; exact h3
        | cons x ss =>
          cases x with
          | error x => rw [hu.2 x ss hss]; exact h3
          | ok u =>
            cases u
            have hl := exchange_loop C s e req ss hr.2 hreq hss
            rw [hl] at hno ⊢
            dsimp only at hno ⊢
            rw [loop_failed C _ _ hno]
            exact h3
    refine .inr ⟨hno, key, fun hi => ?_⟩
    rw [hi] at key
    unfold IsRequest at he
    rw [← key] at he
    simp [awaits] at he

/-- Ways for a read of parameters to end: all pages read, or stuck in the middle. -/
theorem pages_end (C : BlockCipher) (s : Sys) (count : Int) (hr : Ready s.conn) (total : Bytes) :
    (∃ d, (s.readPages C count total).1 = .returned d ∧ (s.readPages C count total).2.conn = s.conn) ∨
    ((∀ d, (s.readPages C count total).1 ≠ .returned d) ∧ (s.readPages C count total).2.conn.state ≠ .idle) := by
  suffices H : ∀ k, ∀ s : Sys, s.recvs.length = k → Ready s.conn → ∀ count total,
      (∃ d, (s.readPages C count total).1 = .returned d ∧ (s.readPages C count total).2.conn = s.conn) ∨
      ((∀ d, (s.readPages C count total).1 ≠ .returned d) ∧
        (s.readPages C count total).2.conn.state ≠ .idle) from H _ s rfl hr count total
  intro k
  induction k using Nat.strongRecOn with
  | _ k ih =>
    intro s hk hr count total
    have hx := C55_exchange C s (pageRequest s.password count) (isRequest_of rfl) hr
    cases he : s.exchange C (pageRequest s.password count) with | mk o s1 =>
    rw [he] at hx
    cases o with
    | raised e =>
      rw [readPages_raised he]
      rcases hx with ⟨pdu, h, _⟩ | ⟨_, _, h⟩
      · cases h
      · exact .inr ⟨(fun d hd => by cases hd), h⟩
    | pending =>
      rw [readPages_pending he]
      rcases hx with ⟨pdu, h, _⟩ | ⟨_, _, h⟩
      · cases h
      · exact .inr ⟨(fun d hd => by cases hd), h⟩
    | returned ev =>
      obtain ⟨p, req, rfl, h1⟩ := page_exchange hr he
      rw [readPages_page he]
      cases hend : p.isEnd with
      | true => rw [if_pos rfl]; exact .inl ⟨_, rfl, h1.conn⟩
      | false =>
        rw [if_neg (by simp)]
        have hlt := exchange_recvs he
        have := ih s1.recvs.length (by omega) s1 rfl (exchanged_ready h1 hr) (count + p.objectAmount)
          (total ++ p.data)
        rw [h1.conn] at this
        exact this

/-- C55. Each call on a ready client: it returns, with the connection as before; or it fails and leaves
the connection waiting for a response; or it is `read_parameters`, all pages were read, and only their
parse failed, with the connection as before. -/
theorem C55_call (C : BlockCipher) (s : Sys) (k : Call) (hr : Ready s.conn) :
    ((call C s k).1 = .returned ∧ (call C s k).2.conn = s.conn) ∨
    ((call C s k).1 ≠ .returned ∧ (call C s k).2.conn.state ≠ .idle) ∨
    (∃ n ps x, k = .readParameters n ∧ Paged C s n ps (call C s k).2 ∧
      parseParameters none (some (ps.map (·.data)).flatten) = .error x ∧
      (call C s k).1 = .raised x ∧ (call C s k).2.conn = s.conn) := by
  have plain : ∀ e, IsRequest e → ∀ {α : Type} (f : Event → Outcome3 α),
      (∀ ev, responseOf e.type = some ev.type → ∃ a, f ev = .returned a) →
      (ended ((s.exchange C e).1.andThen f) = .returned ∧ (s.exchange C e).2.conn = s.conn) ∨
      (ended ((s.exchange C e).1.andThen f) ≠ .returned ∧ (s.exchange C e).2.conn.state ≠ .idle) := by
    intro e he α f hf
    rcases C55_exchange C s e he hr with ⟨pdu, h1, h2⟩ | ⟨h1, _, h2⟩
    · obtain ⟨req, hx⟩ := (C52_exchange_iff C s (s.exchange C e).2 e pdu he hr).1 (Prod.ext h1 rfl)
      obtain ⟨a, ha⟩ := hf pdu hx.fits
      refine .inl ⟨?_, h2⟩
      rw [h1]
      show ended (f pdu) = _
      rw [ha]; rfl
    · refine .inr ⟨?_, h2⟩
      cases ho : (s.exchange C e).1 with
      | returned pdu => exact absurd ho (h1 pdu)
      | raised x => intro hh; cases hh
      | pending => intro hh; cases hh
  have plain' : ∀ e, IsRequest e →
      (ended (s.exchange C e).1 = .returned ∧ (s.exchange C e).2.conn = s.conn) ∨
      (ended (s.exchange C e).1 ≠ .returned ∧ (s.exchange C e).2.conn.state ≠ .idle) := by
    intro e he
    have := plain e he (f := .returned) (fun ev _ => ⟨ev, rfl⟩)
    have h2 : (s.exchange C e).1.andThen .returned = (s.exchange C e).1 := by
      cases (s.exchange C e).1 <;> rfl
    rw [h2] at this
    exact this
  cases k with
  | readInstantaneousValues =>
    rcases plain' (.readInstantaneousValuesRequest { password := s.password }) (isRequest_of rfl) with h | h
    · exact .inl h
    · exact .inr (.inl h)
  | readArchive a n i =>
    rcases plain' (.readArchiveRequest ⟨s.password, a, n, i⟩) (isRequest_of rfl) with h | h
    · exact .inl h
    · exact .inr (.inl h)
  | readArchiveByTime a n t =>
    rcases plain' (.readArchiveByTimeRequest ⟨s.password, a, n, t⟩) (isRequest_of rfl) with h | h
    · exact .inl h
    · exact .inr (.inl h)
  | readTime =>
    rcases plain (.readTimeRequest {}) (isRequest_of rfl) timeOf
      (fun ev h => by cases ev <;> simp [Event.type, responseOf] at h; exact ⟨_, rfl⟩) with h | h
    · exact .inl h
    · exact .inr (.inl h)
  | writeTime t b =>
    rcases plain (.writeTimeRequest ⟨s.password, t, b⟩) (isRequest_of rfl) (fun _ => .returned ())
      (fun ev h => ⟨_, rfl⟩) with h | h
    · exact .inl h
    · exact .inr (.inl h)
  | readParameters n =>
    have hp := pages_end C s n hr []
    have hpaged := fun s' d => C53_pages_iff C s s' n hr d
    unfold call Sys.readParameters
    cases he : s.readPages C n [] with | mk o s1 =>
    rw [he] at hp
    dsimp only at hp ⊢
    rw [he]
    dsimp only
    rcases hp with ⟨d, rfl, h2⟩ | ⟨h1, h2⟩
    · obtain ⟨ps, h3, rfl⟩ := (hpaged s1 d).1 he
      have hof : (Outcome3.returned (ps.map (·.data)).flatten).andThen
          (fun d => Outcome3.ofRes (parseParameters none (some d))) =
          Outcome3.ofRes (parseParameters none (some (ps.map (·.data)).flatten)) := rfl
      rw [hof]
      cases hq : parseParameters none (some (ps.map (·.data)).flatten) with
      | ok x => exact .inl ⟨rfl, h2⟩
      | error x =>
        exact .inr (.inr ⟨n, ps, x, rfl, h3, hq, rfl, h2⟩)
    · refine .inr (.inl ⟨?_, h2⟩)
      cases o with
      | returned d => exact absurd rfl (h1 d)
      | raised x => intro hh; cases hh
      | pending => intro hh; cases hh

/-- C55. On a connection that waits for a response every call raises `LocalProtocolError`; nothing is
handed to the transport, `recv` is not called, the connection stays as it is. -/
theorem C55_refused (C : BlockCipher) (s : Sys) (k : Call) (h : s.conn.state ≠ .idle) :
    call C s k = (.raised (.elgas .localProtocol), { s with draws := s.draws + 1 }) := by
  have hx := fun e he => exchange_refused C s e he h
  cases k with
  | readInstantaneousValues =>
    dsimp only [call, Sys.readInstantaneousValues]; rw [hx _ (isRequest_of rfl)]; rfl
  | readArchive a n i => dsimp only [call, Sys.readArchive]; rw [hx _ (isRequest_of rfl)]; rfl
  | readArchiveByTime a n t => dsimp only [call, Sys.readArchiveByTime]; rw [hx _ (isRequest_of rfl)]; rfl
  | readTime => dsimp only [call, Sys.readTime]; rw [hx _ (isRequest_of rfl)]; rfl
  | writeTime t b => dsimp only [call, Sys.writeTime]; rw [hx _ (isRequest_of rfl)]; rfl
  | readParameters n =>
    dsimp only [call, Sys.readParameters]
    rw [readPages_raised (hx (pageRequest s.password n) (isRequest_of rfl))]
    rfl

theorem calls_append (C : BlockCipher) (s : Sys) (as bs : List Call) :
    calls C s (as ++ bs) = ((calls C s as).1 ++ (calls C (calls C s as).2 bs).1,
      (calls C (calls C s as).2 bs).2) := by
  induction as generalizing s with
  | nil => rfl
  | cons k ks ih =>
    show ((call C s k).1 :: (calls C (call C s k).2 (ks ++ bs)).1, (calls C (call C s k).2 (ks ++ bs)).2) = _
    rw [ih]
    rfl

/-- C55. Once stuck, stuck for ever. -/
theorem C55_stuck (C : BlockCipher) (s : Sys) (ks : List Call) (h : s.conn.state ≠ .idle) :
    calls C s ks = (List.replicate ks.length (.raised (.elgas .localProtocol)),
      { s with draws := s.draws + ks.length }) := by
  induction ks generalizing s with
  | nil => rfl
  | cons k ks ih =>
    unfold calls
    rw [C55_refused C s k h, ih { s with draws := s.draws + 1 } h]
    simp only [List.length_cons, List.replicate_succ, Nat.add_assoc, Nat.add_comm 1]

/-- C55. In every history of calls on a new client, whatever the transport delivers: at each moment the
client is ready, or it is stuck. -/
theorem C55_ready_or_stuck (C : BlockCipher) (a : ClientArgs) (sends : List (Res Unit))
    (recvs : List (Res Bytes)) (rands : Nat → Rand) (s0 : Sys) (h0 : mkClient a sends recvs rands = .ok s0)
    (ks : List Call) :
    Ready (calls C s0 ks).2.conn ∨ (calls C s0 ks).2.conn.state ≠ .idle := by
  have hr : Ready s0.conn := by
    unfold mkClient clientConn at h0
    obtain ⟨c, hc, h0⟩ := bind_eq_ok.1 h0
    cases h0
    obtain ⟨_, rfl⟩ := mkConn_ok hc
    exact ⟨rfl, rfl⟩
  clear h0
  induction ks generalizing s0 with
  | nil => exact .inl hr
  | cons k ks ih =>
    show Ready (calls C (call C s0 k).2 ks).2.conn ∨ _
    rcases C55_call C s0 k hr with ⟨_, h⟩ | ⟨_, h⟩ | ⟨_, _, _, _, _, _, _, h⟩
    · exact ih _ (by rw [h]; exact hr)
    · right
      show (calls C (call C s0 k).2 ks).2.conn.state ≠ _
      rw [C55_stuck C _ ks h]; exact h
    · exact ih _ (by rw [h]; exact hr)

/-- C55. After a call that failed for any other reason than the parse of completely read parameters,
every later call on the client raises `LocalProtocolError`, hands nothing to the transport and does not
call `recv`. -/
theorem C55_history (C : BlockCipher) (a : ClientArgs) (sends : List (Res Unit)) (recvs : List (Res Bytes))
    (rands : Nat → Rand) (s0 : Sys) (h0 : mkClient a sends recvs rands = .ok s0)
    (before : List Call) (k : Call) (later : List Call)
    (hfail : (call C (calls C s0 before).2 k).1 ≠ .returned)
    (hparse : ∀ n ps, k = .readParameters n →
      ¬ Paged C (calls C s0 before).2 n ps (call C (calls C s0 before).2 k).2) :
    (calls C s0 (before ++ k :: later)).1 =
      (calls C s0 before).1 ++ (call C (calls C s0 before).2 k).1 ::
        List.replicate later.length (.raised (.elgas .localProtocol)) ∧
    (calls C s0 (before ++ k :: later)).2.handed = (calls C s0 (before ++ [k])).2.handed ∧
    (calls C s0 (before ++ k :: later)).2.sends = (calls C s0 (before ++ [k])).2.sends ∧
    (calls C s0 (before ++ k :: later)).2.recvs = (calls C s0 (before ++ [k])).2.recvs := by
  have hstuck : (call C (calls C s0 before).2 k).2.conn.state ≠ .idle := by
    rcases C55_ready_or_stuck C a sends recvs rands s0 h0 before with hr | hn
    · rcases C55_call C _ k hr with ⟨h, _⟩ | ⟨_, h⟩ | ⟨n, ps, x, hk, h, _⟩
      · exact absurd h hfail
      · exact h
      · exact absurd h (hparse n ps hk)
    · rw [C55_refused C _ k hn]; exact hn
  rw [calls_append, calls_append]
  have h1 : calls C (calls C s0 before).2 (k :: later) =
      ((call C (calls C s0 before).2 k).1 :: (calls C (call C (calls C s0 before).2 k).2 later).1,
        (calls C (call C (calls C s0 before).2 k).2 later).2) := rfl
  have h2 : calls C (calls C s0 before).2 [k] =
      ([(call C (calls C s0 before).2 k).1], (call C (calls C s0 before).2 k).2) := rfl
  rw [h1, h2, C55_stuck C _ later hstuck]
  exact ⟨rfl, rfl, rfl, rfl⟩

/-- C55. The arguments a client accepts. -/
theorem C55_constructor (a : ClientArgs) (sends : List (Res Unit)) (recvs : List (Res Bytes)) (rands : Nat → Rand) :
    (a.password.length ≤ 6 ∧ 801 ≤ a.passwordId ∧ a.passwordId ≤ 849 →
      ∃ s, mkClient a sends recvs rands = .ok s ∧ Ready s.conn ∧ s.password = a.password ∧ s.handed = [] ∧
        s.sends = sends ∧ s.recvs = recvs) ∧
    (¬ (a.password.length ≤ 6 ∧ 801 ≤ a.passwordId ∧ a.passwordId ≤ 849) →
      mkClient a sends recvs rands = .error .value) := by
  unfold mkClient clientConn
  rw [mkConn_eq]
  constructor
  · intro h
    rw [if_pos (by unfold ArgsOk toSecretStr; dsimp only; omega)]
    exact ⟨_, rfl, ⟨rfl, rfl⟩, rfl, rfl, rfl, rfl⟩
  · intro h
    rw [if_neg (by unfold ArgsOk toSecretStr; dsimp only; omega)]
    rfl

/-! ### Concrete cases -/

/-- The bytes of a plain response of a device. -/
def exWire (svc : ServiceNumber) (data : Bytes) : Bytes :=
  match responseToBytes responseType { service := svc, da1 := 0, da2 := 0, sa1 := 0, sa2 := 0, data } >>=
    escapeCharacters with
  | .ok w => w
  | .error _ => []

/-- A ready client in an environment. -/
def exSys (sends : Nat) (recvs : List (Res Bytes)) : Sys :=
  { password := "000000".toList, conn := exConn, sends := List.replicate sends (.ok ()), recvs,
    rands := fun _ => ⟨('a', 'b'), fun _ => 0⟩ }

/-- The response to a read of the time, in two pieces, after an empty one and a lone end character. -/
def exTimeRecvs : List (Res Bytes) :=
  let w := exWire .readDeviceTime [0x00, 0x30, 0x12, 0x01, 0x01, 0x20, 0x00, 0x00, 0x00]
  [.ok [], .ok [0x0D], .ok (w.take 7), .ok (w.drop 7), .ok [1, 2]]

theorem prod_fst {α β : Type} {p : α × β} {a : α} (h : p.1 = a) : p = (a, p.2) := by rw [← h]

example : Ready (exSys 1 exTimeRecvs).conn := ⟨rfl, rfl⟩
example : ∃ s', (exSys 1 exTimeRecvs).readTime idCipher = (.returned ⟨2020, 1, 1, 12, 30, 0, 0⟩, s') ∧
    s'.recvs = [.ok [1, 2]] ∧ s'.handed.length = 1 := by
  refine ⟨((exSys 1 exTimeRecvs).readTime idCipher).2, prod_fst ?_, ?_, ?_⟩ <;> decide +kernel

theorem exchanged_of {C : BlockCipher} {s : Sys} {e pdu : Event} (he : IsRequest e) (hr : Ready s.conn)
    (h : (s.exchange C e).1 = .returned pdu) : ∃ req, Exchanged C s e req pdu (s.exchange C e).2 :=
  (C52_exchange_iff C s _ e pdu he hr).1 (Prod.ext h rfl)

/-- Two pages of one object each (a binary channel and a time window), the second marked as the last. -/
def exPage (n : UInt8) (last : Bool) (d : Bytes) : Bytes := [n, 0, 1, 0, if last then 1 else 0] ++ d

def exPageRecvs : List (Res Bytes) :=
  [.ok (exWire .readScadaParameters (exPage 0 false (record (UInt8.ofNat ObjType.BINARY.value, exBinary)))),
   .ok (exWire .readScadaParameters (exPage 1 true (record (UInt8.ofNat ObjType.TIME_WINDOW.value, exTimeWindow))))]

example : ∃ p1 p2 s', Paged idCipher (exSys 2 exPageRecvs) 0 [p1, p2] s' ∧
    (∃ objs, (exSys 2 exPageRecvs).readParameters idCipher 0 = (.returned objs, s') ∧ objs.length = 2) := by
  have e1 : (((exSys 2 exPageRecvs).exchange idCipher (pageRequest "000000".toList 0))).1 = .returned
      (.readDeviceParametersResponse ⟨record (UInt8.ofNat ObjType.BINARY.value, exBinary), 0, 1, false⟩) := by
    decide +kernel
  have e2 : (((exSys 2 exPageRecvs).exchange idCipher (pageRequest "000000".toList 0)).2.exchange idCipher
      (pageRequest "000000".toList 1)).1 = .returned
      (.readDeviceParametersResponse ⟨record (UInt8.ofNat ObjType.TIME_WINDOW.value, exTimeWindow), 1, 1, true⟩) := by
    decide +kernel
  obtain ⟨r1, h1⟩ := exchanged_of (isRequest_of rfl) ⟨rfl, rfl⟩ e1
  obtain ⟨r2, h2⟩ := exchanged_of (isRequest_of rfl) (exchanged_ready h1 ⟨rfl, rfl⟩) e2
  have hp : Paged idCipher (exSys 2 exPageRecvs) 0 [_, _] _ :=
    ⟨[_], _, _, 1, r2, rfl, .page _ _ _ _ _ _ _ r1 h1 rfl (.nil _ _), h2, rfl⟩
  have hparse : ∃ objs, parseParameters none (some (exRecords.flatMap record)) = .ok objs ∧ objs.length = 2 := by
    rw [C56_split exRecords (by decide) (by decide +kernel)]
    refine ⟨[⟨.Binary, binaryLayout.values exBinary⟩, ⟨.TimeWindow, (timeWindowLayout 2).values exTimeWindow⟩], ?_,
      rfl⟩
    decide +kernel
  obtain ⟨objs, h3, h4⟩ := hparse
  refine ⟨_, _, _, hp, objs, (C53_read_parameters _ _ _ 0 ⟨rfl, rfl⟩ objs).2 ⟨_, hp, ?_⟩, h4⟩
  exact h3

/-- A page without objects and not marked as the last: the hypotheses of `C54_endless`. -/
example : ∃ w, w ≠ [] ∧ 0x0D ∉ w ∧ Response idCipher none (w ++ [0x0D])
    (.readDeviceParametersResponse ⟨[], 0, 0, false⟩) := by
  refine ⟨(exWire .readScadaParameters [0, 0, 0, 0, 0]).dropLast, by decide +kernel, by decide +kernel, ?_⟩
  have h : (nextEventLoop idCipher { exConn with state := .awaitingReadDeviceParametersResponse }
      [.ok (exWire .readScadaParameters [0, 0, 0, 0, 0])]) =
      (.returned (.readDeviceParametersResponse ⟨[], 0, 0, false⟩), exConn, []) := by decide +kernel
  obtain ⟨init, last, w, extra, h1, h2, h3, h4, h5, _⟩ := (loop_gathered _ _ _ _ _ _ rfl).1 h
  cases init with
  | nil =>
    rw [List.append_nil] at h1
    injection h1 with h1 _
    injection h1 with h1
    subst h1
    have h6 : gathered [exWire .readScadaParameters [0, 0, 0, 0, 0]] =
      (exWire .readScadaParameters [0, 0, 0, 0, 0]).dropLast ++ 0x0D :: [] := by decide +kernel
    have h0 : (0x0D : UInt8) ∉ (exWire .readScadaParameters [0, 0, 0, 0, 0]).dropLast := by decide +kernel
    have h7 := (line_inj h0 h4 (h6.symm.trans h3)).1
    rw [h7]; exact h5
  | cons a l => simp at h1

/-- A call that ends with a timeout, and the client after it. -/
example : ((exSys 3 [.error (.elgas .communication)]).readTime idCipher).1 = .raised (.elgas .communication) ∧
    (call idCipher (exSys 3 [.error (.elgas .communication)]) .readTime).1 ≠ .returned ∧
    (calls idCipher (exSys 3 [.error (.elgas .communication)]) [.readTime, .readTime, .readInstantaneousValues]).1 =
      [.raised (.elgas .communication), .raised (.elgas .localProtocol), .raised (.elgas .localProtocol)] := by
  refine ⟨by decide +kernel, by decide +kernel, by decide +kernel⟩

-- C52: the other calls
example : ((exSys 1 [.ok (exWire .writeDeviceTime [0x00])]).writeTime idCipher ⟨2024, 2, 29, 1, 2, 3, 4⟩ false).1 = .returned () ∧
    ((exSys 1 [.ok (exWire .readArchives [1, 5, 0, 0, 0, 0xAA])]).readArchive idCipher 1 2 5).1 =
      .returned (.readArchiveResponse ⟨.data, 5, [0xAA]⟩) ∧
    ((exSys 1 [.ok (exWire .readArchivesByDate [1, 5, 0, 0, 0, 0xAA])]).readArchiveByTime idCipher 1 2 ⟨2024, 2, 29, 1, 2, 3, 4⟩).1 =
      .returned (.readArchiveByTimeResponse ⟨.data, 5, [0xAA]⟩) ∧
    ended ((exSys 1 [.ok (exWire .readValues ([0x59, 0x59, 0xE3, 0x29, 0x02, 0x24] ++ List.replicate 19 1))]).readInstantaneousValues
      idCipher).1 = .returned := by decide +kernel

-- C54: one page of one object from object 65535 on, not marked as the last: the next request cannot be built
example : ∃ s', (exSys 2 exPageRecvs).readParameters idCipher 65535 = (.raised .overflow, s') ∧ s'.handed.length = 1 ∧
    awaits s'.conn.state = some .readDeviceParametersResponse := by
  have e1 : ((exSys 2 exPageRecvs).exchange idCipher (pageRequest "000000".toList 65535)).1 = .returned
      (.readDeviceParametersResponse ⟨record (UInt8.ofNat ObjType.BINARY.value, exBinary), 0, 1, false⟩) := by
    decide +kernel
  obtain ⟨r1, h1⟩ := exchanged_of (isRequest_of rfl) ⟨rfl, rfl⟩ e1
  obtain ⟨s', g1, g2, g3⟩ := C54_overflow idCipher (exSys 2 exPageRecvs) _ 65535 65536 [_] ⟨rfl, rfl⟩
    (.page _ _ _ _ _ _ _ r1 h1 rfl (.nil _ _)) (by decide) (fun _ => by show PadOk ('a', 'b'); decide) (.inr (by decide))
  exact ⟨s', g1, by rw [g2, h1.handed]; rfl, g3⟩

-- C55: a history on a new client: a successful call, a lost answer, then refusals only
example : ∃ s, mkClient { password := "000000".toList, passwordId := 801 } [.ok (), .ok (), .ok ()]
      (exTimeRecvs.take 4 ++ [.error (.elgas .communication)] ++ exTimeRecvs) (fun _ => ⟨('a', 'b'), fun _ => 0⟩) = .ok s ∧
    (calls idCipher s [.readTime, .readTime, .readTime, .readParameters 0]).1 =
      [.returned, .raised (.elgas .communication), .raised (.elgas .localProtocol), .raised (.elgas .localProtocol)] ∧
    (calls idCipher s [.readTime, .readTime, .readTime, .readParameters 0]).2.handed.length = 2 :=
  ⟨_, rfl, by decide +kernel⟩

/-- The request for the parameters from object 0 on. -/
theorem exPage0 : (exConn.send idCipher (pageRequest "000000".toList 0) ⟨('a', 'b'), fun _ => 0⟩).2 =
    .ok [0x02, 0xFE, 0x84, 0x70, 0x1D, 0x00, 0, 0, 0, 0, 0, 0, 0x30, 0x30, 0x30, 0x30, 0x30, 0x30, 0x21, 0x03, 0x61, 0x62,
      0, 0, 0x00, 0x04, 0x32, 0x1A, 0x49, 0x0D] := by decide +kernel

-- C54: fifty identical pages without objects: fifty-one identical requests, and still waiting
example : ∃ s' reqs, (exSys 51 (List.replicate 50 (.ok (exWire .readScadaParameters [0, 0, 0, 0, 0])))).readParameters idCipher 0 =
    (.pending, s') ∧ s'.handed = reqs ∧ reqs.length = 51 := by
  have hline : Response idCipher none ((exWire .readScadaParameters [0, 0, 0, 0, 0]).dropLast ++ [0x0D])
      (.readDeviceParametersResponse ⟨[], 0, 0, false⟩) := by
    refine ⟨_, .readScadaParameters, [0, 0, 0, 0, 0], rfl, by decide +kernel, ?_, by simp,
      .parameters _ _ (by decide +kernel)⟩
    exact ⟨frame 0x86 0x70 [0, 0, 0, 0, 0, 0] [0, 0, 0, 0, 0], false, ⟨.readScadaParameters, 0, 0, 0, 0, [0, 0, 0, 0, 0]⟩,
      by decide +kernel, by decide +kernel, rfl, rfl⟩
  obtain ⟨s', reqs, h1, h2, h3, _⟩ := C54_endless idCipher
    (exSys 51 (List.replicate 50 (.ok (exWire .readScadaParameters [0, 0, 0, 0, 0])))) 0 ⟨rfl, rfl⟩ ⟨[], 0, 0, false⟩
    (exWire .readScadaParameters [0, 0, 0, 0, 0]).dropLast (by decide +kernel) hline (by decide +kernel) rfl rfl
    (fun _ => ⟨_, exPage0⟩) 50 rfl (by decide +kernel)
  exact ⟨s', reqs, h1, by simpa [exSys] using h2, h3⟩

end Elgas
