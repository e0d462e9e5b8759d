import Verif.Lemmas.Damage
import Verif.Props.Device
/-!
C80: one byte of a response is changed, lost or added on the wire.
-/
namespace Elgas
open Spec

/-! ### Helpers -/

/-- What becomes of the first line. -/
theorem damaged_cases {ty svc : UInt8} {address data arrived : Bytes}
    (hty : ty = 0x86 ∨ ty = 0x87) (hsvc : svc.toNat ∈ services) (ha : address.length = 6)
    (hl : data.length ≤ 65520)
    (hd : Damaged (escBytes (frame ty svc address data).dropLast ++ [0x0D]) arrived) :
    0x0D ∉ arrived ∨ ∃ w rest, arrived = w ++ 0x0D :: rest ∧ 0x0D ∉ w ∧
      (BadLine (w ++ [0x0D]) ∨ (returnCharacters (w ++ [0x0D]) = .ok (frame ty svc address data) ∧
        rest.length ≤ 2)) := by
  have he : (frame ty svc address data).dropLast ++ [0x0D] = frame ty svc address data := by
    unfold frame
    dsimp only
    rw [List.dropLast_append_of_ne_nil (by simp)]
    simp
  have hok : ∃ e f, responseFactory (frame ty svc address data) = .ok (e, f) := by
    obtain ⟨s, hs⟩ : ∃ s, ServiceNumber.ofValue svc.toNat = .ok s := (service_ofValue_mem _).2 hsvc
    match address, ha with
    | [a0, a1, a2, a3, a4, a5], _ =>
      have := accepted_frame ty svc a0 a1 a2 a3 a4 a5 data s hs hl
      rcases hty with rfl | rfl
      · exact ⟨false, _, factory_of_accepted false this⟩
      · exact ⟨true, _, factory_of_accepted true this⟩
  obtain ⟨e, f, hok⟩ := hok
  have hlen : 16 ≤ (frame ty svc address data).length := by
    simp [frame, frameBody, ha]; omega
  rcases damaged_firstLine hd with h | ⟨w, rest, H, h1, h2, h3, h4, h5⟩
  · exact .inl h
  · refine .inr ⟨w, rest, h1, h2, ?_⟩
    rcases C13_factory_total (H ++ [0x0D]) with ⟨e', f', hok'⟩ | herr
    · right
      have := turned_rejected h4 (by rw [he]; exact good_of_accepted hok) (good_of_accepted hok')
        (by rw [he]; exact hlen)
      refine ⟨by rw [h3, this, he], ?_⟩
      rcases h5 with h5 | h5
      · exact h5
      · exact absurd this h5
    · left
      intro raw hraw x hx
      rw [h3] at hraw
      rw [← Except.ok.inj hraw, herr] at hx
      cases hx

theorem interpret_decoded {C : BlockCipher} {c c' : Conn} (h : c.cipherContext = c'.cipherContext)
    {l l' : Bytes} (hl : returnCharacters l = returnCharacters l') :
    c.interpret C l = c'.interpret C l' := by
  unfold Conn.interpret; rw [h, hl]

/-- A poll depends on the first line only. -/
theorem poll_first {C : BlockCipher} {c c' : Conn} {w w' rest rest' : Bytes}
    (hc : c.cipherContext = c'.cipherContext) (hs : c.state = c'.state) (hw : 0x0D ∉ w) (hw' : 0x0D ∉ w')
    (hb : c.buffer = w ++ 0x0D :: rest) (hb' : c'.buffer = w' ++ 0x0D :: rest')
    (hl : returnCharacters (w ++ [0x0D]) = returnCharacters (w' ++ [0x0D])) :
    (c.nextEvent C).2 = (c'.nextEvent C).2 := by
  rw [nextEvent_line hw hb, nextEvent_line hw' hb', interpret_decoded hc hl, hs]
  cases c'.interpret C (w' ++ [0x0D]) with
  | error x => dsimp only; split <;> rfl
  | ok r =>
    dsimp only
    cases pduFromResponse r with
    | error x => rfl
    | ok pdu =>
      dsimp only
      cases processEvent c'.state pdu <;> rfl

theorem bad_poll {C : BlockCipher} {c : Conn} {w rest : Bytes} (hw : 0x0D ∉ w)
    (hb : c.buffer = w ++ 0x0D :: rest) (h : BadLine (w ++ [0x0D])) : c.nextEvent C = (c, .ok none) := by
  rw [nextEvent_line hw hb, badLine_interpret h]; rfl

/-- The outcome of waiting, from the last poll. -/
def verdict : Res (Option Event) → Outcome3 Event
  | .error x => .raised x
  | .ok (some e) => .returned e
  | .ok none => .pending

/-- The loop of `next_event` over pieces that are all that comes. -/
theorem loop_verdict (C : BlockCipher) (c : Conn) (ps : List Bytes) :
    (nextEventLoop C c (ps.map .ok)).1 = verdict ((feed c ps).nextEvent C).2 := by
  induction ps generalizing c with
  | nil =>
    unfold nextEventLoop
    show _ = verdict (c.nextEvent C).2
    rcases c.nextEvent C with ⟨c1, x | _ | e⟩ <;> rfl
  | cons d ps ih =>
    have hf : feed c (d :: ps) = feed (c.receiveData d) ps := rfl
    rw [List.map_cons]
    unfold nextEventLoop
    cases hn : c.nextEvent C with | mk c1 r =>
    have hsame : (∀ w rest, c.buffer = w ++ 0x0D :: rest → 0x0D ∉ w →
        ((feed c (d :: ps)).nextEvent C).2 = r) := by
      intro w rest hb hw
      have hfn := feed_nonempty c (d :: ps) (by rw [hb]; simp)
      have := poll_first (C := C) (c := feed c (d :: ps)) (c' := c) (w := w) (w' := w)
        (rest := rest ++ (d :: ps).flatten) (rest' := rest) (by rw [hfn]) (by rw [hfn]) hw hw
        (by rw [hfn]; simp [hb]) hb rfl
      rw [this, hn]
    rcases line_cases c.buffer with h0 | ⟨w, rest, hb, hw⟩
    · rw [nextEvent_none h0] at hn
      cases hn
      dsimp only
      rw [ih, hf]
    · cases r with
      | error x => dsimp only; rw [hsame w rest hb hw]; rfl
      | ok o =>
        cases o with
        | some e => dsimp only; rw [hsame w rest hb hw]; rfl
        | none =>
          have hc1 : c1 = c := by
            have := (C38_poll_effect C c).1 (by rw [hn])
            rw [hn] at this; exact this
          subst hc1
          dsimp only
          rw [ih, hf]

/-- Pieces with some end characters in front. -/
theorem gathered_flatten (ps : List Bytes) : ∃ n, ps.flatten = List.replicate n 0x0D ++ gathered ps := by
  induction ps with
  | nil => exact ⟨0, rfl⟩
  | cons p ps ih =>
    by_cases hp : p = [] ∨ p = [0x0D]
    · have e1 : gathered (p :: ps) = gathered ps := by simp [gathered, hp]
      obtain ⟨n, hn⟩ := ih
      rw [e1, List.flatten_cons, hn]
      rcases hp with rfl | rfl
      · exact ⟨n, rfl⟩
      · exact ⟨n + 1, by simp [List.replicate_succ]⟩
    · exact ⟨0, by simp [gathered, hp]⟩

/-- End characters in front that are ignored leave a damaged line, or an undamaged one. -/
theorem damaged_skip {x y : UInt8} {line arrived g : Bytes} {n : Nat} (hx : x ≠ 0x0D) (hy : y ≠ 0x0D)
    (hd : Damaged (x :: y :: line) arrived) (h : arrived = List.replicate n 0x0D ++ g) :
    g = x :: y :: line ∨ Damaged (x :: y :: line) g := by
  cases n with
  | zero => right; rw [List.replicate_zero, List.nil_append] at h; rw [← h]; exact hd
  | succ n =>
    rw [List.replicate_succ, List.cons_append] at h
    have h2 : ∀ tl : Bytes, arrived = 0x0D :: y :: tl ∨ arrived = 0x0D :: x :: tl → n = 0 ∧
        g = arrived.tail := by
      intro tl ht
      cases n with
      | zero => rw [h]; exact ⟨rfl, rfl⟩
      | succ n =>
        rw [List.replicate_succ, List.cons_append] at h
        rcases ht with ht | ht <;> rw [h] at ht <;> simp only [List.cons.injEq] at ht
        · exact absurd ht.2.1.symm hy
        · exact absurd ht.2.1.symm hx
    generalize hs : x :: y :: line = sent at hd
    cases hd with
    | changed before b v after hv =>
      cases before with
      | nil =>
        simp only [List.nil_append, List.cons.injEq] at h hs
        obtain ⟨rfl, rfl⟩ := hs
        obtain ⟨rfl, _⟩ := h
        obtain ⟨rfl, hg⟩ := h2 line (.inl rfl)
        right
        rw [hg]
        exact .lost [] x (y :: line)
      | cons z before =>
        simp only [List.cons_append, List.cons.injEq] at h hs
        exact absurd (hs.1.trans h.1) hx
    | lost before b after =>
      cases before with
      | nil =>
        simp only [List.nil_append, List.cons.injEq] at h hs
        obtain ⟨rfl, rfl⟩ := hs
        simp only [List.cons.injEq] at h
        exact absurd h.1 hy
      | cons z before =>
        simp only [List.cons_append, List.cons.injEq] at h hs
        exact absurd (hs.1.trans h.1) hx
    | added before v after =>
      cases before with
      | nil =>
        simp only [List.nil_append, List.cons.injEq] at h hs
        obtain ⟨rfl, _⟩ := h
        subst hs
        obtain ⟨rfl, hg⟩ := h2 (y :: line) (.inr rfl)
        left
        rw [hg]; rfl
      | cons z before =>
        simp only [List.cons_append, List.cons.injEq] at h hs
        exact absurd (hs.1.trans h.1) hx

theorem sent_start (ty svc : UInt8) (address data : Bytes) : ∃ line,
    escBytes (frame ty svc address data).dropLast ++ [0x0D] = 0x02 :: 0xFE :: line := by
  refine ⟨escBytes ((frame ty svc address data).dropLast.drop 2) ++ [0x0D], ?_⟩
  have : (frame ty svc address data).dropLast =
      0x02 :: 0xFE :: (frame ty svc address data).dropLast.drop 2 := by
    simp [frame, frameBody, List.dropLast_cons_of_ne_nil]
  rw [this]
  simp [escBytes_cons, escByte]

theorem damaged_receive {c : Conn} (hb : c.buffer = []) {ty svc : UInt8} {address data sent arrived : Bytes}
    (ha : address.length = 6) (hs : sent = escBytes (frame ty svc address data).dropLast ++ [0x0D])
    (hd : Damaged sent arrived) :
    c.receiveData sent = { c with buffer := sent } ∧ c.receiveData arrived = { c with buffer := arrived } := by
  have h1 := (escBytes_length_le (frame ty svc address data).dropLast).1
  have h2 : 15 ≤ (frame ty svc address data).dropLast.length := by
    simp [frame, frameBody, ha]; omega
  have h3 : 16 ≤ sent.length := by rw [hs, List.length_append, List.length_singleton]; omega
  have h4 : 15 ≤ arrived.length := by
    cases hd <;> simp only [List.length_append, List.length_cons] at h3 ⊢ <;> omega
  constructor
  · rw [receiveData_append (fun h => by rw [h] at h3; simp at h3), hb, List.nil_append]
  · rw [receiveData_append (fun h => by rw [h] at h4; simp at h4), hb, List.nil_append]

theorem loop_nil {C : BlockCipher} {c : Conn} {c1 : Conn} (h : c.nextEvent C = (c1, .ok none)) :
    nextEventLoop C c [] = (.pending, c1, []) := by
  unfold nextEventLoop; rw [h]

theorem loop_error {C : BlockCipher} {c : Conn} {c1 : Conn} (h : c.nextEvent C = (c1, .ok none)) (x : PyErr)
    (rs : List (Res Bytes)) : nextEventLoop C c (.error x :: rs) = (.raised x, c1, rs) := by
  unfold nextEventLoop; rw [h]

theorem loop_piece {C : BlockCipher} {c : Conn} {c1 : Conn} (h : c.nextEvent C = (c1, .ok none)) (d : Bytes)
    (rs : List (Res Bytes)) : nextEventLoop C c (.ok d :: rs) = nextEventLoop C (c1.receiveData d) rs := by
  conv => lhs; unfold nextEventLoop
  rw [h]

theorem loop_raises {C : BlockCipher} {c : Conn} {c1 : Conn} {x : PyErr} (h : c.nextEvent C = (c1, .error x))
    (rs : List (Res Bytes)) : nextEventLoop C c rs = (.raised x, c1, rs) := by
  unfold nextEventLoop; rw [h]

theorem loop_returns {C : BlockCipher} {c : Conn} {c1 : Conn} {e : Event}
    (h : c.nextEvent C = (c1, .ok (some e))) (rs : List (Res Bytes)) :
    nextEventLoop C c rs = (.returned e, c1, rs) := by
  unfold nextEventLoop; rw [h]

/-- More pieces, when the first ones did not end the wait. -/
theorem loop_more (C : BlockCipher) (c : Conn) (pre xs : List (Res Bytes)) :
    nextEventLoop C c (pre ++ xs) = match nextEventLoop C c pre with
      | (.pending, c', _) => nextEventLoop C c' xs
      | (o, c', rest) => (o, c', rest ++ xs) := by
  induction pre generalizing c with
  | nil =>
    rw [List.nil_append]
    have hp := C38_poll_effect C c
    cases hn : c.nextEvent C with | mk c1 r =>
    rw [hn] at hp
    cases r with
    | error x => rw [loop_raises hn, loop_raises hn]; rfl
    | ok o =>
      cases o with
      | some e => rw [loop_returns hn, loop_returns hn]; rfl
      | none =>
        have : c1 = c := hp.1 rfl
        subst this
        rw [loop_nil hn]
  | cons d pre ih =>
    rw [List.cons_append]
    cases hn : c.nextEvent C with | mk c1 r =>
    cases r with
    | error x => rw [loop_raises hn, loop_raises hn]; rfl
    | ok o =>
      cases o with
      | some e => rw [loop_returns hn, loop_returns hn]; rfl
      | none =>
        cases d with
        | error x => rw [loop_error hn, loop_error hn]
        | ok d => rw [loop_piece hn, loop_piece hn]; exact ih _

/-- A wait that did not end has used up everything that came. -/
theorem loop_pending (C : BlockCipher) (c c' : Conn) (pre rest : List (Res Bytes))
    (h : nextEventLoop C c pre = (.pending, c', rest)) : rest = [] := by
  induction pre generalizing c with
  | nil =>
    unfold nextEventLoop at h
    split at h
    · cases h
    · cases h
    · cases h; rfl
  | cons d pre ih =>
    unfold nextEventLoop at h
    split at h
    · cases h
    · cases h
    · cases d with
      | error x => cases h
      | ok d => exact ih _ h

/-- Two bytes are not an answer. -/
theorem short_line {w rest : Bytes} (h : (w ++ 0x0D :: rest).length ≤ 2) : BadLine (w ++ [0x0D]) := by
  intro raw hraw x hx
  have h9 := (good_of_accepted (e := x.1) (f := x.2) hx).1
  obtain ⟨_, _, _, _, _, _, _, _, _, h9⟩ := h9
  have hl : raw.length ≤ (w ++ [0x0D]).length := units_length (returnCharacters_units _ _ hraw)
  simp at hl h
  omega

theorem short_pending (C : BlockCipher) (c : Conn) (left : List Bytes) (hb : c.buffer = [])
    (h : left.flatten.length ≤ 2) : (nextEventLoop C c (left.map .ok)).1 = .pending := by
  rw [loop_verdict, feed_empty c left hb]
  obtain ⟨n, hn⟩ := gathered_flatten left
  have hl : (gathered left).length ≤ 2 := by
    rw [hn, List.length_append] at h; omega
  rcases line_cases (gathered left) with h0 | ⟨w, rest, hw, hw2⟩
  · rw [nextEvent_none h0]; rfl
  · rw [bad_poll hw2 (c := { c with buffer := gathered left }) hw (short_line (hw ▸ hl))]; rfl

/-- A damaged answer in pieces: the wait goes on, or ends as with the answer as it was sent. -/
theorem loop_damaged (C : BlockCipher) (c : Conn) (hb : c.buffer = []) {ty svc : UInt8}
    {address data : Bytes} (hty : ty = 0x86 ∨ ty = 0x87) (hsvc : svc.toNat ∈ services)
    (ha : address.length = 6) (hl : data.length ≤ 65520) {sent arrived : Bytes}
    (hs : sent = escBytes (frame ty svc address data).dropLast ++ [0x0D]) (hd : Damaged sent arrived)
    {pieces : List Bytes} (hp : pieces.flatten = arrived) :
    (nextEventLoop C c (pieces.map .ok)).1 = .pending ∨
    (∃ x, (nextEventLoop C c (pieces.map .ok)).1 = .raised x ∧ (nextEventLoop C c [.ok sent]).1 = .raised x) ∨
    ∃ (ev : Event) (left : List Bytes), nextEventLoop C c (pieces.map .ok) = (.returned ev, { c with state := .idle }, left.map .ok) ∧
      nextEventLoop C c [.ok sent] = (.returned ev, { c with state := .idle }, []) ∧
      left.flatten.length ≤ 2 := by
  have hfs : feed c [sent] = { c with buffer := sent } := (damaged_receive hb ha hs hd).1
  obtain ⟨n, hn⟩ := gathered_flatten pieces
  obtain ⟨line, hline⟩ := sent_start ty svc address data
  rw [hp] at hn
  have hg : gathered pieces = sent ∨ Damaged sent (gathered pieces) := by
    rw [hs, hline] at hd ⊢
    exact damaged_skip (by decide) (by decide) hd hn
  have hv := loop_verdict C c pieces
  have hv' := loop_verdict C c [sent]
  rw [feed_empty c pieces hb] at hv
  rw [hfs] at hv'
  have hne : 0x0D ∉ escBytes (frame ty svc address data).dropLast :=
    (escBytes_no_end (frame ty svc address data).dropLast).1
  -- the first line decodes as the frame sent, and little is left behind it
  have key : (nextEventLoop C c (pieces.map .ok)).1 = .pending ∨
      ∃ w rest, gathered pieces = w ++ 0x0D :: rest ∧ 0x0D ∉ w ∧ rest.length ≤ 2 ∧
        returnCharacters (w ++ [0x0D]) = .ok (frame ty svc address data) := by
    rcases hg with hg | hg
    · exact .inr ⟨_, [], hg.trans hs, hne, by simp, line_frame rfl⟩
    · rcases damaged_cases hty hsvc ha hl (hs ▸ hg) with h0 | ⟨w, rest, h1, h2, h3 | ⟨h3, h4⟩⟩
      · left; rw [hv, nextEvent_none h0]; rfl
      · left; rw [hv, bad_poll h2 h1 h3]; rfl
      · exact .inr ⟨w, rest, h1, h2, h4, h3⟩
  rcases key with h | ⟨w, rest, h1, h2, h4, h3⟩
  · exact .inl h
  have same : (nextEventLoop C c (pieces.map .ok)).1 = (nextEventLoop C c ([sent].map .ok)).1 := by
    rw [hv, hv']
    congr 1
    refine poll_first rfl rfl h2 hne h1 (rest' := []) hs ?_
    rw [h3, line_frame rfl]
  cases ho : nextEventLoop C c (pieces.map .ok) with | mk o t =>
  cases ho' : nextEventLoop C c ([sent].map .ok) with | mk o' t' =>
  rw [ho, ho'] at same
  dsimp only at same
  subst same
  have ho'' : nextEventLoop C c [.ok sent] = (o, t') := ho'
  cases o with
  | raised x => exact .inr (.inl ⟨x, rfl, by rw [ho'']⟩)
  | pending => exact .inl rfl
  | returned ev =>
    right; right
    obtain ⟨c1, r1⟩ := t
    obtain ⟨c2, r2⟩ := t'
    obtain ⟨init, last, w1, extra, e1, e2, e3, e4, e5, e6, e7⟩ := (loop_gathered C c c1 _ _ ev hb).1 ho
    obtain ⟨init', last', w2, extra', f1, f2, f3, f4, f5, f6, f7⟩ := (loop_gathered C c c2 _ _ ev hb).1 ho'
    have hr2 : r2 = [] := by
      have := congrArg List.length f1
      simp at this
      have : r2.length = 0 := by omega
      exact List.length_eq_zero_iff.1 this
    obtain ⟨ps, left, hps, hm1, hm2⟩ := List.map_eq_append_iff.1 e1
    have hinj : ps = init ++ [last] := by
      exact (List.map_inj_right (f := (Except.ok : Bytes → Res Bytes)) (fun a b h => Except.ok.inj h)).1 hm1
    subst hinj
    refine ⟨ev, left, by rw [e7, hm2], by rw [ho'', f7, hr2], ?_⟩
    rw [hps, gathered_prefix _ _ (by rw [e3]; simp), e3, List.append_assoc, List.cons_append] at h1
    obtain ⟨_, h1⟩ := line_inj e4 h2 h1
    rw [← h1] at h4
    simp at h4 ⊢
    omega

/-- An exchange whose answer comes after `pre`: it ends within `pre`, or waits for what follows. -/
theorem exchange_more (C : BlockCipher) (s : Sys) (e : Event) (hr : Ready s.conn) (pre : List (Res Bytes)) :
    (∃ o s1, o ≠ .pending ∧ ({ s with recvs := pre } : Sys).exchange C e = (o, s1) ∧
      ∀ xs, ({ s with recvs := pre ++ xs } : Sys).exchange C e = (o, { s1 with recvs := s1.recvs ++ xs })) ∨
    (∀ xs, (({ s with recvs := pre ++ xs } : Sys).exchange C e).1 = .pending) ∨
    ∃ c1 s1, (({ s with recvs := pre } : Sys).exchange C e) = (.pending, s1) ∧ s1.conn = c1 ∧ s1.recvs = [] ∧
      s1.rands = s.rands ∧ s1.password = s.password ∧
      ∀ xs, ({ s with recvs := pre ++ xs } : Sys).exchange C e =
        ((nextEventLoop C c1 xs).1,
          { s1 with conn := (nextEventLoop C c1 xs).2.1, recvs := (nextEventLoop C c1 xs).2.2 }) := by
  cases hsend : (s.conn.send C e (s.rands s.draws)).2 with
  | error x =>
    left
    refine ⟨.raised x, _, by simp, exchange_unsent C ({ s with recvs := pre } : Sys) e x hsend, ?_⟩
    intro xs
    rw [exchange_unsent C ({ s with recvs := pre ++ xs } : Sys) e x hsend]
  | ok req =>
    have hc : s.sends = [] ∨ (∃ x ss, s.sends = .error x :: ss) ∨ ∃ ss, s.sends = .ok () :: ss := by
      rcases s.sends with _ | ⟨x | _, ss⟩
      · exact .inl rfl
      · exact .inr (.inl ⟨x, ss, rfl⟩)
      · exact .inr (.inr ⟨ss, rfl⟩)
    rcases hc with hss | ⟨x, ss, hss⟩ | ⟨ss, hss⟩
    · right; left
      intro xs
      rw [(exchange_untransmitted C ({ s with recvs := pre ++ xs } : Sys) e req hsend).1 hss]
    · left
      refine ⟨.raised x, _, by simp,
        (exchange_untransmitted C ({ s with recvs := pre } : Sys) e req hsend).2 x ss hss, ?_⟩
      intro xs
      rw [(exchange_untransmitted C ({ s with recvs := pre ++ xs } : Sys) e req hsend).2 x ss hss]
    · have h := exchange_loop C ({ s with recvs := pre } : Sys) e req ss hr.2 hsend hss
      have hx := fun xs => exchange_loop C ({ s with recvs := pre ++ xs } : Sys) e req ss hr.2 hsend hss
      dsimp only at h hx
      cases hl : nextEventLoop C (s.conn.send C e (s.rands s.draws)).1 pre with | mk o t =>
      obtain ⟨c1, rest⟩ := t
      have hm := fun xs => loop_more C (s.conn.send C e (s.rands s.draws)).1 pre xs
      rw [hl] at h hm
      cases o with
      | pending =>
        right; right
        dsimp only at hm h
        refine ⟨c1, _, h, rfl, loop_pending C _ _ _ _ hl, rfl, rfl, ?_⟩
        intro xs
        rw [hx, hm]
      | raised x =>
        left
        refine ⟨_, _, by simp, h, ?_⟩
        intro xs
        rw [hx, hm]
      | returned ev =>
        left
        refine ⟨_, _, by simp, h, ?_⟩
        intro xs
        rw [hx, hm]

/-- What is left of a damaged answer does not answer the next request. -/
theorem exchange_short (C : BlockCipher) (s : Sys) (e : Event) (hr : Ready s.conn) (left : List Bytes)
    (hl : left.flatten.length ≤ 2) (hrecv : s.recvs = left.map .ok) :
    (s.exchange C e).1 = .pending ∨ ∃ x, (s.exchange C e).1 = .raised x ∧
      (({ s with recvs := [] } : Sys).exchange C e).1 = .raised x := by
  cases hsend : (s.conn.send C e (s.rands s.draws)).2 with
  | error x =>
    right
    exact ⟨x, by rw [exchange_unsent C s e x hsend],
      by rw [exchange_unsent C ({ s with recvs := [] } : Sys) e x hsend]⟩
  | ok req =>
    have hc : s.sends = [] ∨ (∃ x ss, s.sends = .error x :: ss) ∨ ∃ ss, s.sends = .ok () :: ss := by
      rcases s.sends with _ | ⟨x | _, ss⟩
      · exact .inl rfl
      · exact .inr (.inl ⟨x, ss, rfl⟩)
      · exact .inr (.inr ⟨ss, rfl⟩)
    rcases hc with hss | ⟨x, ss, hss⟩ | ⟨ss, hss⟩
    · left; rw [(exchange_untransmitted C s e req hsend).1 hss]
    · right
      exact ⟨x, by rw [(exchange_untransmitted C s e req hsend).2 x ss hss],
        by rw [(exchange_untransmitted C ({ s with recvs := [] } : Sys) e req hsend).2 x ss hss]⟩
    · left
      rw [exchange_loop C s e req ss hr.2 hsend hss, hrecv]
      have hb1 : (s.conn.send C e (s.rands s.draws)).1.buffer = [] := by
        rw [(send_frame C s.conn e (s.rands s.draws)).2.2]; exact hr.2
      exact short_pending C _ left hb1 hl

/-- All pages of the parameters, one of the answers being damaged. -/
theorem pages_damaged (C : BlockCipher) {ty svc : UInt8}
    {address data : Bytes} (hty : ty = 0x86 ∨ ty = 0x87) (hsvc : svc.toNat ∈ services)
    (ha : address.length = 6) (hl : data.length ≤ 65520) {sent arrived : Bytes}
    (hs : sent = escBytes (frame ty svc address data).dropLast ++ [0x0D]) (hd : Damaged sent arrived)
    {pieces : List Bytes} (hp : pieces.flatten = arrived) (n : Nat) :
    ∀ (s : Sys) (pre : List (Res Bytes)) (count : Int) (total : Bytes), pre.length < n → Ready s.conn →
      ((({ s with recvs := pre } : Sys).readPages C count total).1 = .pending →
        (({ s with recvs := pre } : Sys).readPages C count total).2.conn.buffer = []) →
      (({ s with recvs := pre ++ pieces.map .ok } : Sys).readPages C count total).1 = .pending ∨
      (({ s with recvs := pre ++ pieces.map .ok } : Sys).readPages C count total).1 =
        (({ s with recvs := pre ++ [.ok sent] } : Sys).readPages C count total).1 := by
  induction n with
  | zero => intro s pre count total hn; omega
  | succ n ih =>
    intro s pre count total hn hr hbuf
    rcases exchange_more C s (pageRequest s.password count) hr pre with
      ⟨o, s1, ho, h1, h2⟩ | h | ⟨c1, s1, h1, hc1, hr1, hrands, hpw, h2⟩
    · cases o with
      | pending => exact absurd rfl ho
      | raised x =>
        right
        rw [readPages_raised (s := { s with recvs := pre ++ pieces.map .ok }) (h2 _),
          readPages_raised (s := { s with recvs := pre ++ [.ok sent] }) (h2 _)]
      | returned ev =>
        obtain ⟨p, req, rfl, hE⟩ := page_exchange (s := { s with recvs := pre }) hr h1
        rw [readPages_page (s := { s with recvs := pre ++ pieces.map .ok }) (h2 _),
          readPages_page (s := { s with recvs := pre ++ [.ok sent] }) (h2 _)]
        rw [readPages_page (s := { s with recvs := pre }) h1] at hbuf
        cases hend : p.isEnd with
        | true => right; rfl
        | false =>
          rw [hend] at hbuf
          refine ih s1 s1.recvs _ _ ?_ (by rw [hE.conn]; exact hr) hbuf
          have := exchange_recvs h1
          dsimp only at this
          omega
    · left
      have h' := h (pieces.map .ok)
      cases hx : ({ s with recvs := pre ++ pieces.map .ok } : Sys).exchange C (pageRequest s.password count) with
      | mk o s' =>
      rw [hx] at h'
      dsimp only at h'
      subst h'
      rw [readPages_pending (s := { s with recvs := pre ++ pieces.map .ok }) hx]
    · rw [readPages_pending (s := { s with recvs := pre }) h1] at hbuf
      have hb1 : c1.buffer = [] := by rw [← hc1]; exact hbuf rfl
      have k1 := h2 (pieces.map .ok)
      have k2 := h2 [.ok sent]
      rcases loop_damaged C c1 hb1 hty hsvc ha hl hs hd hp with g | ⟨x, g1, g2⟩ | ⟨ev, left, g1, g2, g3⟩
      · left
        rw [g] at k1
        rw [readPages_pending (s := { s with recvs := pre ++ pieces.map .ok }) k1]
      · right
        rw [g1] at k1
        rw [g2] at k2
        rw [readPages_raised (s := { s with recvs := pre ++ pieces.map .ok }) k1,
          readPages_raised (s := { s with recvs := pre ++ [.ok sent] }) k2]
      · rw [g1] at k1
        rw [g2] at k2
        dsimp only at k1 k2
        obtain ⟨p, req, rfl, hE⟩ := page_exchange (s := { s with recvs := pre ++ pieces.map .ok }) hr k1
        rw [readPages_page (s := { s with recvs := pre ++ pieces.map .ok }) k1,
          readPages_page (s := { s with recvs := pre ++ [.ok sent] }) k2]
        cases hend : p.isEnd with
        | true => right; rfl
        | false =>
          have hr2 : Ready ({ c1 with state := .idle } : Conn) := ⟨rfl, hb1⟩
          have := exchange_short C
            ({ s1 with conn := { c1 with state := .idle }, recvs := left.map .ok } : Sys)
            (pageRequest s1.password (count + p.objectAmount)) hr2 left g3 rfl
          rcases this with g | ⟨x, g4, g5⟩
          · left
            have hs3 := prod_fst g
            exact congrArg Prod.fst (readPages_pending (total := total ++ p.data)
              (s := { s1 with conn := { c1 with state := .idle }, recvs := left.map .ok }) hs3)
          · right
            have hs3 := prod_fst g4
            have hs4 := prod_fst g5
            exact (congrArg Prod.fst (readPages_raised (total := total ++ p.data)
              (s := { s1 with conn := { c1 with state := .idle }, recvs := left.map .ok }) hs3)).trans
              (congrArg Prod.fst (readPages_raised (total := total ++ p.data)
              (s := { s1 with conn := { c1 with state := .idle }, recvs := [] }) hs4)).symm

theorem exchange_damaged (C : BlockCipher) {ty svc : UInt8}
    {address data : Bytes} (hty : ty = 0x86 ∨ ty = 0x87) (hsvc : svc.toNat ∈ services)
    (ha : address.length = 6) (hl : data.length ≤ 65520) {sent arrived : Bytes}
    (hs : sent = escBytes (frame ty svc address data).dropLast ++ [0x0D]) (hd : Damaged sent arrived)
    {pieces : List Bytes} (hp : pieces.flatten = arrived) (s : Sys) (e : Event) (hr : Ready s.conn)
    (pre : List (Res Bytes))
    (hbuf : (({ s with recvs := pre } : Sys).exchange C e).1 = .pending →
        (({ s with recvs := pre } : Sys).exchange C e).2.conn.buffer = []) :
    (({ s with recvs := pre ++ pieces.map .ok } : Sys).exchange C e).1 = .pending ∨
    (({ s with recvs := pre ++ pieces.map .ok } : Sys).exchange C e).1 =
        (({ s with recvs := pre ++ [.ok sent] } : Sys).exchange C e).1 := by
  rcases exchange_more C s e hr pre with ⟨o, s1, ho, h1, h2⟩ | h | ⟨c1, s1, h1, hc1, hr1, hrands, hpw, h2⟩
  · right; rw [h2, h2]
  · left; exact h _
  · rw [h1] at hbuf
    have hb1 : c1.buffer = [] := by rw [← hc1]; exact hbuf rfl
    rw [h2, h2]
    rcases loop_damaged C c1 hb1 hty hsvc ha hl hs hd hp with g | ⟨x, g1, g2⟩ | ⟨ev, left, g1, g2, g3⟩
    · exact .inl g
    · right; rw [g1, g2]
    · right; rw [g1, g2]

/-! ### The claims -/

/-- C80. A connection with nothing left over gets a response line one byte of which was changed, lost or
added. The poll then answers NEED_DATA and changes nothing, or it answers exactly what it would have
answered to the line as it was sent. -/
theorem C80_poll (C : BlockCipher) (c : Conn) (hb : c.buffer = []) (ty svc : UInt8) (address data : Bytes)
    (hty : ty = 0x86 ∨ ty = 0x87) (hsvc : svc.toNat ∈ services) (ha : address.length = 6)
    (hl : data.length ≤ 65520) (sent arrived : Bytes)
    (hs : sent = escBytes (frame ty svc address data).dropLast ++ [0x0D]) (hd : Damaged sent arrived) :
    (c.receiveData arrived).nextEvent C = (c.receiveData arrived, .ok none) ∨
    ((c.receiveData arrived).nextEvent C).2 = ((c.receiveData sent).nextEvent C).2 := by
  obtain ⟨r1, r2⟩ := damaged_receive hb ha hs hd
  rw [r1, r2]
  rcases damaged_cases hty hsvc ha hl (hs ▸ hd) with h0 | ⟨w, rest, h1, h2, h3 | ⟨h3, _⟩⟩
  · exact .inl (nextEvent_none h0)
  · exact .inl (bad_poll h2 h1 h3)
  · right
    refine poll_first rfl rfl h2 (escBytes_no_end (frame ty svc address data).dropLast).1 h1
      (rest' := []) hs ?_
    rw [h3, line_frame rfl]

/-- C80. If what arrived contains an end character, this is for good: unless the poll answers what it would
have answered to the line as it was sent, every poll from then on answers NEED_DATA, whatever is
received and sent. -/
theorem C80_forever (C : BlockCipher) (c : Conn) (hb : c.buffer = []) (ty svc : UInt8) (address data : Bytes)
    (hty : ty = 0x86 ∨ ty = 0x87) (hsvc : svc.toNat ∈ services) (ha : address.length = 6)
    (hl : data.length ≤ 65520) (sent arrived : Bytes)
    (hs : sent = escBytes (frame ty svc address data).dropLast ++ [0x0D]) (hd : Damaged sent arrived)
    (hend : 0x0D ∈ arrived) :
    ((c.receiveData arrived).nextEvent C).2 = ((c.receiveData sent).nextEvent C).2 ∨
    ∀ ops y, Outcome.polled y ∈ (run C (c.receiveData arrived) ops).2 → y = .ok none := by
  obtain ⟨r1, r2⟩ := damaged_receive hb ha hs hd
  rw [r1, r2]
  rcases damaged_cases hty hsvc ha hl (hs ▸ hd) with h0 | ⟨w, rest, h1, h2, h3 | ⟨h3, _⟩⟩
  · exact absurd hend h0
  · right
    intro ops y hy
    exact C39_blocked_forever C { c with buffer := arrived } w rest ops h2 h1 h3 y hy
  · left
    refine poll_first rfl rfl h2 (escBytes_no_end (frame ty svc address data).dropLast).1 h1
      (rest' := []) hs ?_
    rw [h3, line_frame rfl]

/-- C80. A client call whose answer is damaged in one byte, and arrives in any pieces: the call keeps waiting,
or ends exactly as it would have ended with the answer as it was sent. -/
theorem C80_exchange (C : BlockCipher) (s : Sys) (e : Event) (hr : Ready s.conn) (ty svc : UInt8)
    (address data : Bytes) (hty : ty = 0x86 ∨ ty = 0x87) (hsvc : svc.toNat ∈ services)
    (ha : address.length = 6) (hl : data.length ≤ 65520) (sent arrived : Bytes)
    (hs : sent = escBytes (frame ty svc address data).dropLast ++ [0x0D]) (hd : Damaged sent arrived)
    (pieces : List Bytes) (hp : pieces.flatten = arrived) (hrecv : s.recvs = pieces.map .ok) :
    (s.exchange C e).1 = .pending ∨
    (s.exchange C e).1 = (({ s with recvs := [.ok sent] } : Sys).exchange C e).1 := by
  have hb1 : (s.conn.send C e (s.rands s.draws)).1.buffer = [] := by
    rw [(send_frame C s.conn e (s.rands s.draws)).2.2]; exact hr.2
  cases hsend : (s.conn.send C e (s.rands s.draws)).2 with
  | error x =>
    right
    rw [exchange_unsent C s e x hsend,
      exchange_unsent C ({ s with recvs := [.ok sent] } : Sys) e x hsend]
  | ok req =>
    have hc : s.sends = [] ∨ (∃ x ss, s.sends = .error x :: ss) ∨ ∃ ss, s.sends = .ok () :: ss := by
      rcases s.sends with _ | ⟨x | _, ss⟩
      · exact .inl rfl
      · exact .inr (.inl ⟨x, ss, rfl⟩)
      · exact .inr (.inr ⟨ss, rfl⟩)
    rcases hc with hss | ⟨x, ss, hss⟩ | ⟨ss, hss⟩
    · left; rw [(exchange_untransmitted C s e req hsend).1 hss]
    · right
      rw [(exchange_untransmitted C s e req hsend).2 x ss hss,
        (exchange_untransmitted C ({ s with recvs := [.ok sent] } : Sys) e req hsend).2 x ss hss]
    · rw [exchange_loop C s e req ss hr.2 hsend hss,
        exchange_loop C ({ s with recvs := [.ok sent] } : Sys) e req ss hr.2 hsend hss]
      generalize (s.conn.send C e (s.rands s.draws)).1 = c1 at hb1
      show (nextEventLoop C c1 s.recvs).1 = _ ∨
        (nextEventLoop C c1 s.recvs).1 = (nextEventLoop C c1 ([sent].map .ok)).1
      rw [hrecv, loop_verdict, loop_verdict, feed_empty c1 pieces hb1]
      have hfs : feed c1 [sent] = { c1 with buffer := sent } := (damaged_receive hb1 ha hs hd).1
      rw [hfs]
      obtain ⟨n, hn⟩ := gathered_flatten pieces
      obtain ⟨line, hline⟩ := sent_start ty svc address data
      rw [hp] at hn
      have hg : gathered pieces = sent ∨ Damaged sent (gathered pieces) := by
        rw [hs, hline] at hd ⊢
        exact damaged_skip (by decide) (by decide) hd hn
      rcases hg with hg | hg
      · right; rw [hg]
      · rcases damaged_cases hty hsvc ha hl (hs ▸ hg) with h0 | ⟨w, rest, h1, h2, h3 | ⟨h3, _⟩⟩
        · left; rw [nextEvent_none h0]; rfl
        · left; rw [bad_poll h2 h1 h3]; rfl
        · right
          congr 1
          refine poll_first rfl rfl h2 (escBytes_no_end (frame ty svc address data).dropLast).1 h1
            (rest' := []) hs ?_
          rw [h3, line_frame rfl]

/-- C80. Any client call, any answer of it: after `pre` the call has used up everything that came (or has
ended), then comes an answer that is damaged in one byte, in any pieces. The call keeps waiting, or
ends exactly as it would have ended had that answer come as it was sent. -/
theorem C80_call (C : BlockCipher) (s : Sys) (k : Call) (hr : Ready s.conn) (ty svc : UInt8)
    (address data : Bytes) (hty : ty = 0x86 ∨ ty = 0x87) (hsvc : svc.toNat ∈ services)
    (ha : address.length = 6) (hl : data.length ≤ 65520) (sent arrived : Bytes)
    (hs : sent = escBytes (frame ty svc address data).dropLast ++ [0x0D]) (hd : Damaged sent arrived)
    (pre : List (Res Bytes)) (pieces : List Bytes) (hp : pieces.flatten = arrived)
    (hpre : (callV C { s with recvs := pre } k).1 = .pending →
      (callV C { s with recvs := pre } k).2.conn.buffer = []) :
    (callV C { s with recvs := pre ++ pieces.map .ok } k).1 = .pending ∨
    (callV C { s with recvs := pre ++ pieces.map .ok } k).1 =
      (callV C { s with recvs := pre ++ [.ok sent] } k).1 := by
  have key := fun e => exchange_damaged C hty hsvc ha hl hs hd hp s e hr pre
  cases k with
  | readParameters n =>
    have := pages_damaged C hty hsvc ha hl hs hd hp (pre.length + 1) s pre n [] (by omega) hr
      (by
        intro h
        refine hpre ?_
        simp only [callV, Sys.readParameters, h]; rfl)
    rcases this with h | h
    · left; simp only [callV, Sys.readParameters, h]; rfl
    · right; simp only [callV, Sys.readParameters, h]
  | readInstantaneousValues =>
    rcases key (.readInstantaneousValuesRequest { password := s.password })
      (fun h => hpre (by simp only [callV, Sys.readInstantaneousValues, h]; rfl)) with h | h
    · left; simp only [callV, Sys.readInstantaneousValues, h]; rfl
    · right; simp only [callV, Sys.readInstantaneousValues, h]
  | readTime =>
    rcases key (.readTimeRequest {}) (fun h => hpre (by simp only [callV, Sys.readTime, h]; rfl)) with h | h
    · left; simp only [callV, Sys.readTime, h]; rfl
    · right; simp only [callV, Sys.readTime, h]
  | writeTime t b =>
    rcases key (.writeTimeRequest { password := s.password, deviceTime := t, cryout := b })
      (fun h => hpre (by simp only [callV, Sys.writeTime, h]; rfl)) with h | h
    · left; simp only [callV, Sys.writeTime, h]; rfl
    · right; simp only [callV, Sys.writeTime, h]
  | readArchive a n i =>
    rcases key (.readArchiveRequest { password := s.password, archive := a, amount := n, oldestRecordId := i })
      (fun h => hpre (by simp only [callV, Sys.readArchive, h]; rfl)) with h | h
    · left; simp only [callV, Sys.readArchive, h]; rfl
    · right; simp only [callV, Sys.readArchive, h]
  | readArchiveByTime a n t =>
    rcases key (.readArchiveByTimeRequest ⟨s.password, a, n, t⟩)
      (fun h => hpre (by simp only [callV, Sys.readArchiveByTime, h]; rfl)) with h | h
    · left; simp only [callV, Sys.readArchiveByTime, h]; rfl
    · right; simp only [callV, Sys.readArchiveByTime, h]

/-- An answer to a read of the time whose data contain an escape byte. -/
def exTimeAnswer : Bytes :=
  escBytes (frame 0x86 0x6C [0, 0, 0, 0, 0, 0]
    [0x00, 0x30, 0x12, 0x01, 0x01, 0x20, 0x00, 0x1B, 0x00, 0x00]).dropLast ++ [0x0D]

-- one byte is changed: the client waits
example : Damaged exTimeAnswer (exTimeAnswer.set 13 0x11) ∧
    ((exSys 1 [.ok (exTimeAnswer.set 13 0x11)]).readTime idCipher).1 = .pending := by
  refine ⟨?_, by decide +kernel⟩
  exact .changed (exTimeAnswer.take 13) 0x30 0x11 (exTimeAnswer.drop 14) (by decide)

-- one half of the pair 0x1B 0x1B is lost, and the answer comes in two pieces: the time is still read
example : Damaged exTimeAnswer (exTimeAnswer.eraseIdx 19) ∧
    [(exTimeAnswer.eraseIdx 19).take 5, (exTimeAnswer.eraseIdx 19).drop 5].flatten = exTimeAnswer.eraseIdx 19 ∧
    ((exSys 1 ([(exTimeAnswer.eraseIdx 19).take 5, (exTimeAnswer.eraseIdx 19).drop 5].map .ok)).readTime
      idCipher).1 = .returned ⟨2020, 1, 1, 12, 30, 0, 0⟩ := by
  refine ⟨?_, by decide +kernel, by decide +kernel⟩
  exact .lost (exTimeAnswer.take 19) 0x1B (exTimeAnswer.drop 20)

example : exTimeAnswer[19]? = some 0x1B ∧ Ready (exSys 1 []).conn := ⟨by decide +kernel, rfl, rfl⟩

/-- The first page of `exPageRecvs`, and the second one. -/
def exPage1 : Bytes :=
  exWire .readScadaParameters (exPage 0 false (record (UInt8.ofNat ObjType.BINARY.value, exBinary)))

def exPage2 : Bytes :=
  escBytes (frame 0x86 0x70 [0, 0, 0, 0, 0, 0]
    (exPage 1 true (record (UInt8.ofNat ObjType.TIME_WINDOW.value, exTimeWindow)))).dropLast ++ [0x0D]

/-- The call after a first page, whatever comes then. -/
theorem pages_after {C : BlockCipher} {s s1 : Sys} {n : Int} {pre xs : List (Res Bytes)}
    {p : ReadDeviceParametersResponse} (hr : Ready s.conn)
    (h1 : ({ s with recvs := pre } : Sys).exchange C (pageRequest s.password n) =
      (.returned (.readDeviceParametersResponse p), s1)) (hp : p.isEnd = false) (hs1 : s1.recvs = [])
    (h : (({ s1 with recvs := xs } : Sys).exchange C (pageRequest s1.password (n + p.objectAmount))).1 = .pending) :
    (callV C { s with recvs := pre ++ xs } (.readParameters n)).1 = .pending ∧
    (callV C { s with recvs := pre ++ xs } (.readParameters n)).2 =
      (({ s1 with recvs := xs } : Sys).exchange C (pageRequest s1.password (n + p.objectAmount))).2 := by
  have e2 : ({ s with recvs := pre ++ xs } : Sys).exchange C (pageRequest s.password n) =
      (.returned (.readDeviceParametersResponse p), { s1 with recvs := xs }) := by
    rcases exchange_more C s (pageRequest s.password n) hr pre with
      ⟨o, s2, _, h3, h4⟩ | h3 | ⟨c2, s2, h3, _⟩
    · rw [h1] at h3
      injection h3 with ho hs
      rw [h4, ← ho, ← hs, hs1]; rfl
    · have := h3 []
      rw [List.append_nil, h1] at this
      cases this
    · rw [h1] at h3
      cases h3
  have e3 := readPages_page (s := { s with recvs := pre ++ xs }) (total := []) e2
  rw [hp, if_neg (by simp)] at e3
  have e4 := readPages_pending (s := { s1 with recvs := xs }) (total := [] ++ p.data) (prod_fst h)
  have e5 := e3.trans e4
  unfold callV Sys.readParameters
  dsimp only
  rw [e5]
  exact ⟨rfl, rfl⟩

/-- The client after the first page. -/
def exAfter : Sys := ((exSys 2 [.ok exPage1]).exchange idCipher (pageRequest "000000".toList 0)).2

theorem exAfter_first : (exSys 2 [.ok exPage1]).exchange idCipher (pageRequest "000000".toList 0) = (.returned
      (.readDeviceParametersResponse ⟨record (UInt8.ofNat ObjType.BINARY.value, exBinary), 0, 1, false⟩),
      exAfter) := by
  refine prod_fst ?_
  decide +kernel

-- the second page of the parameters is damaged: the first page alone leaves the call waiting with nothing
-- left over, and the call waits on
example : Damaged exPage2 (exPage2.set 5 0x30) ∧
    (callV idCipher { exSys 2 [] with recvs := [.ok exPage1] ++ [] } (.readParameters 0)).2.conn.buffer = [] ∧
    (callV idCipher { exSys 2 [] with recvs := [.ok exPage1] ++ [.ok (exPage2.set 5 0x30)] }
      (.readParameters 0)).1 = .pending := by
  have hl : exPage2 = exPage2.take 5 ++ exPage2[5]! :: exPage2.drop 6 := by decide +kernel
  have hl' : exPage2.set 5 0x30 = exPage2.take 5 ++ 0x30 :: exPage2.drop 6 := by decide +kernel
  have hd : Damaged exPage2 (exPage2.set 5 0x30) := by
    rw [hl']
    conv => arg 1; rw [hl]
    exact .changed _ _ _ _ (by decide +kernel)
  have hr1 : exAfter.recvs = [] := by decide +kernel
  have h2 : (({ exAfter with recvs := [] } : Sys).exchange idCipher (pageRequest exAfter.password (0 + 1))).1 =
      .pending := by decide +kernel
  have h3 : (({ exAfter with recvs := [.ok (exPage2.set 5 0x30)] } : Sys).exchange idCipher
      (pageRequest exAfter.password (0 + 1))).1 = .pending := by decide +kernel
  refine ⟨hd, ?_, (pages_after (s := exSys 2 []) ⟨rfl, rfl⟩ exAfter_first rfl hr1 h3).1⟩
  rw [(pages_after (s := exSys 2 []) ⟨rfl, rfl⟩ exAfter_first rfl hr1 h2).2]
  decide +kernel

end Elgas
