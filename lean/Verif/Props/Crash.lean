import Verif.Spec.Crash
import Verif.Props.Program
import Verif.Props.Assign
/-!
C98: a session that breaks off. Whatever part of the bytes written reaches the device, and wherever the stream of its
answers ends or a read or write raises, the device has carried out a first part of the calls, the client has returned
their values and nothing else, and the rest can be made up for in a second session.
-/
namespace Elgas
open Spec

/-! ### A stream that breaks off -/

/-- The device is given request lines; of its answers, whole ones are read, cut into pieces, and then, when it gets on
to the lines left, at most a part of the next answer and then nothing or an exception. -/
inductive Cut (C : BlockCipher) : Device → List Bytes → List (Res Bytes) → Device → Prop
  | part (D D' lines out) (ps : List Bytes) (bad : List (Res Bytes)) : Serves C D lines out D' → 0x0D ∉ ps.flatten → (bad = [] ∨ ∃ x t, bad = .error x :: t) →
      Cut C D lines (ps.map .ok ++ bad) D'
  | reply (D D1 D' w ws) (pieces : List Bytes) (last : Bytes) (rs : List (Res Bytes)) : Replies C D w D1 (pieces.flatten ++ last) → last ≠ [] → Cut C D1 ws rs D' →
      Cut C D (w :: ws) ((pieces ++ [last]).map .ok ++ rs) D'

theorem serves_nil {C : BlockCipher} {D D' : Device} {out : Bytes} (h : Serves C D [] out D') : D' = D := by
  generalize hl : ([] : List Bytes) = l at h
  cases h with
  | nil => rfl
  | request => cases hl

theorem cut_nil {C : BlockCipher} {D D' : Device} {rs : List (Res Bytes)} (h : Cut C D [] rs D') : D' = D := by
  generalize hl : ([] : List Bytes) = l at h
  cases h with
  | part D D' lines out ps bad h1 => subst hl; exact serves_nil h1
  | reply => cases hl

theorem loop_part {C : BlockCipher} {bad : List (Res Bytes)} (hb : bad = [] ∨ ∃ x t, bad = .error x :: t) :
    ∀ (ps : List Bytes) (c : Conn), 0x0D ∉ c.buffer ++ ps.flatten →
    ∀ ev, (nextEventLoop C c (ps.map .ok ++ bad)).1 ≠ .returned ev := by
  intro ps
  have hno : ∀ c : Conn, 0x0D ∉ c.buffer → c.nextEvent C = (c, .ok none) := by
    intro c h
    have hi : ∀ b : Bytes, 0x0D ∉ b → indexEnd b = none := by
      intro b
      induction b with
      | nil => intro _; rfl
      | cons x b ih =>
        intro h
        unfold indexEnd
        rw [if_neg (fun hx => h (by simp [hx])), ih (fun hx => h (by simp [hx]))]
        rfl
    unfold Conn.nextEvent
    split
    · rfl
    · rw [hi _ h]
  induction ps with
  | nil =>
    intro c h ev
    have hn := hno c (fun hx => h (by simp [hx]))
    rcases hb with rfl | ⟨x, t, rfl⟩
    · rw [List.map_nil, List.nil_append, loop_nil hn]
      intro h; cases h
    · rw [List.map_nil, List.nil_append, loop_error hn]
      intro h; cases h
  | cons p ps ih =>
    intro c h ev
    have hn := hno c (fun hx => h (by simp [hx]))
    rw [List.map_cons, List.cons_append, loop_piece hn]
    refine ih _ ?_ ev
    intro hx
    apply h
    unfold Conn.receiveData at hx
    simp only [List.flatten_cons]
    split at hx
    · simp only [List.mem_append] at hx ⊢
      rcases hx with hx | hx
      · exact .inl hx
      · exact .inr (.inr hx)
    · split at hx
      · simp only [List.mem_append] at hx ⊢
        rcases hx with hx | hx
        · exact .inl hx
        · exact .inr (.inr hx)
      · simpa using hx

theorem replies_does {C : BlockCipher} {ca : ConnArgs} {D D1 : Device} {s : Sys} (hf : Fit C ca D s) {e : Event}
    (ht : TimeFits e) {w line : Bytes} (hw : (s.conn.send C e (s.rands s.draws)).2 = .ok w)
    (hrep : Replies C D w D1 line) : ∃ reply, Does D (askedOf e) D1 reply := by
  obtain ⟨code, body, h1, h2, h3⟩ := send_carries hf.reach hw hf.context
  obtain ⟨service, body', a, reply, g1, g2, g3, g4⟩ := hrep
  obtain ⟨rfl, rfl⟩ := carries_unique h3 g1
  have ha := ((reads_iff (hf.pads _) ht h1 h2 a).1 g2).2
  subst ha
  exact ⟨reply, g3⟩

/-- An exchange in such a session either is carried out or fails. -/
theorem exchange_cut {C : BlockCipher} {ca : ConnArgs} {D D' : Device} {s : Sys} (hf : Fit C ca D s) {e : Event}
    (ht : TimeFits e) {u : EventType} {svc : ServiceNumber} (hu : responseOf e.type = some u)
    (hsvc : serviceOf u = some svc) {w : Bytes} (hw : (s.conn.send C e (s.rands s.draws)).2 = .ok w)
    {lines more : List Bytes} (hpre : lines <+: w :: more) (hcut : Cut C D lines s.recvs D') :
    (∃ D1 lines' ss rs reply, lines = w :: lines' ∧ lines' <+: more ∧ Cut C D1 lines' rs D' ∧
      Does D (askedOf e) D1 reply ∧ ∀ pdu, (∀ b, reply = [b] → ¬ OneBit b) → Decodes svc reply pdu →
        s.exchange C e = (.returned pdu, { s with sends := ss, recvs := rs, draws := s.draws + 1,
                                                  handed := s.handed ++ [w] })) ∨
    ((∀ pdu, (s.exchange C e).1 ≠ .returned pdu) ∧ (s.exchange C e).2.handed = s.handed ++ [w] ∧
      (s.exchange C e).2.conn.state ≠ .idle ∧ (lines <+: [w] → D' = D ∨ ∃ reply, Does D (askedOf e) D' reply)) := by
  have hhand : (s.exchange C e).2.handed = s.handed ++ [w] := by
    rcases hss : s.sends with _ | ⟨x | _, ss⟩
    · rw [(exchange_untransmitted C s e w hw).1 hss]
    · rw [(exchange_untransmitted C s e w hw).2 _ _ hss]
    · rw [exchange_loop C s e w _ hf.ready.2 hw hss]
  have hfail : (∀ pdu, (s.exchange C e).1 ≠ .returned pdu) →
      (lines <+: [w] → D' = D ∨ ∃ reply, Does D (askedOf e) D' reply) →
      ((∀ pdu, (s.exchange C e).1 ≠ .returned pdu) ∧ (s.exchange C e).2.handed = s.handed ++ [w] ∧
      (s.exchange C e).2.conn.state ≠ .idle ∧ (lines <+: [w] → D' = D ∨ ∃ reply, Does D (askedOf e) D' reply)) := by
    intro h1 h2
    refine ⟨h1, hhand, ?_, h2⟩
    rcases C55_exchange C s e (isRequest_of hu) hf.ready with ⟨pdu, j, _⟩ | ⟨_, _, j⟩
    · exact absurd j (h1 pdu)
    · exact j
  generalize hrs : s.recvs = recvs at hcut
  cases hcut with
  | part _ _ _ out ps bad h1 h2 h3 =>
    refine .inr (hfail ?_ ?_)
    · intro pdu
      rcases hss : s.sends with _ | ⟨x | _, ss⟩
      · rw [(exchange_untransmitted C s e w hw).1 hss]; intro h; cases h
      · rw [(exchange_untransmitted C s e w hw).2 _ _ hss]; intro h; cases h
      · rw [exchange_loop C s e w _ hf.ready.2 hw hss, hrs]
        refine loop_part h3 ps _ ?_ pdu
        rw [(send_frame C s.conn e (s.rands s.draws)).2.2, hf.ready.2]
        exact h2
    · intro hl
      cases h1 with
      | nil => exact .inl rfl
      | request _ D1 _ w' ws line out' g1 g2 =>
        obtain ⟨t, ht'⟩ := hl
        simp only [List.cons_append, List.cons.injEq, List.append_eq_nil_iff] at ht'
        obtain ⟨rfl, rfl, rfl⟩ := ht'
        rw [serves_nil g2]
        exact .inr (replies_does hf ht hw g1)
  | reply _ D1 _ w' ws pieces last rs h1 h2 h3 =>
    obtain ⟨t, ht'⟩ := hpre
    simp only [List.cons_append, List.cons.injEq] at ht'
    obtain ⟨rfl, ht'⟩ := ht'
    have hlost : w' :: ws <+: [w'] → D' = D ∨ ∃ reply, Does D (askedOf e) D' reply := by
      rintro ⟨t, ht'⟩
      simp only [List.cons_append, List.cons.injEq, List.append_eq_nil_iff] at ht'
      obtain ⟨_, rfl, rfl⟩ := ht'
      rw [cut_nil h3]
      exact .inr (replies_does hf ht hw h1)
    rcases hss : s.sends with _ | ⟨x | _, ss⟩
    · refine .inr (hfail (fun pdu => ?_) hlost)
      rw [(exchange_untransmitted C s e w' hw).1 hss]; intro h; cases h
    · refine .inr (hfail (fun pdu => ?_) hlost)
      rw [(exchange_untransmitted C s e w' hw).2 _ _ hss]; intro h; cases h
    · obtain ⟨reply, g1, g2, _⟩ := exchange_device hf ht hu hsvc hw hss h2 hrs h1
      exact .inl ⟨D1, ws, ss, rs, reply, rfl, ⟨t, ht'⟩, h3, g1, g2⟩

/-- How a call leaves the client: as it was, further on in the session. -/
structure Further (s s' : Sys) (ws : List Bytes) : Prop where
  conn : s'.conn = s.conn
  password : s'.password = s.password
  rands : s'.rands = s.rands
  handed : s'.handed = s.handed ++ ws

/-- Reading all pages, or some of them. -/
theorem pages_cut {C : BlockCipher} {ca : ConnArgs} {D D' : Device} (hd : D.Ok) :
    ∀ (m : Nat) (s : Sys) (count : Int) (total : Bytes) (lines ws more : List Bytes), lines.length = m →
    Fit C ca D s → IsLatin1 s.password → latin1 s.password = D.password → 0 ≤ count ∧ count ≤ 65535 →
    (s.readPages C count total).2.handed ++ more = s.handed ++ ws → lines <+: ws → Cut C D lines s.recvs D' →
    (∃ ws1 lines', lines = ws1 ++ lines' ∧ ws = ws1 ++ more ∧ Cut C D lines' (s.readPages C count total).2.recvs D' ∧
      (s.readPages C count total).1 = .returned (total ++ (D.objects.drop count.toNat).flatten) ∧
      Further s (s.readPages C count total).2 ws1) ∨
    (∃ ws1, ws = ws1 ++ more ∧ (∀ v, (s.readPages C count total).1 ≠ .returned v) ∧
      (s.readPages C count total).2.conn.state ≠ .idle ∧ (s.readPages C count total).2.handed = s.handed ++ ws1 ∧
      (lines <+: ws1 → D' = D)) := by
  intro m
  induction m using Nat.strongRecOn with
  | _ m ih =>
    intro s count total lines ws more hm hf hp hpw hc hh hpre hcut
    have h6 : s.password.length = 6 := by
      have := congrArg List.length hpw
      rw [hd.password] at this
      simpa [latin1] using this
    obtain ⟨b, hb, hbl⟩ := pageBody_ok hp h6 hc (hf.pads s.draws)
    obtain ⟨w, hw⟩ := send_fits hf hd (isRequest_of rfl) hb hbl
    obtain ⟨more1, hmore⟩ := pages_more hf.reach count total
    have hsame : ∀ {D1 reply}, Does D (askedOf (pageRequest s.password count)) D1 reply → D1 = D := by
      intro D1 reply g
      exact (does_parameters g hpw).1
    have hwfirst : ws = w :: (more1 ++ more) := by
      have hx : (s.exchange C (pageRequest s.password count)).2.handed = s.handed ++ [w] := by
        rcases hss : s.sends with _ | ⟨x | _, ss⟩
        · rw [(exchange_untransmitted C s _ w hw).1 hss]
        · rw [(exchange_untransmitted C s _ w hw).2 _ _ hss]
        · rw [exchange_loop C s _ w _ hf.ready.2 hw hss]
      rw [hmore, hx, List.append_assoc, List.append_assoc] at hh
      exact (List.append_cancel_left hh).symm
    subst hwfirst
    rcases exchange_cut hf (show TimeFits (pageRequest s.password count) from trivial) rfl rfl hw hpre hcut with
      ⟨D1, lines', ss, rs, reply, rfl, hpre', hcut', g2, g3⟩ | ⟨f1, f2, f3, f4⟩
    · obtain ⟨rfl, k, flag, k1, k2, rfl⟩ := does_parameters g2 hpw
      have hobj := hd.objects
      have hdec := decode_page (first := count.toNat) (k := k) (by omega) (by omega) flag
        ((D1.objects.drop count.toNat).take k).flatten
      have hx := g3 _ (not_oneBit (by simp [le2])) (.parameters _ _ hdec)
      have hstep := readPages_page (total := total) hx
      dsimp only at hstep
      have hsplit : ((D1.objects.drop count.toNat).take k).flatten ++ (D1.objects.drop (count.toNat + k)).flatten =
          (D1.objects.drop count.toNat).flatten := by
        rw [← List.flatten_append, ← List.drop_drop, List.take_append_drop]
      by_cases hflag : flag = 0
      · rw [if_neg (by simp [hflag])] at hstep
        have hlt : ¬ D1.objects.length ≤ count.toNat + k := fun h => (k2.2 h) hflag
        rw [hstep] at hh ⊢
        rw [List.length_cons] at hm
        have hh' : (Sys.readPages C { s with sends := ss, recvs := rs, draws := s.draws + 1,
                                             handed := s.handed ++ [w] } (count + (k : Int)) (total ++
              ((D1.objects.drop count.toNat).take k).flatten)).2.handed ++ more =
            (s.handed ++ [w]) ++ (more1 ++ more) := by
          rw [hh]; simp
        rcases ih lines'.length (by omega)
          { s with sends := ss, recvs := rs, draws := s.draws + 1, handed := s.handed ++ [w] } (count + (k : Int)) _
          lines' (more1 ++ more) more rfl ⟨hf.reach, hf.ready, hf.context, hf.pads⟩ hp hpw (by omega) hh' hpre' hcut' with
          ⟨ws1, lines2, j0, j1, j2, j3, j4⟩ | ⟨ws1, j1, j2, j3, j4, j5⟩
        · refine .inl ⟨w :: ws1, lines2, by rw [j0]; rfl, by rw [j1]; rfl, j2, ?_, ?_⟩
          · rw [j3, List.append_assoc, show (count + (k : Int)).toNat = count.toNat + k by omega, hsplit]
          · exact ⟨j4.conn, j4.password, j4.rands, by rw [j4.handed]; simp⟩
        · refine .inr ⟨w :: ws1, by rw [j1]; rfl, j2, j3, by rw [j4]; simp, fun h => j5 ?_⟩
          exact (List.prefix_cons_inj w).1 h
      · rw [if_pos (by simp [hflag])] at hstep
        have hge := k2.1 hflag
        rw [hstep] at hh ⊢
        dsimp only at hh
        have hm1 : more1 = [] := by
          simpa using congrArg List.length hh
        subst hm1
        refine .inl ⟨[w], lines', rfl, rfl, hcut', ?_, ⟨rfl, rfl, rfl, rfl⟩⟩
        rw [List.drop_of_length_le hge] at hsplit
        rw [← hsplit]; simp
    · have hfail : ∃ o, (∀ v, o ≠ Outcome3.returned v) ∧
          s.readPages C count total = (o, (s.exchange C (pageRequest s.password count)).2) := by
        cases he : s.exchange C (pageRequest s.password count) with | mk o s1 =>
        rw [he] at f1
        cases o with
        | returned p => exact absurd rfl (f1 p)
        | raised x => exact ⟨.raised x, fun v h => by (cases h), readPages_raised he⟩
        | pending => exact ⟨.pending, fun v h => by (cases h), readPages_pending he⟩
      obtain ⟨o, ho, hr⟩ := hfail
      rw [hr] at hh ⊢
      dsimp only at hh ⊢
      have hm1 : more1 = [] := by
        rw [f2] at hh
        simpa using congrArg List.length hh
      subst hm1
      refine .inr ⟨[w], rfl, ho, f3, f2, fun h => ?_⟩
      rcases f4 h with h | ⟨reply, h⟩
      · exact h
      · exact hsame h

theorem callV_failed {C : BlockCipher} {s : Sys} {k : Call}
    (h : ∀ pdu, (s.exchange C (firstOf s.password k)).1 ≠ .returned pdu) :
    (∀ v, (callV C s k).1 ≠ .returned v) ∧ (callV C s k).2 = (s.exchange C (firstOf s.password k)).2 := by
  cases he : s.exchange C (firstOf s.password k) with | mk o s1 =>
  rw [he] at h
  cases o with
  | returned p => exact absurd rfl (h p)
  | raised x =>
    cases k with
    | readInstantaneousValues =>
      simp only [firstOf] at he; simp only [callV, Sys.readInstantaneousValues, he, Outcome3.andThen]
      exact ⟨fun v h => (by cases h), trivial⟩
    | readArchive a n i =>
      simp only [firstOf] at he; simp only [callV, Sys.readArchive, he, Outcome3.andThen]
      exact ⟨fun v h => (by cases h), trivial⟩
    | readArchiveByTime a n t =>
      simp only [firstOf] at he; simp only [callV, Sys.readArchiveByTime, he, Outcome3.andThen]
      exact ⟨fun v h => (by cases h), trivial⟩
    | readTime =>
      simp only [firstOf] at he; simp only [callV, Sys.readTime, he, Outcome3.andThen]
      exact ⟨fun v h => (by cases h), trivial⟩
    | writeTime t b =>
      simp only [firstOf] at he; simp only [callV, Sys.writeTime, he, Outcome3.andThen]
      exact ⟨fun v h => (by cases h), trivial⟩
    | readParameters n =>
      dsimp only [callV, Sys.readParameters]
      rw [readPages_raised he]
      exact ⟨fun v h => (by cases h), rfl⟩
  | pending =>
    cases k with
    | readInstantaneousValues =>
      simp only [firstOf] at he; simp only [callV, Sys.readInstantaneousValues, he, Outcome3.andThen]
      exact ⟨fun v h => (by cases h), trivial⟩
    | readArchive a n i =>
      simp only [firstOf] at he; simp only [callV, Sys.readArchive, he, Outcome3.andThen]
      exact ⟨fun v h => (by cases h), trivial⟩
    | readArchiveByTime a n t =>
      simp only [firstOf] at he; simp only [callV, Sys.readArchiveByTime, he, Outcome3.andThen]
      exact ⟨fun v h => (by cases h), trivial⟩
    | readTime =>
      simp only [firstOf] at he; simp only [callV, Sys.readTime, he, Outcome3.andThen]
      exact ⟨fun v h => (by cases h), trivial⟩
    | writeTime t b =>
      simp only [firstOf] at he; simp only [callV, Sys.writeTime, he, Outcome3.andThen]
      exact ⟨fun v h => (by cases h), trivial⟩
    | readParameters n =>
      dsimp only [callV, Sys.readParameters]
      rw [readPages_pending he]
      exact ⟨fun v h => (by cases h), rfl⟩

/-- What the device may do on the request of a call. -/
theorem does_ideal {D D' : Device} {pw : PyStr} (hpw : latin1 pw = D.password) {k : Call} {reply : Bytes}
    (h : Does D (askedOf (firstOf pw k)) D' reply) : D' = D ∨ ∃ r, Ideal D k r D' := by
  cases k with
  | readInstantaneousValues => exact .inl (does_values h hpw).1
  | readTime => exact .inl (does_time h).1
  | writeTime t c =>
    rw [(does_setTime h hpw).1]
    exact .inr ⟨_, .writeTime t c⟩
  | readParameters n => exact .inl (does_parameters h hpw).1
  | readArchive x n i => exact .inl (does_archive h hpw).1
  | readArchiveByTime x n t => exact .inl (does_archiveSince h hpw).1

theorem ideal_keeps {D D' : Device} {k : Call} {r : Outcome3 Value} (h : Ideal D k r D') (hk : k.InRange) (hd : D.Ok) :
    D'.Ok ∧ D'.key = D.key ∧ D'.password = D.password := by
  cases h with
  | writeTime t b =>
    have ht : Expressible t := hk
    refine ⟨⟨hd.password, ⟨⟨?_, ht.2.1, ht.2.2⟩, rfl⟩, hd.key, hd.status, hd.summary, hd.crc, hd.objects, hd.records,
      hd.recordsSince⟩, rfl, rfl⟩
    have hv := ht.1
    unfold DateTime.Valid at hv ⊢
    simp_all
  | _ => exact ⟨hd, rfl, rfl⟩

/-- One call in a session that breaks off. -/
theorem call_cut {C : BlockCipher} {ca : ConnArgs} {D D' : Device} (hd : D.Ok) {s : Sys} (hf : Fit C ca D s)
    (hp : IsLatin1 s.password) (hpw : latin1 s.password = D.password) {k : Call} (hk : k.InRange)
    {lines ws more : List Bytes} (hh : (callV C s k).2.handed ++ more = s.handed ++ ws) (hpre : lines <+: ws)
    (hcut : Cut C D lines s.recvs D') :
    (∃ D1 ws1 lines', lines = ws1 ++ lines' ∧ ws = ws1 ++ more ∧ Cut C D1 lines' (callV C s k).2.recvs D' ∧
      Ideal D k (callV C s k).1 D1 ∧ Further s (callV C s k).2 ws1) ∨
    (∃ ws1, ws = ws1 ++ more ∧ (∀ v, (callV C s k).1 ≠ .returned v) ∧ (callV C s k).2.conn.state ≠ .idle ∧
      (callV C s k).2.handed = s.handed ++ ws1 ∧ (lines <+: ws1 → D' = D ∨ ∃ r, Ideal D k r D')) := by
  have h6 : s.password.length = 6 := by
    have := congrArg List.length hpw
    rw [hd.password] at this
    simpa [latin1] using this
  by_cases hpar : ∃ n, k = .readParameters n
  · obtain ⟨n, rfl⟩ := hpar
    have hcall : (callV C s (.readParameters n)).2 = (s.readPages C n []).2 := rfl
    rw [hcall] at hh ⊢
    rcases pages_cut hd _ s n [] lines ws more rfl hf hp hpw hk hh hpre hcut with
      ⟨ws1, lines', j0, j1, j2, j3, j4⟩ | ⟨ws1, j1, j2, j3, j4, j5⟩
    · refine .inl ⟨D, ws1, lines', j0, j1, j2, ?_, j4⟩
      have e : (callV C s (.readParameters n)).1 = ((Outcome3.ofRes (parseParameters none
          (some (D.objects.drop n.toNat).flatten))).andThen (.returned ∘ .objects)) := by
        show (((s.readPages C n []).1.andThen _).andThen _) = _
        rw [j3]; rfl
      rw [e]
      cases hparse : parseParameters none (some (D.objects.drop n.toNat).flatten) with
      | ok os => exact .parameters n os hparse
      | error x => exact .unparsable n x hparse
    · refine .inr ⟨ws1, j1, ?_, j3, j4, fun h => .inl (j5 h)⟩
      intro v
      show (((s.readPages C n []).1.andThen _).andThen _) ≠ _
      cases ho : (s.readPages C n []).1 with
      | returned d => exact absurd ho (j2 d)
      | raised x => intro h; cases h
      | pending => intro h; cases h
  · obtain ⟨b, hb, hbl⟩ := first_body hp h6 (hf.pads s.draws) hk
    obtain ⟨u, svc, hu, hsvc⟩ := first_service s.password k
    obtain ⟨w, hw⟩ := send_fits hf hd (isRequest_of hu) hb hbl
    have hsame : (callV C s k).2.handed = (s.exchange C (firstOf s.password k)).2.handed := by
      cases k with
      | readParameters n => exact absurd ⟨n, rfl⟩ hpar
      | _ => rfl
    have hx : (s.exchange C (firstOf s.password k)).2.handed = s.handed ++ [w] := by
      rcases hss : s.sends with _ | ⟨x | _, ss⟩
      · rw [(exchange_untransmitted C s _ w hw).1 hss]
      · rw [(exchange_untransmitted C s _ w hw).2 _ _ hss]
      · rw [exchange_loop C s _ w _ hf.ready.2 hw hss]
    have hws : ws = w :: more := by
      rw [hsame, hx, List.append_assoc] at hh
      exact (List.append_cancel_left hh).symm
    subst hws
    rcases exchange_cut hf (inRange_fits hk (first_request s.password k)) hu hsvc hw hpre hcut with
      ⟨D1, lines', ss, rs, reply, rfl, hpre', hcut', g2, g3⟩ | ⟨f1, f2, f3, f4⟩
    · refine .inl ⟨D1, [w], lines', rfl, rfl, ?_⟩
      cases k with
      | readParameters n => exact absurd ⟨n, rfl⟩ hpar
      | readInstantaneousValues =>
        cases hu; cases hsvc
        obtain ⟨rfl, tb, t1, rfl⟩ := does_values g2 hpw
        have hx := g3 _ (not_oneBit (by simp [denotes_length t1]; omega)) (.values _ _ (decode_values hd t1))
        simp only [firstOf] at hx
        simp only [callV, Sys.readInstantaneousValues, hx, Outcome3.andThen]
        exact ⟨hcut', .values, ⟨rfl, rfl, rfl, rfl⟩⟩
      | readTime =>
        cases hu; cases hsvc
        obtain ⟨rfl, tb, extra, t1, rfl⟩ := does_time g2
        have ht : (tb ++ [D1.access] ++ extra ++ D1.crc).take 6 = tb := by
          simp only [List.append_assoc]; rw [← denotes_length t1, List.take_left]
        have hdec := (C24_read_time (tb ++ [D1.access] ++ extra ++ D1.crc)).1 _ _ _ (ht.symm ▸ t1)
        have hx := g3 _ (not_oneBit (by simp [denotes_length t1]; omega)) (.time _ _ hdec)
        simp only [firstOf] at hx
        simp only [callV, Sys.readTime, timeOf, hx, Outcome3.andThen]
        exact ⟨hcut', .time, ⟨rfl, rfl, rfl, rfl⟩⟩
      | writeTime t c =>
        cases hu; cases hsvc
        obtain ⟨rfl, t1⟩ := does_setTime g2 hpw
        have hx := g3 _ t1 (.writeTime _ _ rfl)
        simp only [firstOf] at hx
        simp only [callV, Sys.writeTime, hx, Outcome3.andThen]
        exact ⟨hcut', .writeTime t c, ⟨rfl, rfl, rfl, rfl⟩⟩
      | readArchive x i j =>
        cases hu; cases hsvc
        obtain ⟨rfl, rfl⟩ := does_archive g2 hpw
        obtain ⟨p, p1, p2, p3, p4⟩ := (decode_record hk.1 (hd.records x.toNat i.toNat j.toNat)
          (D1.records x.toNat i.toNat j.toNat).2).1
        have hx := g3 _ (not_oneBit (by simp [leOf_length])) (.archive _ _ p1)
        simp only [firstOf] at hx
        simp only [callV, Sys.readArchive, hx, Outcome3.andThen]
        exact ⟨hcut', .archive x i j p p2 p3 p4, ⟨rfl, rfl, rfl, rfl⟩⟩
      | readArchiveByTime x i t =>
        cases hu; cases hsvc
        obtain ⟨rfl, rfl⟩ := does_archiveSince g2 hpw
        obtain ⟨p, p1, p2, p3, p4⟩ := (decode_record hk.1 (hd.recordsSince x.toNat i.toNat { t with microsecond := 0 })
          (D1.recordsSince x.toNat i.toNat { t with microsecond := 0 }).2).2
        have hx := g3 _ (not_oneBit (by simp [leOf_length])) (.archiveByTime _ _ p1)
        simp only [firstOf] at hx
        simp only [callV, Sys.readArchiveByTime, hx, Outcome3.andThen]
        exact ⟨hcut', .archiveSince x i t p p2 p3 p4, ⟨rfl, rfl, rfl, rfl⟩⟩
    · obtain ⟨c1, c2⟩ := callV_failed f1
      refine .inr ⟨[w], rfl, c1, by rw [c2]; exact f3, by rw [c2]; exact f2, fun h => ?_⟩
      rcases f4 h with h | ⟨reply, h⟩
      · exact .inl h
      · exact does_ideal hpw h

theorem callV_refused {C : BlockCipher} {s : Sys} (h : s.conn.state ≠ .idle) (k : Call) :
    (callV C s k).1 = .raised (.elgas .localProtocol) ∧ (callV C s k).2.conn = s.conn ∧
      (callV C s k).2.handed = s.handed := by
  have he : s.exchange C (firstOf s.password k) =
      (.raised (.elgas .localProtocol), { s with draws := s.draws + 1 }) := by
    rcases send_request_cases C s.conn (firstOf s.password k) (s.rands s.draws) (firstOf_request _ k) with ⟨h', _⟩ | ⟨_, h'⟩
    · exact absurd h' h
    · rw [exchange_unsent C s _ _ (by rw [h']), h']
  have h2 := (callV_failed (k := k) (fun pdu => by rw [he]; intro h; cases h)).2
  have h1 : (call C s k).1 = _ := congrArg Prod.fst (call_raised (k := k) (by rw [he]))
  rw [← ended_callV] at h1
  exact ⟨ended_raised h1, by rw [h2, he], by rw [h2, he]⟩

theorem callsV_refused {C : BlockCipher} (ks : List Call) : ∀ s : Sys, s.conn.state ≠ .idle →
    (callsV C s ks).1 = List.replicate ks.length (.raised (.elgas .localProtocol)) ∧
      (callsV C s ks).2.handed = s.handed := by
  induction ks with
  | nil => intro s _; exact ⟨rfl, rfl⟩
  | cons k ks ih =>
    intro s h
    obtain ⟨h1, h2, h3⟩ := callV_refused (C := C) h k
    obtain ⟨g1, g2⟩ := ih (callV C s k).2 (by rw [h2]; exact h)
    simp only [callsV, List.length_cons, List.replicate_succ]
    exact ⟨by rw [h1, g1], by rw [g2, h3]⟩

/-- A session that breaks off. -/
theorem session_cut {C : BlockCipher} {ca : ConnArgs} {D' : Device} (ks : List Call) (hks : ∀ k ∈ ks, k.InRange) :
    ∀ (s : Sys) (D : Device) (lines ws : List Bytes), D.Ok → Fit C ca D s →
    IsLatin1 s.password → latin1 s.password = D.password →
    (callsV C s ks).2.handed = s.handed ++ ws → lines <+: ws → Cut C D lines s.recvs D' →
    ∃ done values D1, Ideals D done values D1 ∧
      ((done = ks ∧ (callsV C s ks).1 = values ∧ D' = D1) ∨
       ∃ k later r, ks = done ++ k :: later ∧
        (callsV C s ks).1 = values ++ r :: List.replicate later.length (.raised (.elgas .localProtocol)) ∧
        (∀ v, r ≠ .returned v) ∧ (D' = D1 ∨ ∃ r', Ideal D1 k r' D')) := by
  induction ks with
  | nil =>
    intro s D lines ws hd hf hp hpw hh hpre hcut
    have : ws = [] := by simpa [callsV] using hh.symm
    subst this
    rw [List.prefix_nil.1 hpre] at hcut
    exact ⟨[], [], D, .nil D, .inl ⟨rfl, rfl, cut_nil hcut⟩⟩
  | cons k ks ih =>
    intro s D lines ws hd hf hp hpw hh hpre hcut
    obtain ⟨_, hreach, ws0, hws0, _⟩ :=
      call_effect (fun _ _ => True) s s.password hf.reach rfl (fun _ _ _ _ _ _ => trivial) k
    obtain ⟨more, hmore⟩ := calls_more ks (call C s k).2 hreach
    have hh' : (callsV C (callV C s k).2 ks).2.handed = s.handed ++ ws := hh
    have hm : (callsV C (callV C s k).2 ks).2.handed = (callV C s k).2.handed ++ more := by
      rw [callsV_calls, callV_call]; exact hmore
    rcases call_cut hd hf hp hpw (hks k (by simp)) (by rw [← hm]; exact hh') hpre hcut with
      ⟨D1, ws1, lines', j0, j1, j2, j3, j4⟩ | ⟨ws1, j1, j2, j3, j4, j5⟩
    · obtain ⟨i1, i2, i3⟩ := ideal_keeps j3 (hks k (by simp)) hd
      have hf1 : Fit C ca D1 (callV C s k).2 :=
        ⟨by rw [j4.conn]; exact hf.reach, by rw [j4.conn]; exact hf.ready, by rw [i2]; exact hf.context,
          by rw [j4.rands]; exact hf.pads⟩
      have hpre' : lines' <+: more := by
        rw [j0, j1] at hpre
        exact (List.prefix_append_right_inj _).1 hpre
      obtain ⟨done, values, D2, e1, e2⟩ := ih (fun k hk => hks k (by simp [hk])) (callV C s k).2 D1 lines' more i1 hf1
        (by rw [j4.password]; exact hp) (by rw [j4.password, i3]; exact hpw) hm hpre' j2
      refine ⟨k :: done, (callV C s k).1 :: values, D2, .call D D1 D2 k done _ _ j3 e1, ?_⟩
      rcases e2 with ⟨rfl, e3, e4⟩ | ⟨k', later, r, rfl, e3, e4, e5⟩
      · exact .inl ⟨rfl, by simp only [callsV]; rw [e3], e4⟩
      · exact .inr ⟨k', later, r, rfl, by simp only [callsV]; rw [e3]; rfl, e4, e5⟩
    · obtain ⟨r1, r2⟩ := callsV_refused (C := C) ks (callV C s k).2 j3
      have hm0 : more = [] := by
        rw [r2] at hm
        simpa using congrArg List.length hm
      subst hm0
      rw [List.append_nil] at j1
      subst j1
      refine ⟨[], [], D, .nil D, .inr ⟨k, ks, (callV C s k).1, rfl, ?_, j2, j5 hpre⟩⟩
      simp only [callsV, List.nil_append]
      rw [r1]

/-! ### The stream of a transport -/

theorem bytes_prefix {a b : Bytes} {x y : List Item} (h : bytesOnly a ++ x = bytesOnly b ++ y) (hl : a.length ≤ b.length) :
    a <+: b := by
  have : bytesOnly a <+: bytesOnly b := by
    refine List.prefix_of_prefix_length_le (l₃ := bytesOnly a ++ x) (List.prefix_append _ _) ?_ ?_
    · rw [h]; exact List.prefix_append _ _
    · simpa [bytesOnly] using hl
  rw [List.prefix_iff_eq_take] at this ⊢
  apply bytesOnly_inj
  rw [this]
  simp [bytesOnly, List.map_take]

/-- A part of a line and then nothing or an exception, as `recv()` yields it. -/
theorem full_part {t : Transport} {h : Handle} (ht : t.socket = some h) {bad : List Item}
    (hb : bad = [] ∨ ∃ e rest, bad = .fail e :: rest) : ∀ (m : Nat) (w : Bytes) (s : List Delivery) (c : Clock),
    w.length = m → 0x0D ∉ w → content s = bytesOnly w ++ bad →
    ∃ (ps : List Bytes) (bad' : List (Res Bytes)), full t s c = ps.map .ok ++ bad' ∧ 0x0D ∉ ps.flatten ∧
      (bad' = [] ∨ ∃ x rest, bad' = .error x :: rest) := by
  intro m
  induction m using Nat.strongRecOn with
  | _ m ih =>
    intro w s c hm hw hs
    rw [full_eq ht]
    rcases C47_recv_cases t h ht s c with ⟨bs, s', c', g1, g2, g3, g4, _⟩ | ⟨bs, e, s', c', g1, g2, g3⟩ |
      ⟨bs, s', c', g1, g2, g3, g4⟩
    · rw [g1]
      dsimp only
      rw [hs] at g2
      have hlen : bs.length ≤ w.length := by
        apply Nat.le_of_not_lt
        intro hlt
        have h1 := congrArg (fun l => l[w.length]?) g2
        simp only [bytesOnly] at h1
        rw [List.getElem?_append_right (by simp), List.getElem?_append_left (by simpa using hlt)] at h1
        simp only [List.length_map, Nat.sub_self, List.getElem?_map] at h1
        rw [List.getElem?_eq_getElem hlt] at h1
        rcases hb with rfl | ⟨e, rest, rfl⟩
        · cases h1
        · cases h1
      obtain ⟨q, rfl⟩ := bytes_prefix g2.symm hlen
      have hcont : content s' = bytesOnly q ++ bad := by
        rw [bytesOnly, bytesOnly, List.map_append, List.append_assoc] at g2
        exact (List.append_cancel_left g2).symm
      have hpos := List.length_pos_iff.2 g3
      rw [List.length_append] at hm
      obtain ⟨ps, bad', k1, k2, k3⟩ := ih q.length (by omega) q s' c' rfl (fun hx => hw (by simp [hx])) hcont
      refine ⟨bs :: ps, bad', by rw [k1]; rfl, ?_, k3⟩
      intro hx
      rw [List.flatten_cons, List.mem_append] at hx
      rcases hx with hx | hx
      · exact hw (by simp [hx])
      · exact k2 hx
    · rw [g1]
      exact ⟨[], _, rfl, by simp, .inr ⟨_, _, rfl⟩⟩
    · rw [g1]
      exact ⟨[], [], rfl, by simp, .inl rfl⟩

/-- What `recv()` yields of the answers of a device when the stream breaks off. -/
theorem cut_of_content {C : BlockCipher} {D D' : Device} {lines : List Bytes} {out : Bytes}
    (hserve : Serves C D lines out D') {t : Transport} {h : Handle} (ht : t.socket = some h) {bad : List Item}
    (hb : bad = [] ∨ ∃ e rest, bad = .fail e :: rest) : ∀ (n : Nat) (s : List Delivery) (c : Clock),
    content s = bytesOnly (out.take n) ++ bad → Cut C D lines (full t s c) D' := by
  induction hserve with
  | nil D =>
    intro n s c hs
    obtain ⟨ps, bad', k1, k2, k3⟩ := full_part ht hb _ [] s c rfl (by simp) (by simpa using hs)
    rw [k1]
    exact .part D D [] [] ps bad' (.nil D) k2 k3
  | request D D1 D' w ws line out hrep hrest ih =>
    intro n s c hs
    have hrep' := hrep
    obtain ⟨_, _, _, _, _, _, _, hc⟩ := hrep'
    obtain ⟨l, hl', hl⟩ := carries_line hc
    by_cases hn : n < line.length
    · have htake : (line ++ out).take n = l.take n := by
        rw [hl'] at hn ⊢
        simp only [List.length_append, List.length_cons, List.length_nil] at hn
        rw [List.append_assoc, List.take_append_of_le_length (by omega)]
      rw [htake] at hs
      obtain ⟨ps, bad', k1, k2, k3⟩ := full_part ht hb _ (l.take n) s c rfl (fun hx => hl (List.mem_of_mem_take hx)) hs
      rw [k1]
      exact .part D D' (w :: ws) (line ++ out) ps bad' (.request D D1 D' w ws line out hrep hrest) k2 k3
    · have htake : (line ++ out).take n = line ++ out.take (n - line.length) := by
        rw [List.take_append, List.take_of_length_le (by omega)]
      rw [htake] at hs
      obtain ⟨init, last, s', c', g1, g2, g3, g4, g5⟩ := line_pieces t h ht l hl
        (bytesOnly (out.take (n - line.length)) ++ bad) s c
        (by rw [hs, hl', bytesOnly, bytesOnly, bytesOnly, List.map_append, List.append_assoc])
      have hfull : full t s c = (init ++ [last]).map .ok ++ full t s' c' := by
        have h1 := recvs_enough ht (init.length + 1 + ((content s).length + (content s').length)) s c (by omega)
        have h2 := recvs_enough ht ((content s).length + (content s').length) s' c' (by omega)
        rw [← h1, g5, h2]
      rw [hfull]
      refine .reply D D1 D' w ws init last _ ?_ g2 (ih _ s' c' g3)
      rw [g1, ← hl']
      exact hrep

/-! ### Lines that reach the device -/

theorem linesFrom_line (w rest : Bytes) (hw : 0x0D ∉ w) : ∀ acc,
    linesFrom acc (w ++ 0x0D :: rest) = (acc ++ w ++ [0x0D]) :: linesFrom [] rest := by
  induction w with
  | nil => intro acc; simp [linesFrom]
  | cons b w ih =>
    intro acc
    rw [List.cons_append, linesFrom, if_neg (fun h => hw (by simp [h])), ih (fun h => hw (by simp [h]))]
    simp

theorem linesFrom_part (w : Bytes) (hw : 0x0D ∉ w) : ∀ acc, linesFrom acc w = [] := by
  induction w with
  | nil => intro acc; rfl
  | cons b w ih =>
    intro acc
    rw [linesFrom, if_neg (fun h => hw (by simp [h])), ih (fun h => hw (by simp [h]))]

theorem completeLines_prefix : ∀ (ds : List Bytes) (got : Bytes), (∀ d ∈ ds, ∃ w, d = w ++ [0x0D] ∧ 0x0D ∉ w) →
    got <+: ds.flatten → completeLines got <+: ds := by
  intro ds
  induction ds with
  | nil =>
    intro got _ h
    rw [List.flatten_nil, List.prefix_nil] at h
    subst h
    exact List.prefix_rfl
  | cons d ds ih =>
    intro got hds h
    obtain ⟨w, hd, hw⟩ := hds d (by simp)
    rw [List.flatten_cons] at h
    by_cases hl : d.length ≤ got.length
    · obtain ⟨q, rfl⟩ := List.prefix_of_prefix_length_le (List.prefix_append d ds.flatten) h hl
      have hq := ih q (fun d hd => hds d (by simp [hd])) ((List.prefix_append_right_inj _).1 h)
      have : completeLines (d ++ q) = d :: completeLines q := by
        unfold completeLines
        rw [hd, List.append_assoc, List.singleton_append, linesFrom_line w q hw, List.nil_append]
      rw [this]
      exact (List.prefix_cons_inj d).2 hq
    · have hp : got <+: w := by
        refine List.prefix_of_prefix_length_le (l₃ := d ++ ds.flatten) h ?_ ?_
        · rw [hd, List.append_assoc]; exact List.prefix_append _ _
        · rw [hd] at hl; simp at hl; omega
      have : completeLines got = [] := by
        refine linesFrom_part got (fun hx => hw ?_) []
        obtain ⟨t, ht⟩ := hp
        rw [← ht]; simp [hx]
      rw [this]
      exact List.nil_prefix

theorem serialise_line {C : BlockCipher} {c : Conn} {e : Event} {r : Rand} {d : Bytes}
    (h : c.serialise C e r = .ok d) : ∃ w, d = w ++ [0x0D] ∧ 0x0D ∉ w := by
  have : ∃ raw, escapeCharacters raw = .ok d := by
    unfold Conn.serialise at h
    rw [bind_eq_ok] at h
    obtain ⟨body, _, h⟩ := h
    split at h
    · simp only [bind_eq_ok] at h
      obtain ⟨sv, _, dat, _, raw, hr, h⟩ := h
      exact ⟨_, h⟩
    · simp only [bind_eq_ok] at h
      obtain ⟨sv, _, raw, hr, h⟩ := h
      exact ⟨_, h⟩
  obtain ⟨raw, hr⟩ := this
  obtain ⟨d', _, rfl⟩ := escapeCharacters_eq_ok hr
  exact ⟨_, rfl, no_end _⟩

theorem acts_lines {C : BlockCipher} {kind : Kind} {timeout : Option Int} {a : ClientArgs} {env : OsEnv} {w : World}
    (hm : mkWorld kind timeout a env = .ok w) (program : List Action) (h : Handle) (d : Bytes)
    (hd : .write h d ∈ (acts C w program).2.os) : ∃ x, d = x ++ [0x0D] ∧ 0x0D ∉ x := by
  obtain ⟨conn, _, rfl⟩ := mkWorld_ok hm
  obtain ⟨_, _, _, _, l, h1, h2⟩ := acts_goes C program _
  rw [h1] at hd
  obtain ⟨c, e, r, _, _, h3⟩ := h2 h d (by simpa using hd)
  exact serialise_line h3

/-! ### Claims -/

/-- C98. Whatever is done with a client: when of the bytes written to a handle only those up to some point reach the
other side, then the complete lines there are whole lines that were written, in order and from the first one on. -/
theorem C98_lines (C : BlockCipher) (kind : Kind) (timeout : Option Int) (a : ClientArgs) (env : OsEnv) (w : World)
    (hm : mkWorld kind timeout a env = .ok w) (program : List Action) (h : Handle) (got : Bytes)
    (hgot : got <+: (writtenTo h (acts C w program).2.os).flatten) :
    completeLines got <+: writtenTo h (acts C w program).2.os := by
  refine completeLines_prefix _ got ?_ hgot
  intro d hd
  unfold writtenTo at hd
  obtain ⟨x, hx, he⟩ := List.mem_filterMap.1 hd
  cases x with
  | write g d' =>
    dsimp only at he
    split at he
    · cases he
      exact acts_lines hm program g _ hx
    · cases he
  | _ => cases he

/-- C98. A session that breaks off anywhere. A client connects and makes calls. What it writes reaches the device up to
some point (`got`), the writes succeed, fail or do not come back, and of the answers of the device to the complete lines
it gets (`out`) some bytes can be read and then nothing or an exception; timeout and clock are arbitrary. Then there are
first calls that the device carried out and the client got the values of; if these are not all, the next call does not
return, and either the device carried it out or it did not; the later ones raise LocalElgasProtocolError and have no
effect. -/
theorem C98_crash (C : BlockCipher) (kind : Kind) (timeout : Option Int) (a : ClientArgs) (env : OsEnv) (w : World)
    (hm : mkWorld kind timeout a env = .ok w) (hr : ∀ i, PadOk (env.rands i).pw)
    (h : Handle) (hopens : ∃ l, env.opens = .ok h :: l)
    (D D' : Device) (hd : D.Ok) (hk : SharesKey a D) (hp : KnowsPassword a D) (ks : List Call)
    (hks : ∀ k ∈ ks, k.InRange) (program : List Action) (hprog : program = .connect :: ks.map .call)
    (got : Bytes) (hgot : got <+: (written (acts C w program).2.os).flatten) (out : Bytes)
    (hserve : Serves C D (completeLines got) out D') (hin : Arrives (env.inbox h) out) :
    (D'.Ok ∧ SharesKey a D' ∧ KnowsPassword a D') ∧
    ∃ done values D1, Ideals D done values D1 ∧
      ((done = ks ∧ (acts C w program).1 = .returned .nothing :: values ∧ D' = D1) ∨
       ∃ k later r, ks = done ++ k :: later ∧
        (acts C w program).1 = .returned .nothing :: values ++
          r :: List.replicate later.length (.raised (.elgas .localProtocol)) ∧
        (∀ v, r ≠ .returned v) ∧ (D' = D1 ∨ ∃ r', Ideal D1 k r' D')) := by
  obtain ⟨lo, hopens⟩ := hopens
  have hlines := fun h d => acts_lines (C := C) hm program h d
  obtain ⟨conn, hconn, rfl⟩ := mkWorld_ok hm
  let w1 : World := {
    password := toSecretStr a.password, conn := conn,
    transport := { mkTransport kind timeout with socket := some h }, opens := lo,
    shutdowns := env.shutdowns, closes := env.closes, writes := env.writes, inbox := env.inbox,
    clock := env.clock, rands := env.rands, os := [.create (some h)] }
  have hc1 : act C { w1 with transport := mkTransport kind timeout, opens := env.opens, os := [] } .connect =
      (.returned .nothing, w1) := by
    simp only [act, World.connect, mkTransport, hopens, Transport.connect, Outcome3.andThen]
    rfl
  have ht1 : w1.transport.socket = some h := rfl
  obtain ⟨e1, e2, e3⟩ := acts_calls (C := C) ks w1 ht1
  have hall : acts C { w1 with transport := mkTransport kind timeout, opens := env.opens, os := [] } program =
      (.returned .nothing :: (callsV C w1.sys ks).1, (acts C w1 (ks.map .call)).2) := by
    rw [hprog]
    show (_ :: (acts C (act C _ .connect).2 _).1, (acts C (act C _ .connect).2 _).2) = _
    rw [hc1]
    dsimp only
    rw [e1]
  have hall' : acts C
          ({ password := toSecretStr a.password, conn := conn, transport := mkTransport kind timeout,
             opens := env.opens, shutdowns := env.shutdowns, closes := env.closes, writes := env.writes,
             inbox := env.inbox, clock := env.clock, rands := env.rands } : World) program = _ := hall
  rw [hall'] at hgot hlines ⊢
  dsimp only at hgot hlines ⊢
  have hh : (callsV C w1.sys ks).2.handed = written (acts C w1 (ks.map .call)).2.os := by rw [← e2]; rfl
  have hw : ∀ d ∈ written (acts C w1 (ks.map .call)).2.os, ∃ x, d = x ++ [0x0D] ∧ 0x0D ∉ x := by
    intro d hd
    unfold written at hd
    obtain ⟨x, hx, he⟩ := List.mem_filterMap.1 hd
    cases x with
    | write g d' => cases he; exact hlines g _ hx
    | _ => cases he
  have hpre := completeLines_prefix _ got hw hgot
  have hready : Reachable C _ conn := ⟨conn, [], hconn, rfl⟩
  have hrdy : Ready conn := by
    obtain ⟨_, rfl⟩ := mkConn_ok hconn
    exact ⟨rfl, rfl⟩
  have hfit : Fit C _ D w1.sys := ⟨hready, hrdy, shares_context hk hd.key rfl, hr⟩
  obtain ⟨n, more, hcont, hbad⟩ := hin
  have hcut : Cut C D (completeLines got) w1.sys.recvs D' :=
    cut_of_content hserve ht1 hbad n (env.inbox h) env.clock hcont
  obtain ⟨done, values, D1, g1, g2⟩ := session_cut ks hks w1.sys D (completeLines got)
    (written (acts C w1 (ks.map .call)).2.os) hd hfit hp.1 hp.2 (by rw [hh]; rfl) hpre hcut
  have hideals : ∀ {D D1 : Device} {ks values}, Ideals D ks values D1 → (∀ k ∈ ks, k.InRange) → D.Ok →
      D1.Ok ∧ D1.key = D.key ∧ D1.password = D.password := by
    intro D D1 ks values hi
    induction hi with
    | nil D => intro _ hd; exact ⟨hd, rfl, rfl⟩
    | call D D1 D' k ks r rs h1 _ ih =>
      intro hks hd
      obtain ⟨i1, i2, i3⟩ := ideal_keeps h1 (hks k (by simp)) hd
      obtain ⟨j1, j2, j3⟩ := ih (fun k hk => hks k (by simp [hk])) i1
      exact ⟨j1, j2.trans i2, j3.trans i3⟩
  have hsub : ∀ k ∈ done, k.InRange := by
    rcases g2 with ⟨rfl, _⟩ | ⟨k, later, r, rfl, _⟩
    · exact hks
    · intro k hk; exact hks k (by simp [hk])
  obtain ⟨i1, i2, i3⟩ := hideals g1 hsub hd
  have hD' : D'.Ok ∧ D'.key = D.key ∧ D'.password = D.password := by
    rcases g2 with ⟨_, _, rfl⟩ | ⟨k, later, r, rfl, _, _, rfl | ⟨r', hi⟩⟩
    · exact ⟨i1, i2, i3⟩
    · exact ⟨i1, i2, i3⟩
    · obtain ⟨j1, j2, j3⟩ := ideal_keeps hi (hks k (by simp)) i1
      exact ⟨j1, j2.trans i2, j3.trans i3⟩
  refine ⟨⟨hD'.1, ?_, ?_⟩, done, values, D1, g1, ?_⟩
  · unfold SharesKey at hk ⊢
    rw [hD'.2.1]; exact hk
  · unfold KnowsPassword at hp ⊢
    rw [hD'.2.2]; exact hp
  · rcases g2 with ⟨h1, h2, h3⟩ | ⟨k, later, r, h1, h2, h3, h4⟩
    · exact .inl ⟨h1, by rw [h2], h3⟩
    · exact .inr ⟨k, later, r, h1, by rw [h2]; rfl, h3, h4⟩

theorem ideals_append {D D1 D2 : Device} {ks ks' : List Call} {rs rs' : List (Outcome3 Value)}
    (h : Ideals D ks rs D1) (h' : Ideals D1 ks' rs' D2) : Ideals D (ks ++ ks') (rs ++ rs') D2 := by
  induction h with
  | nil D => exact h'
  | call D D1 D' k ks r rs h1 _ ih => exact .call D D1 D2 k _ r _ h1 (ih h')

/-- Repeating a call has no effect but that of the last time. -/
theorem ideal_again {D D1 D2 : Device} {k : Call} {r r' : Outcome3 Value} (h : Ideal D k r D1) (h' : Ideal D1 k r' D2) :
    Ideal D k r' D2 := by
  cases h with
  | writeTime t b =>
    cases h' with
    | writeTime => exact .writeTime t b
  | _ => exact h'

/-- C98. A session that broke off anywhere can be taken up again: a second session, with a new client, that makes the
call that did not return again and then the later ones, and does not break off, completes the first. Taken together the
two gave back and did what one session should have given back and done. -/
theorem C98_resume (C : BlockCipher) (kind kind2 : Kind) (timeout timeout2 : Option Int) (a : ClientArgs)
    (env : OsEnv) (w : World)
    (hm : mkWorld kind timeout a env = .ok w) (hr : ∀ i, PadOk (env.rands i).pw)
    (h : Handle) (hopens : ∃ l, env.opens = .ok h :: l)
    (D D' : Device) (hd : D.Ok) (hk : SharesKey a D) (hp : KnowsPassword a D) (ks : List Call)
    (hks : ∀ k ∈ ks, k.InRange) (program : List Action) (hprog : program = .connect :: ks.map .call)
    (got : Bytes) (hgot : got <+: (written (acts C w program).2.os).flatten) (out : Bytes)
    (hserve : Serves C D (completeLines got) out D') (hin : Arrives (env.inbox h) out) :
    ∃ done again values failures, ks = done ++ again ∧ values.length = done.length ∧
      (acts C w program).1 = .returned .nothing :: values ++ failures ∧
      failures.length = again.length ∧ (∀ r ∈ failures, ∀ v, r ≠ .returned v) ∧
      ∀ (env2 : OsEnv) (w2 : World), mkWorld kind2 timeout2 a env2 = .ok w2 → (∀ i, PadOk (env2.rands i).pw) →
      ∀ (h2 : Handle), (∃ l, env2.opens = .ok h2 :: l) → (∃ l, env2.shutdowns = .ok () :: l) →
      (∃ l, env2.closes = .ok () :: l) → ∀ n, env2.writes = List.replicate n (.ok ()) →
      ∀ (program2 : List Action), program2 = .connect :: again.map .call ++ [.disconnect] →
      (written (acts C w2 program2).2.os).length ≤ n →
      ∀ out2 D'', Serves C D' (written (acts C w2 program2).2.os) out2 D'' →
      content (env2.inbox h2) = bytesOnly out2 →
      ∃ values2, (acts C w2 program2).1 = .returned .nothing :: values2 ++ [.returned .nothing] ∧
        Ideals D ks (values ++ values2) D'' := by
  obtain ⟨⟨d1, d2, d3⟩, done, values, D1, g1, g2⟩ :=
    C98_crash C kind timeout a env w hm hr h hopens D D' hd hk hp ks hks program hprog got hgot out hserve hin
  have hlen : ∀ {D D1 : Device} {ks values}, Ideals D ks values D1 → values.length = ks.length := by
    intro D D1 ks values hi
    induction hi with
    | nil => rfl
    | call => simp_all
  rcases g2 with ⟨rfl, g3, rfl⟩ | ⟨k, later, r, rfl, g3, g4, g5⟩
  · refine ⟨done, [], values, [], by simp, hlen g1, by rw [g3]; simp, rfl, by simp, ?_⟩
    intro env2 w2 hm2 hr2 h2 ho hs hc n hw program2 hp2 hn out2 D'' hserve2 hin2
    obtain ⟨values2, j1, j2, _⟩ := C83_session C kind2 timeout2 a env2 w2 hm2 hr2 h2 ho hs hc n hw D' D'' d1 d2 d3 []
      (by simp) program2 hp2 hn out2 hserve2 hin2
    refine ⟨values2, j1, ?_⟩
    have := ideals_append g1 j2
    rwa [List.append_nil] at this
  · refine ⟨done, k :: later, values, r :: List.replicate later.length (.raised (.elgas .localProtocol)), rfl, hlen g1,
      g3, by simp, ?_, ?_⟩
    · intro x hx v
      rcases List.mem_cons.1 hx with rfl | hx
      · exact g4 v
      · rw [(List.mem_replicate.1 hx).2]; intro h; cases h
    · intro env2 w2 hm2 hr2 h2 ho hs hc n hw program2 hp2 hn out2 D'' hserve2 hin2
      obtain ⟨values2, j1, j2, _⟩ := C83_session C kind2 timeout2 a env2 w2 hm2 hr2 h2 ho hs hc n hw D' D'' d1 d2 d3
        (k :: later) (fun x hx => hks x (by rw [List.mem_append]; exact .inr hx)) program2 hp2 hn out2 hserve2 hin2
      refine ⟨values2, j1, ideals_append g1 ?_⟩
      rcases g5 with rfl | ⟨r', g5⟩
      · exact j2
      · cases j2 with
        | call _ D2 _ _ _ r2 rs i1 i2 => exact .call D1 D2 D'' k later r2 rs (ideal_again g5 i1) i2


/-! ### Examples -/

/-- An operating system whose stream ends in the middle of the second answer. -/
def exBroken : OsEnv :=
  { opens := [.ok 5], shutdowns := [.ok ()], closes := [.ok ()], writes := List.replicate 3 (.ok ()),
    inbox := fun _ => [.seg exDeviceTime, .seg (exDeviceTime.take 7)], clock := exClock,
    rands := fun _ => ⟨('a', 'b'), fun _ => 0⟩ }

/-- An operating system that does not take the second line and then no other either. -/
def exBrokenPipe : OsEnv := { exBroken with writes := [.ok (), .error .os], inbox := fun _ => [.seg exDeviceTime] }

/-- What a program does on an operating system. -/
def exRun (env : OsEnv) (as : List Action) : List Ended × List OsCall :=
  match mkWorld .tcp (some 0) exArgs env with
  | .ok w => ((acts idCipher w as).1.map ended, (acts idCipher w as).2.os)
  | .error _ => ([], [])

/-- Three times the time is asked for. -/
def exThree : List Action := .connect :: [Call.readTime, .readTime, .readTime].map .call

-- the second answer does not come: the second call does not return, the third one is refused and not sent
example : exRun exBroken exThree =
    ([.returned, .returned, .pending, .raised (.elgas .localProtocol)],
      [.create (some 5), .write 5 exAsk, .write 5 exAsk]) := by decide +kernel
-- the second line is not written: the second call raises, the third one is refused and not sent
example : exRun exBrokenPipe exThree =
    ([.returned, .returned, .raised (.elgas .communication), .raised (.elgas .localProtocol)],
      [.create (some 5), .write 5 exAsk, .write 5 exAsk]) := by decide +kernel

theorem exServes_two : Serves idCipher (exDevice none (List.replicate 6 0x30)) [exAsk, exAsk]
    (exDeviceTime ++ exDeviceTime) (exDevice none (List.replicate 6 0x30)) := by
  have := Serves.request (C := idCipher) (exDevice none (List.replicate 6 0x30)) (exDevice none (List.replicate 6 0x30))
    (exDevice none (List.replicate 6 0x30)) exAsk [exAsk] exDeviceTime exDeviceTime
    ⟨0x6C, [], .time, _, ⟨[0, 0, 0, 0, 0, 0], [], rfl, by decide, rfl, rfl⟩, .time, .time _ [] exTime_denotes,
      ⟨[0, 0, 0, 0, 0, 0], _, rfl, by decide, rfl, rfl⟩⟩ exServes
  simpa using this

-- the hypotheses of C98_crash and C98_resume: the device got both lines and answered both, of which 7 bytes were lost
example : ∃ w, mkWorld .tcp (some 0) exArgs exBroken = .ok w ∧
    exAsk ++ exAsk <+: (written (acts idCipher w exThree).2.os).flatten ∧
    Serves idCipher (exDevice none (List.replicate 6 0x30)) (completeLines (exAsk ++ exAsk))
      (exDeviceTime ++ exDeviceTime) (exDevice none (List.replicate 6 0x30)) ∧
    Arrives (exBroken.inbox 5) (exDeviceTime ++ exDeviceTime) := by
  refine ⟨_, rfl, by decide +kernel, ?_, exDeviceTime.length + 7, [], by decide +kernel, .inl rfl⟩
  have : completeLines (exAsk ++ exAsk) = [exAsk, exAsk] := by decide +kernel
  rw [this]
  exact exServes_two

-- the same when the second line was written, but not all of it got to the device
example : ∃ w, mkWorld .tcp (some 0) exArgs exBrokenPipe = .ok w ∧
    exAsk ++ exAsk.take 9 <+: (written (acts idCipher w exThree).2.os).flatten ∧
    Serves idCipher (exDevice none (List.replicate 6 0x30)) (completeLines (exAsk ++ exAsk.take 9))
      exDeviceTime (exDevice none (List.replicate 6 0x30)) ∧
    Arrives (exBrokenPipe.inbox 5) exDeviceTime := by
  refine ⟨_, rfl, by decide +kernel, ?_, exDeviceTime.length, [], by decide +kernel, .inl rfl⟩
  have : completeLines (exAsk ++ exAsk.take 9) = [exAsk] := by decide +kernel
  rw [this]
  exact exServes

-- the complete lines of a stream
example : completeLines [1, 0x0D, 2, 3, 0x0D, 0x0D, 4] = [[1, 0x0D], [2, 3, 0x0D], [0x0D]] := by decide

end Elgas
