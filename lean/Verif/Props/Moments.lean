import Verif.Spec.Moments
import Verif.Props.Crash
import Verif.Props.Served
/-!
C118: devices that go on. Between any two requests the device may become something else; every call gives back what the
device was at one moment during it, `read_parameters` one moment for each page.
-/
namespace Elgas
open Spec

/-- A device as it should be that has the key and password of `D0`. -/
def SameUnit (D0 D : Device) : Prop := D.Ok ∧ D.key = D0.key ∧ D.password = D0.password

/-- How a call leaves the client, with what is left. -/
structure Onwards (C : BlockCipher) (s s' : Sys) (ms : List (Device × Device)) (ws1 more : List Bytes) : Prop where
  conn : s'.conn = s.conn
  password : s'.password = s.password
  rands : s'.rands = s.rands
  handed : s'.handed = s.handed ++ ws1
  left : ∃ ls rs n, Meets C ms more ls ∧ CutUp ls rs ∧ s'.recvs = rs.map .ok ∧ s'.sends = List.replicate n (.ok ()) ∧
    more.length ≤ n

theorem exchange_moment {C : BlockCipher} {ca : ConnArgs} {D0 : Device} (hd : D0.Ok) {s : Sys} (hf : Fit C ca D0 s)
    {e : Event} (ht : TimeFits e) {u : EventType} {svc : ServiceNumber} (hu : responseOf e.type = some u)
    (hsvc : serviceOf u = some svc) {b : Bytes} (hb : e.toBytes (s.rands s.draws) = .ok b) (hbl : b.length ≤ 65500)
    {n : Nat} (hss : s.sends = List.replicate n (.ok ())) {more ws ls rs : List Bytes} {ms : List (Device × Device)}
    (hh : (s.exchange C e).2.handed ++ more = s.handed ++ ws) (hn : ws.length ≤ n) (hr : s.recvs = rs.map .ok)
    (hm : Meets C ms ws ls) (hc : CutUp ls rs) (hsame : ∀ m ∈ ms, SameUnit D0 m.1) :
    ∃ D D1 ms' w s' reply, ms = (D, D1) :: ms' ∧ ws = w :: more ∧ Onwards C s s' ms' [w] more ∧ Does D (askedOf e) D1 reply ∧
      (∀ pdu, (∀ b, reply = [b] → ¬ OneBit b) → Decodes svc reply pdu → s.exchange C e = (.returned pdu, s')) := by
  obtain ⟨w, hw⟩ := send_fits hf hd (isRequest_of hu) hb hbl
  have hws : ws = w :: more := by
    have hx : (s.exchange C e).2.handed = s.handed ++ [w] := by
      cases n with
      | zero => rw [(exchange_untransmitted C s e w hw).1 hss]
      | succ m => rw [exchange_loop C s e w _ hf.ready.2 hw hss]
    rw [hx, List.append_assoc] at hh
    exact (List.append_cancel_left hh).symm
  subst hws
  cases n with
  | zero => simp at hn
  | succ m =>
    cases hm with
    | request D D1 ms' _ _ line lines h1 h2 =>
      cases hc with
      | line _ pieces last _ rs2 g1 g2 g3 =>
        obtain ⟨_, k2, _⟩ := hsame (D, D1) List.mem_cons_self
        subst g1
        obtain ⟨reply, j1, j2, _⟩ := exchange_device (D := D) (rest := rs2.map .ok)
          ⟨hf.reach, hf.ready, by rw [k2]; exact hf.context, hf.pads⟩ ht hu hsvc hw
          (ss := List.replicate m (.ok ())) hss g2 (by rw [hr]; simp) h1
        exact ⟨D, D1, ms', w, { s with sends := List.replicate m (.ok ()), recvs := rs2.map .ok, draws := s.draws + 1, handed := s.handed ++ [w] }, reply, rfl, rfl,
          ⟨rfl, rfl, rfl, rfl, lines, rs2, m, h2, g3, rfl, rfl, by simp only [List.length_cons] at hn; omega⟩, j1, j2⟩

/-- Reading all pages. -/
theorem pages_moment {C : BlockCipher} {ca : ConnArgs} {D0 : Device} (hd : D0.Ok) :
    ∀ (m : Nat) (s : Sys) (count : Int) (total : Bytes) (n : Nat) (ws more ls rs : List Bytes) (ms : List (Device × Device)),
    ws.length = m → Fit C ca D0 s → IsLatin1 s.password → latin1 s.password = D0.password → 0 ≤ count ∧ count ≤ 65535 →
    s.sends = List.replicate n (.ok ()) →
    (s.readPages C count total).2.handed ++ more = s.handed ++ ws → ws.length ≤ n →
    s.recvs = rs.map .ok → Meets C ms ws ls → CutUp ls rs → (∀ m ∈ ms, SameUnit D0 m.1) →
    ∃ ms1 ms' ws1 bytes, ms = ms1 ++ ms' ∧ ws = ws1 ++ more ∧ Gathers count.toNat ms1 bytes ∧
      (s.readPages C count total).1 = .returned (total ++ bytes) ∧
      Onwards C s (s.readPages C count total).2 ms' ws1 more := by
  intro m
  induction m using Nat.strongRecOn with
  | _ m ih =>
    intro s count total n ws more ls rs ms hm hf hp hpw hc hss hh hn hr hmeets hcut hsame
    have h6 : s.password.length = 6 := by
      have := congrArg List.length hpw
      rw [hd.password] at this
      simpa [latin1] using this
    obtain ⟨b, hb, hbl⟩ := pageBody_ok hp h6 hc (hf.pads s.draws)
    obtain ⟨more1, hmore⟩ := pages_more hf.reach count total
    obtain ⟨D, D1, ms', w, s', reply, rfl, rfl, g1, g2, g3⟩ := exchange_moment (more := more1 ++ more) hd hf
      (show TimeFits (pageRequest s.password count) from trivial) rfl rfl hb hbl hss
      (by rw [← List.append_assoc, ← hmore]; exact hh) hn hr hmeets hcut hsame
    obtain ⟨hok, _, hpd⟩ := hsame (D, D1) List.mem_cons_self
    obtain ⟨rfl, k, flag, k1, k2, rfl⟩ := does_parameters g2 (hpw.trans hpd.symm)
    have hobj := hok.objects
    dsimp only at hobj
    have hdec := decode_page (first := count.toNat) (k := k) (by omega) (by omega) flag
      ((D1.objects.drop count.toNat).take k).flatten
    have hx := g3 _ (not_oneBit (by simp [le2])) (.parameters _ _ hdec)
    have hstep := readPages_page (total := total) hx
    dsimp only at hstep
    have hsplit : ((D1.objects.drop count.toNat).take k).flatten ++ (D1.objects.drop (count.toNat + k)).flatten =
        (D1.objects.drop count.toNat).flatten := by
      rw [← List.flatten_append, ← List.drop_drop, List.take_append_drop]
    obtain ⟨ls2, rs2, n2, e1, e2, e3, e4, e5⟩ := g1.left
    by_cases hflag : flag = 0
    · rw [if_neg (by simp [hflag])] at hstep
      have hlt : ¬ D1.objects.length ≤ count.toNat + k := fun h => (k2.2 h) hflag
      rw [hstep] at hh ⊢
      rw [List.length_cons] at hm hn
      have hh' : (s'.readPages C (count + (k : Int)) (total ++ ((D1.objects.drop count.toNat).take k).flatten)).2.handed ++
          more = s'.handed ++ (more1 ++ more) := by
        rw [g1.handed, List.append_assoc]; exact hh
      obtain ⟨ms1, ms2, ws1, bytes, j0, j1, j2, j3, j4⟩ := ih (more1 ++ more).length (by omega) s' (count + (k : Int)) _ n2
        (more1 ++ more) more ls2 rs2 ms' rfl
        ⟨by rw [g1.conn]; exact hf.reach, by rw [g1.conn]; exact hf.ready, hf.context, by rw [g1.rands]; exact hf.pads⟩
        (by rw [g1.password]; exact hp) (by rw [g1.password]; exact hpw) (by omega) e4 hh' e5 e3 e1 e2
        (fun m hm => hsame m (List.mem_cons_of_mem _ hm))
      refine ⟨(D1, D1) :: ms1, ms2, w :: ws1, ((D1.objects.drop count.toNat).take k).flatten ++ bytes, by rw [j0]; rfl,
        by rw [j1]; rfl, ?_, by rw [j3, List.append_assoc], ?_⟩
      · refine .page D1 _ k ms1 bytes (by omega) ?_
        rwa [show (count + (k : Int)).toNat = count.toNat + k by omega] at j2
      · exact ⟨j4.conn.trans g1.conn, j4.password.trans g1.password, j4.rands.trans g1.rands,
          by rw [j4.handed, g1.handed, List.append_assoc]; rfl, j4.left⟩
    · rw [if_pos (by simp [hflag])] at hstep
      have hge := k2.1 hflag
      rw [hstep] at hh ⊢
      dsimp only at hh
      have hm1 : more1 = [] := by
        rw [g1.handed, List.append_assoc] at hh
        have := List.append_cancel_left hh
        simp at this
        simpa using this
      subst hm1
      rw [List.drop_of_length_le hge] at hsplit
      exact ⟨[(D1, D1)], ms', [w], (D1.objects.drop count.toNat).flatten, rfl, rfl, .last D1 _, by rw [← hsplit]; simp, g1⟩

/-- One call. -/
theorem call_moment {C : BlockCipher} {ca : ConnArgs} {D0 : Device} (hd : D0.Ok) {s : Sys} (hf : Fit C ca D0 s)
    (hp : IsLatin1 s.password) (hpw : latin1 s.password = D0.password) {k : Call} (hk : k.InRange) {n : Nat}
    (hss : s.sends = List.replicate n (.ok ())) {more ws ls rs : List Bytes} {ms : List (Device × Device)}
    (hh : (callV C s k).2.handed ++ more = s.handed ++ ws) (hn : ws.length ≤ n) (hr : s.recvs = rs.map .ok)
    (hm : Meets C ms ws ls) (hc : CutUp ls rs) (hsame : ∀ m ∈ ms, SameUnit D0 m.1) :
    ∃ ms1 ms' ws1, ms = ms1 ++ ms' ∧ ws = ws1 ++ more ∧ Glimpses ms1 k (callV C s k).1 ∧
      Onwards C s (callV C s k).2 ms' ws1 more := by
  have h6 : s.password.length = 6 := by
    have := congrArg List.length hpw
    rw [hd.password] at this
    simpa [latin1] using this
  obtain ⟨v1, v2, v3, v4, v5⟩ := bodies_fit hp h6 (hf.pads s.draws)
  cases k with
  | readInstantaneousValues =>
    obtain ⟨b, hb, hbl⟩ := v1
    obtain ⟨D, D1, ms', w, s', reply, rfl, rfl, g1, g2, g3⟩ := exchange_moment (more := more) hd hf
      (show TimeFits (.readInstantaneousValuesRequest { password := s.password }) from trivial) rfl rfl hb hbl hss hh hn hr
      hm hc hsame
    obtain ⟨hok, _, hpd⟩ := hsame (D, D1) List.mem_cons_self
    obtain ⟨rfl, tb, t1, rfl⟩ := does_values g2 (hpw.trans hpd.symm)
    have hx := g3 _ (not_oneBit (by simp [denotes_length t1]; omega)) (.values _ _ (decode_values hok t1))
    simp only [callV, Sys.readInstantaneousValues, hx, Outcome3.andThen]
    exact ⟨[(D1, D1)], ms', [w], rfl, rfl, .once D1 D1 _ _ (fun n h => by cases h) .values, g1⟩
  | readTime =>
    obtain ⟨b, hb, hbl⟩ := v2
    obtain ⟨D, D1, ms', w, s', reply, rfl, rfl, g1, g2, g3⟩ := exchange_moment (more := more) hd hf
      (show TimeFits (.readTimeRequest {}) from trivial) rfl rfl hb hbl hss hh hn hr hm hc hsame
    obtain ⟨rfl, tb, extra, t1, rfl⟩ := does_time g2
    have ht : (tb ++ [D1.access] ++ extra ++ D1.crc).take 6 = tb := by
      simp only [List.append_assoc]; rw [← denotes_length t1, List.take_left]
    have hdec := (C24_read_time (tb ++ [D1.access] ++ extra ++ D1.crc)).1 _ _ _ (ht.symm ▸ t1)
    have hx := g3 _ (not_oneBit (by simp [denotes_length t1]; omega)) (.time _ _ hdec)
    simp only [callV, Sys.readTime, timeOf, hx, Outcome3.andThen]
    exact ⟨[(D1, D1)], ms', [w], rfl, rfl, .once D1 D1 _ _ (fun n h => by cases h) .time, g1⟩
  | writeTime t c =>
    obtain ⟨b, hb, hbl⟩ := v3 t c hk
    obtain ⟨D, D1, ms', w, s', reply, rfl, rfl, g1, g2, g3⟩ := exchange_moment (more := more) hd hf
      (show TimeFits (.writeTimeRequest { password := s.password, deviceTime := t, cryout := c }) from hk)
      rfl rfl hb hbl hss hh hn hr hm hc hsame
    obtain ⟨hok, _, hpd⟩ := hsame (D, D1) List.mem_cons_self
    obtain ⟨rfl, t1⟩ := does_setTime g2 (hpw.trans hpd.symm)
    have hx := g3 _ t1 (.writeTime _ _ rfl)
    simp only [callV, Sys.writeTime, hx, Outcome3.andThen]
    exact ⟨[(D, _)], ms', [w], rfl, rfl, .once D _ _ _ (fun n h => by cases h) (.writeTime t c), g1⟩
  | readParameters i =>
    obtain ⟨ms1, ms', ws1, bytes, g0, g1, g2, g3, g4⟩ :=
      pages_moment hd _ s i [] n ws more ls rs ms rfl hf hp hpw hk hss hh hn hr hm hc hsame
    refine ⟨ms1, ms', ws1, g0, g1, ?_, g4⟩
    have e : (callV C s (.readParameters i)).1 = ((Outcome3.ofRes (parseParameters none
        (some bytes))).andThen (.returned ∘ .objects)) := by
      show (((s.readPages C i []).1.andThen _).andThen _) = _
      rw [g3]; rfl
    rw [e]
    cases hparse : parseParameters none (some bytes) with
    | ok os => exact .pages ms1 i bytes os g2 hparse
    | error x => exact .unparsable ms1 i bytes x g2 hparse
  | readArchive x i j =>
    obtain ⟨b, hb, hbl⟩ := v4 x i j hk
    obtain ⟨D, D1, ms', w, s', reply, rfl, rfl, g1, g2, g3⟩ := exchange_moment (more := more) hd hf
      (show TimeFits (.readArchiveRequest { password := s.password, archive := x, amount := i, oldestRecordId := j })
        from trivial) rfl rfl hb hbl hss hh hn hr hm hc hsame
    obtain ⟨hok, _, hpd⟩ := hsame (D, D1) List.mem_cons_self
    obtain ⟨rfl, rfl⟩ := does_archive g2 (hpw.trans hpd.symm)
    obtain ⟨p, p1, p2, p3, p4⟩ := (decode_record hk.1 (hok.records x.toNat i.toNat j.toNat) (D1.records x.toNat i.toNat j.toNat).2).1
    have hx := g3 _ (not_oneBit (by simp [leOf_length])) (.archive _ _ p1)
    simp only [callV, Sys.readArchive, hx, Outcome3.andThen]
    exact ⟨[(D1, D1)], ms', [w], rfl, rfl, .once D1 D1 _ _ (fun n h => by cases h) (.archive x i j p p2 p3 p4), g1⟩
  | readArchiveByTime x i t =>
    obtain ⟨b, hb, hbl⟩ := v5 x i t hk
    obtain ⟨D, D1, ms', w, s', reply, rfl, rfl, g1, g2, g3⟩ := exchange_moment (more := more) hd hf
      (show TimeFits (.readArchiveByTimeRequest
        { password := s.password, archive := x, amount := i, oldestTimestamp := t }) from hk.2.2) rfl rfl hb hbl hss hh hn hr
      hm hc hsame
    obtain ⟨hok, _, hpd⟩ := hsame (D, D1) List.mem_cons_self
    obtain ⟨rfl, rfl⟩ := does_archiveSince g2 (hpw.trans hpd.symm)
    obtain ⟨p, p1, p2, p3, p4⟩ := (decode_record hk.1 (hok.recordsSince x.toNat i.toNat { t with microsecond := 0 })
      (D1.recordsSince x.toNat i.toNat { t with microsecond := 0 }).2).2
    have hx := g3 _ (not_oneBit (by simp [leOf_length])) (.archiveByTime _ _ p1)
    simp only [callV, Sys.readArchiveByTime, hx, Outcome3.andThen]
    exact ⟨[(D1, D1)], ms', [w], rfl, rfl, .once D1 D1 _ _ (fun n h => by cases h) (.archiveSince x i t p p2 p3 p4), g1⟩

theorem session_moment {C : BlockCipher} {ca : ConnArgs} {D0 : Device} (hd : D0.Ok) (ks : List Call)
    (hks : ∀ k ∈ ks, k.InRange) : ∀ (s : Sys) (n : Nat) (ws ls rs : List Bytes) (ms : List (Device × Device)),
    Fit C ca D0 s → IsLatin1 s.password → latin1 s.password = D0.password → s.sends = List.replicate n (.ok ()) →
    (callsV C s ks).2.handed = s.handed ++ ws → ws.length ≤ n → s.recvs = rs.map .ok → Meets C ms ws ls → CutUp ls rs →
    (∀ m ∈ ms, SameUnit D0 m.1) → GlimpsesAll ms ks (callsV C s ks).1 := by
  induction ks with
  | nil =>
    intro s n ws ls rs ms hf hp hpw hss hh hn hr hm hc hsame
    have : ws = [] := by simpa [callsV] using hh.symm
    subst this
    cases hm
    exact .nil
  | cons k ks ih =>
    intro s n ws ls rs ms hf hp hpw hss hh hn hr hm hc hsame
    obtain ⟨_, hreach, ws0, hws0, _⟩ :=
      call_effect (fun _ _ => True) s s.password hf.reach rfl (fun _ _ _ _ _ _ => trivial) k
    obtain ⟨more, hmore⟩ := calls_more ks (call C s k).2 hreach
    have hm' : (callsV C (callV C s k).2 ks).2.handed = (callV C s k).2.handed ++ more := by
      rw [callsV_calls, callV_call]; exact hmore
    have hh' : (callsV C (callV C s k).2 ks).2.handed = s.handed ++ ws := hh
    obtain ⟨ms1, ms', ws1, rfl, rfl, g3, g4⟩ := call_moment hd hf hp hpw (hks k List.mem_cons_self) hss
      (by rw [← hm']; exact hh') hn hr hm hc hsame
    obtain ⟨ls2, rs2, n2, e1, e2, e3, e4, e5⟩ := g4.left
    exact .call ms1 ms' k ks _ _ g3 (ih (fun k hk => hks k (List.mem_cons_of_mem _ hk)) _ n2 more ls2 rs2 ms'
      ⟨by rw [g4.conn]; exact hf.reach, by rw [g4.conn]; exact hf.ready, hf.context, by rw [g4.rands]; exact hf.pads⟩
      (by rw [g4.password]; exact hp) (by rw [g4.password]; exact hpw) e4 hm' e5 e3 e1 e2
      (fun m hm => hsame m (List.mem_append.2 (.inr hm))))

theorem meets_length {C : BlockCipher} {ms : List (Device × Device)} {ws ls : List Bytes} (h : Meets C ms ws ls) :
    ms.length = ws.length := by
  induction h with
  | nil => rfl
  | request _ _ _ _ _ _ _ _ _ ih => simp [ih]

/-- The moments of the calls are those of the lines written meanwhile. -/
theorem session_when {C : BlockCipher} {ca : ConnArgs} {D0 : Device} (hd : D0.Ok) (ks : List Call)
    (hks : ∀ k ∈ ks, k.InRange) : ∀ (s : Sys) (n : Nat) (ws ls rs : List Bytes) (ms : List (Device × Device)) (j : Nat),
    Fit C ca D0 s → IsLatin1 s.password → latin1 s.password = D0.password → s.sends = List.replicate n (.ok ()) →
    (callsV C s ks).2.handed = s.handed ++ ws → ws.length ≤ n → s.recvs = rs.map .ok → Meets C ms ws ls → CutUp ls rs →
    (∀ m ∈ ms, SameUnit D0 m.1) → ∃ i, (callsV C s (ks.take j)).2.handed.length = s.handed.length + i ∧
      GlimpsesAll (ms.take i) (ks.take j) ((callsV C s ks).1.take j) ∧
      GlimpsesAll (ms.drop i) (ks.drop j) ((callsV C s ks).1.drop j) := by
  induction ks with
  | nil =>
    intro s n ws ls rs ms j hf hp hpw hss hh hn hr hm hc hsame
    have := session_moment hd [] hks s n ws ls rs ms hf hp hpw hss hh hn hr hm hc hsame
    generalize ho : (callsV C s []).1 = os at *
    cases this
    exact ⟨0, by simp [callsV], by simp; exact .nil, by simp; exact .nil⟩
  | cons k ks ih =>
    intro s n ws ls rs ms j hf hp hpw hss hh hn hr hm hc hsame
    cases j with
    | zero =>
      exact ⟨0, by simp [callsV], by simp; exact .nil, by
        simpa using session_moment hd (k :: ks) hks s n ws ls rs ms hf hp hpw hss hh hn hr hm hc hsame⟩
    | succ j =>
      obtain ⟨_, hreach, ws0, hws0, _⟩ :=
        call_effect (fun _ _ => True) s s.password hf.reach rfl (fun _ _ _ _ _ _ => trivial) k
      obtain ⟨more, hmore⟩ := calls_more ks (call C s k).2 hreach
      have hm' : (callsV C (callV C s k).2 ks).2.handed = (callV C s k).2.handed ++ more := by
        rw [callsV_calls, callV_call]; exact hmore
      have hh' : (callsV C (callV C s k).2 ks).2.handed = s.handed ++ ws := hh
      obtain ⟨ms1, ms', ws1, rfl, rfl, g3, g4⟩ := call_moment hd hf hp hpw (hks k List.mem_cons_self) hss
        (by rw [← hm']; exact hh') hn hr hm hc hsame
      have hlen := meets_length hm
      obtain ⟨ls2, rs2, n2, e1, e2, e3, e4, e5⟩ := g4.left
      have hlen' := meets_length e1
      simp only [List.length_append] at hlen
      obtain ⟨i, i1, i2, i3⟩ := ih (fun k hk => hks k (List.mem_cons_of_mem _ hk)) _ n2 more ls2 rs2 ms' j
        ⟨by rw [g4.conn]; exact hf.reach, by rw [g4.conn]; exact hf.ready, hf.context, by rw [g4.rands]; exact hf.pads⟩
        (by rw [g4.password]; exact hp) (by rw [g4.password]; exact hpw) e4 hm' e5 e3 e1 e2
        (fun m hm => hsame m (List.mem_append.2 (.inr hm)))
      refine ⟨ms1.length + i, ?_, ?_, ?_⟩
      · show (callsV C (callV C s k).2 (ks.take j)).2.handed.length = _
        rw [i1, g4.handed, List.length_append]
        omega
      · rw [List.take_length_add_append]
        exact .call ms1 _ k _ _ _ g3 i2
      · rw [List.drop_length_add_append]
        exact i3

theorem meets_lines {C : BlockCipher} {ms : List (Device × Device)} {ws ls : List Bytes} (h : Meets C ms ws ls) :
    ∀ line ∈ ls, ∃ w, line = w ++ [0x0D] ∧ 0x0D ∉ w := by
  induction h with
  | nil => intro l hl; cases hl
  | request D D1 ms w ws line lines h1 _ ih =>
    intro l hl
    rcases List.mem_cons.1 hl with rfl | hl
    · obtain ⟨_, _, _, _, _, _, _, hc⟩ := h1
      exact carries_line hc
    · exact ih l hl

/-- C118. A session with a device that goes on by itself: for every request line it is whatever it is at that moment, with
the same key and password, and it answers as it should; the answers are delivered in any segments, with any empty reads;
timeout and clock are arbitrary. Then every call gives back what the device was at one moment while the call was made,
and the moments of the calls follow each other; only `read_parameters` takes a moment for each of its pages. The moments
of the first `j` calls are exactly those of the lines that these `j` calls write, so none of them comes from before. -/
theorem C118_session (C : BlockCipher) (kind : Kind) (timeout : Option Int) (a : ClientArgs) (env : OsEnv) (w : World)
    (hm : mkWorld kind timeout a env = .ok w) (hr : ∀ i, PadOk (env.rands i).pw)
    (h : Handle) (hopens : ∃ l, env.opens = .ok h :: l) (n : Nat) (hwrites : env.writes = List.replicate n (.ok ()))
    (D0 : Device) (hd : D0.Ok) (hk : SharesKey a D0) (hp : KnowsPassword a D0) (ks : List Call)
    (hks : ∀ k ∈ ks, k.InRange) (program : List Action) (hprog : program = .connect :: ks.map .call)
    (hn : (written (acts C w program).2.os).length ≤ n) (moments : List (Device × Device)) (answers : List Bytes)
    (hmeets : Meets C moments (written (acts C w program).2.os) answers)
    (hsame : ∀ m ∈ moments, m.1.Ok ∧ m.1.key = D0.key ∧ m.1.password = D0.password)
    (hin : content (env.inbox h) = bytesOnly answers.flatten) :
    ∃ values, (acts C w program).1 = .returned .nothing :: values ∧ GlimpsesAll moments ks values ∧
      ∀ j i, i = (written (acts C w (program.take (j + 1))).2.os).length →
        GlimpsesAll (moments.take i) (ks.take j) (values.take j) ∧
        GlimpsesAll (moments.drop i) (ks.drop j) (values.drop j) := by
  obtain ⟨lo, hopens⟩ := hopens
  obtain ⟨conn, hconn, rfl⟩ := mkWorld_ok hm
  let w1 : World := {
    password := toSecretStr a.password, conn := conn,
    transport := { mkTransport kind timeout with socket := some h }, opens := lo,
    shutdowns := env.shutdowns, closes := env.closes, writes := env.writes, inbox := env.inbox,
    clock := env.clock, rands := env.rands, os := [.create (some h)] }
  have hc1 : act C { w1 with transport := mkTransport kind timeout, opens := env.opens, os := [] } .connect =
      (.returned .nothing, w1) := by
    simp only [act, World.connect, mkTransport, hopens, Transport.connect, Outcome3.andThen]
    rfl
  have ht1 : w1.transport.socket = some h := rfl
  obtain ⟨_, e2, _⟩ := acts_calls (C := C) ks w1 ht1
  have hallOf (ks : List Call) : acts C { w1 with transport := mkTransport kind timeout, opens := env.opens, os := [] }
      (.connect :: ks.map .call) =
      (.returned .nothing :: (callsV C w1.sys ks).1, (acts C w1 (ks.map .call)).2) := by
    obtain ⟨e1, _, _⟩ := acts_calls (C := C) ks w1 ht1
    show (_ :: (acts C (act C _ .connect).2 _).1, (acts C (act C _ .connect).2 _).2) = _
    rw [hc1]
    dsimp only
    rw [e1]
  have hprefix (j : Nat) : program.take (j + 1) = .connect :: (ks.take j).map .call := by
    rw [hprog, List.take_succ_cons, List.map_take]
  have hlines (j : Nat) : (callsV C w1.sys (ks.take j)).2.handed =
      written (acts C { w1 with transport := mkTransport kind timeout, opens := env.opens, os := [] }
        (program.take (j + 1))).2.os := by
    obtain ⟨_, e2, _⟩ := acts_calls (C := C) (ks.take j) w1 ht1
    rw [hprefix, hallOf, ← e2]
    rfl
  have hall := hallOf ks
  rw [← hprog] at hall
  have hall' : acts C
          ({ password := toSecretStr a.password, conn := conn, transport := mkTransport kind timeout,
             opens := env.opens, shutdowns := env.shutdowns, closes := env.closes, writes := env.writes,
             inbox := env.inbox, clock := env.clock, rands := env.rands } : World) program = _ := hall
  rw [hall'] at hn hmeets ⊢
  dsimp only at hn hmeets ⊢
  have hh : (callsV C w1.sys ks).2.handed = written (acts C w1 (ks.map .call)).2.os := by rw [← e2]; rfl
  have hready : Reachable C _ conn := ⟨conn, [], hconn, rfl⟩
  have hrdy : Ready conn := by
    obtain ⟨_, rfl⟩ := mkConn_ok hconn
    exact ⟨rfl, rfl⟩
  have hfit : Fit C _ D0 w1.sys := ⟨hready, hrdy, shares_context hk hd.key rfl, hr⟩
  obtain ⟨rs, k1, hcut⟩ := recvs_cut w1.transport h ht1 answers (meets_lines hmeets) (env.inbox h) env.clock
    answers.flatten.length hin (Nat.le_refl _)
  have hrecv : w1.sys.recvs = rs.map .ok := by
    rw [← k1, recvs_enough ht1 _ _ _ (by rw [hin]; unfold bytesOnly; rw [List.length_map]; exact Nat.le_refl _)]
    rfl
  have hsend : w1.sys.sends = List.replicate n (.ok ()) := by
    show (env.writes.map _) = _
    rw [hwrites, List.map_replicate]
  refine ⟨_, rfl, session_moment hd ks hks w1.sys n _ answers rs moments hfit hp.1 hp.2 hsend (by rw [hh]; rfl) hn hrecv
    hmeets hcut hsame, fun j i hi => ?_⟩
  obtain ⟨i', i1, i2⟩ := session_when hd ks hks w1.sys n _ answers rs moments j hfit hp.1 hp.2 hsend (by rw [hh]; rfl) hn
    hrecv hmeets hcut hsame
  have : i = i' := by
    rw [hlines j] at i1
    rw [hi]
    exact i1.trans (Nat.zero_add i')
  rw [this]
  exact i2

/-! ### What follows -/

/-- Pages of a device that stays as it is come together to all its objects. -/
theorem gathers_unchanged {first : Nat} {ms : List (Device × Device)} {bytes : Bytes} (h : Gathers first ms bytes)
    (objects : List Bytes) (hsame : ∀ m ∈ ms, m.1.objects = objects) : bytes = (objects.drop first).flatten := by
  induction h with
  | last D first => rw [← hsame (D, D) List.mem_cons_self]
  | page D first k ms rest _ _ ih =>
    rw [ih fun m hm => hsame m (List.mem_cons_of_mem _ hm), ← hsame (D, D) List.mem_cons_self, ← List.drop_drop,
      ← List.flatten_append, List.take_append_drop]

/-- C118. If the device has the same objects at all moments, `read_parameters(n)` gives them back from number `n` on. -/
theorem C118_unchanged (n : Int) (ms : List (Device × Device)) (value : Outcome3 Value)
    (h : Glimpses ms (.readParameters n) value) (objects : List Bytes) (hsame : ∀ m ∈ ms, m.1.objects = objects) :
    (∃ os, parseParameters none (some (objects.drop n.toNat).flatten) = .ok os ∧ value = .returned (.objects os)) ∨
      ∃ x, parseParameters none (some (objects.drop n.toNat).flatten) = .error x ∧ value = .raised x := by
  cases h with
  | once D D1 _ _ hk _ => exact absurd rfl (hk n)
  | pages _ _ bytes os hg hp =>
    rw [gathers_unchanged hg objects hsame] at hp
    exact .inl ⟨os, hp, rfl⟩
  | unparsable _ _ bytes x hg hp =>
    rw [gathers_unchanged hg objects hsame] at hp
    exact .inr ⟨x, hp, rfl⟩

/-- C118. Whoever reads the time again and again gets what the clock says each time, in that order. -/
theorem C118_clock (n : Nat) : ∀ (ms : List (Device × Device)) (values : List (Outcome3 Value)),
    GlimpsesAll ms (List.replicate n .readTime) values →
    values = ms.map (fun m => .returned (.time m.1.clock)) ∧ ms.length = n ∧ ∀ m ∈ ms, m.2 = m.1 := by
  induction n with
  | zero =>
    intro ms values h
    cases h
    exact ⟨rfl, rfl, fun m hm => by cases hm⟩
  | succ n ih =>
    intro ms values h
    cases h with
    | call ms1 ms2 _ _ r rs h1 h2 =>
      obtain ⟨e1, e2, e3⟩ := ih _ _ h2
      cases h1 with
      | once D D1 _ _ _ hi =>
        cases hi
        refine ⟨by rw [e1]; rfl, by simp [e2], fun m hm => ?_⟩
        rcases List.mem_cons.1 hm with rfl | hm
        · rfl
        · exact e3 m hm

/-- C118. What comes of setting the clock: the call returns nothing, and the clock stands at the second that was asked for.
The next call of `read_time` gives what the clock says then: whatever has become of that second while it ran on. -/
theorem C118_set (t : DateTime) (c : Bool) (ms : List (Device × Device)) (values : List (Outcome3 Value))
    (h : GlimpsesAll ms [.writeTime t c, .readTime] values) :
    ∃ m m', ms = [m, m'] ∧ values = [.returned .nothing, .returned (.time m'.1.clock)] ∧
      m.2 = { m.1 with clock := { t with microsecond := 0 } } := by
  cases h with
  | call ms1 ms2 _ _ r rs h1 h2 =>
    cases h2 with
    | call ms3 ms4 _ _ r' rs' h3 h4 =>
      cases h4
      cases h1 with
      | once D D1 _ _ _ hi =>
        cases h3 with
        | once D' D1' _ _ _ hi' =>
          cases hi
          cases hi'
          exact ⟨_, _, rfl, rfl, rfl⟩

/-- C118. A clock that never goes back is never read going back. -/
theorem C118_forward (n : Nat) (ms : List (Device × Device)) (values : List (Outcome3 Value))
    (h : GlimpsesAll ms (List.replicate n .readTime) values) (before : DateTime → DateTime → Prop)
    (hforward : ms.Pairwise fun m m' => before m.1.clock m'.1.clock) :
    values.Pairwise fun v v' => ∃ t t', v = .returned (.time t) ∧ v' = .returned (.time t') ∧ before t t' := by
  rw [(C118_clock n ms values h).1, List.pairwise_map]
  exact hforward.imp fun hb => ⟨_, _, rfl, rfl, hb⟩

/-- C118. A list that was never there. A device has the objects of `D1` when the first page of `read_parameters(0)` is
asked for, and those of `D2` when the second one is. Then there are answers with which the call gives back the first `k`
objects of `D1` and all others of `D2`: nothing in the protocol or in the client holds the device still between pages. -/
theorem C118_torn (C : BlockCipher) (a : ClientArgs) (ha : 801 ≤ a.passwordId ∧ a.passwordId ≤ 849)
    (rands : Nat → Rand) (hr : ∀ i, PadOk (rands i).pw) (D1 D2 : Device) (hd1 : D1.Ok) (hd2 : D2.Ok)
    (hk1 : SharesKey a D1) (hk2 : SharesKey a D2) (hp1 : KnowsPassword a D1) (hp2 : KnowsPassword a D2)
    (k : Nat) (hk : k < D1.objects.length) (hs1 : (D1.objects.take k).flatten.length ≤ 1024)
    (hs2 : (D2.objects.drop k).flatten.length ≤ 1024) :
    ∃ (w1 w2 line1 line2 : Bytes), Meets C [(D1, D1), (D2, D2)] [w1, w2] [line1, line2] ∧
      ∀ (t : Transport) (h : Handle), t.socket = some h → ∀ (stream : List Delivery) (clock : Clock),
        content stream = bytesOnly (line1 ++ line2) → ∀ n m, 2 ≤ n → (line1 ++ line2).length ≤ m →
        ∃ s, mkClient a (List.replicate n (.ok ())) (recvs t m stream clock) rands = .ok s ∧
          (callV C s (.readParameters 0)).2.handed = [w1, w2] ∧
          (∀ os, parseParameters none (some (D1.objects.take k ++ D2.objects.drop k).flatten) = .ok os →
            (callV C s (.readParameters 0)).1 = .returned (.objects os)) ∧
          ∀ x, parseParameters none (some (D1.objects.take k ++ D2.objects.drop k).flatten) = .error x →
            (callV C s (.readParameters 0)).1 = .raised x := by
  have h6 : a.password.length = 6 := by
    have := congrArg List.length hp1.2
    rw [hd1.password] at this
    simpa [latin1] using this
  obtain ⟨s, hm, _⟩ := (C55_constructor a [] [] rands).1 ⟨by omega, ha⟩
  obtain ⟨h1, h2, h3, _, _, h7, h8⟩ := mkClient_start (C := C) hm
  have hobj1 := hd1.objects
  have hf1 : Fit C _ D1 s := ⟨h1, h2, shares_context hk1 hd1.key rfl, h7 ▸ hr⟩
  have hl : IsLatin1 s.password := h3 ▸ hp1.1
  have hs6 : s.password.length = 6 := h3 ▸ h6
  have hpw1 : latin1 s.password = D1.password := h3 ▸ hp1.2
  have hpw2 : latin1 s.password = D2.password := h3 ▸ hp2.2
  obtain ⟨b1, hb1, hbl1⟩ := pageBody_ok (count := 0) hl hs6 (by omega) (hf1.pads s.draws)
  have hdo1 := Does.parameters (D := D1) 0 1024 k 0 (by omega) (by simpa using hs1) (by simp; omega)
  rw [← hpw1] at hdo1
  have hdec1 := decode_page (first := 0) (k := k) (by omega) (by omega) 0 ((D1.objects.drop 0).take k).flatten
  obtain ⟨w1, line1, r1, x1⟩ := exchange_anyhow hd1 hf1 (e := pageRequest s.password 0) trivial rfl rfl hb1 hbl1
    (fun pw h => by cases h; exact hs6) hdo1
    (by simp only [List.length_append, le2, List.length_cons, List.length_nil, List.drop_zero]; omega)
    (not_oneBit (by simp [le2])) (.parameters _ _ hdec1)
  have hf2 : Fit C _ D2 { s with draws := s.draws + 1, handed := s.handed ++ [w1] } :=
    ⟨hf1.reach, hf1.ready, shares_context hk2 hd2.key rfl, hf1.pads⟩
  have hobj2 := hd2.objects
  obtain ⟨b2, hb2, hbl2⟩ := pageBody_ok (count := 0 + (k : Int)) hl hs6 (by omega) (hf1.pads (s.draws + 1))
  have hall : (D2.objects.drop k).take (D2.objects.length - k) = D2.objects.drop k :=
    List.take_of_length_le (by rw [List.length_drop]; exact Nat.le_refl _)
  have hdo2 := Does.parameters (D := D2) k 1024 (D2.objects.length - k) 1 (by omega) (by rw [hall]; exact hs2) (by simp; omega)
  rw [← hpw2] at hdo2
  have hdec2 := decode_page (first := k) (k := D2.objects.length - k) (by omega) (by omega) 1
    ((D2.objects.drop k).take (D2.objects.length - k)).flatten
  obtain ⟨w2, line2, r2, x2⟩ := exchange_anyhow hd2 hf2 (e := pageRequest s.password (0 + (k : Int))) trivial rfl rfl hb2 hbl2
    (fun pw h => by cases h; exact hs6) (D1 := D2)
    (reply := le2 k ++ le2 (D2.objects.length - k) ++ [1] ++ ((D2.objects.drop k).take (D2.objects.length - k)).flatten)
    (by
      have e : askedOf (pageRequest s.password (0 + (k : Int))) = .parameters (latin1 s.password) k 1024 := by
        simp [askedOf, pageRequest]
      rw [e]; exact hdo2)
    (by rw [hall]; simp only [List.length_append, le2, List.length_cons, List.length_nil]; omega)
    (not_oneBit (by simp [le2])) (.parameters _ _ hdec2)
  refine ⟨w1, w2, line1, line2, .request _ _ _ _ _ _ _ r1 (.request _ _ _ _ _ _ _ r2 .nil),
    fun t h ht stream clock hstream n m hn hmm => ?_⟩
  have hlines : ∀ line ∈ [line1, line2], ∃ w, line = w ++ [0x0D] ∧ 0x0D ∉ w := by
    obtain ⟨_, _, _, _, _, _, _, hc1⟩ := id r1
    obtain ⟨_, _, _, _, _, _, _, hc2⟩ := id r2
    intro l hl
    simp only [List.mem_cons, List.not_mem_nil, or_false] at hl
    rcases hl with rfl | rfl
    · exact carries_line hc1
    · exact carries_line hc2
  obtain ⟨rs, hrs, hcut⟩ := recvs_cut t h ht [line1, line2] hlines stream clock m (by simpa using hstream) (by simpa using hmm)
  obtain ⟨n, rfl⟩ : ∃ j, n = j + 2 := ⟨n - 2, by omega⟩
  have hm' : mkClient a (List.replicate (n + 2) (.ok ())) (recvs t m stream clock) rands = .ok (s.with (n + 2) rs) := by
    rw [hrs]
    unfold mkClient at hm ⊢
    rw [bind_eq_ok] at hm ⊢
    obtain ⟨conn, hc, hm⟩ := hm
    refine ⟨conn, hc, ?_⟩
    rw [← Except.ok.inj hm]
    rfl
  have hpages : (s.with (n + 2) rs).readPages C 0 [] =
      (.returned (D1.objects.take k ++ D2.objects.drop k).flatten,
        ({ s with draws := s.draws + 1 + 1, handed := s.handed ++ [w1] ++ [w2] } : Sys).with n []) := by
    cases hcut with
    | line _ pieces last _ rs g1 g2 g3 =>
      cases g3 with
      | line _ pieces' last' _ rs' f1 f2 f3 =>
        cases f3
        rw [readPages_page (x1 (n + 1) pieces last (pieces' ++ [last']) g1 g2)]
        dsimp only
        rw [if_neg (by simp)]
        have e : (({ s with draws := s.draws + 1, handed := s.handed ++ [w1] } : Sys).with (n + 1) (pieces' ++ [last'])).readPages C
            (0 + (k : Int)) ([] ++ (List.take k (List.drop 0 D1.objects)).flatten) = _ :=
          readPages_page (x2 n pieces' last' [] f1 f2)
        rw [e]
        dsimp only
        rw [if_pos (by simp), hall, List.nil_append, List.drop_zero, ← List.flatten_append]
  have hcall : callV C (s.with (n + 2) rs) (.readParameters 0) = (_ , _) := rfl
  refine ⟨_, hm', ?_, fun os hos => ?_, fun x hx => ?_⟩
  · show ((s.with (n + 2) rs).readPages C 0 []).2.handed = _
    rw [hpages]
    show s.handed ++ [w1] ++ [w2] = _
    rw [h8]
    rfl
  · show ((((s.with (n + 2) rs).readPages C 0 []).1.andThen _).andThen _) = _
    rw [hpages]
    dsimp only [Outcome3.andThen]
    rw [hos]
    rfl
  · show ((((s.with (n + 2) rs).readPages C 0 []).1.andThen _).andThen _) = _
    rw [hpages]
    dsimp only [Outcome3.andThen]
    rw [hx]
    rfl

/-! ### Examples -/

/-- The device a second later. -/
def exLater : Device := { exDevice none (List.replicate 6 0x30) with clock := ⟨2020, 3, 1, 0, 0, 0, 0⟩ }

/-- Its answer to a request for the time. -/
def exLaterTime : Bytes :=
  escBytes (frame 0x86 0x6C [0, 0, 0, 0, 0, 0] ([0x00, 0x00, 0xC0, 0x01, 0x03, 0x20] ++ [0x0F] ++ [] ++ [0x12, 0x34])).dropLast ++
    [0x0D]

def exMoments : List (Device × Device) :=
  [(exDevice none (List.replicate 6 0x30), exDevice none (List.replicate 6 0x30)), (exLater, exLater)]

theorem exLater_denotes : Denotes [0x00, 0x00, 0xC0, 0x01, 0x03, 0x20] ⟨2020, 3, 1, 0, 0, 0, 0⟩ true true :=
  ⟨0x00, 0x00, 0xC0, 0x01, 0x03, 0x20, rfl, by decide, by decide, by decide, by decide, by decide, by decide, by decide,
    by decide, by decide, by decide⟩

theorem exMeets : Meets idCipher exMoments [exAsk, exAsk] [exDeviceTime, exLaterTime] :=
  .request _ _ _ _ _ _ _
    ⟨0x6C, [], .time, _, ⟨[0, 0, 0, 0, 0, 0], [], rfl, by decide, rfl, rfl⟩, .time, .time _ [] exTime_denotes,
      ⟨[0, 0, 0, 0, 0, 0], _, rfl, by decide, rfl, rfl⟩⟩
    (.request _ _ _ _ _ _ _
      ⟨0x6C, [], .time, _, ⟨[0, 0, 0, 0, 0, 0], [], rfl, by decide, rfl, rfl⟩, .time, .time _ [] exLater_denotes,
        ⟨[0, 0, 0, 0, 0, 0], _, rfl, by decide, rfl, rfl⟩⟩ .nil)

def exMomentsEnv : OsEnv := { exBroken with inbox := fun _ => [.seg (exDeviceTime ++ exLaterTime)] }

theorem exLater_ok : exLater.Ok := clock_ok (exDevice_ok _ (fun _ _ h => by cases h) _ rfl).2
  (show Expressible ⟨2020, 3, 1, 0, 0, 0, 0⟩ by unfold Expressible; decide)

-- the hypotheses of C118_session, and what it says: two calls of `read_time`, midnight of a leap day between them
example : ∃ w, mkWorld .tcp (some 0) exArgs exMomentsEnv = .ok w ∧
    Meets idCipher exMoments (written (acts idCipher w (.connect :: [Call.readTime, .readTime].map .call)).2.os)
      [exDeviceTime, exLaterTime] ∧
    content (exMomentsEnv.inbox 5) = bytesOnly [exDeviceTime, exLaterTime].flatten ∧
    (∀ m ∈ exMoments, m.1.Ok ∧ m.1.key = none ∧ m.1.password = List.replicate 6 0x30) ∧
    (acts idCipher w (.connect :: [Call.readTime, .readTime].map .call)).1 =
      [.returned .nothing, .returned (.time ⟨2020, 2, 29, 23, 59, 59, 0⟩), .returned (.time ⟨2020, 3, 1, 0, 0, 0, 0⟩)] := by
  have hw : ∃ w, mkWorld .tcp (some 0) exArgs exMomentsEnv = .ok w := ⟨_, rfl⟩
  obtain ⟨w, hw⟩ := hw
  have hh : written (acts idCipher w (.connect :: [Call.readTime, .readTime].map .call)).2.os = [exAsk, exAsk] := by
    rw [← Except.ok.inj hw]
    decide +kernel
  have hin : content (exMomentsEnv.inbox 5) = bytesOnly [exDeviceTime, exLaterTime].flatten := by decide +kernel
  have hok : ∀ m ∈ exMoments, m.1.Ok ∧ m.1.key = none ∧ m.1.password = List.replicate 6 0x30 := by
    intro m hm
    simp only [exMoments, List.mem_cons, List.not_mem_nil, or_false] at hm
    rcases hm with rfl | rfl
    · exact ⟨(exDevice_ok _ (fun _ _ h => by cases h) _ rfl).2, rfl, rfl⟩
    · exact ⟨exLater_ok, rfl, rfl⟩
  refine ⟨w, hw, by rw [hh]; exact exMeets, hin, hok, ?_⟩
  obtain ⟨values, h1, h2, _⟩ := C118_session idCipher .tcp (some 0) exArgs exMomentsEnv w hw
    (fun _ => show PadOk ('a', 'b') by decide +kernel) 5 ⟨_, rfl⟩ 3 rfl (exDevice none (List.replicate 6 0x30))
    (exDevice_ok _ (fun _ _ h => by cases h) _ rfl).2 (fun ⟨⟨_, h, _⟩, _⟩ => by (cases h)) ⟨by decide, by decide⟩
    [.readTime, .readTime] (by simp [Call.InRange]) _ rfl (by rw [hh]; decide) exMoments [exDeviceTime, exLaterTime]
    (by rw [hh]; exact exMeets) hok hin
  rw [h1, (C118_clock 2 _ _ h2).1]
  rfl

/-- A device with two binary inputs, and the same device with two time windows. -/
def exBinaries : Device :=
  { exDevice none (List.replicate 6 0x30) with objects := (exRecords.take 1 ++ exRecords.take 1).map record }
def exWindows : Device :=
  { exDevice none (List.replicate 6 0x30) with objects := (exRecords.drop 1 ++ exRecords.drop 1).map record }

theorem exObjects_ok (objects : List Bytes) (h : objects.length ≤ 65535) :
    ({ exDevice none (List.replicate 6 0x30) with objects := objects } : Device).Ok :=
  have hd := (exDevice_ok none (fun _ _ h => by cases h) (List.replicate 6 0x30) rfl).2
  ⟨hd.password, hd.clock, hd.key, hd.status, hd.summary, hd.crc, h, hd.records, hd.recordsSince⟩

-- the hypotheses of C118_torn, and what it says: a binary input and a time window, which the device never had together
example (C : BlockCipher) : ∃ s a b, (callV C s (.readParameters 0)).1 = .returned (.objects [a, b]) ∧ a.cls = .Binary ∧
    b.cls = .TimeWindow := by
  obtain ⟨w1, w2, line1, line2, _, h⟩ := C118_torn C exArgs (by decide) (fun _ => ⟨('a', 'b'), fun _ => 0⟩)
    (fun _ => show PadOk ('a', 'b') by decide +kernel) exBinaries exWindows (exObjects_ok _ (by decide)) (exObjects_ok _ (by decide))
    (fun ⟨⟨_, h, _⟩, _⟩ => by (cases h)) (fun ⟨⟨_, h, _⟩, _⟩ => by (cases h)) ⟨by decide, by decide⟩ ⟨by decide, by decide⟩
    1 (by decide) (by decide +kernel) (by decide +kernel)
  obtain ⟨s, _, _, h1, _⟩ := h exSerial 5 rfl [.seg (line1 ++ line2)] exClock (by simp [content, bytesOnly]) 2 _ (by omega)
    (Nat.le_refl _)
  have he : (exBinaries.objects.take 1 ++ exWindows.objects.drop 1).flatten = exRecords.flatMap record := by decide +kernel
  obtain ⟨a, b, hab, ha, hb⟩ : ∃ a b, parseParameters none (some (exRecords.flatMap record)) = .ok [a, b] ∧
      a.cls = .Binary ∧ b.cls = .TimeWindow := by
    rw [C56_split exRecords (by decide) (by decide +kernel)]
    exact ⟨⟨.Binary, binaryLayout.values exBinary⟩, ⟨.TimeWindow, (timeWindowLayout 2).values exTimeWindow⟩,
      by decide +kernel, rfl, rfl⟩
  exact ⟨s, a, b, h1 _ (by rw [he]; exact hab), ha, hb⟩

end Elgas
