import Verif.Props.EndToEnd
import Verif.Props.Program
/-!
C79 and C82, continued: every session takes place, however the answers of the device are cut and delivered.
-/
namespace Elgas
open Spec

/-- The lines, one after the other, each cut into pieces, the last piece of each line not empty. -/
inductive CutUp : List Bytes → List Bytes → Prop
  | nil : CutUp [] []
  | line (l : Bytes) (pieces : List Bytes) (last : Bytes) (ls rs : List Bytes) (h : pieces.flatten ++ last = l)
      (hl : last ≠ []) (hr : CutUp ls rs) : CutUp (l :: ls) (pieces ++ last :: rs)

theorem cutUp_append {l l' : List Bytes} : ∀ {rs : List Bytes}, CutUp (l ++ l') rs →
    ∃ rs1 rs2, rs = rs1 ++ rs2 ∧ CutUp l rs1 ∧ CutUp l' rs2 := by
  induction l with
  | nil => exact fun {rs} h => ⟨[], rs, rfl, .nil, h⟩
  | cons x l ih =>
    intro rs h
    cases h with
    | line _ pieces last _ rs hl hne h =>
      obtain ⟨rs1, rs2, rfl, h1, h2⟩ := ih h
      exact ⟨pieces ++ last :: rs1, rs2, by simp, .line _ pieces last _ _ hl hne h1, h2⟩

/-- What `recv()` returns, if the stream consists of the given lines. -/
theorem recvs_cut (t : Transport) (h : Handle) (ht : t.socket = some h) : ∀ (lines : List Bytes)
    (_ : ∀ line ∈ lines, ∃ w, line = w ++ [0x0D] ∧ 0x0D ∉ w) (s : List Delivery) (c : Clock) (n : Nat),
    content s = bytesOnly lines.flatten → lines.flatten.length ≤ n →
    ∃ rs, recvs t n s c = rs.map .ok ∧ CutUp lines rs := by
  intro lines
  induction lines with
  | nil =>
    intro _ s c n hs _
    refine ⟨[], ?_, .nil⟩
    cases n with
    | zero => rfl
    | succ n =>
      have := C48_needs_input t h ht s c (by simpa [bytesOnly] using hs)
      unfold recvs
      rcases hr : t.recv s c with ⟨o, s', c'⟩
      rw [hr] at this
      dsimp only at this
      rw [this]
      rfl
  | cons line lines ih =>
    intro hl s c n hs hn
    obtain ⟨l, rfl, hl0⟩ := hl line (by simp)
    obtain ⟨init, last, s', c', g1, g2, g3, g4, g5⟩ := line_pieces t h ht l hl0 (bytesOnly lines.flatten) s c
      (by rw [hs]; simp [bytesOnly])
    simp only [List.flatten_cons, List.length_append, List.length_cons, List.length_nil] at hn
    obtain ⟨rs, k1, k2⟩ := ih (fun x hx => hl x (by simp [hx])) s' c' (n - (init.length + 1)) g3 (by omega)
    refine ⟨init ++ last :: rs, ?_, .line _ init last _ rs g1 g2 k2⟩
    have := g5 (n - (init.length + 1))
    rw [show init.length + 1 + (n - (init.length + 1)) = n by omega, k1] at this
    rw [this]
    simp

/-- The device can answer the call `k`, however the answers are cut, and whatever comes after that. -/
def Anyhow (C : BlockCipher) (s : Sys) (D : Device) (k : Sys → Sys) (D1 : Device) : Prop :=
  ∃ ws lines : List Bytes,
    (∀ ws2 out D', Serves C D1 ws2 out D' → Serves C D (ws ++ ws2) (lines.flatten ++ out) D') ∧
    (∀ line ∈ lines, ∃ w, line = w ++ [0x0D] ∧ 0x0D ∉ w) ∧
    ∀ n rs tail, CutUp lines rs → k (s.with (ws.length + n) (rs ++ tail)) =
      ({ s with draws := s.draws + ws.length, handed := s.handed ++ ws } : Sys).with n tail

theorem exchange_anyhow {C : BlockCipher} {ca : ConnArgs} {D D1 : Device} (hd : D.Ok) {s : Sys} (hf : Fit C ca D s) {e : Event}
    (ht : TimeFits e) {u : EventType} {svc : ServiceNumber} (hu : responseOf e.type = some u)
    (hsvc : serviceOf u = some svc) {body : Bytes} (hb : e.toBytes (s.rands s.draws) = .ok body)
    (hl : body.length ≤ 65500) (h6 : ∀ pw, passwordIn e = some pw → pw.length = 6)
    {reply : Bytes} (hdo : Does D (askedOf e) D1 reply) (hrl : reply.length ≤ 65490)
    (hone : ∀ b, reply = [b] → ¬ OneBit b) {pdu : Event} (hdec : Decodes svc reply pdu) :
    ∃ w line, Replies C D w D1 line ∧
      ∀ n pieces last tail, pieces.flatten ++ last = line → last ≠ [] →
        (s.with (n + 1) (pieces ++ last :: tail)).exchange C e =
        (.returned pdu, ({ s with draws := s.draws + 1, handed := s.handed ++ [w] } : Sys).with n tail) := by
  obtain ⟨w, hw⟩ := send_fits hf hd (isRequest_of hu) hb hl
  obtain ⟨code, body', h1, h2, h3⟩ := send_carries hf.reach hw hf.context
  have hread := (reads_iff (hf.pads _) ht h1 h2 (askedOf e)).2 ⟨h6, rfl⟩
  obtain ⟨line, hc, hne⟩ := carries_exists C hd 0x86 code reply hrl
  refine ⟨w, line, ⟨code, body', _, reply, h3, hread, hdo, hc⟩, fun n pieces last tail he hl => ?_⟩
  exact (exchange_reply (s := s.with (n + 1) (pieces ++ last :: tail)) (pieces := pieces) (last := last) (rest := tail.map .ok)
    (ss := List.replicate n (.ok ())) ⟨hf.reach, hf.ready, hf.context, hf.pads⟩ hu hsvc hw rfl hl (by simp [Sys.with]) h1
    (he ▸ hc)).1 pdu hone hdec

theorem anyhow_one {C : BlockCipher} {s : Sys} {D D1 : Device} {k : Sys → Sys} {w line : Bytes}
    (h : Replies C D w D1 line)
    (hx : ∀ n pieces last tail, pieces.flatten ++ last = line → last ≠ [] → k (s.with (n + 1) (pieces ++ last :: tail)) =
      ({ s with draws := s.draws + 1, handed := s.handed ++ [w] } : Sys).with n tail) : Anyhow C s D k D1 := by
  obtain ⟨_, _, _, _, _, _, _, hc⟩ := id h
  refine ⟨[w], [line], fun ws2 out D' hf => ?_, fun l hl => ?_, fun n rs tail hcut => ?_⟩
  · rw [List.flatten_singleton]; exact .request D D1 D' w ws2 line out h hf
  · rw [List.mem_singleton.1 hl]; exact carries_line hc
  · cases hcut with
    | line _ pieces last _ rs hl hne hcut =>
      cases hcut
      rw [List.length_singleton, Nat.add_comm, List.append_assoc]
      exact hx n pieces last tail hl hne

theorem pages_anyhow {C : BlockCipher} {ca : ConnArgs} {D : Device} (hd : D.Ok) (hz : D.Sizes) :
    ∀ (j : Nat) (s : Sys) (count : Int) (total : Bytes), D.objects.length - count.toNat = j → Fit C ca D s →
    IsLatin1 s.password → latin1 s.password = D.password → 0 ≤ count ∧ count ≤ 65535 →
    Anyhow C s D (fun s => (s.readPages C count total).2) D := by
  intro j
  induction j with
  | zero =>
    intro s count total hj hf hp hpw hc
    have h6 : s.password.length = 6 := by
      have := congrArg List.length hpw
      rw [hd.password] at this
      simpa [latin1] using this
    obtain ⟨b, hb, hbl⟩ := pageBody_ok hp h6 hc (hf.pads s.draws)
    have hdo := Does.parameters (D := D) count.toNat 1024 0 1 (by omega) (by simp) (by simp; omega)
    rw [← hpw] at hdo
    have hdec := decode_page (first := count.toNat) (k := 0) (by omega) (by omega) 1
      ((D.objects.drop count.toNat).take 0).flatten
    obtain ⟨w, line, h1, h3⟩ := exchange_anyhow hd hf (e := pageRequest s.password count) trivial rfl rfl hb hbl
      (fun pw h => by cases h; exact h6) hdo (by simp [le2]) (not_oneBit (by simp [le2])) (.parameters _ _ hdec)
    refine anyhow_one h1 fun n pieces last tail hl hne => ?_
    rw [readPages_page (h3 n pieces last tail hl hne)]
    rfl
  | succ j ih =>
    intro s count total hj hf hp hpw hc
    have h6 : s.password.length = 6 := by
      have := congrArg List.length hpw
      rw [hd.password] at this
      simpa [latin1] using this
    have hobj := hd.objects
    obtain ⟨b, hb, hbl⟩ := pageBody_ok hp h6 hc (hf.pads s.draws)
    have hsz : ((D.objects.drop count.toNat).take 1).flatten.length ≤ 1024 := by
      cases hdr : D.objects.drop count.toNat with
      | nil => simp
      | cons o os =>
        simp only [List.take_succ_cons, List.take_zero, List.flatten_cons, List.flatten_nil, List.append_nil]
        exact hz.objects o (List.mem_of_mem_drop (by rw [hdr]; simp))
    by_cases hlast : D.objects.length ≤ count.toNat + 1
    · have hdo := Does.parameters (D := D) count.toNat 1024 1 1 (by omega) hsz (by simp; omega)
      rw [← hpw] at hdo
      have hdec := decode_page (first := count.toNat) (k := 1) (by omega) (by omega) 1
        ((D.objects.drop count.toNat).take 1).flatten
      obtain ⟨w, line, h1, h3⟩ := exchange_anyhow hd hf (e := pageRequest s.password count) trivial rfl rfl hb hbl
        (fun pw h => by cases h; exact h6) hdo
        (by simp only [List.length_append, le2, List.length_cons, List.length_nil]; omega)
        (not_oneBit (by simp [le2])) (.parameters _ _ hdec)
      refine anyhow_one h1 fun n pieces last tail hl hne => ?_
      rw [readPages_page (h3 n pieces last tail hl hne)]
      rfl
    · have hdo := Does.parameters (D := D) count.toNat 1024 1 0 (by omega) hsz (by simp; omega)
      rw [← hpw] at hdo
      have hdec := decode_page (first := count.toNat) (k := 1) (by omega) (by omega) 0
        ((D.objects.drop count.toNat).take 1).flatten
      obtain ⟨w, line, h1, h3⟩ := exchange_anyhow hd hf (e := pageRequest s.password count) trivial rfl rfl hb hbl
        (fun pw h => by cases h; exact h6) hdo
        (by simp only [List.length_append, le2, List.length_cons, List.length_nil]; omega)
        (not_oneBit (by simp [le2])) (.parameters _ _ hdec)
      obtain ⟨ws, lines, i2, i1, i3⟩ := ih { s with draws := s.draws + 1, handed := s.handed ++ [w] } (count + ((1 : Nat) : Int))
        (total ++ ((D.objects.drop count.toNat).take 1).flatten) (by omega)
        ⟨hf.reach, hf.ready, hf.context, hf.pads⟩ hp hpw (by omega)
      obtain ⟨_, _, _, _, _, _, _, hc⟩ := id h1
      refine ⟨w :: ws, line :: lines, fun ws2 out D' hfeed => ?_, fun l hl => ?_, fun n rs tail hcut => ?_⟩
      · rw [List.flatten_cons, List.append_assoc]
        exact .request D D D' w (ws ++ ws2) line (lines.flatten ++ out) h1 (i2 _ _ _ hfeed)
      · rcases List.mem_cons.1 hl with rfl | hl
        · exact carries_line hc
        · exact i1 l hl
      · dsimp only
        cases hcut with
        | line _ pieces last _ rs hl hne hcut =>
        have := i3 n rs tail hcut
        dsimp only at this
        rw [show (w :: ws).length + n = ws.length + n + 1 by simp; omega, List.append_assoc, List.cons_append,
          readPages_page (h3 (ws.length + n) pieces last (rs ++ tail) hl hne)]
        dsimp only
        rw [if_neg (by simp), this]
        simp only [Sys.with, List.length_cons, List.append_assoc, List.singleton_append]
        congr 1
        omega

theorem call_anyhow {C : BlockCipher} {ca : ConnArgs} {D : Device} (hd : D.Ok) (hz : D.Sizes) {s : Sys} (hf : Fit C ca D s)
    (hp : IsLatin1 s.password) (hpw : latin1 s.password = D.password) {k : Call} (hk : k.InRange) :
    ∃ D1, Anyhow C s D (fun s => (call C s k).2) D1 ∧
      (D1 = D ∨ ∃ t, Expressible t ∧ D1 = { D with clock := { t with microsecond := 0 } }) := by
  have h6 : s.password.length = 6 := by
    have := congrArg List.length hpw
    rw [hd.password] at this
    simpa [latin1] using this
  have hpi : ∀ pw, passwordIn (firstOf s.password k) = some pw → pw.length = 6 := fun pw h => by
    rw [passwordIn_request (first_request s.password k) pw h]; exact h6
  obtain ⟨b, hb, hbl⟩ := first_body hp h6 (hf.pads s.draws) hk
  have hfits := inRange_fits hk (first_request s.password k)
  obtain ⟨tb, htb⟩ := denotes_exists hd.clock D.isDst D.supportsDst
  have htl := denotes_length htb
  have hst := hd.status
  have hsu := hd.summary
  have hcr := hd.crc
  cases k with
  | readInstantaneousValues =>
    have hdo := Does.values (D := D) tb htb
    rw [← hpw] at hdo
    have hv := hz.values
    obtain ⟨w, line, h1, h3⟩ := exchange_anyhow hd hf hfits rfl rfl hb hbl hpi hdo
      (by simp [htl, hst, hsu, hcr]; omega) (not_oneBit (by simp [htl]; omega)) (.values _ _ (decode_values hd htb))
    exact ⟨D, anyhow_one h1 fun n pieces last tail hl hne => congrArg Prod.snd (h3 n pieces last tail hl hne), .inl rfl⟩
  | readTime =>
    have hdo := Does.time (D := D) tb [] htb
    have ht : (tb ++ [D.access] ++ [] ++ D.crc).take 6 = tb := by
      simp only [List.append_assoc]; rw [← htl, List.take_left]
    have hdec := (C24_read_time (tb ++ [D.access] ++ [] ++ D.crc)).1 _ _ _ (ht.symm ▸ htb)
    obtain ⟨w, line, h1, h3⟩ := exchange_anyhow hd hf hfits rfl rfl hb hbl hpi hdo
      (by simp [htl, hcr]) (not_oneBit (by simp [htl]; omega)) (.time _ _ hdec)
    exact ⟨D, anyhow_one h1 fun n pieces last tail hl hne => congrArg Prod.snd (h3 n pieces last tail hl hne), .inl rfl⟩
  | writeTime t c =>
    have hdo := Does.setTime (D := D) { t with microsecond := 0 } [] (fun _ h => by cases h)
    rw [← hpw] at hdo
    obtain ⟨w, line, h1, h3⟩ := exchange_anyhow hd hf hfits rfl rfl hb hbl hpi hdo
      (by simp) (fun _ h => by cases h) (.writeTime _ _ rfl)
    exact ⟨_, anyhow_one h1 fun n pieces last tail hl hne => congrArg Prod.snd (h3 n pieces last tail hl hne), .inr ⟨t, hk, by rw [hpw]⟩⟩
  | readParameters i => exact ⟨D, pages_anyhow hd hz _ s i [] rfl hf hp hpw hk, .inl rfl⟩
  | readArchive x i j =>
    have hdo := Does.archive (D := D) x.toNat i.toNat j.toNat
    rw [← hpw] at hdo
    have hv := hz.records x.toNat i.toNat j.toNat
    obtain ⟨p, p1, _⟩ := (decode_record hk.1 (hd.records x.toNat i.toNat j.toNat) (D.records x.toNat i.toNat j.toNat).2).1
    obtain ⟨w, line, h1, h3⟩ := exchange_anyhow hd hf hfits rfl rfl hb hbl hpi hdo
      (by simp [leOf_length]; omega) (not_oneBit (by simp [leOf_length])) (.archive _ _ p1)
    exact ⟨D, anyhow_one h1 fun n pieces last tail hl hne => congrArg Prod.snd (h3 n pieces last tail hl hne), .inl rfl⟩
  | readArchiveByTime x i t =>
    have hdo := Does.archiveSince (D := D) x.toNat i.toNat { t with microsecond := 0 }
    rw [← hpw] at hdo
    have hv := hz.recordsSince x.toNat i.toNat { t with microsecond := 0 }
    obtain ⟨p, p1, _⟩ := (decode_record hk.1 (hd.recordsSince x.toNat i.toNat { t with microsecond := 0 })
      (D.recordsSince x.toNat i.toNat { t with microsecond := 0 }).2).2
    obtain ⟨w, line, h1, h3⟩ := exchange_anyhow hd hf hfits rfl rfl hb hbl hpi hdo
      (by simp [leOf_length]; omega) (not_oneBit (by simp [leOf_length])) (.archiveByTime _ _ p1)
    exact ⟨D, anyhow_one h1 fun n pieces last tail hl hne => congrArg Prod.snd (h3 n pieces last tail hl hne), .inl rfl⟩

theorem session_anyhow {C : BlockCipher} {ca : ConnArgs} (ks : List Call) (hks : ∀ k ∈ ks, k.InRange) :
    ∀ (s : Sys) (D : Device), D.Ok → D.Sizes → Fit C ca D s → IsLatin1 s.password → latin1 s.password = D.password →
    ∃ D', Anyhow C s D (fun s => (calls C s ks).2) D' ∧ D'.Ok ∧ D'.Sizes ∧ D'.key = D.key ∧ D'.password = D.password := by
  induction ks with
  | nil =>
    intro s D hd hz _ _ _
    exact ⟨D, ⟨[], [], fun _ _ _ h => h, fun _ h => (by cases h), fun n rs tail h => (by cases h; simp [calls, Sys.with])⟩, hd, hz, rfl, rfl⟩
  | cons k ks ih =>
    intro s D hd hz hf hp hpw
    obtain ⟨D1, ⟨ws, lines, h2, h1, h3⟩, hD⟩ := call_anyhow hd hz hf hp hpw (hks k (by simp))
    have hk1 : D1.key = D.key := by rcases hD with rfl | ⟨t, _, rfl⟩ <;> rfl
    have hp1 : D1.password = D.password := by rcases hD with rfl | ⟨t, _, rfl⟩ <;> rfl
    have hd1 : D1.Ok := by
      rcases hD with rfl | ⟨t, ht, rfl⟩
      · exact hd
      · exact clock_ok hd ht
    have hz1 : D1.Sizes := by
      rcases hD with rfl | ⟨t, ht, rfl⟩
      · exact hz
      · exact ⟨hz.values, hz.objects, hz.records, hz.recordsSince⟩
    obtain ⟨D', ⟨ws', lines', g2, g1, g3⟩, q1, q2, q3, q4⟩ := ih (fun k hk => hks k (by simp [hk]))
      { s with draws := s.draws + ws.length, handed := s.handed ++ ws } D1 hd1 hz1
      ⟨hf.reach, hf.ready, hk1 ▸ hf.context, hf.pads⟩ hp (hp1 ▸ hpw)
    refine ⟨D', ⟨ws ++ ws', lines ++ lines', fun ws2 out D'' h => ?_, fun l hl => ?_, fun n rs tail hcut => ?_⟩,
      q1, q2, q3.trans hk1, q4.trans hp1⟩
    · rw [List.append_assoc, List.flatten_append, List.append_assoc]; exact h2 _ _ _ (g2 _ _ _ h)
    · rcases List.mem_append.1 hl with hl | hl
      · exact h1 l hl
      · exact g1 l hl
    · obtain ⟨rs1, rs2, rfl, c1, c2⟩ := cutUp_append hcut
      have e1 := h3 (ws'.length + n) rs1 (rs2 ++ tail) c1
      have e2 := g3 n rs2 tail c2
      dsimp only at e1 e2 ⊢
      simp only [calls]
      rw [List.length_append, Nat.add_assoc, List.append_assoc, e1, e2]
      simp [Sys.with, Nat.add_assoc]

/-- C82. For every device whose data fits into frames, every client with its secrets and all calls the protocol can
express, there is what the device puts on the wire with which the session takes place, however it is delivered: over TCP
or a serial line, in any segments, with any empty reads, any timeout and any clock. -/
theorem C82_served (C : BlockCipher) (a : ClientArgs) (ha : 801 ≤ a.passwordId ∧ a.passwordId ≤ 849)
    (rands : Nat → Rand) (hr : ∀ i, PadOk (rands i).pw)
    (D : Device) (hd : D.Ok) (hz : D.Sizes) (hk : SharesKey a D) (hp : KnowsPassword a D) (ks : List Call)
    (hks : ∀ k ∈ ks, k.InRange) :
    ∃ (ws : List Bytes) (out : Bytes) (D' : Device), Serves C D ws out D' ∧
      ∀ (t : Transport) (h : Handle), t.socket = some h → ∀ (stream : List Delivery) (clock : Clock),
        content stream = bytesOnly out → ∀ n m, ws.length ≤ n → out.length ≤ m →
        ∃ s, mkClient a (List.replicate n (.ok ())) (recvs t m stream clock) rands = .ok s ∧
          (calls C s ks).2.handed = ws ∧ Ideals D ks (callsV C s ks).1 D' := by
  have h6 : a.password.length = 6 := by
    have := congrArg List.length hp.2
    rw [hd.password] at this
    simpa [latin1] using this
  obtain ⟨s, hm, _⟩ := (C55_constructor a [] [] rands).1 ⟨by omega, ha⟩
  obtain ⟨h1, h2, h3, _, _, h7, h8⟩ := mkClient_start (C := C) hm
  obtain ⟨D', ⟨ws, lines, g1, g2, g3⟩, _⟩ := session_anyhow ks hks s D hd hz
    ⟨h1, h2, shares_context hk hd.key rfl, h7 ▸ hr⟩ (h3 ▸ hp.1) (h3 ▸ hp.2)
  have hserve : Serves C D ws lines.flatten D' := by simpa using g1 [] [] D' (.nil D')
  refine ⟨ws, lines.flatten, D', hserve, fun t h ht stream clock hstream n m hn hmm => ?_⟩
  obtain ⟨rs, hrs, hcut⟩ := recvs_cut t h ht lines g2 stream clock m hstream hmm
  have hm' : mkClient a (List.replicate n (.ok ())) (recvs t m stream clock) rands = .ok (s.with n rs) := by
    rw [hrs]
    unfold mkClient at hm ⊢
    rw [bind_eq_ok] at hm ⊢
    obtain ⟨conn, hc, hm⟩ := hm
    refine ⟨conn, hc, ?_⟩
    rw [← Except.ok.inj hm]
    rfl
  have g3 := g3 (n - ws.length) rs [] hcut
  rw [List.append_nil, show ws.length + (n - ws.length) = n by omega, h8, List.nil_append] at g3
  have hh : (calls C (s.with n rs) ks).2.handed = ws := (congrArg Sys.handed g3).trans rfl
  exact ⟨_, hm', hh, (C82_session C t h ht stream clock a n m rands _ hm' hr D D' hd hk hp ks hks (by rw [hh]; exact hn)
    lines.flatten (by rw [hh]; exact hserve) hstream hmm).1⟩

/-! ### Programs -/

theorem disconnect_draws (w : World) : w.disconnect.2.draws = w.draws := by
  unfold World.disconnect
  split <;> rfl

/-- A session uses up what its calls use up. -/
theorem session_draws {C : BlockCipher} {w : World} (ht : w.transport.socket = none) (s : Session) {lo : List (Res Handle)}
    (hopens : w.opens = .ok s.handle :: lo) (w1 : World)
    (hw1 : w1 = { w with
      transport := { w.transport with socket := some s.handle }, opens := lo,
      os := w.os ++ [.create (some s.handle)] }) :
    (acts C w s.program).2.draws = (callsV C w1.sys s.calls).2.draws := by
  have hc1 : act C w .connect = (.returned .nothing, w1) := by
    subst hw1
    simp only [act, World.connect, ht, hopens, Transport.connect, Outcome3.andThen]
  have ht1 : w1.transport.socket = some s.handle := by rw [hw1]
  obtain ⟨_, e2, _⟩ := acts_calls (C := C) s.calls w1 ht1
  unfold Session.program
  rw [List.cons_append]
  show (acts C (act C w .connect).2 _).2.draws = _
  rw [hc1]
  dsimp only
  rw [acts_append]
  show (act C (acts C w1 (s.calls.map .call)).2 .disconnect).2.draws = _
  rw [← e2]
  exact disconnect_draws _

theorem sessions_anyhow {C : BlockCipher} {ca : ConnArgs} (hs : List (Handle × List Call)) :
    ∀ (s : Sys) (D : Device), D.Ok → D.Sizes → Fit C ca D s → IsLatin1 s.password → latin1 s.password = D.password →
    (∀ x ∈ hs, ∀ k ∈ x.2, k.InRange) → (hs.map (·.1)).Nodup →
    ∃ (ss : List Session) (D' : Device) (total : Nat), ss.map (fun x => (x.handle, x.calls)) = hs ∧
      ∀ (w : World) (n n1 n2 : Nat), w.password = s.password → w.conn = s.conn → w.rands = s.rands → w.draws = s.draws →
      written w.os = s.handed → w.transport.socket = none → w.opens = (ss.map fun s => .ok s.handle) →
      w.shutdowns = List.replicate n1 (.ok ()) → ss.length ≤ n1 → w.closes = List.replicate n2 (.ok ()) → ss.length ≤ n2 →
      w.writes = List.replicate n (.ok ()) → total ≤ n → (∀ x ∈ hs, writtenTo x.1 w.os = []) →
      (∀ s ∈ ss, content (w.inbox s.handle) = bytesOnly s.out) →
      (written (acts C w (ss.flatMap Session.program)).2.os).length = (written w.os).length + total ∧
      ServedIn C (acts C w (ss.flatMap Session.program)).2.os D ss D' := by
  induction hs with
  | nil =>
    intro s D _ _ _ _ _ _ _
    refine ⟨[], D, 0, rfl, ?_⟩
    intros
    exact ⟨rfl, .nil D⟩
  | cons x hs ih =>
    obtain ⟨h, ks⟩ := x
    intro s D hd hz hf hp hpw hks hdist
    obtain ⟨D1, ⟨ws, lines, g1, g2, g3⟩, hd1, hz1, hk1, hp1⟩ := session_anyhow ks (hks (h, ks) List.mem_cons_self) s D hd hz
      hf hp hpw
    simp only [List.map_cons, List.nodup_cons] at hdist
    obtain ⟨ss, D', total, hss, H⟩ := ih { s with draws := s.draws + ws.length, handed := s.handed ++ ws } D1 hd1 hz1
      ⟨hf.reach, hf.ready, by rw [hk1]; exact hf.context, hf.pads⟩ hp (by rw [hp1]; exact hpw)
      (fun x hx => hks x (List.mem_cons_of_mem _ hx)) hdist.2
    have hhandles : ss.map (·.handle) = hs.map (·.1) := by
      rw [← hss, List.map_map]; rfl
    refine ⟨⟨h, ks, lines.flatten⟩ :: ss, D', ws.length + total, by rw [List.map_cons, hss], ?_⟩
    intro w n n1 n2 wp wc wr wd wo ht hopens hsh hn1 hcl hn2 hwr hlen hnone hin
    simp only [List.length_cons] at hn1 hn2
    obtain ⟨m1, rfl⟩ : ∃ m, n1 = m + 1 := ⟨n1 - 1, by omega⟩
    obtain ⟨m2, rfl⟩ : ∃ m, n2 = m + 1 := ⟨n2 - 1, by omega⟩
    rw [List.flatMap_cons, acts_append]
    obtain ⟨w2, ds, j, e1, e2, e3, e4, e5, e6, ⟨m, hm, e7⟩, e8, e9, e10, e11, e12⟩ := session_frame (C := C) ht
      ⟨h, ks, lines.flatten⟩ (lo := ss.map fun s => .ok s.handle) (by rw [hopens]; rfl) hsh hcl _ rfl
    have hdraws := session_draws (C := C) ht ⟨h, ks, lines.flatten⟩ (lo := ss.map fun s => .ok s.handle)
      (by rw [hopens]; rfl) _ rfl
    have hcfg := acts_config (C := C) _ (program_plain ⟨h, ks, lines.flatten⟩) w
    generalize hw1 : ({ w with
      transport := { w.transport with socket := some h }, opens := ss.map fun s => .ok s.handle,
      os := w.os ++ [.create (some h)] } : World) = w1 at *
    have ht1 : w1.transport.socket = some h := by rw [← hw1]
    generalize hw' : (acts C w (Session.program ⟨h, ks, lines.flatten⟩)).2 = w' at *
    dsimp only at e1 e2 e3 e4 e5 e6 e8 e9 e11 hdraws ⊢
    -- the calls
    have hin1 := hin ⟨h, ks, lines.flatten⟩ List.mem_cons_self
    dsimp only at hin1
    obtain ⟨rs, k1, hcut⟩ := recvs_cut w1.transport h ht1 lines g2 (w.inbox h) w.clock lines.flatten.length hin1
      (Nat.le_refl _)
    have hsys : w1.sys = s.with n (rs ++ []) := by
      have hrecv : w1.sys.recvs = rs.map .ok := by
        rw [← k1, recvs_enough ht1 _ _ _ (by rw [hin1]; unfold bytesOnly; rw [List.length_map]; exact Nat.le_refl _)]
        rw [← hw1]
        rfl
      have hsend : w1.sys.sends = List.replicate n (.ok ()) := by
        rw [← hw1]; show (w.writes.map _) = _; rw [hwr, List.map_replicate]
      have hhand : w1.sys.handed = s.handed := by
        rw [← hw1, ← wo]; show written (w.os ++ [.create (some h)]) = _; rw [written_append]; exact List.append_nil _
      have h1 : w1.sys.password = s.password := by rw [← hw1]; exact wp
      have h2 : w1.sys.conn = s.conn := by rw [← hw1]; exact wc
      have h3 : w1.sys.rands = s.rands := by rw [← hw1]; exact wr
      have h4 : w1.sys.draws = s.draws := by rw [← hw1]; exact wd
      rw [List.append_nil]
      unfold Sys.with
      generalize w1.sys = s1 at *
      cases s1; cases s; simp_all
    have g3 := g3 (n - ws.length) rs [] hcut
    rw [show ws.length + (n - ws.length) = n by omega] at g3
    dsimp only at g3
    rw [← hsys] at g3
    rw [callsV_calls] at e2 hdraws
    rw [g3] at e2 hdraws
    have hds : ds = ws := by
      have a1 : written w2.os = s.handed ++ ws := (congrArg Sys.handed e2).trans rfl
      rw [e3, written_append, wo] at a1
      have a2 : written (.create (some h) :: ds.map (.write h)) = ds := written_writes h ds
      rw [a2] at a1
      exact List.append_cancel_left a1
    subst hds
    have hwd : written w'.os = written w.os ++ ds := by
      rw [e4, written_append]
      congr 1
      unfold Session.trace
      show written (ds.map (.write h) ++ closing w.transport.kind h) = ds
      rw [written_append, written_writes]
      cases w.transport.kind <;> exact List.append_nil _
    have hothers : ∀ x ∈ hs, writtenTo x.1 w'.os = [] := by
      intro x hx
      have hne : h ≠ x.1 := fun e => hdist.1 (List.mem_map.2 ⟨x, hx, e.symm⟩)
      rw [e4, writtenTo_append, hnone x (List.mem_cons_of_mem _ hx)]
      unfold Session.trace
      show writtenTo x.1 (ds.map (.write h) ++ closing w.transport.kind h) = []
      rw [writtenTo_append, writtenTo_other hne, writtenTo_closing]; rfl
    have hconn : w'.conn = s.conn := by
      rw [e12]; exact (congrArg Sys.conn e2).trans rfl
    have hnotin : h ∉ ss.map (·.handle) := by rw [hhandles]; exact hdist.1
    obtain ⟨r1, r2⟩ := H w' (n - j) m m2 (by rw [hcfg.1, wp]) hconn (by rw [hcfg.2, wr]) (hdraws.trans rfl)
      (by rw [hwd, wo]) (by rw [e5]; exact ht) e6 e7 (by omega) e8 (by omega) (by rw [e11, hwr, List.drop_replicate])
      (by omega) hothers
      (fun x hx => by
        have hne : x.handle ≠ h := fun e => hnotin (List.mem_map.2 ⟨x, hx, e⟩)
        rw [e9 _ hne]; exact hin x (List.mem_cons_of_mem _ hx))
    refine ⟨by rw [r1, hwd, List.length_append, Nat.add_assoc], ?_⟩
    refine .session D D1 D' _ ss ?_ r2
    have : writtenTo h (acts C w' (ss.flatMap Session.program)).2.os = ds := by
      rw [acts_other _ (programs_plain ss) w' (by rw [e5, ht]; simp) (by
        rw [e6]
        intro hmem
        obtain ⟨s', hs', h'⟩ := List.mem_map.1 hmem
        injection h' with h'
        exact hnotin (List.mem_map.2 ⟨s', hs', h'⟩))]
      rw [e4, writtenTo_append, hnone (h, ks) List.mem_cons_self]
      unfold Session.trace
      rw [List.cons_append]
      show writtenTo h (ds.map (.write h) ++ closing w.transport.kind h) = ds
      rw [writtenTo_append, writtenTo_writes, writtenTo_closing, List.append_nil]
    show Serves C D (writtenTo h _) lines.flatten D1
    rw [this]
    simpa using g1 [] [] D1 (.nil D1)

/-- C83. For every device whose data fits into frames, every client with its secrets and any number of sessions of calls
the protocol can express, on handles that differ, there is what the device puts on the wire in each session with which
all sessions take place, however it is delivered. -/
theorem C83_served (C : BlockCipher) (kind : Kind) (timeout : Option Int) (a : ClientArgs)
    (ha : 801 ≤ a.passwordId ∧ a.passwordId ≤ 849) (rands : Nat → Rand) (hr : ∀ i, PadOk (rands i).pw)
    (D : Device) (hd : D.Ok) (hz : D.Sizes) (hk : SharesKey a D) (hp : KnowsPassword a D) (hs : List (Handle × List Call))
    (hks : ∀ x ∈ hs, ∀ k ∈ x.2, k.InRange) (hdistinct : (hs.map (·.1)).Nodup) :
    ∃ (ss : List Session) (D' : Device) (total : Nat), ss.map (fun s => (s.handle, s.calls)) = hs ∧
      ∀ (env : OsEnv) (n : Nat), env.rands = rands → env.opens = (ss.map fun s => .ok s.handle) →
        env.shutdowns = List.replicate n (.ok ()) → env.closes = List.replicate n (.ok ()) →
        env.writes = List.replicate n (.ok ()) → ss.length ≤ n → total ≤ n →
        (∀ s ∈ ss, content (env.inbox s.handle) = bytesOnly s.out) →
        ∃ w, mkWorld kind timeout a env = .ok w ∧
          ServedIn C (acts C w (ss.flatMap Session.program)).2.os D ss D' ∧
          (written (acts C w (ss.flatMap Session.program)).2.os).length = total ∧
          SessionsIdeal D ss (acts C w (ss.flatMap Session.program)).1 D' := by
  have h6 : a.password.length = 6 := by
    have := congrArg List.length hp.2
    rw [hd.password] at this
    simpa [latin1] using this
  obtain ⟨s, hm, _⟩ := (C55_constructor a [] [] rands).1 ⟨by omega, ha⟩
  obtain ⟨h1, h2, h3, _, _, h7, h8⟩ := mkClient_start (C := C) hm
  obtain ⟨ss, D', total, hss, H⟩ := sessions_anyhow (C := C) hs s D hd hz
    ⟨h1, h2, shares_context hk hd.key rfl, h7 ▸ hr⟩ (h3 ▸ hp.1) (h3 ▸ hp.2) hks hdistinct
  refine ⟨ss, D', total, hss, fun env n hrands hopens hsh hcl hwr hn hnt hin => ?_⟩
  unfold mkClient at hm
  rw [bind_eq_ok] at hm
  obtain ⟨conn, hc, hm⟩ := hm
  have hmw : ∃ w, mkWorld kind timeout a env = .ok w ∧ w.password = s.password ∧ w.conn = s.conn ∧ w.rands = s.rands ∧
      w.draws = s.draws ∧ written w.os = s.handed ∧ w.transport.socket = none ∧ w.opens = env.opens ∧
      w.shutdowns = env.shutdowns ∧ w.closes = env.closes ∧ w.writes = env.writes ∧ w.os = [] ∧ w.inbox = env.inbox := by
    rw [← Except.ok.inj hm]
    unfold mkWorld
    rw [hc]
    exact ⟨_, rfl, rfl, rfl, hrands, rfl, rfl, rfl, rfl, rfl, rfl, rfl, rfl, rfl⟩
  obtain ⟨w, hw, q1, q2, q3, q4, q5, q6, q7, q8, q9, q10, q11, q12⟩ := hmw
  obtain ⟨r1, r2⟩ := H w n n n q1 q2 q3 q4 q5 q6 (q7.trans hopens) (q8.trans hsh) hn (q9.trans hcl) hn (q10.trans hwr) hnt
    (fun x _ => by rw [q11]; rfl) (fun x hx => by rw [q12]; exact hin x hx)
  have ht : (written (acts C w (ss.flatMap Session.program)).2.os).length = total := by
    rw [r1, q11]; exact Nat.zero_add _
  refine ⟨w, hw, r2, ht, ?_⟩
  refine (C83_sessions C kind timeout a env w hw (by rw [hrands]; exact hr) D D' hd hk hp ss (fun x hx => ?_) ?_ hopens n hsh
    hcl hwr hn _ rfl _ rfl (by rw [ht]; exact hnt) r2 hin).1
  · have := hks (x.handle, x.calls) (by rw [← hss]; exact List.mem_map.2 ⟨x, hx, rfl⟩)
    exact this
  · have e : ss.map (·.handle) = hs.map (·.1) := by rw [← hss, List.map_map]; rfl
    rw [e]; exact hdistinct

/-! Examples -/

-- the hypotheses of C82_served and C83_served: a device with a key, three sessions
example (C : BlockCipher) : ∃ (ws : List Bytes) (out : Bytes) (D' : Device),
    Serves C (exDevice (some (1, List.replicate 16 7)) (List.replicate 6 0x30)) ws out D' :=
  let ⟨ws, out, D', h, _⟩ := C82_served C exSecretArgs (by decide) (fun _ => ⟨('a', 'b'), fun _ => 0⟩) (fun _ => by decide +kernel)
    (exDevice (some (1, List.replicate 16 7)) (List.replicate 6 0x30)) (exDevice_ok _ (fun _ _ h => by cases h; rfl) _ rfl).2
    (exDevice_ok _ (fun _ _ h => by cases h; rfl) _ rfl).1 ⟨rfl, rfl⟩ ⟨by decide, by decide⟩ exSession
    (by simp [exSession, Call.InRange, Expressible]; decide)
  ⟨ws, out, D', h⟩
example (C : BlockCipher) (kind : Kind) (timeout : Option Int) : ∃ (ss : List Session) (D' : Device) (env : OsEnv) (w : World),
    ss.map (fun s => (s.handle, s.calls)) = [(5, exSession), (7, []), (6, exSession)] ∧
    mkWorld kind timeout exSecretArgs env = .ok w ∧
    SessionsIdeal (exDevice (some (1, List.replicate 16 7)) (List.replicate 6 0x30)) ss
      (acts C w (ss.flatMap Session.program)).1 D' := by
  obtain ⟨ss, D', total, hss, H⟩ := C83_served C kind timeout exSecretArgs (by decide) (fun _ => ⟨('a', 'b'), fun _ => 0⟩)
    (fun _ => by decide +kernel) (exDevice (some (1, List.replicate 16 7)) (List.replicate 6 0x30))
    (exDevice_ok _ (fun _ _ h => by cases h; rfl) _ rfl).2 (exDevice_ok _ (fun _ _ h => by cases h; rfl) _ rfl).1 ⟨rfl, rfl⟩
    ⟨by decide, by decide⟩ [(5, exSession), (7, []), (6, exSession)]
    (by simp [exSession, Call.InRange, Expressible]; decide) (by decide)
  have hlen : ss.length = 3 := by have := congrArg List.length hss; simpa using this
  obtain ⟨s1, s2, s3, rfl⟩ : ∃ s1 s2 s3, ss = [s1, s2, s3] := by
    match ss, hlen with
    | [a, b, c], _ => exact ⟨a, b, c, rfl⟩
  simp only [List.map_cons, List.map_nil, List.cons.injEq, Prod.mk.injEq, and_true] at hss
  obtain ⟨⟨h1, h1'⟩, ⟨h2, h2'⟩, h3, h3'⟩ := hss
  obtain ⟨w, hw, _, _, h⟩ := H
    { opens := [s1, s2, s3].map fun s => .ok s.handle, shutdowns := List.replicate (3 + total) (.ok ()),
      closes := List.replicate (3 + total) (.ok ()), writes := List.replicate (3 + total) (.ok ()),
      inbox := fun h => [.seg (if h = 5 then s1.out else if h = 7 then s2.out else s3.out)],
      clock := exClock, rands := fun _ => ⟨('a', 'b'), fun _ => 0⟩ } (3 + total) rfl rfl rfl rfl rfl
      (Nat.le_add_right 3 total) (by omega)
      (by
        intro s hs
        simp only [List.mem_cons, List.not_mem_nil, or_false] at hs
        rcases hs with rfl | rfl | rfl
        · simp [h1, content]; rfl
        · simp [h2, content]; rfl
        · simp [h3, content]; rfl)
  exact ⟨[s1, s2, s3], D', _, w, by simp [h1, h1', h2, h2', h3, h3'], hw, h⟩

end Elgas
