import Verif.Spec.Retry
import Verif.Props.Crash
import Verif.Props.Served
/-!
C117: programs that try again. However often a session breaks off, and wherever, a program that goes on with a new client
from the first call that has not returned has, in the end, what one undisturbed session would have given it.
-/
namespace Elgas
open Spec

theorem disconnect_written (w : World) : written w.disconnect.2.os = written w.os := by
  have h0 : ∀ l : List OsCall, (∀ x ∈ l, ∀ h d, x ≠ .write h d) → written (w.os ++ l) = written w.os := by
    intro l hl
    have : written l = [] := by
      unfold written
      rw [List.filterMap_eq_nil_iff]
      intro x hx
      cases x with
      | write h d => exact absurd rfl (hl _ hx h d)
      | _ => rfl
    rw [written_append, this, List.append_nil]
  unfold World.disconnect Transport.disconnect
  repeat' split
  all_goals first
    | rfl
    | (dsimp only; refine h0 _ ?_; intro x hx; simp_all <;> (first | done | (rcases hx with rfl | rfl <;> simp)))

theorem disconnects_written (C : BlockCipher) (m : Nat) : ∀ w : World,
    written (acts C w (List.replicate m .disconnect)).2.os = written w.os := by
  induction m with
  | zero => exact fun w => rfl
  | succ m ih =>
    intro w
    rw [List.replicate_succ]
    show written (acts C (act C w .disconnect).2 _).2.os = _
    rw [ih]
    exact disconnect_written w

/-- Calls of a client that has no handle. -/
theorem calls_closed {C : BlockCipher} (ks : List Call) : ∀ {w : World}, w.transport.socket = none →
    (∀ r ∈ (acts C w (ks.map .call)).1, ∀ v, r ≠ .returned v) ∧ (acts C w (ks.map .call)).2.os = w.os ∧
      (acts C w (ks.map .call)).1.length = ks.length := by
  induction ks with
  | nil => intro w _; exact ⟨fun r h => (by cases h), rfl, rfl⟩
  | cons k ks ih =>
    intro w ht
    obtain ⟨x, h1, _, h2, h3⟩ := C84_raises C w ht k
    obtain ⟨g1, g2, g3⟩ := ih (w := (wcall C w k).2) (by rw [h3]; exact ht)
    refine ⟨fun r hr => ?_, g2.trans h2, congrArg (· + 1) g3⟩
    rcases List.mem_cons.1 hr with rfl | hr
    · intro v hv
      have : (wcall C w k).1 = .returned v := hv
      rw [h1] at this; cases this
    · exact g1 r hr

theorem returnedFirst_values (vs : List Value) (l : List (Outcome3 Value)) (hl : ∀ r, l.head? = some r → ∀ v, r ≠ .returned v) :
    returnedFirst (vs.map .returned ++ l) = vs := by
  induction vs with
  | nil =>
    cases l with
    | nil => rfl
    | cons r l =>
      cases r with
      | returned v => exact absurd rfl (hl _ rfl v)
      | raised x => rfl
      | pending => rfl
  | cons v vs ih => simp [returnedFirst, ih]

/-- The lists of parameters that are asked for can be parsed. -/
def Parses (D : Device) (ks : List Call) : Prop :=
  ∀ n, .readParameters n ∈ ks → ∃ os, parseParameters none (some (D.objects.drop n.toNat).flatten) = .ok os

theorem ideal_objects {D D' : Device} {k : Call} {r : Outcome3 Value} (h : Ideal D k r D') : D'.objects = D.objects := by
  cases h <;> rfl

theorem ideals_returned {D D' : Device} {ks : List Call} {rs : List (Outcome3 Value)} (h : Ideals D ks rs D') :
    Parses D ks → ∃ vs : List Value, rs = vs.map .returned := by
  induction h with
  | nil D => exact fun _ => ⟨[], rfl⟩
  | call D D1 D' k ks r rs h1 _ ih =>
    intro hp
    obtain ⟨vs, rfl⟩ := ih fun n hn => by
      rw [ideal_objects h1]; exact hp n (List.mem_cons_of_mem _ hn)
    have : ∃ v, r = .returned v := by
      cases h1 with
      | unparsable n x hx =>
        obtain ⟨os, ho⟩ := hp n List.mem_cons_self
        rw [ho] at hx; cases hx
      | values => exact ⟨_, rfl⟩
      | time => exact ⟨_, rfl⟩
      | writeTime => exact ⟨_, rfl⟩
      | parameters => exact ⟨_, rfl⟩
      | archive => exact ⟨_, rfl⟩
      | archiveSince => exact ⟨_, rfl⟩
    obtain ⟨v, rfl⟩ := this
    exact ⟨v :: vs, rfl⟩

theorem ideals_length {D D' : Device} {ks : List Call} {rs : List (Outcome3 Value)} (h : Ideals D ks rs D') :
    rs.length = ks.length := by
  induction h with
  | nil => rfl
  | call => simp_all

theorem ideals_keep {D D' : Device} {ks : List Call} {rs : List (Outcome3 Value)} (h : Ideals D ks rs D') :
    D'.objects = D.objects := by
  induction h with
  | nil => rfl
  | call D D1 D' k ks r rs h1 _ ih => rw [ih, ideal_objects h1]

/-- What one attempt leaves. -/
theorem attempt_leaves {C : BlockCipher} {a : ClientArgs} {D D' : Device} {ks : List Call}
    {outcomes : List (Outcome3 Value)} (h : Attempt C a D ks outcomes D') (hd : D.Ok) (hk : SharesKey a D)
    (hp : KnowsPassword a D) (hks : ∀ k ∈ ks, k.InRange) (hparse : Parses D ks) :
    (D'.Ok ∧ SharesKey a D' ∧ KnowsPassword a D' ∧ D'.objects = D.objects) ∧
    ∃ done later D1, ks = done ++ later ∧ Ideals D done ((returnedFirst outcomes).map .returned) D1 ∧ Left D1 later D' := by
  obtain ⟨kind, timeout, env, w, m, program, got, out, hm, hr, hprog, ho, hgot, hserve, hin⟩ := h
  have hrun : acts C w program = ((acts C w (.connect :: ks.map .call)).1 ++ (acts C (acts C w (.connect :: ks.map .call)).2
      (List.replicate m .disconnect)).1, (acts C (acts C w (.connect :: ks.map .call)).2 (List.replicate m .disconnect)).2) := by
    rw [hprog, acts_append]
  have hlen : (acts C w (.connect :: ks.map .call)).1.length = ks.length + 1 := by
    rw [acts_length]; simp
  have ho' : outcomes = (acts C w (.connect :: ks.map .call)).1.drop 1 := by
    rw [ho, hrun]
    dsimp only
    rw [List.drop_append_of_le_length (by omega), List.take_append_of_le_length (by simp; omega),
      List.take_of_length_le (by simp; omega)]
  have hgot' : got <+: (written (acts C w (.connect :: ks.map .call)).2.os).flatten := by
    rw [hrun] at hgot
    dsimp only at hgot
    rwa [disconnects_written] at hgot
  by_cases hopens : ∃ h l, env.opens = .ok h :: l
  · obtain ⟨h, l, hopens⟩ := hopens
    obtain ⟨⟨d1, d2, d3⟩, done, values, D1, g1, g2⟩ := C98_crash C kind timeout a env w hm hr h ⟨l, hopens⟩ D D' hd hk hp ks
      hks _ rfl got hgot' out hserve (hin h l hopens)
    have hsub : Parses D done := by
      rcases g2 with ⟨rfl, _⟩ | ⟨k, later, r, rfl, _⟩
      · exact hparse
      · exact fun n hn => hparse n (List.mem_append.2 (.inl hn))
    obtain ⟨vs, rfl⟩ := ideals_returned g1 hsub
    rcases g2 with ⟨rfl, g3, rfl⟩ | ⟨k, later, r, rfl, g3, g4, g5⟩
    · rw [g3] at ho'
      have hv : returnedFirst outcomes = vs := by
        rw [ho']
        have := returnedFirst_values vs [] (by intro r h; cases h)
        rwa [List.append_nil] at this
      refine ⟨⟨d1, d2, d3, ideals_keep g1⟩, done, [], D', by simp, by rw [hv]; exact g1, .clean D' []⟩
    · rw [g3] at ho'
      have hv : returnedFirst outcomes = vs := by
        rw [ho']
        exact returnedFirst_values vs _ (by intro x hx; cases hx; exact g4)
      refine ⟨⟨d1, d2, d3, ?_⟩, done, k :: later, D1, rfl, by rw [hv]; exact g1, ?_⟩
      · rcases g5 with rfl | ⟨r', h⟩
        · exact ideals_keep g1
        · rw [ideal_objects h, ideals_keep g1]
      · rcases g5 with rfl | ⟨r', h⟩
        · exact .clean _ _
        · exact .ahead _ _ _ _ _ h
  · have hw : w.opens = env.opens ∧ w.transport.socket = none ∧ w.os = [] := by
      obtain ⟨conn, _, rfl⟩ := mkWorld_ok hm
      exact ⟨rfl, rfl, rfl⟩
    obtain ⟨w1, w2, w3⟩ := hw
    have hc : w.connect.2.transport.socket = none ∧ written w.connect.2.os = [] := by
      unfold World.connect Transport.connect
      rw [w1, w2]
      rcases he : env.opens with _ | ⟨x | x, l⟩
      · exact ⟨w2, by dsimp only; rw [w3]; rfl⟩
      · exact ⟨w2, by dsimp only; rw [w3]; rfl⟩
      · exact absurd ⟨x, l, he⟩ hopens
    obtain ⟨c1, c2, c3⟩ := calls_closed (C := C) ks hc.1
    have hos : (acts C w (.connect :: ks.map .call)).2.os = w.connect.2.os := c2
    have hout : outcomes = (acts C w.connect.2 (ks.map .call)).1 := ho'
    rw [hos, hc.2, List.flatten_nil, List.prefix_nil] at hgot'
    subst hgot'
    rw [serves_nil hserve]
    have hv : returnedFirst outcomes = [] := by
      rw [hout]
      refine returnedFirst_values [] _ fun r hr => c1 r ?_
      exact List.mem_of_mem_head? hr
    exact ⟨⟨hd, hk, hp, rfl⟩, [], ks, D, rfl, by rw [hv]; exact .nil D, .clean D ks⟩

/-- Carrying out the first of the calls left once more changes nothing. -/
theorem ideals_again {D0 D D1 : Device} {ks done later : List Call} {rs : List (Outcome3 Value)} (hl : Left D0 ks D)
    (hks : ks = done ++ later) (h : Ideals D done rs D1) :
    (done ≠ [] ∧ Ideals D0 done rs D1) ∨ (done = [] ∧ D1 = D ∧ ks = later) := by
  cases h with
  | nil => exact .inr ⟨rfl, rfl, hks⟩
  | call _ D2 _ k ks' r rs h1 h2 =>
    refine .inl ⟨by simp, ?_⟩
    cases hl with
    | clean => exact .call _ D2 _ _ _ _ _ h1 h2
    | ahead _ k' _ r' h3 =>
      simp only [List.cons_append, List.cons.injEq] at hks
      obtain ⟨rfl, _⟩ := hks
      exact .call _ D2 _ _ _ _ _ (ideal_again h3 h1) h2

theorem left_again {D0 D D' : Device} {ks : List Call} (n : Nat) (hl : Left D0 ks D) (h : Left D (ks.take n) D') :
    Left D0 ks D' := by
  generalize hq : ks.take n = q at h
  cases h with
  | clean => exact hl
  | ahead _ k later r h =>
    cases ks with
    | nil => simp at hq
    | cons k' ks =>
      cases n with
      | zero => simp at hq
      | succ n =>
        simp only [List.take_succ_cons, List.cons.injEq] at hq
        obtain ⟨rfl, _⟩ := hq
        cases hl with
        | clean => exact .ahead _ _ _ _ _ h
        | ahead _ _ _ r' h' => exact .ahead _ _ _ _ _ (ideal_again h' h)

theorem left_more {D D' : Device} {ks more : List Call} (h : Left D ks D') : Left D (ks ++ more) D' := by
  cases h with
  | clean => exact .clean _ _
  | ahead _ _ _ _ h => exact .ahead _ _ _ _ _ h

theorem retried_leaves {C : BlockCipher} {a : ClientArgs} {D D' : Device} {ks rest : List Call} {values : List Value}
    (h : Retried C a D ks values rest D') : D.Ok → SharesKey a D → KnowsPassword a D → (∀ k ∈ ks, k.InRange) →
    Parses D ks → ∀ D0, Left D0 ks D →
    (D'.Ok ∧ SharesKey a D' ∧ KnowsPassword a D') ∧
    ∃ done D1, ks = done ++ rest ∧ Ideals D0 done (values.map .returned) D1 ∧ Left D1 rest D' := by
  induction h with
  | stop D ks => exact fun hd hk hp _ _ D0 hl => ⟨⟨hd, hk, hp⟩, [], D0, rfl, .nil D0, hl⟩
  | attempt D D1 D' ks n outcomes values rest h _ ih =>
    intro hd hk hp hks hparse D0 hl
    obtain ⟨⟨d1, d2, d3, d4⟩, done, later, D2, g1, g2, g3⟩ := attempt_leaves h hd hk hp
      (fun k hk => hks k (List.mem_of_mem_take hk)) (fun n hn => hparse n (List.mem_of_mem_take hn))
    have hlen : (returnedFirst outcomes).length = done.length := by
      have := ideals_length g2; simpa using this
    have hsplit : ks = done ++ (later ++ ks.drop n) := by
      rw [← List.append_assoc, ← g1, List.take_append_drop]
    have hdrop : ks.drop (returnedFirst outcomes).length = later ++ ks.drop n := by
      rw [hlen]
      conv => lhs; rw [hsplit]
      rw [List.drop_left]
    have hlater : later = (later ++ ks.drop n).take later.length := by simp
    rw [hdrop] at ih
    have hin : ∀ k ∈ later ++ ks.drop n, k ∈ ks := fun k hk => by rw [hsplit]; exact List.mem_append.2 (.inr hk)
    have hih := ih d1 d2 d3 (fun k hk => hks k (hin k hk)) (fun n hn => by rw [d4]; exact hparse n (hin _ hn))
    rcases ideals_again hl hsplit g2 with ⟨_, g4⟩ | ⟨rfl, rfl, e⟩
    · obtain ⟨i1, done', D3, i2, i3, i4⟩ := hih D2 (left_more g3)
      refine ⟨i1, done ++ done', D3, by rw [List.append_assoc, ← i2]; exact hsplit, ?_, i4⟩
      rw [List.map_append]
      exact ideals_append g4 i3
    · rw [← e] at hih
      have hl' : Left D0 ks D1 := left_again later.length hl (by rw [e]; rw [← hlater]; exact g3)
      obtain ⟨i1, done', D3, i2, i3, i4⟩ := hih D0 hl'
      refine ⟨i1, done', D3, i2, ?_, i4⟩
      have : returnedFirst outcomes = [] := List.eq_nil_of_length_eq_zero hlen
      rw [this]
      exact i3

/-- C117. A program that makes calls in any number of attempts, each with a new client, that may break off anywhere, and
each from the first call on that has not returned: the values it has are those that the device should give back to the
first calls, one after the other, in one session; and the device is where it should be after them, except that the first
of the calls left may have been carried out. -/
theorem C117_retried (C : BlockCipher) (a : ClientArgs) (D D' : Device) (hd : D.Ok) (hk : SharesKey a D)
    (hp : KnowsPassword a D) (ks rest : List Call) (values : List Value) (hks : ∀ k ∈ ks, k.InRange)
    (hparse : ∀ n, .readParameters n ∈ ks → ∃ os, parseParameters none (some (D.objects.drop n.toNat).flatten) = .ok os)
    (h : Retried C a D ks values rest D') :
    (D'.Ok ∧ SharesKey a D' ∧ KnowsPassword a D') ∧
    ∃ done D1, ks = done ++ rest ∧ Ideals D done (values.map .returned) D1 ∧ Left D1 rest D' :=
  retried_leaves h hd hk hp hks hparse D (.clean D ks)

/-- C117. When no call is left, the values and the device are those of one undisturbed session. -/
theorem C117_finished (C : BlockCipher) (a : ClientArgs) (D D' : Device) (hd : D.Ok) (hk : SharesKey a D)
    (hp : KnowsPassword a D) (ks : List Call) (values : List Value) (hks : ∀ k ∈ ks, k.InRange)
    (hparse : ∀ n, .readParameters n ∈ ks → ∃ os, parseParameters none (some (D.objects.drop n.toNat).flatten) = .ok os)
    (h : Retried C a D ks values [] D') : Ideals D ks (values.map .returned) D' := by
  obtain ⟨_, done, D1, h1, h2, h3⟩ := C117_retried C a D D' hd hk hp ks [] values hks hparse h
  rw [List.append_nil] at h1
  subst h1
  cases h3
  exact h2


theorem completeLines_all : ∀ (ds : List Bytes), (∀ d ∈ ds, ∃ w, d = w ++ [0x0D] ∧ 0x0D ∉ w) →
    completeLines ds.flatten = ds := by
  intro ds
  induction ds with
  | nil => intro _; rfl
  | cons d ds ih =>
    intro hds
    obtain ⟨w, rfl, hw⟩ := hds d List.mem_cons_self
    have := ih fun d hd => hds d (List.mem_cons_of_mem _ hd)
    unfold completeLines at this ⊢
    rw [List.flatten_cons, List.append_assoc, List.singleton_append, linesFrom_line w _ hw, this, List.nil_append]

/-- After some attempts, one more. -/
theorem retried_more {C : BlockCipher} {a : ClientArgs} {D D1 D' : Device} {ks rest rest' : List Call}
    {values values' : List Value} (h : Retried C a D ks values rest D1) (h' : Retried C a D1 rest values' rest' D') :
    Retried C a D ks (values ++ values') rest' D' := by
  induction h with
  | stop D ks => exact h'
  | attempt D D1 D' ks n outcomes values rest h _ ih =>
    rw [List.append_assoc]
    exact .attempt D D1 _ ks n outcomes _ _ h (ih h')

theorem ideal_sizes {D D' : Device} {k : Call} {r : Outcome3 Value} (h : Ideal D k r D') (hz : D.Sizes) : D'.Sizes := by
  cases h with
  | writeTime => exact ⟨hz.values, hz.objects, hz.records, hz.recordsSince⟩
  | _ => exact hz

theorem ideals_sizes {D D' : Device} {ks : List Call} {rs : List (Outcome3 Value)} (h : Ideals D ks rs D') :
    D.Sizes → D'.Sizes := by
  induction h with
  | nil => exact id
  | call D D1 D' k ks r rs h1 _ ih => exact fun hz => ih (ideal_sizes h1 hz)

theorem left_sizes {D D' : Device} {ks : List Call} (h : Left D ks D') (hz : D.Sizes) : D'.Sizes := by
  cases h with
  | clean => exact hz
  | ahead _ _ _ _ h => exact ideal_sizes h hz

/-- C117. Wherever the attempts so far have got to, there is another one that completes the calls:
one that does not break off. -/
theorem C117_can_finish (C : BlockCipher) (a : ClientArgs) (ha : 801 ≤ a.passwordId ∧ a.passwordId ≤ 849) (D D' : Device)
    (hd : D.Ok) (hz : D.Sizes) (hk : SharesKey a D) (hp : KnowsPassword a D) (ks rest : List Call) (values : List Value)
    (hks : ∀ k ∈ ks, k.InRange)
    (hparse : ∀ n, .readParameters n ∈ ks → ∃ os, parseParameters none (some (D.objects.drop n.toNat).flatten) = .ok os)
    (h : Retried C a D ks values rest D') :
    ∃ values' D'', (∃ outcomes, Attempt C a D' rest outcomes D'' ∧ returnedFirst outcomes = values') ∧
      Retried C a D ks (values ++ values') [] D'' ∧ Ideals D ks ((values ++ values').map .returned) D'' := by
  obtain ⟨⟨d1, d2, d3⟩, done, D1, h1, h2, h3⟩ := C117_retried C a D D' hd hk hp ks rest values hks hparse h
  have hz' := left_sizes h3 (ideals_sizes h2 hz)
  have hobj : D'.objects = D.objects := by
    have := ideals_keep h2
    cases h3 with
    | clean => exact this
    | ahead _ _ _ _ h => rw [ideal_objects h, this]
  have hin : ∀ k ∈ rest, k ∈ ks := fun k hk => by rw [h1]; exact List.mem_append.2 (.inr hk)
  obtain ⟨ss, D'', total, hss, H⟩ := C83_served C .tcp none a ha (fun _ => ⟨('a', 'b'), fun _ => 0⟩)
    (fun _ => by decide +kernel) D' d1 hz' d2 d3 [(5, rest)]
    (fun x hx k hk => by rw [List.mem_singleton.1 hx] at hk; exact hks k (hin k hk)) (by simp)
  obtain ⟨s, rfl⟩ : ∃ s, ss = [s] := by
    match ss, congrArg List.length hss with
    | [s], _ => exact ⟨s, rfl⟩
  simp only [List.map_cons, List.map_nil, List.cons.injEq, Prod.mk.injEq, and_true] at hss
  obtain ⟨e1, e2⟩ := hss
  obtain ⟨w, hw, hs, ht, hi⟩ := H
    { opens := [.ok s.handle], shutdowns := List.replicate (1 + total) (.ok ()), closes := List.replicate (1 + total) (.ok ()),
      writes := List.replicate (1 + total) (.ok ()), inbox := fun _ => [.seg s.out], clock := exClock,
      rands := fun _ => ⟨('a', 'b'), fun _ => 0⟩ } (1 + total) rfl rfl rfl rfl rfl (by simp) (by omega)
    (fun x hx => by rw [List.mem_singleton.1 hx]; simp [content, bytesOnly])
  have hopen : ∀ h l, ([.ok s.handle] : List (Res Handle)) = .ok h :: l → h = s.handle := by
    intro h l e
    simp only [List.cons.injEq, Except.ok.injEq] at e
    exact e.1.symm
  simp only [List.flatMap_cons, List.flatMap_nil, List.append_nil] at hs ht hi
  generalize henv : ({ opens := [.ok s.handle], shutdowns := List.replicate (1 + total) (.ok ()), closes := List.replicate (1 + total) (.ok ()), writes := List.replicate (1 + total) (.ok ()), inbox := fun _ => [.seg s.out], clock := exClock, rands := fun _ => ⟨('a', 'b'), fun _ => 0⟩ } : OsEnv) = env at hw
  have hlines := fun h d => acts_lines (C := C) hw s.program h d
  have htrace := (C83_sessions C .tcp none a env w hw (by rw [← henv]; intro i; show PadOk ('a', 'b'); decide +kernel) D' D'' d1 d2 d3 [s]
    (fun x hx k hk => by rw [List.mem_singleton.1 hx, e2] at hk; exact hks k (hin k hk)) (by simp) (by rw [← henv]; rfl)
    (1 + total) (by rw [← henv]) (by rw [← henv]) (by rw [← henv]) (by simp) s.program (by simp) _ rfl
    (by rw [ht]; omega) hs (fun x hx => by rw [List.mem_singleton.1 hx, ← henv]; simp [content, bytesOnly])).2.1
  simp only [List.flatMap_cons, List.flatMap_nil, List.append_nil] at htrace
  generalize hos : (acts C w s.program).2.os = os at hs ht hlines htrace
  have hwt : written os = writtenTo s.handle os := by
    have h1 := congrArg written htrace
    have h2 : written (closing .tcp s.handle) = [] := rfl
    have h3 : written [.create (some s.handle)] = [] := rfl
    unfold Session.trace at h1
    rw [written_append, h2, List.append_nil, ← List.singleton_append, written_append, h3, List.nil_append,
      written_writes] at h1
    exact h1
  generalize hout : (acts C w s.program).1 = outs at hi
  cases hs with
  | session _ D1 _ _ _ hserve hs =>
  cases hs
  cases hi with
  | session _ D1' _ _ _ vs rs hi hi' =>
  cases hi'
  rw [e2] at hi
  obtain ⟨vs, rfl⟩ := ideals_returned hi (fun n hn => by rw [hobj]; exact hparse n (hin _ hn))
  have hlen := ideals_length hi
  rw [List.length_map] at hlen
  have hrf : returnedFirst (vs.map .returned) = vs := by
    have := returnedFirst_values vs [] (by intro r h; cases h)
    rwa [List.append_nil] at this
  have hatt : Attempt C a D' rest (vs.map .returned) D'' := by
    refine ⟨.tcp, none, env, w, 1, s.program, (written os).flatten, s.out, hw, ?_, ?_, ?_, ?_, ?_, ?_⟩
    · rw [← henv]; intro i; show PadOk ('a', 'b'); decide +kernel
    · unfold Session.program; rw [e2]; rfl
    · rw [hout]
      simp [hlen]
    · rw [hos]; exact List.prefix_rfl
    · rw [completeLines_all, hwt]
      · exact hserve
      · intro d hd
        rw [hwt] at hd
        unfold writtenTo at hd
        obtain ⟨x, hx, he⟩ := List.mem_filterMap.1 hd
        cases x with
        | write g d' =>
          dsimp only at he
          split at he
          · cases he
            exact hlines g _ hx
          · cases he
        | _ => cases he
    · intro h l ho
      rw [← henv] at ho ⊢
      refine ⟨s.out.length, [], ?_, .inl rfl⟩
      simp [content, bytesOnly]
  have hfin : Retried C a D ks (values ++ vs) [] D'' := by
    refine retried_more h ?_
    have := Retried.attempt (C := C) (a := a) D' D'' D'' rest rest.length (vs.map .returned) [] [] (by rw [List.take_length]; exact hatt)
      (by rw [hrf, hlen, List.drop_length]; exact .stop D'' [])
    rwa [hrf, List.append_nil] at this
  exact ⟨vs, D'', ⟨_, hatt, hrf⟩, hfin, C117_finished C a D D'' hd hk hp ks _ hks hparse hfin⟩

/-! ### Examples -/

-- an attempt at three calls that breaks off in the middle of the second answer: one value is there, two calls are left
theorem exRetried : ∃ value, Retried idCipher exArgs (exDevice none (List.replicate 6 0x30)) [.readTime, .readTime, .readTime]
    [value] [.readTime, .readTime] (exDevice none (List.replicate 6 0x30)) := by
  have hatt : ∃ outcomes, Attempt idCipher exArgs (exDevice none (List.replicate 6 0x30)) [.readTime, .readTime, .readTime]
      outcomes (exDevice none (List.replicate 6 0x30)) ∧ (returnedFirst outcomes).length = 1 := by
    refine ⟨_, ⟨.tcp, some 0, exBroken, _, 0, exThree, exAsk ++ exAsk, exDeviceTime ++ exDeviceTime, rfl,
      fun _ => show PadOk ('a', 'b') by decide +kernel, rfl, rfl, by decide +kernel, ?_, ?_⟩, by decide +kernel⟩
    · have : completeLines (exAsk ++ exAsk) = [exAsk, exAsk] := by decide +kernel
      rw [this]
      exact exServes_two
    · intro h l _
      exact ⟨exDeviceTime.length + 7, [], show content (exBroken.inbox 5) = _ by decide +kernel, .inl rfl⟩
  obtain ⟨outcomes, hatt, hlen⟩ := hatt
  obtain ⟨value, hv⟩ : ∃ v, returnedFirst outcomes = [v] := by
    match returnedFirst outcomes, hlen with
    | [v], _ => exact ⟨v, rfl⟩
  refine ⟨value, ?_⟩
  have := Retried.attempt (C := idCipher) (a := exArgs) _ _ _ [.readTime, .readTime, .readTime] 3 outcomes [] _ hatt
    (by rw [hv]; exact .stop _ _)
  rwa [hv] at this

-- a second attempt brings the rest, and the three values are those of one session
example : ∃ values D'', values.length = 3 ∧
    Retried idCipher exArgs (exDevice none (List.replicate 6 0x30)) [.readTime, .readTime, .readTime] values [] D'' ∧
    Ideals (exDevice none (List.replicate 6 0x30)) [.readTime, .readTime, .readTime] (values.map .returned) D'' := by
  obtain ⟨value, h⟩ := exRetried
  obtain ⟨values', D'', _, h1, h2⟩ := C117_can_finish idCipher exArgs (by decide) (exDevice none (List.replicate 6 0x30)) _
    (exDevice_ok _ (fun _ _ h => by cases h) _ rfl).2 (exDevice_ok _ (fun _ _ h => by cases h) _ rfl).1 (fun ⟨⟨_, h, _⟩, _⟩ => by (cases h))
    ⟨by decide, by decide⟩ _ _ _ (by simp [Call.InRange]) (by simp) h
  refine ⟨_, D'', ?_, h1, h2⟩
  have := ideals_length h2
  rwa [List.length_map] at this

-- an attempt in which no connection is opened leaves everything as it was
example : Attempt idCipher exArgs (exDevice none (List.replicate 6 0x30)) [.readTime] [.raised .runtime]
    (exDevice none (List.replicate 6 0x30)) :=
  ⟨.serial, none, { exBroken with opens := [.error .os] }, _, 1, .connect :: [Call.readTime].map .call ++ [.disconnect], [], [],
    rfl, fun _ => show PadOk ('a', 'b') by decide +kernel, rfl, rfl, List.nil_prefix, .nil _, fun h l e => by cases e⟩

end Elgas
