import Verif.Props.Crash
import Verif.Props.ProgramLog
import Verif.Props.Cut
import Verif.Spec.Arrival
/-!
C108: what arrives at the other side over whole programs, when writes may fail partway.
-/
namespace Elgas
open Spec

/-! ### Which writes succeed -/

/-- From `w` to `w'` the writes `ds` were made; all but the last succeeded, and all if the connection is idle or `full`
holds. -/
structure Sent (w w' : World) (full : Prop) (ds : List (Handle × Bytes)) : Prop where
  made : writesOf w'.os = writesOf w.os ++ ds
  script : w'.writes = w.writes.drop ds.length
  before : ∀ i, i + 1 < ds.length → w.writes[i]? = some (.ok ())
  all : full ∨ w'.conn.state = .idle → ∀ i, i < ds.length → w.writes[i]? = some (.ok ())

theorem Sent.none {w w' : World} (full : Prop) (h1 : writesOf w'.os = writesOf w.os) (h2 : w'.writes = w.writes) :
    Sent w w' full [] :=
  ⟨by rw [h1, List.append_nil], h2, fun i h => by simp at h, fun _ i h => by simp at h⟩

theorem Sent.trans {w w1 w2 : World} {full full' : Prop} {ds ds' : List (Handle × Bytes)} (h : Sent w w1 full ds)
    (h' : Sent w1 w2 full' ds') (hf : full) : Sent w w2 full' (ds ++ ds') := by
  have hat : ∀ i, i < ds'.length → w1.writes[i]? = some (.ok ()) → w.writes[ds.length + i]? = some (.ok ()) := by
    intro i _ hi
    rw [h.script, List.getElem?_drop] at hi
    exact hi
  have split : ∀ n, (∀ i, i < n → w1.writes[i]? = some (.ok ())) → n ≤ ds'.length → ∀ i, i < ds.length + n →
      w.writes[i]? = some (.ok ()) := by
    intro n hn hle i hi
    by_cases hc : i < ds.length
    · exact h.all (.inl hf) i hc
    · have := hat (i - ds.length) (by omega) (hn _ (by omega))
      rwa [show ds.length + (i - ds.length) = i by omega] at this
  refine ⟨by rw [h'.made, h.made, List.append_assoc], ?_, ?_, ?_⟩
  · rw [h'.script, h.script, List.drop_drop, List.length_append]
  · intro i hi
    rw [List.length_append] at hi
    by_cases hd : ds'.length = 0
    · exact h.all (.inl hf) i (by omega)
    · exact split (ds'.length - 1) (fun j hj => h'.before j (by omega)) (by omega) i (by omega)
  · intro hc i hi
    rw [List.length_append] at hi
    exact split ds'.length (h'.all hc) (Nat.le_refl _) i hi

theorem exchange_wrote {C : BlockCipher} (w : World) {e : Event} (he : IsRequest e) :
    ∃ ds, Sent w (w.exchange C e).2 (∃ ev, (w.exchange C e).1 = .returned ev) ds := by
  cases hs : w.conn.send C e (w.rands w.draws) with | mk c r =>
  cases r with
  | error x =>
    have : w.exchange C e = (.raised x, { w with conn := c, draws := w.draws + 1 }) := by
      unfold World.exchange World.send
      rw [hs]
    rw [this]
    exact ⟨[], .none _ rfl rfl⟩
  | ok data =>
    have hst : c.state ≠ .idle := by
      rcases send_request_cases C w.conn e (w.rands w.draws) he with ⟨_, _, h3, _⟩ | ⟨_, h⟩
      · rw [hs] at h3
        intro hi
        dsimp only at h3
        rw [hi] at h3
        obtain ⟨u, hu⟩ := Option.isSome_iff_exists.1 (by exact he)
        rw [hu] at h3
        cases h3
      · rw [hs] at h; cases h
    cases ht : w.transport.socket with
    | none =>
      rw [exchange_closed ht]
      exact ⟨[], .none _ rfl rfl⟩
    | some h =>
      cases hw : w.writes with
      | nil =>
        have : w.exchange C e = (.pending, { w with conn := c, draws := w.draws + 1, os := w.os ++ [.write h data] }) := by
          unfold World.exchange World.send World.write
          rw [hs]
          dsimp only
          rw [ht, hw]
        rw [this]
        refine ⟨[(h, data)], by simp [writesOf], by simp [hw], fun i hi => by simp at hi, fun hc => ?_⟩
        rcases hc with ⟨_, hc⟩ | hc
        · cases hc
        · exact absurd hc hst
      | cons o ws =>
        cases o with
        | error x =>
          have : w.exchange C e = (.raised (wrapOs x), { w with conn := c, draws := w.draws + 1, writes := ws, os := w.os ++ [.write h data] }) := by
            unfold World.exchange World.send World.write Transport.send
            rw [hs]
            dsimp only
            rw [ht, hw]
          rw [this]
          refine ⟨[(h, data)], by simp [writesOf], by simp [hw], fun i hi => by simp at hi, fun hc => ?_⟩
          rcases hc with ⟨_, hc⟩ | hc
          · cases hc
          · exact absurd hc hst
        | ok u =>
          have hfields : ∀ (v : World), (v.receive).2.os = v.os ∧ (v.receive).2.writes = v.writes := by
            intro v
            unfold World.receive
            split
            · exact ⟨(setUnread_fields _ _ _).2.2.1, (setUnread_fields _ _ _).2.2.2.2⟩
            · exact ⟨(setUnread_fields _ _ _).2.2.1, (setUnread_fields _ _ _).2.2.2.2⟩
            · exact ⟨(setUnread_fields _ _ _).2.2.1, (setUnread_fields _ _ _).2.2.2.2⟩
          have hnext : ∀ (v : World), (v.nextEvent C).2.os = v.os ∧ (v.nextEvent C).2.writes = v.writes := by
            intro v
            unfold World.nextEvent
            exact ⟨(setUnread_fields _ _ _).2.2.1, (setUnread_fields _ _ _).2.2.2.2⟩
          have : (w.exchange C e).2.os = w.os ++ [.write h data] ∧ (w.exchange C e).2.writes = ws := by
            unfold World.exchange World.send World.write Transport.send
            rw [hs]
            dsimp only
            rw [ht, hw]
            dsimp only
            have hf := hfields { w with conn := c, draws := w.draws + 1, os := w.os ++ [.write h data], writes := ws }
            split
            · next w1 h1 =>
              rw [(hnext _).1, (hnext _).2]
              rw [h1] at hf
              exact hf
            · next w1 h1 =>
              rw [h1] at hf
              exact hf
            · next w1 h1 =>
              rw [h1] at hf
              exact hf
          refine ⟨[(h, data)], by rw [this.1]; simp [writesOf], by rw [this.2, hw]; rfl, fun i hi => by simp at hi, ?_⟩
          intro _ i hi
          simp only [List.length_singleton] at hi
          rw [show i = 0 by omega, hw]
          rfl

theorem readPages_wrote {C : BlockCipher} (w : World) (n : Int) (total : Bytes) :
    ∃ ds, Sent w (w.readPages C n total).2 (∃ d, (w.readPages C n total).1 = .returned d) ds := by
  have hr : ∀ pw m, IsRequest (pageRequest pw m) := fun _ _ => isRequest_of rfl
  fun_induction World.readPages C w n total with
  | case1 w n total e w1 hx =>
    obtain ⟨ds, h⟩ := exchange_wrote (C := C) w (hr w.password n)
    have hx' : w.exchange C (pageRequest w.password n) = _ := hx
    rw [hx'] at h
    exact ⟨ds, h.made, h.script, h.before, fun hc => h.all (hc.imp (fun ⟨_, hc⟩ => by (cases hc)) id)⟩
  | case2 w n total w1 hx =>
    obtain ⟨ds, h⟩ := exchange_wrote (C := C) w (hr w.password n)
    have hx' : w.exchange C (pageRequest w.password n) = _ := hx
    rw [hx'] at h
    exact ⟨ds, h.made, h.script, h.before, fun hc => h.all (hc.imp (fun ⟨_, hc⟩ => by (cases hc)) id)⟩
  | case3 w n total p w1 hx hend =>
    obtain ⟨ds, h⟩ := exchange_wrote (C := C) w (hr w.password n)
    have hx' : w.exchange C (pageRequest w.password n) = _ := hx
    rw [hx'] at h
    exact ⟨ds, h.made, h.script, h.before, fun _ => h.all (.inl ⟨_, rfl⟩)⟩
  | case4 w n total p w1 hx hend ih =>
    obtain ⟨ds, h⟩ := exchange_wrote (C := C) w (hr w.password n)
    have hx' : w.exchange C (pageRequest w.password n) = _ := hx
    rw [hx'] at h
    obtain ⟨ds', h'⟩ := ih
    exact ⟨ds ++ ds', h.trans h' ⟨_, rfl⟩⟩
  | case5 w n total o w1 hne hx =>
    obtain ⟨ds, h⟩ := exchange_wrote (C := C) w (hr w.password n)
    have hx' : w.exchange C (pageRequest w.password n) = _ := hx
    rw [hx'] at h
    exact ⟨ds, h.made, h.script, h.before, fun _ => h.all (.inl ⟨_, rfl⟩)⟩

theorem wcall_wrote {C : BlockCipher} (w : World) (k : Call) : ∃ ds, Sent w (wcall C w k).2 False ds := by
  have weak : ∀ {w' : World} {p : Prop} {ds}, Sent w w' p ds → Sent w w' False ds := fun h =>
    ⟨h.made, h.script, h.before, fun hc => h.all (hc.imp (fun hc => hc.elim) id)⟩
  have key : ∀ e, IsRequest e → ∃ ds, Sent w (w.exchange C e).2 False ds := fun e he =>
    let ⟨ds, h⟩ := exchange_wrote (C := C) w he
    ⟨ds, weak h⟩
  cases k with
  | readParameters n =>
    obtain ⟨ds, h⟩ := readPages_wrote (C := C) w n []
    exact ⟨ds, weak h⟩
  | readInstantaneousValues => exact key _ (isRequest_of rfl)
  | readTime => exact key _ (isRequest_of rfl)
  | writeTime t b => exact key _ (isRequest_of rfl)
  | readArchive x n i => exact key _ (isRequest_of rfl)
  | readArchiveByTime x n t => exact key _ (isRequest_of rfl)

theorem act_wrote {C : BlockCipher} (w : World) {a : Action} (hp : a.Plain) :
    ∃ ds, Sent w (act C w a).2 False ds ∧ (w.conn.state ≠ .idle → ds = []) := by
  rcases Action.plain_cases hp with rfl | rfl | ⟨k, rfl⟩
  · exact ⟨[], .none _ (connect_same w).writesOf (connect_same w).writes, fun _ => rfl⟩
  · exact ⟨[], .none _ (disconnect_same w).writesOf (disconnect_same w).writes, fun _ => rfl⟩
  · by_cases hi : w.conn.state = .idle
    · obtain ⟨ds, h⟩ := wcall_wrote (C := C) w k
      exact ⟨ds, h, fun hn => absurd hi hn⟩
    · have : act C w (.call k) = _ := wcall_refused (C := C) hi k
      rw [this]
      exact ⟨[], .none _ rfl rfl, fun _ => rfl⟩

theorem acts_wrote {C : BlockCipher} (as : List Action) (hp : ∀ a ∈ as, a.Plain) : ∀ w : World, 
    ∃ ds, Sent w (acts C w as).2 False ds ∧ (w.conn.state ≠ .idle → ds = []) := by
  induction as with
  | nil => intro w; exact ⟨[], .none _ rfl rfl, fun _ => rfl⟩
  | cons a as ih =>
    intro w
    obtain ⟨ds, h, h0⟩ := act_wrote (C := C) w (hp a List.mem_cons_self)
    obtain ⟨ds', h', h0'⟩ := ih (fun b hb => hp b (List.mem_cons_of_mem _ hb)) (act C w a).2
    by_cases hi : (act C w a).2.conn.state = .idle
    · refine ⟨ds ++ ds', ?_, fun hn => absurd hi (by rw [(act_waiting hn (hp a List.mem_cons_self)).1]; exact hn)⟩
      have h1 : Sent w (act C w a).2 True ds := ⟨h.made, h.script, h.before, fun _ => h.all (.inr hi)⟩
      exact h1.trans h' trivial
    · have hn := h0' hi
      subst hn
      refine ⟨ds, ⟨?_, ?_, h.before, fun hc => ?_⟩, h0⟩
      · show writesOf (acts C (act C w a).2 as).2.os = _
        rw [h'.made, h.made, List.append_nil]
      · show (acts C (act C w a).2 as).2.writes = _
        rw [h'.script, h.script]; rfl
      · rcases hc with hc | hc
        · exact hc.elim
        · exfalso
          have : (acts C (act C w a).2 as).2.conn.state = .idle := hc
          rw [(C85_spoiled C _ hi as fun b hb => hp b (List.mem_cons_of_mem _ hb)).2.2] at this
          exact hi this

/-! ### Streams -/

theorem writtenTo_onHandle (h : Handle) (os : List OsCall) : writtenTo h os = onHandle h (writesOf os) := by
  induction os with
  | nil => rfl
  | cons o os ih =>
    cases o with
    | write g d =>
      unfold writtenTo writesOf onHandle at *
      simp only [List.filterMap_cons, List.filter_cons] at *
      split
      · next hn => split at hn <;> simp_all
      · next hn =>
        split at hn
        · next hg => cases hn; simp [hg, ih]
        · cases hn
    | _ => exact ih

theorem arrived_append (h : Handle) : ∀ (l l' : List (Handle × Bytes)) (part : Nat → Nat) (rs : List (Res Unit)),
    (∀ i, i < l.length → rs[i]? = some (.ok ())) →
    arrived h part rs (l ++ l') = (onHandle h l).flatten ++
      arrived h (fun i => part (l.length + i)) (rs.drop l.length) l' := by
  intro l
  induction l with
  | nil => intro l' part rs _; simp [onHandle]
  | cons x l ih =>
    intro l' part rs hall
    obtain ⟨g, d⟩ := x
    rw [List.cons_append, arrived, hall 0 (by simp), if_pos rfl,
      ih l' _ (rs.drop 1) (fun i hi => by rw [List.getElem?_drop, Nat.add_comm]; exact hall (i + 1) (by simpa using hi))]
    have e : (fun i => part (l.length + i + 1)) = fun i => part (((g, d) :: l).length + i) := by
      funext i; congr 1; simp; omega
    have e2 : List.drop l.length (rs.drop 1) = rs.drop ((g, d) :: l).length := by
      rw [List.drop_drop, List.length_cons, Nat.add_comm]
    rw [e, e2]
    by_cases hg : g = h
    · simp [onHandle, hg]
    · simp [onHandle, hg]

theorem arrived_split (h : Handle) : ∀ (l l' : List (Handle × Bytes)) (part : Nat → Nat) (rs : List (Res Unit)),
    arrived h part rs (l ++ l') = arrived h part rs l ++ arrived h (fun i => part (l.length + i)) (rs.drop l.length) l' := by
  intro l
  induction l with
  | nil => intro l' part rs; simp [arrived]
  | cons x l ih =>
    intro l' part rs
    obtain ⟨g, d⟩ := x
    rw [List.cons_append, arrived, ih, arrived, List.append_assoc]
    have e : (fun i => part (l.length + i + 1)) = fun i => part (((g, d) :: l).length + i) := by
      funext i; congr 1; simp; omega
    have e2 : List.drop l.length (rs.drop 1) = rs.drop ((g, d) :: l).length := by
      rw [List.drop_drop, List.length_cons, Nat.add_comm]
    rw [e, e2]

/-- What arrives when all writes but the last succeed. -/
theorem arrived_last (h : Handle) (l : List (Handle × Bytes)) (g : Handle) (d : Bytes) (part : Nat → Nat)
    (rs : List (Res Unit)) (hall : ∀ i, i < l.length → rs[i]? = some (.ok ())) :
    arrived h part rs (l ++ [(g, d)]) = (onHandle h l).flatten ++
      if g = h then (if rs[l.length]? = some (.ok ()) then d else d.take (part l.length)) else [] := by
  rw [arrived_append h l _ part rs hall, arrived, arrived, List.append_nil, List.getElem?_drop]
  rfl

def Line (d : Bytes) : Prop := ∃ w, d = w ++ [0x0D] ∧ 0x0D ∉ w

theorem completeLines_flatten (ls : List Bytes) (hl : ∀ d ∈ ls, Line d) (rest : Bytes) :
    completeLines (ls.flatten ++ rest) = ls ++ completeLines rest := by
  induction ls with
  | nil => rfl
  | cons d ls ih =>
    obtain ⟨w, hd, hw⟩ := hl d (by simp)
    rw [List.flatten_cons, List.append_assoc]
    have := linesFrom_line w (ls.flatten ++ rest) hw []
    unfold completeLines at *
    rw [show d ++ (ls.flatten ++ rest) = w ++ 0x0D :: (ls.flatten ++ rest) by rw [hd]; simp, this,
      ih fun d hd => hl d (by simp [hd]), hd]
    simp

theorem part_no_end {line rest : Bytes} (hl : Line line) (hp : rest <+: line) (hne : rest ≠ line) : 0x0D ∉ rest := by
  obtain ⟨w, rfl, hw⟩ := hl
  by_cases hlen : rest.length ≤ w.length
  · obtain ⟨t, ht⟩ := List.prefix_of_prefix_length_le hp (List.prefix_append w [0x0D]) hlen
    exact fun hx => hw (by rw [← ht]; simp [hx])
  · exact absurd (hp.eq_of_length_le (by simp; omega)) hne

theorem acts_line {C : BlockCipher} {kind : Kind} {timeout : Option Int} {a : ClientArgs} {env : OsEnv} {w : World}
    (hm : mkWorld kind timeout a env = .ok w) (program : List Action) (h : Handle) :
    ∀ d ∈ onHandle h (writesOf (acts C w program).2.os), Line d := by
  intro d hd
  unfold onHandle at hd
  obtain ⟨⟨g, d'⟩, hx, rfl⟩ := List.mem_map.1 hd
  obtain ⟨hx, _⟩ := List.mem_filter.1 hx
  unfold writesOf at hx
  obtain ⟨o, ho, he⟩ := List.mem_filterMap.1 hx
  cases o with
  | write g2 d2 => cases he; exact acts_lines hm program _ _ ho
  | _ => cases he

/-! ### Claims -/

theorem sent_new {C : BlockCipher} {kind : Kind} {timeout : Option Int} {a : ClientArgs} {env : OsEnv} {w : World}
    (hm : mkWorld kind timeout a env = .ok w) (program : List Action) (hp : ∀ x ∈ program, x.Plain) :
    (∀ i, i + 1 < (writesOf (acts C w program).2.os).length → env.writes[i]? = some (.ok ())) ∧
    ((acts C w program).2.conn.state = .idle →
      ∀ i, i < (writesOf (acts C w program).2.os).length → env.writes[i]? = some (.ok ())) ∧
    (acts C w program).2.writes = env.writes.drop (writesOf (acts C w program).2.os).length := by
  obtain ⟨conn, _, hw⟩ := mkWorld_ok hm
  obtain ⟨ds, h, _⟩ := acts_wrote (C := C) program hp w
  have h0 : writesOf w.os = [] := by rw [hw]; rfl
  have h1 : w.writes = env.writes := by rw [hw]
  have hm := h.made
  rw [h0, List.nil_append] at hm
  rw [hm]
  rw [← h1]
  exact ⟨h.before, fun hi => h.all (.inr hi), h.script⟩

/-- C108. A new client, used in any way by `connect`, `disconnect` and calls, with any operating system: of all the
writes it has made, to whichever handle, all but the last have succeeded. -/
theorem C108_only_last (C : BlockCipher) (kind : Kind) (timeout : Option Int) (a : ClientArgs) (env : OsEnv) (w : World)
    (hm : mkWorld kind timeout a env = .ok w) (program : List Action) (hp : ∀ x ∈ program, x.Plain) (i : Nat)
    (hi : i + 1 < (writesOf (acts C w program).2.os).length) : env.writes[i]? = some (.ok ()) :=
  (sent_new hm program hp).1 i hi

/-- C108. Once a write has not succeeded (it raised, or never came back), every later call, whatever is done in
between, raises LocalElgasProtocolError, and nothing more is written to any handle. -/
theorem C108_nothing_more (C : BlockCipher) (kind : Kind) (timeout : Option Int) (a : ClientArgs) (env : OsEnv)
    (w : World) (hm : mkWorld kind timeout a env = .ok w) (before later : List Action) (hb : ∀ x ∈ before, x.Plain)
    (hl : ∀ x ∈ later, x.Plain) (i : Nat) (hi : i < (writesOf (acts C w before).2.os).length)
    (hbad : env.writes[i]? ≠ some (.ok ())) :
    writesOf (acts C w (before ++ later)).2.os = writesOf (acts C w before).2.os ∧
    ∀ (j : Nat) (k : Call), later[j]? = some (.call k) →
      (acts C w (before ++ later)).1[before.length + j]? = some (.raised (.elgas .localProtocol)) := by
  have hs : (acts C w before).2.conn.state ≠ .idle := fun h => hbad ((sent_new hm before hb).2.1 h i hi)
  have h1 := (C85_spoiled C _ hs later hl).1
  obtain ⟨ds, h2, h3⟩ := acts_wrote (C := C) later hl (acts C w before).2
  rw [acts_append]
  refine ⟨?_, fun j k hj => ?_⟩
  · dsimp only
    rw [h2.made, h3 hs, List.append_nil]
  · dsimp only
    rw [List.getElem?_append_right (by rw [acts_length]; omega), acts_length,
      show before.length + j - before.length = j by omega]
    exact h1 j k hj

theorem lines_of {l : List (Handle × Bytes)} {h : Handle} (hl : ∀ d ∈ onHandle h l, Line d) :
    completeLines (onHandle h l).flatten = onHandle h l := by
  have := completeLines_flatten (onHandle h l) hl []
  rw [List.append_nil] at this
  rw [this]
  show _ ++ [] = _
  rw [List.append_nil]

/-- C108. What arrives through a handle, whatever part of a write that does not succeed gets through: all the lines
written to it; or all but the very last one written by the whole program, and of this one a part that does not end.
Then every later call is refused. -/
theorem C108_arrives (C : BlockCipher) (kind : Kind) (timeout : Option Int) (a : ClientArgs) (env : OsEnv) (w : World)
    (hm : mkWorld kind timeout a env = .ok w) (program : List Action) (hp : ∀ x ∈ program, x.Plain) (h : Handle)
    (part : Nat → Nat) (os : List OsCall) (hos : os = (acts C w program).2.os) (got : Bytes)
    (hgot : got = arrived h part env.writes (writesOf os)) :
    (got = (writtenTo h os).flatten ∧ completeLines got = writtenTo h os) ∨
    ∃ lines line rest, writtenTo h os = lines ++ [line] ∧ got = lines.flatten ++ rest ∧ rest <+: line ∧ rest ≠ line ∧
      completeLines got = lines ∧ (writesOf os).getLast? = some (h, line) ∧
      env.writes[(writesOf os).length - 1]? ≠ some (.ok ()) ∧
      ∀ k, (wcall C (acts C w program).2 k).1 = .raised (.elgas .localProtocol) := by
  obtain ⟨h1, h2, _⟩ := sent_new (C := C) hm program hp
  have hl := acts_line (C := C) hm program h
  rw [writtenTo_onHandle, hgot]
  rw [← hos] at h1 h2 hl
  cases hc : (writesOf os).reverse with
  | nil =>
    have : writesOf os = [] := by simpa using hc
    rw [this]
    exact .inl ⟨rfl, rfl⟩
  | cons x t =>
    have hw : writesOf os = t.reverse ++ [x] := by
      rw [← List.reverse_reverse (as := writesOf os), hc, List.reverse_cons]
    generalize t.reverse = l at hw
    obtain ⟨g, d⟩ := x
    have hlen : (writesOf os).length = l.length + 1 := by rw [hw]; simp
    have hall : ∀ i, i < l.length → env.writes[i]? = some (.ok ()) := fun i hi => h1 i (by omega)
    have hes := arrived_last h l g d part env.writes hall
    have hon : onHandle h [(g, d)] = if g = h then [d] else [] := by
      unfold onHandle
      by_cases hg : g = h <;> simp [hg]
    have hwhole : arrived h part env.writes (writesOf os) = (onHandle h (writesOf os)).flatten →
        arrived h part env.writes (writesOf os) = (onHandle h (writesOf os)).flatten ∧
          completeLines (arrived h part env.writes (writesOf os)) = onHandle h (writesOf os) :=
      fun e => ⟨e, by rw [e]; exact lines_of hl⟩
    by_cases hg : g = h
    · subst hg
      rw [if_pos rfl] at hes hon
      by_cases hk : env.writes[l.length]? = some (.ok ())
      · refine .inl (hwhole ?_)
        rw [if_pos hk] at hes
        rw [hw, hes, onHandle_append, hon]
        simp
      · rw [if_neg hk] at hes
        by_cases hfull : d.take (part l.length) = d
        · refine .inl (hwhole ?_)
          rw [hw, hes, onHandle_append, hon, hfull]
          simp
        · refine .inr ⟨onHandle g l, d, d.take (part l.length), ?_, ?_, List.take_prefix _ _, hfull, ?_, ?_, ?_, ?_⟩
          · rw [hw, onHandle_append, hon]
          · rw [hw, hes]
          · rw [hw, onHandle_append, hon] at hl
            rw [hw, hes, completeLines_flatten _ fun d hd => hl d (by simp [hd])]
            have : completeLines (d.take (part l.length)) = [] :=
              linesFrom_part _ (part_no_end (hl d (by simp)) (List.take_prefix _ _) hfull) []
            rw [this, List.append_nil]
          · rw [hw]; simp
          · rw [hlen]; exact hk
          · intro k
            rw [wcall_refused fun hi => hk (h2 hi l.length (by omega))]
    · refine .inl (hwhole ?_)
      rw [if_neg hg] at hes hon
      rw [hw, hes, onHandle_append, hon]
      simp

/-- C108. If a part of the last line has arrived that does not end, and the program sets the state of the connection to
IDLE, empties the buffer, and goes on with the same handle, then the device never gets the next request: the next line
it gets is the part and the request in one. -/
theorem C108_glued (C : BlockCipher) (kind : Kind) (timeout : Option Int) (a : ClientArgs) (env : OsEnv) (w : World)
    (hm : mkWorld kind timeout a env = .ok w) (program : List Action) (h : Handle)
    (part : Nat → Nat) (w1 : World) (hw1 : w1 = (acts C w program).2)
    (lines : List Bytes) (line rest : Bytes) (hlines : writtenTo h w1.os = lines ++ [line])
    (hgot : arrived h part env.writes (writesOf w1.os) = lines.flatten ++ rest) (hrest : rest <+: line)
    (hne : rest ≠ line) (hsock : w1.transport.socket = some h) (k : Call)
    (hwrote : writesOf (wcall C (repaired w1) k).2.os ≠ writesOf w1.os)
    (hok : env.writes[(writesOf w1.os).length]? = some (.ok ())) :
    ∃ request, (writesOf (wcall C (repaired w1) k).2.os)[(writesOf w1.os).length]? = some (h, request) ∧
      lines ++ [rest ++ request] <+: completeLines (arrived h part env.writes (writesOf (wcall C (repaired w1) k).2.os)) := by
  have hsock' : (repaired w1).transport.socket = some h := hsock
  obtain ⟨_, _, _, _, _, ds, j, hds, _⟩ := wcall_keeps (C := C) (repaired w1) hsock' k
  obtain ⟨_, _, _, _, l, hl1, hl2⟩ := act_goes C (repaired w1) (.call k)
  have hos : (repaired w1).os = w1.os := rfl
  rw [hos] at hds
  have hmap : ∀ ds : List Bytes, writesOf (ds.map (.write h)) = ds.map fun d => (h, d) := by
    intro ds
    induction ds with
    | nil => rfl
    | cons d ds ih => simp only [List.map_cons]; rw [← ih]; rfl
  have hwr : writesOf (wcall C (repaired w1) k).2.os = writesOf w1.os ++ ds.map fun d => (h, d) := by
    rw [hds, ← hmap]
    simp [writesOf]
  cases ds with
  | nil => exact absurd (by rw [hwr]; simp) hwrote
  | cons request more =>
    have hreq : Line request := by
      have hl3 : (wcall C (repaired w1) k).2.os = w1.os ++ l := hl1
      rw [hds] at hl3
      have hl4 := List.append_cancel_left hl3
      obtain ⟨c, e, r, _, _, h3⟩ := hl2 h request (by rw [← hl4]; simp)
      exact serialise_line h3
    refine ⟨request, by rw [hwr]; simp, ?_⟩
    rw [hwr, arrived_split, hgot, List.map_cons, arrived, if_pos rfl, List.getElem?_drop]
    rw [if_pos (show env.writes[(writesOf w1.os).length + 0]? = some (.ok ()) from hok)]
    have hL := acts_line (C := C) hm program h
    rw [← hw1, ← writtenTo_onHandle, hlines] at hL
    have hr0 := part_no_end (hL line (by simp)) hrest hne
    obtain ⟨q, hq, hq0⟩ := hreq
    have hglue : Line (rest ++ request) := ⟨rest ++ q, by rw [hq, List.append_assoc], by simp [hr0, hq0]⟩
    generalize arrived h _ _ (more.map fun d => (h, d)) = tail
    have e : lines.flatten ++ rest ++ (request ++ tail) = (lines ++ [rest ++ request]).flatten ++ tail := by simp
    rw [e, completeLines_flatten _ (fun d hd => by
      rcases List.mem_append.1 hd with hd | hd
      · exact hL d (by simp [hd])
      · rw [List.mem_singleton.1 hd]; exact hglue)]
    exact List.prefix_append _ _

theorem wcall_requests {C : BlockCipher} {a : ClientArgs} {ca : ConnArgs}
    (hca : ca = ⟨0, 0, 0, 0, toSecretStr a.password, a.passwordId, toSecretByte a.encryptionKey, a.encryptionKeyId⟩)
    (w : World) (hpw : w.password = a.password) (hr : Reachable C ca w.conn) (k : Call) :
    ∃ ws, written (wcall C w k).2.os = written w.os ++ ws ∧
      (∀ d ∈ ws, ∃ e, RequestOf a.password k e ∧ OnWire C a e d) ∧ (2 ≤ ws.length → ∃ n, k = .readParameters n) := by
  cases ht : w.transport.socket with
  | none =>
    rw [wcall_raised (exchange_closed (C := C) ht (firstOf w.password k))]
    exact ⟨[], by simp, fun d hd => by simp at hd, fun h => by simp at h⟩
  | some h =>
    obtain ⟨_, _, ws, h3, h4, h5⟩ := call_effect (C := C) (fun e d => OnWire C a e d) w.sys a.password hr hpw
      (fun c e j d hc hd => send_onWire C a ca hca c e _ d hc hd) k
    refine ⟨ws, ?_, h4, h5⟩
    have := (wcall_sys (C := C) w ht k).1
    rw [← callV_call, this] at h3
    exact h3

/-- C108. Everything a new client writes, whatever it is used for by `connect`, `disconnect` and calls and whatever the
operating system does, is, in order, requests of the calls of the program: each call writes at most one line
(`read_parameters` any number), encrypted exactly if the client has a key and a key id. -/
theorem C108_requests (C : BlockCipher) (kind : Kind) (timeout : Option Int) (a : ClientArgs) (env : OsEnv) (w : World)
    (hm : mkWorld kind timeout a env = .ok w) (program : List Action) (hp : ∀ x ∈ program, x.Plain) :
    Written (fun k d => ∃ e, RequestOf a.password k e ∧ OnWire C a e d) (callsOf program)
      (written (acts C w program).2.os) := by
  have hready := mkWorld_ready hm
  obtain ⟨conn, hc, hw⟩ := mkWorld_ok hm
  suffices H : ∀ w1 : World, w1.password = a.password → (w1.conn = conn ∨ w1.conn.state ≠ .idle) →
      ∃ ws, written (acts C w1 program).2.os = written w1.os ++ ws ∧
        Written (fun k d => ∃ e, RequestOf a.password k e ∧ OnWire C a e d) (callsOf program) ws by
    obtain ⟨ws, h1, h2⟩ := H w (by rw [hw]; rfl) (.inl (by rw [hw]))
    rw [h1, show written w.os = [] by rw [hw]; rfl]
    exact h2
  have hrc : Ready conn := by rw [hw] at hready; exact hready
  clear hready hw hm w
  induction program with
  | nil => intro w1 _ _; exact ⟨[], by simp [acts], .nil⟩
  | cons x program ih =>
    intro w1 hpw hcase
    have hx := hp x List.mem_cons_self
    have hp' : ∀ y ∈ program, y.Plain := fun y hy => hp y (List.mem_cons_of_mem _ hy)
    have hpw' : (act C w1 x).2.password = a.password := by rw [(act_goes C w1 x).password, hpw]
    have hcase' : (act C w1 x).2.conn = conn ∨ (act C w1 x).2.conn.state ≠ .idle := by
      rcases hcase with h | h
      · rcases (act_cases (C := C) (by rw [h]; exact hrc) hx).1 with h' | h'
        · exact .inl (h'.trans h)
        · exact .inr h'
      · exact .inr (by rw [(act_waiting h hx).1]; exact h)
    obtain ⟨ws, h1, h2⟩ := ih hp' (act C w1 x).2 hpw' hcase'
    rcases Action.plain_cases hx with rfl | rfl | ⟨k, rfl⟩
    · exact ⟨ws, h1.trans (by rw [show written (act C w1 .connect).2.os = _ from (connect_frame w1).2.1]), h2⟩
    · exact ⟨ws, h1.trans (by rw [show written (act C w1 .disconnect).2.os = _ from (disconnect_frame w1).2.1]), h2⟩
    · obtain ⟨ws1, g1, g2, g3⟩ : ∃ ws, written (wcall C w1 k).2.os = written w1.os ++ ws ∧
          (∀ d ∈ ws, ∃ e, RequestOf a.password k e ∧ OnWire C a e d) ∧
          (2 ≤ ws.length → ∃ n, k = .readParameters n) := by
        rcases hcase with h | h
        · exact wcall_requests rfl w1 hpw (by rw [h]; exact ⟨conn, [], hc, rfl⟩) k
        · rw [wcall_refused h]
          exact ⟨[], by simp, fun d hd => by simp at hd, fun h => by simp at h⟩
      refine ⟨ws1 ++ ws, ?_, .call k _ ws1 ws g2 g3 h2⟩
      rw [← List.append_assoc, ← g1]
      exact h1

/-! ### Concrete cases -/

/-- The second of three writes fails. -/
def exPartEnv : OsEnv := { exEnv with writes := [.ok (), .error .os, .ok ()] }

/-- Connect, read the time twice, connect anew, read the time. -/
def exPartProgram : List Action :=
  [.connect, .call .readTime, .call .readTime, .disconnect, .connect, .call .readTime]

-- C108_only_last, C108_arrives, C108_nothing_more: two lines were written, the second one fails after five bytes; the
-- last `read_time()` is refused
example : (∀ x ∈ exPartProgram, x.Plain) ∧ ∃ w, mkWorld .tcp (some 0) exArgs exPartEnv = .ok w ∧
    writesOf (acts idCipher w exPartProgram).2.os = [(5, exAsk), (5, exAsk)] ∧
    exPartEnv.writes[1]? ≠ some (.ok ()) ∧
    arrived 5 (fun _ => 5) exPartEnv.writes (writesOf (acts idCipher w exPartProgram).2.os) = exAsk ++ exAsk.take 5 ∧
    completeLines (exAsk ++ exAsk.take 5) = [exAsk] ∧
    (acts idCipher w exPartProgram).2.conn.state ≠ .idle :=
  ⟨by simp [exPartProgram, Action.Plain], _, rfl, by decide +kernel, by decide +kernel, by decide +kernel,
    by decide +kernel, by decide +kernel⟩

-- C108_glued: the state is repaired, the handle is the same
example : ∃ w, mkWorld .tcp (some 0) exArgs exPartEnv = .ok w ∧
    (acts idCipher w (exPartProgram.take 3)).2.transport.socket = some 5 ∧
    writesOf (wcall idCipher (repaired (acts idCipher w (exPartProgram.take 3)).2) .readTime).2.os =
      writesOf (acts idCipher w (exPartProgram.take 3)).2.os ++ [(5, exAsk)] ∧
    exPartEnv.writes[2]? = some (.ok ()) ∧
    completeLines (arrived 5 (fun _ => 5) exPartEnv.writes
      (writesOf (wcall idCipher (repaired (acts idCipher w (exPartProgram.take 3)).2) .readTime).2.os)) =
      [exAsk, exAsk.take 5 ++ exAsk] :=
  ⟨_, rfl, by decide +kernel, by decide +kernel, by decide +kernel, by decide +kernel⟩

-- C108_requests: both kinds of client
example : callsOf exPartProgram = [.readTime, .readTime, .readTime] := rfl

end Elgas
