import Verif.Props.Assign
import Verif.Props.Tasks
import Verif.Props.JsonText
import Verif.Spec.Args
/-!
C105: arguments of any type.
-/
namespace Elgas
open Spec

/-! ### Single arguments -/

theorem number_index {x : Arg} {n : Int} : Number x n ↔ x.index = some n := by
  constructor
  · intro h; cases h <;> rfl
  · intro h
    cases x with
    | int m => cases h; exact .int _
    | bool b =>
      cases b with
      | false => cases h; exact .false
      | true => cases h; exact .true
    | _ => cases h

theorem no_number {x : Arg} : (∀ n, ¬ Number x n) ↔ x.index = none := by
  constructor
  · intro h
    cases hx : x.index with
    | none => rfl
    | some n => exact absurd (number_index.2 hx) (h n)
  · intro h n hn
    rw [number_index.1 hn] at h; cases h

/-- What a field of a request becomes. -/
def writeField : Field → Res Bytes
  | .byte x => do let b ← x.append; return [b]
  | .number w x => x.toBytes w
  | .time x => x.datetimeToBytes

theorem datetimeToBytes_cases (t : DateTime) :
    (t.year < 2000 → datetimeToBytes t = .error .value) ∧ (¬ t.year < 2000 → ∃ b, datetimeToBytes t = .ok b) := by
  unfold datetimeToBytes
  simp only [toBdc_nat, bind_ok]
  constructor
  · intro h; rw [toBdc_neg (by omega)]; rfl
  · intro h
    have : (t.year : Int) - 2000 = ((t.year - 2000 : Nat) : Int) := by omega
    rw [this, toBdc_nat]
    exact ⟨_, rfl⟩

theorem unwritable_iff (f : Field) (e : PyErr) : Unwritable f e ↔ writeField f = .error e := by
  constructor
  · intro h
    cases h with
    | noByte x h => unfold writeField Arg.append; dsimp only; rw [no_number.1 h]; rfl
    | byte x n h hr => unfold writeField Arg.append toByte; dsimp only; rw [number_index.1 h]; dsimp only; rw [if_neg hr]; rfl
    | noNumber w x h => unfold writeField Arg.toBytes; dsimp only; rw [no_number.1 h]; rfl
    | number w x n h hr => unfold writeField Arg.toBytes toBytesLE; dsimp only; rw [number_index.1 h]; dsimp only; rw [if_neg hr]; rfl
    | noTime x h =>
      unfold writeField Arg.datetimeToBytes
      cases x with
      | datetime t o => exact absurd (Clocked.datetime t o) (h t)
      | time h mi s us => dsimp only; simp only [toBdc_nat, bind_ok]; rfl
      | _ => rfl
    | time x t h hy => cases h; exact (datetimeToBytes_cases t).1 hy
  · intro h
    cases f with
    | byte x =>
      unfold writeField Arg.append toByte at h
      dsimp only at h
      cases hx : x.index with
      | none => rw [hx] at h; cases h; exact .noByte _ (no_number.2 hx)
      | some n =>
        rw [hx] at h
        dsimp only at h
        by_cases hr : 0 ≤ n ∧ n < 256
        · rw [if_pos hr] at h; cases h
        · rw [if_neg hr] at h; cases h; exact .byte _ n (number_index.2 hx) hr
    | number w x =>
      unfold writeField Arg.toBytes toBytesLE at h
      dsimp only at h
      cases hx : x.index with
      | none => rw [hx] at h; cases h; exact .noNumber _ _ (no_number.2 hx)
      | some n =>
        rw [hx] at h
        dsimp only at h
        by_cases hr : 0 ≤ n ∧ n < 256 ^ w
        · rw [if_pos hr] at h; cases h
        · rw [if_neg hr] at h; cases h; exact .number _ _ n (number_index.2 hx) hr
    | time x =>
      cases x with
      | datetime t o =>
        have h' : datetimeToBytes t = .error e := h
        by_cases hy : t.year < 2000
        · rw [(datetimeToBytes_cases t).1 hy] at h'; cases h'; exact .time _ t (.datetime t o) hy
        · obtain ⟨b, hb⟩ := (datetimeToBytes_cases t).2 hy
          rw [hb] at h'; cases h'
      | time hh mi s us =>
        have h' : (do let _ ← toBdc s; let _ ← toBdc mi; let _ ← toBdc hh; raise .attribute : Res Bytes) = .error e := h
        simp only [toBdc_nat, bind_ok] at h'
        cases h'
        exact .noTime _ fun t ht => by cases ht
      | _ =>
        refine (Except.error.inj (show Except.error PyErr.attribute = _ from h)) ▸ .noTime _ fun t ht => ?_
        cases ht

/-! ### Requests -/

/-- The first request of a call. -/
def ofCall : ArgCall → ArgRequest
  | .readInstantaneousValues => .readInstantaneousValues
  | .readTime => .readTime
  | .writeTime t b => .writeTime t b
  | .readParameters n => .readDeviceParameters n
  | .readArchive a n i => .readArchive a n i
  | .readArchiveByTime a n t => .readArchiveByTime a n t

theorem says_bytes {k : ArgCall} {k' : Call} (h : SaysCall k k') (pw : PyStr) (r : Rand) :
    (ofCall k).toBytes pw r = (firstOf pw k').toBytes r ∧ (ofCall k).type = (firstOf pw k').type ∧
    (firstOf pw k').service = .ok (ofCall k).service := by
  cases h with
  | readInstantaneousValues => exact ⟨rfl, rfl, rfl⟩
  | readTime => exact ⟨rfl, rfl, rfl⟩
  | writeTime x y t b h => cases h; exact ⟨rfl, rfl, rfl⟩
  | readParameters x n h =>
    refine ⟨?_, rfl, rfl⟩
    simp only [ofCall, ArgRequest.toBytes, Arg.toBytes]
    rw [number_index.1 h]
    rfl
  | readArchive x y z a n i h1 h2 h3 =>
    refine ⟨?_, rfl, rfl⟩
    simp only [ofCall, ArgRequest.toBytes, Arg.toBytes, Arg.append]
    rw [number_index.1 h1, number_index.1 h2, number_index.1 h3]
    rfl
  | readArchiveByTime x y z a n t h1 h2 h3 =>
    cases h3
    refine ⟨?_, rfl, rfl⟩
    simp only [ofCall, ArgRequest.toBytes, Arg.toBytes, Arg.append]
    rw [number_index.1 h1, number_index.1 h2]
    rfl

theorem serialise_same {C : BlockCipher} {d : ArgClient} (ho : d.oddKey = none) {q : ArgRequest} {e : Event} {r : Rand}
    (hb : q.toBytes d.world.password r = e.toBytes r) (hs : e.service = .ok q.service) (s : PState) :
    d.serialise C q r = ({ d.world.conn with state := s } : Conn).serialise C e r := by
  unfold ArgClient.serialise Conn.serialise
  dsimp only
  rw [hb, ho, hs]
  cases e.toBytes r with
  | error x => rw [bind_error, bind_error]
  | ok data =>
    rw [bind_ok, bind_ok]
    cases d.world.conn.cipherContext with
    | none => dsimp only; rw [bind_ok]
    | some ctx => dsimp only; rw [bind_ok]

theorem exchange_same {C : BlockCipher} {d : ArgClient} (ho : d.oddKey = none) {q : ArgRequest} {e : Event}
    (hb : ∀ r, q.toBytes d.world.password r = e.toBytes r) (ht : q.type = e.type) (hs : e.service = .ok q.service) :
    d.exchange C q = ((d.world.exchange C e).1, { d with world := (d.world.exchange C e).2 }) := by
  unfold ArgClient.exchange World.exchange ArgClient.send World.send Conn.send processEvent
  rw [ht]
  cases transitions d.world.conn.state e.type with
  | none => rfl
  | some s =>
    dsimp only
    rw [serialise_same ho (hb _) hs s]
    cases ({ d.world.conn with state := s } : Conn).serialise C e (d.world.rands d.world.draws) with
    | error x => rfl
    | ok data =>
      dsimp only
      cases hw : ({ d.world with conn := { d.world.conn with state := s }, draws := d.world.draws + 1 } : World).write data with
        | mk o w =>
      cases o with
      | returned u =>
        dsimp only
        cases hr : w.receive with | mk o2 w2 =>
        cases o2 <;> rfl
      | raised x => rfl
      | pending => rfl

theorem says_exchange {C : BlockCipher} {d : ArgClient} (ho : d.oddKey = none) {k : ArgCall} {k' : Call}
    (h : SaysCall k k') : d.exchange C (ofCall k) = ((d.world.exchange C (firstOf d.world.password k')).1,
      { d with world := (d.world.exchange C (firstOf d.world.password k')).2 }) :=
  exchange_same ho (fun r => (says_bytes h _ r).1) (says_bytes h _ (d.world.rands 0)).2.1
    (says_bytes h _ (d.world.rands 0)).2.2

/-- C105. A call whose arguments are numbers where numbers are declared (`True` and `False` among them) and `datetime`s
where times are, is the call with the numbers and times they are: same outcome, same effect.  The offset of an aware
`datetime` has no influence. -/
theorem C105_same_call (C : BlockCipher) (d : ArgClient) (ho : d.oddKey = none) (k : ArgCall) (k' : Call)
    (h : SaysCall k k') :
    acall C d k = ((wcall C d.world k').1, { d with world := (wcall C d.world k').2 }) := by
  have he := says_exchange (C := C) ho h
  cases h with
  | readInstantaneousValues =>
    have he' : d.exchange C .readInstantaneousValues = _ := he
    unfold acall wcall World.readInstantaneousValues; dsimp only; rw [he']; rfl
  | readTime =>
    have he' : d.exchange C .readTime = _ := he
    unfold acall wcall World.readTime ArgClient.readTime; dsimp only; rw [he']; rfl
  | writeTime x y t b hc =>
    cases hc with | datetime _ o =>
    have he' : d.exchange C (.writeTime (.datetime t o) y) = _ := he
    unfold acall wcall World.writeTime ArgClient.writeTime Arg.isoformat; dsimp only; rw [he']; rfl
  | readArchive x y z a n i =>
    have he' : d.exchange C (.readArchive x y z) = _ := he
    unfold acall wcall World.readArchive; dsimp only; rw [he']; rfl
  | readArchiveByTime x y z a n t =>
    have he' : d.exchange C (.readArchiveByTime x y z) = _ := he
    unfold acall wcall World.readArchiveByTime; dsimp only; rw [he']; rfl
  | readParameters x n hn =>
    have he' : d.exchange C (.readDeviceParameters x) = ((d.world.exchange C (.readDeviceParametersRequest
        { password := d.world.password, objectCount := n, bufferLength := 1024 })).1,
        { d with world := (d.world.exchange C (.readDeviceParametersRequest
        { password := d.world.password, objectCount := n, bufferLength := 1024 })).2 }) := he
    have hp : d.readPages C x = ((d.world.readPages C n []).1, { d with world := (d.world.readPages C n []).2 }) := by
      unfold ArgClient.readPages
      rw [he', World.readPages]
      have hplus : ∀ m : Int, x.plus m = .ok (n + m) := by
        intro m; unfold Arg.plus; rw [number_index.1 hn]
      cases hx : d.world.exchange C (.readDeviceParametersRequest
        { password := d.world.password, objectCount := n, bufferLength := 1024 }) with | mk o w =>
      cases o with
      | raised e => rfl
      | pending => rfl
      | returned ev =>
        cases ev with
        | readDeviceParametersResponse p =>
          dsimp only
          rw [List.nil_append, hplus]
          by_cases hp : p.isEnd
          · rw [if_pos hp, if_pos hp]
          · rw [if_neg hp, if_neg hp]
        | _ => rfl
    unfold acall wcall World.readParameters ArgClient.readParameters
    dsimp only
    rw [hp]

/-! ### Calls that cannot be sent -/

/-- The exception of the first field that cannot be written, or all of them. -/
theorem fault_cases (k : ArgCall) : (∃ e, Fault k e) ∨ ∀ f ∈ fields k, ∃ b, writeField f = .ok b := by
  unfold Fault
  generalize fields k = l
  induction l with
  | nil => exact .inr fun f hf => by cases hf
  | cons f l ih =>
    cases hf : writeField f with
    | error e => exact .inl ⟨e, [], f, l, rfl, (fun g hg => by cases hg), (unwritable_iff f e).2 hf⟩
    | ok b =>
      rcases ih with ⟨e, bs, g, as, hl, hb, hu⟩ | ih
      · refine .inl ⟨e, f :: bs, g, as, by rw [hl]; rfl, fun g' hg x hx => ?_, hu⟩
        rcases List.mem_cons.1 hg with rfl | hg
        · rw [unwritable_iff, hf] at hx; cases hx
        · exact hb g' hg x hx
      · refine .inr fun g hg => ?_
        rcases List.mem_cons.1 hg with rfl | hg
        · exact ⟨b, hf⟩
        · exact ih g hg

/-- The fields of a call, written one after the other. -/
def writeFields : List Field → Res Bytes
  | [] => .ok []
  | f :: fs => do
    let b ← writeField f
    let bs ← writeFields fs
    return b ++ bs

theorem writeFields_fault {l before after : List Field} {f : Field} {e : PyErr} (hl : l = before ++ f :: after)
    (hb : ∀ g ∈ before, ∀ x, ¬ Unwritable g x) (hu : Unwritable f e) : writeFields l = .error e := by
  subst hl
  induction before with
  | nil => rw [List.nil_append]; unfold writeFields; rw [(unwritable_iff f e).1 hu]; rfl
  | cons g before ih =>
    show writeFields (g :: (before ++ f :: after)) = _
    unfold writeFields
    cases hg : writeField g with
    | error x => exact absurd ((unwritable_iff g x).2 hg) (hb g List.mem_cons_self x)
    | ok b =>
      simp only [bind_ok]
      rw [ih fun g' hg' => hb g' (List.mem_cons_of_mem _ hg')]
      rfl

/-- What follows the password in a request. -/
theorem toBytes_fields (k : ArgCall) (pw : PyStr) (r : Rand) {block : Bytes} (hp : passwordBlock pw r.pw = .ok block)
    {e : PyErr} (h : writeFields (fields k) = .error e) : (ofCall k).toBytes pw r = .error e := by
  cases k with
  | readInstantaneousValues => cases h
  | readTime => cases h
  | writeTime t y =>
    simp only [ofCall, ArgRequest.toBytes, fields, writeFields, writeField] at h ⊢
    rw [hp]
    cases ht : t.datetimeToBytes with
    | error x => rw [ht] at h; cases h; rfl
    | ok b => rw [ht] at h; cases h
  | readParameters n =>
    simp only [ofCall, ArgRequest.toBytes, fields, writeFields, writeField] at h ⊢
    rw [hp]
    cases hn : n.toBytes 2 with
    | error x => rw [hn] at h; cases h; rfl
    | ok b => rw [hn] at h; cases h
  | readArchive a n i =>
    simp only [ofCall, ArgRequest.toBytes, fields, writeFields, writeField] at h ⊢
    rw [hp]
    cases ha : a.append with
    | error x => rw [ha] at h; cases h; rfl
    | ok b =>
      rw [ha] at h
      simp only [bind_ok] at h ⊢
      cases hi : i.toBytes 4 with
      | error x => rw [hi] at h; cases h; rfl
      | ok b2 =>
        rw [hi] at h
        simp only [bind_ok, pure_res] at h ⊢
        cases hn : n.toBytes 2 with
        | error x => rw [hn] at h; cases h; rfl
        | ok b => rw [hn] at h; cases h
  | readArchiveByTime a n t =>
    simp only [ofCall, ArgRequest.toBytes, fields, writeFields, writeField] at h ⊢
    rw [hp]
    cases ha : a.append with
    | error x => rw [ha] at h; cases h; rfl
    | ok b =>
      rw [ha] at h
      simp only [bind_ok] at h ⊢
      cases hi : n.toBytes 2 with
      | error x => rw [hi] at h; cases h; rfl
      | ok b2 =>
        rw [hi] at h
        simp only [bind_ok, pure_res] at h ⊢
        cases hn : t.datetimeToBytes with
        | error x => rw [hn] at h; cases h; rfl
        | ok b => rw [hn] at h; cases h

/-- The state a request leads to. -/
def waiting : ArgRequest → PState
  | .readInstantaneousValues => .awaitingReadActualValuesResponse
  | .readTime => .awaitingReadTimeResponse
  | .writeTime _ _ => .awaitingWriteTimeResponse
  | .readDeviceParameters _ => .awaitingReadDeviceParametersResponse
  | .readArchive _ _ _ => .awaitingReadArchiveResponse
  | .readArchiveByTime _ _ _ => .awaitingReadArchiveByTimeResponse

theorem waiting_idle (q : ArgRequest) : transitions .idle q.type = some (waiting q) ∧ waiting q ≠ .idle := by
  cases q <;> exact ⟨rfl, fun h => by cases h⟩

theorem waiting_busy {s : PState} (h : s ≠ .idle) (q : ArgRequest) : transitions s q.type = none := by
  cases q <;> cases s <;> first | rfl | exact absurd rfl h

theorem acall_raised {C : BlockCipher} {d d' : ArgClient} {k : ArgCall} {e : PyErr} (hn : ¬ NoTime k)
    (h : d.exchange C (ofCall k) = (.raised e, d')) : acall C d k = (.raised e, d') := by
  cases k with
  | readInstantaneousValues => simp only [ofCall] at h; unfold acall; dsimp only; rw [h]; rfl
  | readTime => simp only [ofCall] at h; unfold acall ArgClient.readTime; dsimp only; rw [h]; rfl
  | writeTime t y =>
    simp only [ofCall] at h
    unfold acall ArgClient.writeTime
    dsimp only
    have hi : t.isoformat = .ok () := by
      cases t with
      | date a b c => rfl
      | time a b c d => rfl
      | datetime a b => rfl
      | _ => exact absurd trivial hn
    rw [hi]; dsimp only; rw [h]; rfl
  | readParameters n =>
    simp only [ofCall] at h
    unfold acall ArgClient.readParameters ArgClient.readPages
    dsimp only; rw [h]; rfl
  | readArchive a n i => simp only [ofCall] at h; unfold acall; dsimp only; rw [h]; rfl
  | readArchiveByTime a n i => simp only [ofCall] at h; unfold acall; dsimp only; rw [h]; rfl

theorem exchange_hung {C : BlockCipher} {d : ArgClient} (hi : d.world.conn.state = .idle) {q : ArgRequest} {e : PyErr}
    (h : d.serialise C q (d.world.rands d.world.draws) = .error e) : ∃ d', d.exchange C q = (.raised e, d') ∧ Hung d d' := by
  refine ⟨_, ?_, waiting q, (waiting_idle q).2, rfl⟩
  unfold ArgClient.exchange ArgClient.send
  rw [hi, (waiting_idle q).1]
  dsimp only
  rw [h]

/-- C105. An argument that cannot go into the request - of a wrong type, or out of range - makes the call raise what the
first such argument raises, in the order of the request: TypeError or ValueError for an archive, AttributeError or
OverflowError for a number, AttributeError or ValueError for a time.  Nothing is written, but the client waits for an
answer. -/
theorem C105_fault (C : BlockCipher) (d : ArgClient) (hi : d.world.conn.state = .idle)
    (hp : IsLatin1 d.world.password) (hr : PadOk (d.world.rands d.world.draws).pw) (k : ArgCall) (hn : ¬ NoTime k)
    (e : PyErr) (h : Fault k e) : ∃ d', acall C d k = (.raised e, d') ∧ Hung d d' := by
  obtain ⟨before, f, after, hl, hb, hu⟩ := h
  have hs : d.serialise C (ofCall k) (d.world.rands d.world.draws) = .error e := by
    unfold ArgClient.serialise
    dsimp only
    rw [toBytes_fields k _ _ (passwordBlock_ok hr hp) (writeFields_fault hl hb hu)]
    rfl
  obtain ⟨d', h1, h2⟩ := exchange_hung (C := C) hi hs
  exact ⟨d', acall_raised hn h1, h2⟩

theorem iso_no_time {k : ArgCall} (h : NoTime k) : ∃ t y, k = .writeTime t y ∧ t.isoformat = .error .attribute := by
  cases k with
  | writeTime t y =>
    refine ⟨t, y, rfl, ?_⟩
    cases t with
    | date a b c => exact absurd h id
    | time a b c d => exact absurd h id
    | datetime a b => exact absurd h id
    | _ => rfl
  | _ => exact absurd h id

/-- C105. `write_time` of something that is neither a date nor a time nor both raises AttributeError and does nothing: the
client is as before, whatever it was. -/
theorem C105_no_time (C : BlockCipher) (d : ArgClient) (k : ArgCall) (h : NoTime k) :
    acall C d k = (.raised .attribute, d) := by
  obtain ⟨t, y, rfl, ht⟩ := iso_no_time h
  unfold acall ArgClient.writeTime
  dsimp only
  rw [ht]
  rfl

theorem writable_number {w : Nat} {x : Arg} {b : Bytes} (h : writeField (.number w x) = .ok b) : ∃ n, Number x n := by
  cases hx : x.index with
  | some n => exact ⟨n, number_index.2 hx⟩
  | none => unfold writeField Arg.toBytes at h; dsimp only at h; rw [hx] at h; cases h

theorem writable_byte {x : Arg} {b : Bytes} (h : writeField (.byte x) = .ok b) : ∃ n, Number x n := by
  cases hx : x.index with
  | some n => exact ⟨n, number_index.2 hx⟩
  | none => unfold writeField Arg.append at h; dsimp only at h; rw [hx] at h; cases h

theorem writable_time {x : Arg} {b : Bytes} (h : writeField (.time x) = .ok b) : ∃ t, Clocked x t := by
  by_cases hx : ∃ t, Clocked x t
  · exact hx
  · have := (unwritable_iff (.time x) .attribute).1 (.noTime x fun t ht => hx ⟨t, ht⟩)
    rw [this] at h; cases h

/-- C105. These are all cases: an argument of every call that says no call with the declared types cannot go into a
request. -/
theorem C105_cases (k : ArgCall) : (∃ k', SaysCall k k') ∨ ∃ e, Fault k e := by
  rcases fault_cases k with h | h
  · exact .inr h
  · refine .inl ?_
    cases k with
    | readInstantaneousValues => exact ⟨_, .readInstantaneousValues⟩
    | readTime => exact ⟨_, .readTime⟩
    | writeTime t y =>
      obtain ⟨b, hb⟩ := h (.time t) (by simp [fields])
      obtain ⟨t', ht⟩ := writable_time hb
      exact ⟨_, .writeTime t y t' true ht⟩
    | readParameters n =>
      obtain ⟨b, hb⟩ := h (.number 2 n) (by simp [fields])
      obtain ⟨n', hn⟩ := writable_number hb
      exact ⟨_, .readParameters n n' hn⟩
    | readArchive a n i =>
      obtain ⟨_, h1⟩ := h (.byte a) (by simp [fields])
      obtain ⟨_, h2⟩ := h (.number 2 n) (by simp [fields])
      obtain ⟨_, h3⟩ := h (.number 4 i) (by simp [fields])
      obtain ⟨_, h1⟩ := writable_byte h1
      obtain ⟨_, h2⟩ := writable_number h2
      obtain ⟨_, h3⟩ := writable_number h3
      exact ⟨_, .readArchive a n i _ _ _ h1 h2 h3⟩
    | readArchiveByTime a n t =>
      obtain ⟨_, h1⟩ := h (.byte a) (by simp [fields])
      obtain ⟨_, h2⟩ := h (.number 2 n) (by simp [fields])
      obtain ⟨_, h3⟩ := h (.time t) (by simp [fields])
      obtain ⟨_, h1⟩ := writable_byte h1
      obtain ⟨_, h2⟩ := writable_number h2
      obtain ⟨_, h3⟩ := writable_time h3
      exact ⟨_, .readArchiveByTime a n t _ _ _ h1 h2 h3⟩

/-! ### Programs -/

theorem acall_waiting {C : BlockCipher} {d : ArgClient} (h : d.world.conn.state ≠ .idle) {k : ArgCall} (hn : ¬ NoTime k) :
    acall C d k = (.raised (.elgas .localProtocol), { d with world := { d.world with draws := d.world.draws + 1 } }) := by
  refine acall_raised hn ?_
  unfold ArgClient.exchange ArgClient.send
  rw [waiting_busy h]

theorem aact_waiting {C : BlockCipher} {d : ArgClient} (h : d.world.conn.state ≠ .idle) (a : ArgAction) :
    (aact C d a).2.world.conn = d.world.conn ∧ written (aact C d a).2.world.os = written d.world.os ∧
    ∀ k, a = .call k → ∃ e, (aact C d a).1 = .raised e ∧ (¬ NoTime k → e = .elgas .localProtocol) := by
  cases a with
  | connect => exact ⟨(connect_frame d.world).1, (connect_frame d.world).2.1, fun _ h => by cases h⟩
  | disconnect => exact ⟨(disconnect_frame d.world).1, (disconnect_frame d.world).2.1, fun _ h => by cases h⟩
  | call k =>
    by_cases hn : NoTime k
    · have : aact C d (.call k) = _ := C105_no_time C d k hn
      rw [this]
      exact ⟨rfl, rfl, fun k' hk => ⟨_, rfl, fun hn' => by cases hk; exact absurd hn hn'⟩⟩
    · have : aact C d (.call k) = _ := acall_waiting (C := C) h hn
      rw [this]
      exact ⟨rfl, rfl, fun k' hk => ⟨_, rfl, fun _ => rfl⟩⟩

/-- C105. After that the client is of no more use: whatever is called, with whatever arguments, connecting anew included,
every call raises - LocalElgasProtocolError, but for a `write_time` that has no time - and nothing is written. -/
theorem C105_hung (C : BlockCipher) (d d' : ArgClient) (h : Hung d d') (as : List ArgAction) :
    written (aacts C d' as).2.world.os = written d.world.os ∧
    ∀ (i : Nat) (k : ArgCall), as[i]? = some (.call k) → ∃ e, (aacts C d' as).1[i]? = some (.raised e) ∧
      (¬ NoTime k → e = .elgas .localProtocol) := by
  have hs : d'.world.conn.state ≠ .idle := by obtain ⟨s, hs, rfl⟩ := h; exact hs
  have ho : written d'.world.os = written d.world.os := by obtain ⟨s, hs, rfl⟩ := h; rfl
  rw [← ho]
  clear ho h
  induction as generalizing d' with
  | nil => exact ⟨rfl, fun i k h => by simp at h⟩
  | cons a as ih =>
    obtain ⟨h1, h2, h3⟩ := aact_waiting (C := C) hs a
    obtain ⟨i1, i2⟩ := ih (aact C d' a).2 (by rw [h1]; exact hs)
    simp only [aacts]
    refine ⟨i1.trans h2, fun i k h => ?_⟩
    cases i with
    | zero => simp only [List.getElem?_cons_zero, Option.some.injEq] at h ⊢; exact h3 k h
    | succ i => simp only [List.getElem?_cons_succ] at h ⊢; exact i2 i k h

/-- C105. A program of connects, disconnects and calls with such arguments is the program with arguments of the declared
types: same outcomes, same effects. -/
theorem C105_same_program (C : BlockCipher) (d : ArgClient) (ho : d.oddKey = none) (as : List ArgAction) (bs : List Action)
    (h : Each SaysAction as bs) :
    aacts C d as = ((acts C d.world bs).1, { d with world := (acts C d.world bs).2 }) := by
  induction h generalizing d with
  | nil => rfl
  | cons hab _ ih =>
    have ha : ∀ {a b}, SaysAction a b → aact C d a = ((act C d.world b).1, { d with world := (act C d.world b).2 }) := by
      intro a b hab
      cases hab with
      | connect => rfl
      | disconnect => rfl
      | call k k' hk => exact C105_same_call C d ho k k' hk
    simp only [aacts, acts]
    rw [ha hab, ih]
    exact ho

/-! ### Making a client -/

theorem toByte_nat (x : UInt8) : toByte (x.toNat : Int) = .ok x := by
  unfold toByte
  rw [if_pos ⟨Int.natCast_nonneg _, by have := x.toNat_lt; omega⟩]
  simp

theorem toByte_inv {n : Int} {x : UInt8} (h : toByte n = .ok x) : n = (x.toNat : Int) := by
  unfold toByte at h
  split at h
  · next hr =>
    cases h
    have : n.toNat < 256 := by omega
    rw [UInt8.toNat_ofNat_of_lt' this]
    omega
  · cases h

theorem mapM_toByte {l : List Int} {b : Bytes} : l.mapM toByte = .ok b ↔ l = b.map fun x => (x.toNat : Int) := by
  constructor
  · intro h
    induction l generalizing b with
    | nil => cases h; rfl
    | cons n l ih =>
      rw [List.mapM_cons, bind_eq_ok] at h
      obtain ⟨x, hx, h⟩ := h
      rw [bind_eq_ok] at h
      obtain ⟨xs, hxs, h⟩ := h
      cases h
      rw [ih hxs, toByte_inv hx]
      rfl
  · intro h
    subst h
    induction b with
    | nil => rfl
    | cons x b ih => rw [List.map_cons, List.mapM_cons, toByte_nat, bind_ok, ih]; rfl

theorem keyOf_iff (x : Arg) (k : Option Bytes) : KeyOf x k ↔ x.toSecretByte = .ok k := by
  constructor
  · intro h
    cases h with
    | none => rfl
    | false => rfl
    | zero => rfl
    | zeroFloat b hb =>
      unfold Arg.toSecretByte Arg.truth
      simp [hb]
    | noText => rfl
    | noBytes => rfl
    | noInts => rfl
    | bytes b hb =>
      unfold Arg.toSecretByte Arg.truth
      cases b with
      | nil => exact absurd rfl hb
      | cons => rfl
    | zeros n h1 h2 =>
      unfold Arg.toSecretByte Arg.truth Arg.asBytes
      have a1 : ((n : Int) ≠ 0) := by omega
      have a2 : ¬ ((n : Int) < 0) := by omega
      have a3 : ¬ ((2 : Int) ^ 63 ≤ n) := by omega
      simp only [a1, ne_eq, not_false_eq_true, decide_true, if_true, a2, if_false, a3, Int.toNat_natCast, bind_ok]
      rfl
    | true => rfl
    | ints b hb =>
      unfold Arg.toSecretByte Arg.truth Arg.asBytes
      cases b with
      | nil => exact absurd rfl hb
      | cons x b =>
        have := (mapM_toByte (b := x :: b)).2 rfl
        dsimp only
        rw [this]
        rfl
  · intro h
    unfold Arg.toSecretByte at h
    cases x with
    | none => cases h; exact .none
    | bool b =>
      cases b with
      | false => cases h; exact .false
      | true => cases h; exact .true
    | int n =>
      unfold Arg.truth Arg.asBytes at h
      by_cases h0 : n = 0
      · subst h0; cases h; exact .zero
      · simp only [h0, ne_eq, not_false_eq_true, decide_true, if_true] at h
        by_cases h1 : n < 0
        · rw [if_pos h1] at h; cases h
        · rw [if_neg h1] at h
          by_cases h2 : (2 : Int) ^ 63 ≤ n
          · rw [if_pos h2] at h; cases h
          · rw [if_neg h2] at h
            cases h
            have := KeyOf.zeros n.toNat (by omega) (by omega)
            rwa [Int.toNat_of_nonneg (by omega)] at this
    | float b =>
      unfold Arg.truth Arg.asBytes at h
      by_cases h0 : b % 2 ^ 63 = 0
      · simp only [h0, ne_eq, not_true_eq_false, decide_false, Bool.false_eq_true, if_false] at h
        cases h; exact .zeroFloat b h0
      · simp only [h0, ne_eq, not_false_eq_true, decide_true, if_true] at h
        cases h
    | str s =>
      cases s with
      | nil => cases h; exact .noText
      | cons => cases h
    | bytes b =>
      cases b with
      | nil => cases h; exact .noBytes
      | cons x b => cases h; exact .bytes _ (by simp)
    | ints l =>
      cases l with
      | nil => cases h; exact .noInts
      | cons n l =>
        have h' : ((n :: l).mapM toByte >>= fun b => pure (some b)) = .ok k := h
        rw [bind_eq_ok] at h'
        obtain ⟨b, hb, hk⟩ := h'
        cases hk
        have hl := mapM_toByte.1 hb
        rw [hl]
        refine .ints b fun hb => ?_
        rw [hb] at hl; cases hl
    | _ => cases h

theorem keyOf_norm {x : Arg} {k : Option Bytes} (h : KeyOf x k) : toSecretByte k = k := by
  cases h with
  | bytes b hb => cases b with | nil => exact absurd rfl hb | cons => rfl
  | ints b hb => cases b with | nil => exact absurd rfl hb | cons => rfl
  | zeros n h1 h2 => cases n with | zero => omega | succ n => rfl
  | _ => rfl

theorem passwordId_iff (x : Arg) : PasswordId x ↔ x.ge 801 = .ok true ∧ x.le 849 = .ok true := by
  constructor
  · intro h
    cases h with
    | number x n hn h1 h2 =>
      cases hn with
      | int n => exact ⟨by simp [Arg.ge, h1], by simp [Arg.le, h2]⟩
      | true => omega
      | false => omega
    | float b hf h1 h2 =>
      refine ⟨?_, ?_⟩
      · unfold Arg.ge; dsimp only; rw [if_pos hf]; exact congrArg Except.ok (decide_eq_true h1)
      · unfold Arg.le; dsimp only; rw [if_pos hf]; exact congrArg Except.ok (decide_eq_true h2)
  · rintro ⟨h1, h2⟩
    cases x with
    | int n =>
      have h1' : decide ((801 : Int) ≤ n) = true := Except.ok.inj h1
      have h2' : decide (n ≤ (849 : Int)) = true := Except.ok.inj h2
      exact .number _ n (.int n) (of_decide_eq_true h1') (of_decide_eq_true h2')
    | bool b => cases b <;> (exact absurd (Except.ok.inj h1) (by decide))
    | float b =>
      unfold Arg.ge Arg.le at *
      dsimp only at h1 h2
      by_cases hf : finite64 b = true
      · rw [if_pos hf] at h1 h2
        exact .float b hf (of_decide_eq_true (Except.ok.inj h1)) (of_decide_eq_true (Except.ok.inj h2))
      · rw [if_neg hf] at h1 h2
        have h1' := Except.ok.inj h1
        have h2' := Except.ok.inj h2
        cases hn : neg64 b <;> rw [hn] at h1' h2' <;> simp at h1' h2'
    | _ => cases h1

theorem number_ge {x : Arg} {n : Int} (h : Number x n) (m : Int) :
    x.ge m = .ok (decide (m ≤ n)) ∧ x.le m = .ok (decide (n ≤ m)) := by
  cases h <;> exact ⟨rfl, rfl⟩

/-- C105. A client made with a password that is a text, a password id and a key id that are numbers and any key that is
accepted, is the client made with these: an `int` as key is that many zero bytes, and what counts as false is no key. -/
theorem C105_made (F : FloatText) (kind : Kind) (timeout : Option Int) (a : ArgArgs) (env : OsEnv) (password : PyStr)
    (i : Int) (key : Option Bytes) (keyId : Option Int) (hp : a.password = .str password) (hi : Number a.passwordId i)
    (hk : KeyOf a.encryptionKey key) (hkid : KeyIdOf a.encryptionKeyId keyId) :
    mkArgClient F kind timeout a env =
      (mkWorld kind timeout { password, passwordId := i, encryptionKey := key, encryptionKeyId := keyId } env).map
        fun w => { world := w, oddKey := none } := by
  have hkid' : a.encryptionKeyId.index = keyId ∧ (keyId = none → a.encryptionKeyId = .none) := by
    generalize a.encryptionKeyId = z at hkid
    cases hkid with
    | none => exact ⟨rfl, fun _ => rfl⟩
    | number x n h => exact ⟨number_index.1 h, fun h => by cases h⟩
  unfold mkArgClient mkWorld clientConn mkConn
  rw [hp, (keyOf_iff _ _).1 hk, (number_ge hi _).1, (number_ge hi _).2, number_index.1 hi, hkid'.1]
  simp only [bind_ok, keyOf_norm hk]
  by_cases h1 : password.length ≤ 6
  · by_cases h2 : 801 ≤ i
    · by_cases h3 : i ≤ 849
      · simp [h1, h2, h3, toSecretStr, Arg.str', Except.map]
        cases key with
        | none => rfl
        | some k =>
          cases keyId with
          | none => rw [hkid'.2 rfl]
          | some n =>
            have : a.encryptionKeyId ≠ .none := by
              intro h; rw [h] at hkid'; cases hkid'.1
            cases hx : a.encryptionKeyId <;> first | rfl | exact absurd hx this
      · simp [h1, h2, h3, toSecretStr, Arg.str', Except.map, raise]
    · simp [h1, h2, toSecretStr, Arg.str', Except.map, raise]
  · simp [h1, toSecretStr, Arg.str', Except.map, raise]

/-- C105. Exactly these arguments are accepted: a password whose text has at most six characters, a password id between
801 and 849 and a key that is accepted; the key id is not looked at. -/
theorem C105_accepts (F : FloatText) (kind : Kind) (timeout : Option Int) (a : ArgArgs) (env : OsEnv) :
    (∃ d, mkArgClient F kind timeout a env = .ok d) ↔
      (a.password.str' F).length ≤ 6 ∧ PasswordId a.passwordId ∧ ∃ key, KeyOf a.encryptionKey key := by
  rw [passwordId_iff]
  unfold mkArgClient
  cases hk : a.encryptionKey.toSecretByte with
  | error x =>
    refine ⟨(fun ⟨d, h⟩ => by cases h), fun ⟨_, _, key, hkey⟩ => ?_⟩
    rw [(keyOf_iff _ _).1 hkey] at hk; cases hk
  | ok key =>
    have hkey : ∃ key, KeyOf a.encryptionKey key := ⟨key, (keyOf_iff _ _).2 hk⟩
    simp only [bind_ok, hkey, and_true]
    by_cases h1 : (a.password.str' F).length ≤ 6
    · simp only [h1, not_true_eq_false, if_false, true_and, pure_res]
      cases hg : a.passwordId.ge 801 with
      | error x => exact ⟨fun ⟨d, h⟩ => (by cases h), fun ⟨h, _⟩ => by cases h⟩
      | ok g =>
        cases g with
        | false => exact ⟨fun ⟨d, h⟩ => (by cases h), fun ⟨h, _⟩ => by cases h⟩
        | true =>
          simp only [bind_ok, not_true_eq_false, if_false, true_and]
          cases hl : a.passwordId.le 849 with
          | error x => exact ⟨fun ⟨d, h⟩ => (by cases h), fun h => by cases h⟩
          | ok l =>
            cases l with
            | false => exact ⟨fun ⟨d, h⟩ => (by cases h), fun h => by cases h⟩
            | true => exact ⟨fun _ => rfl, fun _ => ⟨_, rfl⟩⟩
    · simp only [h1, not_false_eq_true, if_true, false_and, iff_false]
      exact fun ⟨d, h⟩ => by cases h

theorem bytesRepr_length (b : Bytes) : b.length + 3 ≤ (bytesRepr b).length := by
  have : ∀ (q : Char) (l : Bytes), l.length ≤ (l.flatMap (byteChar q)).length := by
    intro q l
    induction l with
    | nil => exact Nat.le_refl _
    | cons x l ih =>
      have h1 : 1 ≤ (byteChar q x).length := by
        unfold byteChar
        dsimp only
        repeat' split
        all_goals simp
      rw [List.flatMap_cons, List.length_append, List.length_cons]
      omega
  unfold bytesRepr
  have := this (quoteOf (decodeLatin1 b)) b
  simp only [List.length_append, List.length_cons, List.length_nil]
  omega

theorem decDigits_least (w n : Nat) : w ≤ (decDigits w n).length := by
  unfold decDigits
  simp only [List.length_append, List.length_replicate]
  omega

/-- C105. Longer texts, bytes of more than three characters and dates and times are no passwords: no client is made. -/
theorem C105_too_long (F : FloatText) (kind : Kind) (timeout : Option Int) (a : ArgArgs) (env : OsEnv)
    (h : TooLong a.password) (d : ArgClient) : mkArgClient F kind timeout a env ≠ .ok d := by
  intro hm
  have hl := ((C105_accepts F kind timeout a env).1 ⟨d, hm⟩).1
  generalize a.password = x at h hl
  cases h with
  | str s hs => exact absurd hl (by show ¬ s.length ≤ 6; omega)
  | bytes b hb =>
    have := bytesRepr_length b
    exact absurd hl (by show ¬ (bytesRepr b).length ≤ 6; omega)
  | date y m dd =>
    have h1 := decDigits_least 4 y
    have h2 := decDigits_least 2 m
    have h3 := decDigits_least 2 dd
    simp only [Arg.str', dateText, List.length_append, List.length_cons, List.length_nil] at hl
    omega
  | time hh m s us =>
    have h1 := decDigits_least 2 hh
    have h2 := decDigits_least 2 m
    have h3 := decDigits_least 2 s
    simp only [Arg.str', timeText, List.length_append, List.length_cons, List.length_nil] at hl
    omega
  | datetime t o =>
    have h1 := decDigits_least 4 t.year
    have h2 := decDigits_least 2 t.month
    have h3 := decDigits_least 2 t.day
    simp only [Arg.str', dateText, List.length_append, List.length_cons, List.length_nil] at hl
    omega

theorem bytesRepr_plain {b : Bytes}
    (h : ∀ x ∈ b, 0x20 ≤ x.toNat ∧ x.toNat < 0x7F ∧ x ≠ 0x27 ∧ x ≠ 0x22 ∧ x ≠ 0x5C) :
    bytesRepr b = "b'".toList ++ decodeLatin1 b ++ ['\''] := by
  have hchar : ∀ x : UInt8, (0x20 ≤ x.toNat ∧ x.toNat < 0x7F ∧ x ≠ 0x27 ∧ x ≠ 0x22 ∧ x ≠ 0x5C) →
      byteChar '\'' x = [Char.ofNat x.toNat] ∧ Char.ofNat x.toNat ≠ '\'' := u8_forall (by decide +kernel)
  have hq : quoteOf (decodeLatin1 b) = '\'' := by
    unfold quoteOf
    rw [if_neg]
    rintro ⟨hm, _⟩
    obtain ⟨x, hx, he⟩ := List.mem_map.1 hm
    exact (hchar x (h x hx)).2 he
  unfold bytesRepr
  dsimp only
  rw [hq]
  have : b.flatMap (byteChar '\'') = decodeLatin1 b := by
    clear hq
    induction b with
    | nil => rfl
    | cons x b ih =>
      rw [List.flatMap_cons, ih fun y hy => h y (List.mem_cons_of_mem _ hy), (hchar x (h x List.mem_cons_self)).1]
      rfl
  rw [this]
  rfl

/-- C105. The password of a client is the text of the argument: `None` gives the password "None", a number its digits (so
not those in front), bytes the text that prints them. -/
theorem C105_password (F : FloatText) (kind : Kind) (timeout : Option Int) (a : ArgArgs) (env : OsEnv) (s : PyStr)
    (h : TextOf F a.password s) : mkArgClient F kind timeout a env = mkArgClient F kind timeout { a with password := .str s } env := by
  have : a.password.str' F = s := by
    generalize a.password = x at h
    cases h with
    | bytes b hb => exact bytesRepr_plain hb
    | _ => rfl
  unfold mkArgClient
  rw [this]
  rfl

/-! ### Key ids that are no numbers -/

theorem odd_serialise {C : BlockCipher} {d : ArgClient} {i : Arg} {k : Bytes} (ho : d.oddKey = some (i, k))
    (hi : i.index = none) (q : ArgRequest) (r : Rand) : ∃ e, d.serialise C q r = .error e := by
  unfold ArgClient.serialise encryptUnder
  dsimp only
  rw [ho]
  cases q.toBytes d.world.password r with
  | error x => exact ⟨x, rfl⟩
  | ok data =>
    rw [bind_ok]
    dsimp only
    rw [hi]
    cases toBytesLE 2 (data.length : Int) with
    | error x => exact ⟨x, rfl⟩
    | ok b => exact ⟨.type, rfl⟩

theorem odd_acall {C : BlockCipher} {d : ArgClient} {i : Arg} {k : Bytes} (ho : d.oddKey = some (i, k))
    (hi : i.index = none) (c : ArgCall) : ∃ e, (acall C d c).1 = .raised e ∧ (acall C d c).2.oddKey = d.oddKey ∧
      (acall C d c).2.world.os = d.world.os := by
  by_cases hn : NoTime c
  · rw [C105_no_time C d c hn]; exact ⟨_, rfl, rfl, rfl⟩
  · by_cases hs : d.world.conn.state = .idle
    · obtain ⟨e, he⟩ := odd_serialise (C := C) ho hi (ofCall c) (d.world.rands d.world.draws)
      obtain ⟨d', h1, s, hs, rfl⟩ := exchange_hung hs he
      rw [acall_raised hn h1]
      exact ⟨e, rfl, rfl, rfl⟩
    · rw [acall_waiting hs hn]; exact ⟨_, rfl, rfl, rfl⟩

/-- C105. A client with a key and a key id that is neither `None` nor a number is made, but none of its calls ever returns
or writes anything. -/
theorem C105_odd_key_id (C : BlockCipher) (F : FloatText) (kind : Kind) (timeout : Option Int) (a : ArgArgs) (env : OsEnv)
    (d : ArgClient) (hm : mkArgClient F kind timeout a env = .ok d) (key : Bytes) (hk : KeyOf a.encryptionKey (some key))
    (hn : a.encryptionKeyId ≠ .none) (hi : ∀ n, ¬ Number a.encryptionKeyId n) (as : List ArgAction) :
    written (aacts C d as).2.world.os = [] ∧
    ∀ (i : Nat) (k : ArgCall), as[i]? = some (.call k) → ∃ e, (aacts C d as).1[i]? = some (.raised e) := by
  have ho : d.oddKey = some (a.encryptionKeyId, key) ∧ d.world.os = [] := by
    have hx := no_number.1 hi
    unfold mkArgClient at hm
    rw [(keyOf_iff _ _).1 hk] at hm
    simp only [bind_ok, hx] at hm
    split at hm
    · cases hm
    · simp only [pure_res] at hm
      rw [bind_eq_ok] at hm
      obtain ⟨g, _, hm⟩ := hm
      split at hm
      · cases hm
      · rw [bind_eq_ok] at hm
        obtain ⟨l, _, hm⟩ := hm
        split at hm
        · cases hm
        · cases hm
          dsimp only
          exact ⟨rfl, rfl⟩
  obtain ⟨ho, hos⟩ := ho
  have hw : written d.world.os = [] := by rw [hos]; rfl
  clear hm hos
  induction as generalizing d with
  | nil => exact ⟨hw, fun i k h => by simp at h⟩
  | cons b as ih =>
    have hb : (aact C d b).2.oddKey = d.oddKey ∧ written (aact C d b).2.world.os = written d.world.os ∧
        ∀ k, b = .call k → ∃ e, (aact C d b).1 = .raised e := by
      cases b with
      | connect => exact ⟨rfl, (connect_frame d.world).2.1, fun k h => by cases h⟩
      | disconnect => exact ⟨rfl, (disconnect_frame d.world).2.1, fun k h => by cases h⟩
      | call k =>
        obtain ⟨e, h1, h2, h3⟩ := odd_acall (C := C) ho (no_number.1 hi) k
        exact ⟨h2, congrArg written h3, fun _ _ => ⟨e, h1⟩⟩
    obtain ⟨h1, h2, h3⟩ := hb
    obtain ⟨i1, i2⟩ := ih (aact C d b).2 (h1.trans ho) (h2.trans hw)
    simp only [aacts]
    refine ⟨i1, fun i k h => ?_⟩
    cases i with
    | zero => simp only [List.getElem?_cons_zero, Option.some.injEq] at h ⊢; exact h3 k h
    | succ i => simp only [List.getElem?_cons_succ] at h ⊢; exact i2 i k h

/-- C105. The offset of a `datetime` does not count: a time written is what the clock on the wall shows, wherever the
wall is. -/
theorem C105_offset (C : BlockCipher) (d : ArgClient) (t : DateTime) (o o' : Option Int) (x y : Arg) :
    acall C d (.writeTime (.datetime t o) x) = acall C d (.writeTime (.datetime t o') y) ∧
    ∀ archive amount, acall C d (.readArchiveByTime archive amount (.datetime t o)) =
      acall C d (.readArchiveByTime archive amount (.datetime t o')) := ⟨rfl, fun _ _ => rfl⟩

/-! ### Examples -/

def exArgArgs : ArgArgs := { password := .str "000000".toList, passwordId := .int 801 }

/-- A client made with these arguments and connected. -/
def exArgClient (a : ArgArgs) : ArgClient :=
  match mkArgClient exFloatText .serial (some 10) a exEnv with
  | .ok d => { d with world := d.world.connect.2 }
  | .error _ => { world := exShared }

/-- The lines a call writes. -/
def exLines (a : ArgArgs) (k : ArgCall) : List Bytes := written (acall idCipher (exArgClient a) k).2.world.os

-- a key 16 is sixteen zero bytes, a key 0 is none
example : exLines { exArgArgs with encryptionKey := .int 16, encryptionKeyId := .int 1 } (.readArchive (.int 3) (.int 1) (.int 7)) =
      exLines { exArgArgs with encryptionKey := .bytes (List.replicate 16 0), encryptionKeyId := .int 1 }
        (.readArchive (.int 3) (.bool true) (.int 7)) ∧
    exLines { exArgArgs with encryptionKey := .int 0, encryptionKeyId := .int 1 } .readTime = exLines exArgArgs .readTime ∧
    (exLines exArgArgs .readTime).length = 1 := by
  refine ⟨by decide +kernel, by decide +kernel, by decide +kernel⟩

-- the same moment, told in two time zones: two different times are written
example : exLines exArgArgs (.writeTime (.datetime ⟨2024, 5, 1, 14, 0, 0, 0⟩ (some 7200)) .none) ≠
      exLines exArgArgs (.writeTime (.datetime ⟨2024, 5, 1, 12, 0, 0, 0⟩ (some 0)) .none) ∧
    exLines exArgArgs (.writeTime (.datetime ⟨2024, 5, 1, 14, 0, 0, 0⟩ (some 7200)) .none) =
      exLines exArgArgs (.writeTime (.datetime ⟨2024, 5, 1, 14, 0, 0, 0⟩ none) (.bool true)) := by
  refine ⟨by decide +kernel, by decide +kernel⟩

-- C105_same_call
example : SaysCall (.readArchive (.int 3) (.bool true) (.int 7)) (.readArchive 3 1 7) :=
  .readArchive _ _ _ _ _ _ (.int 3) .true (.int 7)

-- C105_fault, C105_hung
example : Fault (.readArchive (.int 3) (.str "5".toList) (.int 7)) .attribute ∧
    Fault (.readArchive (.str "DAILY".toList) (.int 5) (.none)) .type ∧
    Fault (.readParameters (.float 0)) .attribute ∧ Fault (.readParameters (.int 65536)) .overflow ∧
    Fault (.writeTime (.date 2024 5 1) .none) .attribute ∧ ¬ NoTime (.writeTime (.date 2024 5 1) .none) ∧
    (exArgClient exArgArgs).world.conn.state = .idle ∧ IsLatin1 (exArgClient exArgArgs).world.password ∧
    PadOk ((exArgClient exArgArgs).world.rands (exArgClient exArgArgs).world.draws).pw := by
  refine ⟨⟨[.byte (.int 3), .number 4 (.int 7)], _, [], rfl, ?_, .noNumber _ _ fun n h => by cases h⟩,
    ⟨[], _, _, rfl, by simp, .noByte _ fun n h => by cases h⟩,
    ⟨[], _, [], rfl, by simp, .noNumber _ _ fun n h => by cases h⟩,
    ⟨[], _, [], rfl, by simp, .number _ _ _ (.int _) (by decide)⟩,
    ⟨[], _, [], rfl, by simp, .noTime _ fun n h => by cases h⟩, id, by decide +kernel, by decide +kernel, by decide +kernel⟩
  intro g hg x hx
  rw [unwritable_iff] at hx
  rcases List.mem_cons.1 hg with rfl | hg
  · revert hx; simp [writeField, Arg.append, Arg.index, toByte]
  · rw [List.mem_singleton] at hg
    subst hg
    revert hx; simp [writeField, Arg.toBytes, Arg.index, toBytesLE]

-- a program with a wrong argument: the call raises, and the next one is refused
example : ((aacts idCipher (exArgClient exArgArgs) [.call (.readParameters (.str "0".toList)), .disconnect, .connect,
    .call .readTime]).1.map ended) = [.raised .attribute, .returned, .returned, .raised (.elgas .localProtocol)] ∧
    ((aacts idCipher (exArgClient exArgArgs) [.call (.writeTime (.str "now".toList) .none), .call .readTime]).1.map ended) =
      [.raised .attribute, .returned] := by
  refine ⟨by decide +kernel, by decide +kernel⟩

-- C105_no_time
example : NoTime (.writeTime (.str "now".toList) .none) ∧ NoTime (.writeTime (.int 0) .none) := ⟨trivial, trivial⟩

-- C105_password: None, a number with zeros in front (as a number it has none), bytes
example : TextOf exFloatText .none "None".toList ∧ TextOf exFloatText (.int 42) "42".toList ∧
    TextOf exFloatText (.bytes [0x61, 0x62, 0x63]) "b'abc'".toList :=
  ⟨.none, .int 42, .bytes [0x61, 0x62, 0x63] (by decide)⟩

-- C105_made, C105_accepts, C105_odd_key_id, C105_too_long
example : KeyOf (.int 16) (some (List.replicate 16 0)) ∧ KeyIdOf (.bool true) (some 1) ∧ PasswordId (.int 849) ∧
    (¬ ∃ k, KeyOf (.str "secret".toList) k) ∧ TooLong (.bytes [0x31, 0x32, 0x33, 0x34]) := by
  refine ⟨.zeros 16 (by decide) (by decide), .number _ _ .true, .number _ _ (.int 849) (by decide) (by decide), ?_, .bytes _ ?_⟩
  · rintro ⟨k, h⟩; rw [keyOf_iff] at h; cases h
  · decide
example : (match mkArgClient exFloatText .serial (some 10) { exArgArgs with encryptionKey := .int 16, encryptionKeyId := .str "1".toList }
    exEnv with | .ok d => decide (d.oddKey = some (.str "1".toList, List.replicate 16 0)) | .error _ => false) = true := by
  decide +kernel

end Elgas
