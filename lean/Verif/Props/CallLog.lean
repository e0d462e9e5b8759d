import Verif.Props.Trail
/-! Property C78, continued: the records of the client's own methods (client.py:61-107). -/
namespace Elgas
open Spec

/-- Not one of the records of the client's methods. -/
def Inner (l : List Record) : Prop := ∀ r ∈ l, r.event ∉ methodTexts

theorem inner_nil : Inner [] := fun r hr => by cases hr

theorem inner_append {l l' : List Record} (h : Inner l) (h' : Inner l') : Inner (l ++ l') := by
  intro r hr
  rcases List.mem_append.1 hr with hr | hr
  · exact h r hr
  · exact h' r hr

theorem inner_one {r : Record} (h : r.event ∉ methodTexts) : Inner [r] := fun r' hr => by
  rw [List.mem_singleton.1 hr]; exact h

theorem inner_change (s : PState) (e : Event) : Inner (processEventL s e).1 := by
  unfold processEventL
  cases transitions s e.type with
  | none => exact inner_nil
  | some s' =>
    refine inner_one ?_
    simp only [debug]
    have : ∀ s s' : PState, "Elgas state transitioned from " ++ s.name ++ " to " ++ s'.name ∉ methodTexts := by
      intro s s'
      cases s <;> cases s' <;> decide
    exact this s s'

theorem inner_send (p : Printing) (secret : Bool) (C : BlockCipher) (c : Conn) (e : Event) (r : Rand) :
    Inner (c.sendL p secret C e r).1 := by
  unfold Conn.sendL
  dsimp only
  have h0 : Inner [debug "Sending request PDU" [("pdu", eventVal p secret e)]] :=
    inner_one (by simp only [debug]; decide)
  have h1 := inner_change c.state e
  cases hp : processEventL c.state e with
  | mk l o =>
    rw [hp] at h1
    cases o with
    | error x => exact inner_append h0 h1
    | ok s' =>
      refine inner_append (inner_append h0 h1) ?_
      unfold Conn.serialiseL
      cases ({ c with state := s' } : Conn).requestObject C e r with
      | error x => exact inner_nil
      | ok x => exact inner_one (by simp only [debug]; decide)

theorem inner_receive (c : Conn) (d : Bytes) : Inner (c.receiveDataL d).1 := by
  unfold Conn.receiveDataL
  split
  · exact inner_nil
  · split
    · exact inner_one (by simp only [info]; decide)
    · exact inner_one (by simp only [debug]; decide)

theorem inner_poll (p : Printing) (C : BlockCipher) (c : Conn) : Inner (c.nextEventL p C).1 := by
  have texts : ∀ l : List Record, (∀ r ∈ l, r.event ∈ pollTexts) → Inner l := by
    intro l h r hr
    have := h r hr
    revert this
    generalize r.event = ev
    revert ev
    decide
  rcases line_cases c.buffer with hn | ⟨w, rest, hb, hw⟩
  · unfold Conn.nextEventL
    rw [indexEnd_none hn]
    split
    · exact inner_one (by simp only [debug]; decide)
    · exact inner_one (by simp only [debug]; decide)
  · rw [nextEventL_line hw hb]
    have ht := texts _ (interpretL_texts C c (w ++ [0x0D]))
    cases hi : c.interpretL C (w ++ [0x0D]) with
    | mk l o =>
      rw [hi] at ht
      cases o with
      | error x =>
        dsimp only
        split
        · exact inner_append ht (inner_one (by simp only [debug]; decide))
        · exact ht
      | ok f =>
        dsimp only
        cases pduFromResponse f with
        | error x => exact ht
        | ok pdu =>
          exact inner_append (inner_append ht (inner_one (by simp only [info]; decide))) (inner_change _ _)

theorem inner_received (tr : PyVal) (x : Res Bytes) : Inner (receivedL tr x) := by
  cases x with
  | error x => exact inner_nil
  | ok d => exact inner_one (by simp only [debug]; decide)

theorem inner_sent (tr : PyVal) (d : Bytes) (x : Res Unit) : Inner (sentL tr d x) := by
  cases x with
  | error x => exact inner_nil
  | ok u => exact inner_one (by simp only [debug]; decide)

theorem inner_loop (p : Printing) (tr : PyVal) (C : BlockCipher) (rs : List (Res Bytes)) : ∀ c : Conn,
    Inner (nextEventLoopL p tr C c rs).1 := by
  induction rs with
  | nil =>
    intro c
    have hs := inner_poll p C c
    unfold nextEventLoopL
    cases hx : c.nextEventL p C with
    | mk l o =>
      obtain ⟨c', o⟩ := o
      rw [hx] at hs
      cases o with
      | error x => exact hs
      | ok o => cases o <;> exact hs
  | cons r rs ih =>
    intro c
    have hs := inner_poll p C c
    unfold nextEventLoopL
    cases hx : c.nextEventL p C with
    | mk l o =>
      obtain ⟨c', o⟩ := o
      rw [hx] at hs
      cases o with
      | error x => exact hs
      | ok o =>
        cases o with
        | some ev => exact hs
        | none =>
          cases r with
          | error x => exact inner_append hs (inner_received tr _)
          | ok d =>
            exact inner_append (inner_append (inner_append hs (inner_received tr _)) (inner_receive c' d)) (ih _)

theorem inner_exchange (p : Printing) (tr : PyVal) (C : BlockCipher) (s : Sys) (e : Event) :
    Inner (s.exchangeL p tr C e).1 := by
  have hs := inner_send p true C s.conn e (s.rands s.draws)
  unfold Sys.exchangeL Sys.sendL
  cases hx : s.conn.sendL p true C e (s.rands s.draws) with
  | mk l o =>
    obtain ⟨c, o⟩ := o
    rw [hx] at hs
    cases o with
    | error x => exact hs
    | ok w =>
      dsimp only
      cases s.sends with
      | nil => exact hs
      | cons x rest =>
        cases x with
        | error x => exact inner_append hs (inner_sent tr w _)
        | ok u =>
          dsimp only
          unfold Sys.receiveL
          dsimp only
          cases s.recvs with
          | nil => exact inner_append (inner_append hs (inner_sent tr w _)) inner_nil
          | cons y rs =>
            cases y with
            | error y => exact inner_append (inner_append hs (inner_sent tr w _)) inner_nil
            | ok d =>
              dsimp only
              unfold Sys.nextEventL
              exact inner_append (inner_append (inner_append hs (inner_sent tr w _))
                (inner_append (inner_received tr _) (inner_receive c d))) (inner_loop p tr C rs _)

theorem inner_none {l : List Record} (h : Inner l) {t : String} (ht : t ∈ methodTexts) : ¬ ∃ r ∈ l, r.event = t :=
  fun ⟨r, hr, e⟩ => h r hr (e ▸ ht)

/-- C78. `read_time` logs its start first of all, and "Got device time", with the time that it returns, as its last
record and exactly if it returns. -/
theorem C78_read_time (p : Printing) (tr : PyVal) (C : BlockCipher) (s : Sys) :
    (callL p tr C s .readTime).1.head? = some (info "Reading device time") ∧
    (∀ t, (s.readTime C).1 = .returned t →
      (callL p tr C s .readTime).1.getLast? = some (info "Got device time" [("time", .str (isoformat t))])) ∧
    ((∃ r ∈ (callL p tr C s .readTime).1, r.event = "Got device time") ↔ ∃ t, (s.readTime C).1 = .returned t) := by
  have hi := inner_exchange p tr C s (.readTimeRequest {})
  rw [← readTimeL_erase p tr]
  unfold callL Sys.readTimeL
  dsimp only
  cases hx : s.exchangeL p tr C (.readTimeRequest {}) with
  | mk l o =>
    obtain ⟨o, s'⟩ := o
    rw [hx] at hi
    dsimp only at hi ⊢
    cases o.andThen timeOf with
    | returned t =>
      dsimp only
      exact ⟨rfl, fun t' h => by (cases h; exact List.getLast?_concat ..), fun _ => ⟨t, rfl⟩, fun _ => ⟨_, List.mem_append_right _ (List.mem_singleton_self _), rfl⟩⟩
    | raised x =>
      dsimp only
      refine ⟨rfl, fun t' h => by (cases h), fun ⟨r, hr, e⟩ => ?_, fun ⟨_, h⟩ => by (cases h)⟩
      rcases List.mem_cons.1 hr with rfl | hr
      · exact absurd e (by simp only [info]; decide)
      · exact absurd ⟨r, hr, e⟩ (inner_none hi (by decide))
    | pending =>
      dsimp only
      refine ⟨rfl, fun t' h => by (cases h), fun ⟨r, hr, e⟩ => ?_, fun ⟨_, h⟩ => by (cases h)⟩
      rcases List.mem_cons.1 hr with rfl | hr
      · exact absurd e (by simp only [info]; decide)
      · exact absurd ⟨r, hr, e⟩ (inner_none hi (by decide))

/-- C78. `write_time` logs the time to be written first of all, and "Finished writing time to device" as its last
record and exactly if it returns. -/
theorem C78_write_time (p : Printing) (tr : PyVal) (C : BlockCipher) (s : Sys) (t : DateTime) (cryout : Bool) :
    (callL p tr C s (.writeTime t cryout)).1.head? =
      some (info "Writing time to device" [("time", .str (isoformat t))]) ∧
    ((s.writeTime C t cryout).1 = .returned () →
      (callL p tr C s (.writeTime t cryout)).1.getLast? = some (info "Finished writing time to device")) ∧
    ((∃ r ∈ (callL p tr C s (.writeTime t cryout)).1, r.event = "Finished writing time to device") ↔
      (s.writeTime C t cryout).1 = .returned ()) := by
  have hi := inner_exchange p tr C s (.writeTimeRequest { password := s.password, deviceTime := t, cryout })
  rw [← writeTimeL_erase p tr]
  unfold callL Sys.writeTimeL
  dsimp only
  cases hx : s.exchangeL p tr C (.writeTimeRequest { password := s.password, deviceTime := t, cryout }) with
  | mk l o =>
    obtain ⟨o, s'⟩ := o
    rw [hx] at hi
    dsimp only at hi ⊢
    cases o.andThen fun _ => Outcome3.returned () with
    | returned t =>
      dsimp only
      exact ⟨rfl, fun h => List.getLast?_concat .., fun _ => rfl, fun _ => ⟨_, List.mem_append_right _ (List.mem_singleton_self _), rfl⟩⟩
    | raised x =>
      dsimp only
      refine ⟨rfl, fun h => by (cases h), fun ⟨r, hr, e⟩ => ?_, fun h => by (cases h)⟩
      rcases List.mem_cons.1 hr with rfl | hr
      · exact absurd e (by simp only [info]; decide)
      · exact absurd ⟨r, hr, e⟩ (inner_none hi (by decide))
    | pending =>
      dsimp only
      refine ⟨rfl, fun h => by (cases h), fun ⟨r, hr, e⟩ => ?_, fun h => by (cases h)⟩
      rcases List.mem_cons.1 hr with rfl | hr
      · exact absurd e (by simp only [info]; decide)
      · exact absurd ⟨r, hr, e⟩ (inner_none hi (by decide))

/-- C78. `read_instantaneous_values` logs its start first of all, and "Received instantaneous values" as its last
record and exactly if it returns. -/
theorem C78_read_values (p : Printing) (tr : PyVal) (C : BlockCipher) (s : Sys) :
    (callL p tr C s .readInstantaneousValues).1.head? = some (info "Reading instantaneous values") ∧
    (∀ v, (s.readInstantaneousValues C).1 = .returned v →
      (callL p tr C s .readInstantaneousValues).1.getLast? = some (info "Received instantaneous values")) ∧
    ((∃ r ∈ (callL p tr C s .readInstantaneousValues).1, r.event = "Received instantaneous values") ↔
      ∃ v, (s.readInstantaneousValues C).1 = .returned v) := by
  have hi := inner_exchange p tr C s (.readInstantaneousValuesRequest { password := s.password })
  rw [← readInstantaneousValuesL_erase p tr]
  unfold callL Sys.readInstantaneousValuesL
  dsimp only
  cases hx : s.exchangeL p tr C (.readInstantaneousValuesRequest { password := s.password }) with
  | mk l o =>
    obtain ⟨o, s'⟩ := o
    rw [hx] at hi
    dsimp only at hi ⊢
    cases o with
    | returned v =>
      dsimp only
      exact ⟨rfl, fun v h => List.getLast?_concat .., fun _ => ⟨v, rfl⟩, fun _ => ⟨_, List.mem_append_right _ (List.mem_singleton_self _), rfl⟩⟩
    | raised x =>
      dsimp only
      refine ⟨rfl, fun _ h => by (cases h), fun ⟨r, hr, e⟩ => ?_, fun ⟨_, h⟩ => by (cases h)⟩
      rcases List.mem_cons.1 hr with rfl | hr
      · exact absurd e (by simp only [info]; decide)
      · exact absurd ⟨r, hr, e⟩ (inner_none hi (by decide))
    | pending =>
      dsimp only
      refine ⟨rfl, fun _ h => by (cases h), fun ⟨r, hr, e⟩ => ?_, fun ⟨_, h⟩ => by (cases h)⟩
      rcases List.mem_cons.1 hr with rfl | hr
      · exact absurd e (by simp only [info]; decide)
      · exact absurd ⟨r, hr, e⟩ (inner_none hi (by decide))

/-- Without the record of the whole data. -/
theorem pages_whole (p : Printing) (tr : PyVal) (C : BlockCipher) (s : Sys) (n : Int) (total : Bytes) :
    ¬ ∃ r ∈ (s.readPagesL p tr C n total).1, r.event = "Received total parameters data" := by
  have ask : ∀ n : Int, ¬ ∃ r ∈ [info "Requesting device parameters" [("object_count", .int n)]],
      r.event = "Received total parameters data" := by
    rintro n ⟨r, hr, e⟩
    rw [List.mem_singleton.1 hr] at e
    simp only [info] at e
    exact absurd e (by decide)
  have got : ∀ n : Int, ¬ ∃ r ∈ [info "Received device parameters" [("object_amount", .int n)]],
      r.event = "Received total parameters data" := by
    rintro n ⟨r, hr, e⟩
    rw [List.mem_singleton.1 hr] at e
    simp only [info] at e
    exact absurd e (by decide)
  have more : ∀ n : Int, ¬ ∃ r ∈ [info "More parameters available" [("next_object_count", .int n)]],
      r.event = "Received total parameters data" := by
    rintro n ⟨r, hr, e⟩
    rw [List.mem_singleton.1 hr] at e
    simp only [info] at e
    exact absurd e (by decide)
  have app : ∀ l l' : List Record, (¬ ∃ r ∈ l, r.event = "Received total parameters data") →
      (¬ ∃ r ∈ l', r.event = "Received total parameters data") →
      ¬ ∃ r ∈ l ++ l', r.event = "Received total parameters data" := by
    rintro l l' h h' ⟨r, hr, e⟩
    rcases List.mem_append.1 hr with hr | hr
    · exact h ⟨r, hr, e⟩
    · exact h' ⟨r, hr, e⟩
  have hx : ∀ (s : Sys) (e : Event), ¬ ∃ r ∈ (s.exchangeL p tr C e).1, r.event = "Received total parameters data" :=
    fun s e => inner_none (inner_exchange p tr C s e) (by decide)
  fun_induction Sys.readPagesL p tr C s n total with
  | case1 s n total ak l e s' h =>
    have := hx s (.readDeviceParametersRequest { password := s.password, objectCount := n, bufferLength := 1024 })
    rw [h] at this
    exact app _ _ (ask n) this
  | case2 s n total ak l s' h =>
    have := hx s (.readDeviceParametersRequest { password := s.password, objectCount := n, bufferLength := 1024 })
    rw [h] at this
    exact app _ _ (ask n) this
  | case3 s n total ak l r s' h l' he =>
    have := hx s (.readDeviceParametersRequest { password := s.password, objectCount := n, bufferLength := 1024 })
    rw [h] at this
    exact app _ _ (app _ _ (ask n) this) (got _)
  | case4 s n total ak l r s' h l' he l'' o hrec ih =>
    have := hx s (.readDeviceParametersRequest { password := s.password, objectCount := n, bufferLength := 1024 })
    rw [h] at this
    rw [hrec] at ih
    exact app _ _ (app _ _ (app _ _ (app _ _ (ask n) this) (got _)) (more _)) ih
  | case5 s n total ak l ev s' hne h =>
    have := hx s (.readDeviceParametersRequest { password := s.password, objectCount := n, bufferLength := 1024 })
    rw [h] at this
    exact app _ _ (ask n) this

/-- C78. `read_parameters` logs where it starts to read first of all, and the whole data as its last record and
exactly if all pages have arrived; what it then does is parse exactly this data. -/
theorem C78_read_parameters (p : Printing) (tr : PyVal) (C : BlockCipher) (s : Sys) (n : Int) :
    (callL p tr C s (.readParameters n)).1.head? = some (info "Reading device parameters" [("read_from", .int n)]) ∧
    (∀ r ∈ (callL p tr C s (.readParameters n)).1, r.event = "Received total parameters data" →
      ∃ d, r = debug "Received total parameters data" [("data", .bytes d)] ∧
        (callL p tr C s (.readParameters n)).1.getLast? = some r ∧
        (s.readParameters C n).1 = .ofRes (parseParameters none (some d))) ∧
    (∀ os, (s.readParameters C n).1 = .returned os →
      ∃ r ∈ (callL p tr C s (.readParameters n)).1, r.event = "Received total parameters data") := by
  have hw := pages_whole p tr C s n []
  rw [← readParametersL_erase p tr]
  unfold callL Sys.readParametersL
  dsimp only
  cases hx : s.readPagesL p tr C n [] with
  | mk l o =>
    obtain ⟨o, s'⟩ := o
    rw [hx] at hw
    dsimp only at hw ⊢
    have first : ∀ r, r.event = "Received total parameters data" →
        r ∉ info "Reading device parameters" [("read_from", .int n)] :: l := by
      intro r e hr
      rcases List.mem_cons.1 hr with rfl | hr
      · exact absurd e (by simp only [info]; decide)
      · exact hw ⟨r, hr, e⟩
    cases o with
    | returned d =>
      refine ⟨rfl, fun r hr e => ?_, fun os _ => ⟨_, List.mem_append_right _ (List.mem_singleton_self _), rfl⟩⟩
      rcases List.mem_append.1 hr with hr | hr
      · exact absurd hr (first r e)
      · rw [List.mem_singleton.1 hr]
        exact ⟨d, rfl, List.getLast?_concat .., rfl⟩
    | raised x => exact ⟨rfl, fun r hr e => absurd hr (first r e), fun os h => by (cases h)⟩
    | pending => exact ⟨rfl, fun r hr e => absurd hr (first r e), fun os h => by (cases h)⟩

/-! Examples -/

/-- The last event text of a call on a new client, and how the call ended. -/
def exLast (recvs : List (Res Bytes)) (k : Call) : Res (Option String × Ended) :=
  (mkClient exArgs [.ok ()] recvs (fun _ => ⟨('a', 'b'), fun _ => 0⟩)).map fun s =>
    let x := callL exPrint (.foreign "T".toList) idCipher s k
    (x.1.getLast?.map (·.event), x.2.1)

-- a call that returns, one that raises and one that waits
example : exLast [.ok exPlainLine] .readTime = .ok (some "Got device time", .returned) ∧
    exLast [.error (.elgas .communication)] .readTime = .ok (some "Sent data", .raised (.elgas .communication)) ∧
    exLast [.ok [1]] .readTime = .ok (some "No end char in data. Need more data", .pending) := by decide +kernel

end Elgas
