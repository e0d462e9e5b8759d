import Verif.Spec.Chain
import Verif.Props.Transport
/-!
C113: where the exceptions of a transport come from.
-/
namespace Elgas
open Spec

/-- An ending without the identity of exceptions. -/
def Ending.plain : Ending Bytes → Outcome3 Bytes
  | .returned b => .returned b
  | .raised e => .raised e.cls
  | .pending => .pending

theorem wrapFrom_cls (e : OsExc) : (wrapFrom e).cls = wrapOs e.cls := by
  unfold wrapFrom wrapOs; split <;> rfl

theorem go_plain (s : List Arriving) :
    recvLoop 1 [] (s.map Arriving.plain) =
      ((Transport.recvByteX.go s).1.plain, (Transport.recvByteX.go s).2.map Arriving.plain) := by
  fun_induction Transport.recvByteX.go s with
  | case1 => unfold recvLoop; rfl
  | case2 e rest =>
    rw [recvLoop, dif_pos (by simp)]
    split <;> rename_i hr <;> simp [Arriving.plain, osRead] at hr
    rw [← hr.1, ← hr.2]; rfl
  | case3 rest ih =>
    rw [← ih]
    conv => lhs; rw [recvLoop, dif_pos (show ([] : Bytes).length < 1 by simp)]
    split <;> rename_i hr <;> simp [Arriving.plain, osRead] at hr
    rw [hr.1, ← hr.2]; rfl
  | case4 b rest =>
    rw [recvLoop, dif_pos (by simp)]
    split <;> rename_i hr <;> simp [Arriving.plain, osRead] at hr
    rw [← hr.1, ← hr.2, recvLoop, dif_neg (by simp)]; rfl
  | case5 b c d rest =>
    rw [recvLoop, dif_pos (by simp)]
    split <;> rename_i hr <;> simp [Arriving.plain, osRead] at hr
    rw [← hr.1, ← hr.2, recvLoop, dif_neg (by simp)]; rfl

theorem recvByteX_plain (t : Transport) (s : List Arriving) :
    t.recvBytes 1 (s.map Arriving.plain) = ((t.recvByteX s).1.plain, (t.recvByteX s).2.map Arriving.plain) := by
  unfold Transport.recvBytes Transport.recvByteX
  cases t.socket with
  | none => rfl
  | some h => exact go_plain s

theorem recvLineX_plain (t : Transport) (to : Timeout) (line : Bytes) (s : List Arriving) (c : Clock) :
    recvUntilLoop t [0x0D] none to line (s.map Arriving.plain) c =
      ((recvLineX t to line s c).1.plain, (recvLineX t to line s c).2.1.map Arriving.plain, (recvLineX t to line s c).2.2) := by
  fun_induction recvLineX t to line s c with
  | case1 to line s c s' hr =>
    have h := recvByteX_plain t s
    rw [hr] at h
    rw [recvUntilLoop]; split <;> simp_all [Ending.plain]
  | case2 to line s c e s' hr =>
    have h := recvByteX_plain t s
    rw [hr] at h
    rw [recvUntilLoop]; split <;> simp_all [Ending.plain]
  | case3 to line s c b s' hr hb =>
    have h := recvByteX_plain t s
    rw [hr] at h
    rw [recvUntilLoop]; split <;> simp_all [Ending.plain]
  | case4 to line s c b s' hr hb hd =>
    have h := recvByteX_plain t s
    rw [hr] at h
    rw [recvUntilLoop]; split <;> simp_all [Ending.plain]
  | case5 to line s c b s' hr hb hd x c' e he =>
    have h := recvByteX_plain t s
    rw [hr] at h
    rw [recvUntilLoop]; split <;> simp_all [Ending.plain, Thrown.cls]
  | case6 to line s c b s' hr hb hd x c' he =>
    have h := recvByteX_plain t s
    rw [hr] at h
    rw [recvUntilLoop]; split <;> simp_all [Ending.plain]
  | case7 to line s c b s' hr hb hd to' c' he ih =>
    have h := recvByteX_plain t s
    rw [hr] at h
    rw [recvUntilLoop]; split <;> simp_all [Ending.plain]

/-- What a read of one byte tells of the exceptions to come. -/
theorem go_meets (s : List Arriving) :
    (∀ e s', Transport.recvByteX.go s = (.raised (.passed e), s') →
      ∃ before, s = before ++ .fail e :: s' ∧ ∀ x ∈ before, x = .seg []) ∧
    (∀ cls cause s', Transport.recvByteX.go s ≠ (.raised (.new cls cause), s')) ∧
    (∀ b s', Transport.recvByteX.go s = (.returned b, s') → ∃ x, b = [x] ∧ ∀ e before rest,
      s' = before ++ .fail e :: rest → (∀ y ∈ before, ∃ d, y = .seg d ∧ 0x0D ∉ d) → x ≠ 0x0D →
      ∃ before', s = before' ++ .fail e :: rest ∧ ∀ y ∈ before', ∃ d, y = .seg d ∧ 0x0D ∉ d) := by
  fun_induction Transport.recvByteX.go s with
  | case1 => simp
  | case2 e rest =>
    refine ⟨?_, by simp, by simp⟩
    intro e' s' h
    simp at h
    exact ⟨[], by rw [h.1, h.2]; rfl, by simp⟩
  | case3 rest ih =>
    obtain ⟨h1, h2, h3⟩ := ih
    refine ⟨?_, h2, ?_⟩
    · intro e s' h
      obtain ⟨before, e1, e2⟩ := h1 e s' h
      exact ⟨.seg [] :: before, by rw [e1]; rfl, by simpa using e2⟩
    · intro b s' h
      obtain ⟨x, hx, h4⟩ := h3 b s' h
      refine ⟨x, hx, fun e before r e1 e2 e3 => ?_⟩
      obtain ⟨before', e4, e5⟩ := h4 e before r e1 e2 e3
      refine ⟨.seg [] :: before', by rw [e4]; rfl, ?_⟩
      intro y hy
      rcases List.mem_cons.1 hy with rfl | hy
      · exact ⟨[], rfl, by simp⟩
      · exact e5 y hy
  | case4 b rest =>
    refine ⟨by simp, by simp, ?_⟩
    intro b' s' h
    simp at h
    refine ⟨b, h.1.symm, fun e before r e1 e2 e3 => ⟨.seg [b] :: before, by rw [h.2, e1]; rfl, ?_⟩⟩
    intro y hy
    rcases List.mem_cons.1 hy with rfl | hy
    · exact ⟨[b], rfl, by simpa using Ne.symm e3⟩
    · exact e2 y hy
  | case5 b c d rest =>
    refine ⟨by simp, by simp, ?_⟩
    intro b' s' h
    simp at h
    refine ⟨b, h.1.symm, fun e before r e1 e2 e3 => ?_⟩
    rw [← h.2] at e1
    cases before with
    | nil => simp at e1
    | cons z before =>
      simp at e1
      obtain ⟨f, hf, hn⟩ := e2 z (by simp)
      rw [← e1.1] at hf
      simp at hf
      refine ⟨.seg (b :: c :: d) :: before, by rw [e1.2]; rfl, ?_⟩
      intro y hy
      rcases List.mem_cons.1 hy with rfl | hy
      · refine ⟨_, rfl, ?_⟩
        rw [← hf] at hn
        simp only [List.mem_cons, not_or] at hn ⊢
        exact ⟨Ne.symm e3, hn⟩
      · exact e2 y (by simp [hy])

theorem recvLineX_meets (t : Transport) (to : Timeout) (hto : Usable to) (line : Bytes) (s : List Arriving) (c : Clock) :
    (∀ e, (recvLineX t to line s c).1 = .raised (.passed e) → t.socket ≠ none ∧
      ∃ before rest, s = before ++ .fail e :: rest ∧ ∀ x ∈ before, ∃ d, x = .seg d ∧ 0x0D ∉ d) ∧
    (∀ cls cause, (recvLineX t to line s c).1 = .raised (.new cls cause) → t.socket = none ∧ cls = .runtime ∧ cause = none) := by
  cases hs : t.socket with
  | none =>
    have hr : t.recvByteX s = (.raised (.new .runtime none), s) := by unfold Transport.recvByteX; rw [hs]
    have : (recvLineX t to line s c).1 = .raised (.new .runtime none) := by
      rw [recvLineX]; split <;> simp_all
    rw [this]
    exact ⟨by simp, fun cls cause h => by simp at h; exact ⟨rfl, h.1.symm, h.2.symm⟩⟩
  | some h =>
    have hgo : ∀ s, t.recvByteX s = Transport.recvByteX.go s := by intro s; unfold Transport.recvByteX; rw [hs]
    have hsl : ∀ (line : Bytes) (x : UInt8), sliceFrom (line ++ [x]) (-1) = [x] := by
      intro line x; simp [sliceFrom, clampIdx]; rw [show ((line.length : Int) + 1 + -1).toNat = line.length by omega]; simp
    simp only [ne_eq, reduceCtorEq, not_false_eq_true, true_and]
    fun_induction recvLineX t to line s c with
    | case1 => simp
    | case2 to line s c e s' hr =>
      rw [hgo] at hr
      refine ⟨?_, ?_⟩
      · intro e' h
        simp at h
        subst h
        obtain ⟨before, e1, e2⟩ := (go_meets s).1 e' s' hr
        exact ⟨before, s', e1, fun x hx => ⟨[], e2 x hx, by simp⟩⟩
      · intro cls cause h
        simp at h
        subst h
        exact absurd hr ((go_meets s).2.1 _ _ _)
    | case3 => simp
    | case4 => simp
    | case5 to line s c b s' hr hb hd x c' e he =>
      obtain ⟨_, _, _, h, _⟩ := usable_expired hto c
      rw [he] at h; simp at h
    | case6 => simp
    | case7 to line s c b s' hr hb hd to' c' he ih =>
      obtain ⟨_, _, _, h, hu⟩ := usable_expired hto c
      rw [he] at h; simp at h
      have hu' : Usable to' := by rw [h.1.1]; exact hu
      obtain ⟨i1, i2⟩ := ih hu'
      refine ⟨?_, fun cls cause h => i2 cls cause h⟩
      intro e h'
      obtain ⟨before, rest, e1, e2⟩ := i1 e h'
      rw [hgo] at hr
      obtain ⟨x, hx, h4⟩ := (go_meets s).2.2 b s' hr
      subst hx
      rw [hsl] at hd
      obtain ⟨before', e3, e4⟩ := h4 e before rest e1 e2 (by simpa using hd)
      exact ⟨before', rest, e3, e4⟩

theorem recvX_meets (t : Transport) (s : List Arriving) (c : Clock) (x : Thrown) (h : (t.recvX s c).1 = .raised x) :
    (t.socket = none ∧ x = .new .runtime none) ∨ (t.socket ≠ none ∧ ∃ e, x = wrapFrom e ∧
      ∃ before rest, s = before ++ .fail e :: rest ∧ ∀ x ∈ before, ∃ d, x = .seg d ∧ 0x0D ∉ d) := by
  obtain ⟨h1, h2⟩ := recvLineX_meets t (mkTimeout c t.timeout).1 (usable_mk c _) [] s (mkTimeout c t.timeout).2
  unfold Transport.recvX at h
  revert h h1 h2
  rcases recvLineX t (mkTimeout c t.timeout).1 [] s (mkTimeout c t.timeout).2 with ⟨r, s', c'⟩
  intro h h1 h2
  cases r with
  | returned b => simp at h
  | pending => simp at h
  | raised e =>
    cases e with
    | passed e =>
      simp at h
      obtain ⟨h3, h4⟩ := h1 e rfl
      exact .inr ⟨h3, e, h.symm, h4⟩
    | new cls cause =>
      simp at h
      obtain ⟨h3, rfl, rfl⟩ := h2 cls cause rfl
      exact .inl ⟨h3, h.symm⟩

theorem recvX_plain (t : Transport) (s : List Arriving) (c : Clock) :
    t.recv (s.map Arriving.plain) c =
      ((t.recvX s c).1.plain, (t.recvX s c).2.1.map Arriving.plain, (t.recvX s c).2.2) := by
  rw [recv_eq, recvLineX_plain]
  have h2 := (recvLineX_meets t (mkTimeout c t.timeout).1 (usable_mk c _) [] s (mkTimeout c t.timeout).2).2
  unfold Transport.recvX
  revert h2
  rcases recvLineX t (mkTimeout c t.timeout).1 [] s (mkTimeout c t.timeout).2 with ⟨r, s', c'⟩
  intro h2
  cases r with
  | returned b => rfl
  | pending => rfl
  | raised e =>
    cases e with
    | passed e => simp only [Ending.plain, wrapFrom_cls]; rfl
    | new cls cause =>
      obtain ⟨_, rfl, rfl⟩ := h2 cls cause rfl
      rfl

/-- C113. Without the identity of exceptions these are the calls of the other theorems about transports. -/
theorem C113_same (t : Transport) (ops : List XOp) :
    (trun t (ops.map XOp.plain)).1 = (xrun t ops).1 ∧
    (trun t (ops.map XOp.plain)).2 = (xrun t ops).2.map XStep.plain := by
  have step : ∀ (t : Transport) (op : XOp), tstep t op.plain = ((xstep t op).1, (xstep t op).2.plain) := by
    intro t op
    cases op with
    | connect os =>
      unfold xstep XOp.plain tstep Transport.connect Transport.connectX XStep.plain
      cases t.socket <;> cases os <;> simp [Except.mapError, Except.map, raise, wrapFrom_cls] <;> rfl
    | disconnect a b =>
      unfold xstep XOp.plain tstep Transport.disconnect Transport.disconnectX XStep.plain
      rcases t with ⟨k, to, so⟩
      cases so <;> cases k <;> cases a <;> cases b <;>
        simp [Except.mapError, Except.map, Thrown.cls, wrapFrom] <;> split <;> simp_all
    | send d os =>
      unfold xstep XOp.plain tstep Transport.send Transport.sendX XStep.plain
      cases t.socket <;> cases os <;> simp [Except.mapError, Except.map, raise, wrapFrom_cls] <;> rfl
    | recv s c =>
      unfold xstep XOp.plain tstep XStep.plain
      dsimp only
      rw [recvX_plain]
      cases (t.recvX s c).1 <;> rfl
  induction ops generalizing t with
  | nil => exact ⟨rfl, rfl⟩
  | cons op ops ih =>
    obtain ⟨h1, h2⟩ := ih (xstep t op).1
    simp only [List.map_cons, trun, xrun]
    rw [step t op]
    exact ⟨h1, by rw [h2]⟩

/-- C113. Every exception that leaves a call: a `RuntimeError` without a cause, if the call asks nothing of the operating
system because there is (or, for `connect`, is not) no handle; or the first exception that the operating system raised in
this call - itself, unless it is an `OSError`, and then as the `__cause__` of a new `CommunicationError`. -/
theorem C113_raised (t : Transport) (op : XOp) (x : Thrown) (h : (xstep t op).2.result = some (.error x)) :
    (¬ op.Asks t ∧ x = .new .runtime none ∧ (xstep t op).2.calls = []) ∨
    (op.Asks t ∧ ∃ e, op.Meets t.kind e ∧
      ((e.cls = .os ∧ x = .new (.elgas .communication) (some e)) ∨ (e.cls ≠ .os ∧ x = .passed e))) := by
  have hw : ∀ e : OsExc, (e.cls = .os ∧ wrapFrom e = .new (.elgas .communication) (some e)) ∨
      (e.cls ≠ .os ∧ wrapFrom e = .passed e) := by
    intro e
    unfold wrapFrom
    by_cases he : e.cls = .os
    · exact .inl ⟨he, if_pos he⟩
    · exact .inr ⟨he, if_neg he⟩
  rcases t with ⟨k, to, so⟩
  cases op with
  | connect os =>
    cases so with
    | some s =>
      simp only [xstep, Transport.connectX, Except.map, Option.some.injEq, Except.error.injEq] at h
      exact .inl ⟨by simp [XOp.Asks], h.symm, rfl⟩
    | none =>
      cases os with
      | ok hd => simp [xstep, Transport.connectX, Except.map] at h
      | error e =>
        simp only [xstep, Transport.connectX, Except.map, Option.some.injEq, Except.error.injEq] at h
        rw [← h]
        exact .inr ⟨rfl, e, rfl, hw e⟩
  | send d os =>
    cases so with
    | none =>
      simp only [xstep, Transport.sendX, Except.map, Option.some.injEq, Except.error.injEq] at h
      exact .inl ⟨by simp [XOp.Asks], h.symm, rfl⟩
    | some s =>
      cases os with
      | ok hd => simp [xstep, Transport.sendX, Except.map] at h
      | error e =>
        simp only [xstep, Transport.sendX, Except.map, Option.some.injEq, Except.error.injEq] at h
        rw [← h]
        exact .inr ⟨by simp [XOp.Asks], e, rfl, hw e⟩
  | disconnect a b =>
    cases so with
    | none => simp [xstep, Transport.disconnectX, Except.map] at h
    | some s =>
      cases k with
      | tcp =>
        cases a with
        | error e =>
          simp only [xstep, Transport.disconnectX, Except.map, Option.some.injEq, Except.error.injEq] at h
          rw [← h]
          exact .inr ⟨by simp [XOp.Asks], e, .inl rfl, hw e⟩
        | ok u =>
          cases b with
          | error e =>
            simp only [xstep, Transport.disconnectX, Except.map, Option.some.injEq, Except.error.injEq] at h
            rw [← h]
            exact .inr ⟨by simp [XOp.Asks], e, .inr ⟨rfl, rfl⟩, hw e⟩
          | ok u => simp [xstep, Transport.disconnectX, Except.map] at h
      | serial =>
        cases b with
        | error e =>
          simp only [xstep, Transport.disconnectX, Except.map, Option.some.injEq, Except.error.injEq] at h
          rw [← h]
          exact .inr ⟨by simp [XOp.Asks], e, rfl, hw e⟩
        | ok u => simp [xstep, Transport.disconnectX, Except.map] at h
  | recv s c =>
    have h' : ((⟨k, to, so⟩ : Transport).recvX s c).1 = .raised x := by
      simp only [xstep] at h
      split at h
      · simp at h
      · next e he => simp at h; rw [he, h]
      · simp at h
    rcases recvX_meets _ s c x h' with ⟨h1, h2⟩ | ⟨h1, e, h2, h3⟩
    · exact .inl ⟨by simpa [XOp.Asks] using h1, h2, rfl⟩
    · rw [h2]
      exact .inr ⟨h1, e, h3, hw e⟩

theorem first_unique {a b a' b' : List Arriving} {e e' : OsExc} (h : a ++ .fail e :: b = a' ++ .fail e' :: b')
    (ha : ∀ x ∈ a, ∃ d, x = .seg d ∧ 0x0D ∉ d) (ha' : ∀ x ∈ a', ∃ d, x = .seg d ∧ 0x0D ∉ d) : e = e' := by
  induction a generalizing a' with
  | nil =>
    cases a' with
    | nil => simp at h; exact h.1
    | cons x a' =>
      obtain ⟨d, hd, _⟩ := ha' x (by simp)
      subst hd; simp at h
  | cons y a ih =>
    obtain ⟨d, hd, _⟩ := ha y (by simp)
    subst hd
    cases a' with
    | nil => simp at h
    | cons x a' =>
      simp at h
      exact ih h.2 (fun z hz => ha z (by simp [hz])) (fun z hz => ha' z (by simp [hz]))

theorem content_before (a : List Arriving) (ha : ∀ x ∈ a, ∃ d, x = .seg d ∧ 0x0D ∉ d) (e : OsExc) (rest : List Arriving) :
    ∃ bs, 0x0D ∉ bs ∧ content ((a ++ .fail e :: rest).map Arriving.plain) =
      bytesOnly bs ++ .fail e.cls :: content (rest.map Arriving.plain) := by
  induction a with
  | nil => exact ⟨[], by simp, rfl⟩
  | cons y a ih =>
    obtain ⟨d, rfl, hd⟩ := ha y (by simp)
    obtain ⟨bs, h1, h2⟩ := ih fun x hx => ha x (by simp [hx])
    refine ⟨d ++ bs, by simp [hd, h1], ?_⟩
    simp only [List.cons_append, List.map_cons, Arriving.plain, content] at h2 ⊢
    rw [h2]; simp [bytesOnly]

theorem split_fail {bs bs' : Bytes} {e : PyErr} {r r' : List Item}
    (h : bytesOnly bs ++ .fail e :: r = bytesOnly bs' ++ r') (hb : 0x0D ∉ bs) (hr : bs'.getLast? = some 0x0D) : False := by
  induction bs generalizing bs' with
  | nil =>
    cases bs' with
    | nil => simp at hr
    | cons y bs' => simp [bytesOnly] at h
  | cons x bs ih =>
    cases bs' with
    | nil => simp at hr
    | cons y bs' =>
      simp only [bytesOnly, List.map_cons, List.cons_append, List.cons.injEq, Item.byte.injEq] at h
      cases bs' with
      | nil =>
        simp at hr
        exact hb (by simp [h.1, hr])
      | cons z bs' =>
        exact ih h.2 (fun hm => hb (by simp [hm])) (by simpa using hr)

/-- C113. And no exception of the operating system is lost: a call that meets one raises it, or a `CommunicationError`
with it as its cause (`recv()` of a transport with a timeout may end before it meets one). -/
theorem C113_not_lost (t : Transport) (op : XOp) (e : OsExc) (ha : op.Asks t) (hm : op.Meets t.kind e)
    (ht : ∀ s c, op = .recv s c → t.timeout = none) :
    (xstep t op).2.result = some (.error
      (if e.cls = .os then .new (.elgas .communication) (some e) else .passed e)) := by
  cases op with
  | connect os =>
    rw [show os = .error e from hm]
    simp only [xstep, Transport.connectX, show t.socket = none from ha]; rfl
  | send d os =>
    rw [show os = .error e from hm]
    obtain ⟨s, hs⟩ := Option.ne_none_iff_exists'.1 (show t.socket ≠ none from ha)
    simp only [xstep, Transport.sendX, hs]; rfl
  | disconnect a b =>
    obtain ⟨s, hs⟩ := Option.ne_none_iff_exists'.1 (show t.socket ≠ none from ha)
    cases hk : t.kind with
    | tcp =>
      rw [hk] at hm
      rcases hm with hm | ⟨hm, hm'⟩
      · subst hm; simp only [xstep, Transport.disconnectX, hs, hk]; rfl
      · subst hm hm'; simp only [xstep, Transport.disconnectX, hs, hk]; rfl
    | serial =>
      rw [hk] at hm
      rw [show b = .error e from hm]
      simp only [xstep, Transport.disconnectX, hs, hk]; rfl
  | recv s c =>
    obtain ⟨hd, hs⟩ := Option.ne_none_iff_exists'.1 (show t.socket ≠ none from ha)
    obtain ⟨a, rest, hm, hma⟩ := hm
    obtain ⟨bs, hb, hc⟩ := content_before a hma e rest
    rw [← hm] at hc
    have hp := recvX_plain t s c
    have hx : ∃ x, (t.recvX s c).1 = .raised x := by
      rcases C47_recv_cases t hd hs (s.map Arriving.plain) c with
        ⟨b, s', c', h1, h2, _, _, h3⟩ | ⟨b, e', s', c', h1, h2, _⟩ | ⟨b, s', c', h1, h2, _⟩
      · rw [hc] at h2
        exact (split_fail h2 hb (h3 (ht s c rfl))).elim
      · rw [h1] at hp
        cases hr : (t.recvX s c).1 with
        | raised x => exact ⟨x, rfl⟩
        | returned _ => rw [hr] at hp; simp [Ending.plain] at hp
        | pending => rw [hr] at hp; simp [Ending.plain] at hp
      · rw [hc] at h2
        have : Item.fail e.cls ∈ bytesOnly b := by rw [← h2]; simp
        simp [bytesOnly] at this
    obtain ⟨x, hx⟩ := hx
    have hres : (xstep t (.recv s c)).2.result = some (.error x) := by simp only [xstep]; rw [hx]
    rw [hres]
    rcases recvX_meets t s c x hx with ⟨h1, _⟩ | ⟨_, e', h2, b', r', h3, h4⟩
    · rw [hs] at h1; cases h1
    · have : e = e' := first_unique (hm.symm.trans h3) hma h4
      rw [h2, this]; rfl

-- a refused connection, an exception that passes, a call without a handle, and a reset connection in the middle of a line
example : ((xrun (mkTransport .tcp none) [.connect (.error ⟨.os, 1⟩), .connect (.error ⟨.overflow, 2⟩),
    .send [1] (.ok ()), .connect (.ok 7), .recv [.seg [1, 2], .seg [], .fail ⟨.os, 3⟩, .seg [0x0D]] ⟨fun _ => 0, 0⟩,
    .disconnect (.error ⟨.os, 4⟩) (.error ⟨.os, 5⟩)]).2.map XStep.result) =
    [some (.error (.new (.elgas .communication) (some ⟨.os, 1⟩))), some (.error (.passed ⟨.overflow, 2⟩)),
     some (.error (.new .runtime none)), some (.ok []), some (.error (.new (.elgas .communication) (some ⟨.os, 3⟩))),
     some (.error (.new (.elgas .communication) (some ⟨.os, 4⟩)))] := by
  decide +kernel

end Elgas
