import Verif.Props.Wire
import Verif.Props.Transport
/-!
Properties C66 and C67: `recv_until` with any arguments, and the client on top of a TCP or serial
transport.
-/
namespace Elgas
open Spec

/-! ### C66 -/

theorem stops_iff (expected : Bytes) (size : Option Nat) (line : Bytes) (hl : line ≠ []) :
    (sliceFrom line (-(expected.length : Int)) = expected ∨
      (match size with | some n => decide (line.length ≥ n) | none => false) = true) ↔
    Stops expected size line := by
  have h1 : sliceFrom line (-(expected.length : Int)) = expected ↔ (expected ≠ [] ∧ expected <:+ line) := by
    have hpos : 0 < line.length := List.length_pos_iff.2 hl
    unfold sliceFrom clampIdx
    by_cases he : expected = []
    · subst he
      simp [hl]
    · have hep : 0 < expected.length := List.length_pos_iff.2 he
      rw [if_pos (by omega)]
      constructor
      · intro h
        refine ⟨he, ?_⟩
        have := List.drop_suffix ((line.length : Int) + -(expected.length : Int)).toNat line
        rwa [h] at this
      · rintro ⟨_, p, rfl⟩
        have : (((p ++ expected).length : Int) + -(expected.length : Int)).toNat = p.length := by
          rw [List.length_append]; omega
        rw [this, List.drop_left]
  rw [h1]
  unfold Stops
  cases size with
  | none => simp
  | some n => simp

/-- One iteration of the `recv_until` loop in terms of the script's content. -/
theorem until_step {t : Transport} {h : Handle} (ht : t.socket = some h) (expected : Bytes) (size : Option Nat)
    (to : Timeout) (line : Bytes) (s : List Delivery) (c : Clock) :
    (content s = [] → ∃ s', content s' = [] ∧
      recvUntilLoop t expected size to line s c = (.pending, s', c)) ∧
    (∀ e r, content s = .fail e :: r → ∃ s', content s' = r ∧
      recvUntilLoop t expected size to line s c = (.raised e, s', c)) ∧
    (∀ b r, content s = .byte b :: r → ∃ s', content s' = r ∧
      (Stops expected size (line ++ [b]) →
        recvUntilLoop t expected size to line s c = (.returned (line ++ [b]), s', c)) ∧
      (¬ Stops expected size (line ++ [b]) →
        recvUntilLoop t expected size to line s c =
        match to.expired c with
          | ((_, c), .error e) => (.raised e, s', c)
          | ((_, c), .ok true) => (.returned (line ++ [b]), s', c)
          | ((to, c), .ok false) => recvUntilLoop t expected size to (line ++ [b]) s' c)) := by
  obtain ⟨h1, h2, h3⟩ := recvLoop_one s
  refine ⟨fun hc => ?_, fun e r hc => ?_, fun b r hc => ?_⟩
  · refine ⟨_, (h1 hc).2, ?_⟩
    have hr : t.recvBytes 1 s = (.pending, (recvLoop 1 [] s).2) := by
      rw [recvBytes_one ht]; exact Prod.ext (h1 hc).1 rfl
    rw [recvUntilLoop]
    split
    · next s' heq => rw [hr] at heq; simp only [Prod.mk.injEq, true_and] at heq; rw [heq]
    · next heq => rw [hr] at heq; simp at heq
    · next heq => rw [hr] at heq; simp at heq
  · refine ⟨_, (h3 e r hc).2, ?_⟩
    have hr : t.recvBytes 1 s = (.raised e, (recvLoop 1 [] s).2) := by
      rw [recvBytes_one ht]; exact Prod.ext (h3 e r hc).1 rfl
    rw [recvUntilLoop]
    split
    · next heq => rw [hr] at heq; simp at heq
    · next e' s' heq =>
      rw [hr] at heq; simp only [Prod.mk.injEq, Outcome3.raised.injEq] at heq; rw [heq.1, heq.2]
    · next heq => rw [hr] at heq; simp at heq
  · have hst := stops_iff expected size (line ++ [b]) (by simp)
    have hr : t.recvBytes 1 s = (.returned [b], (recvLoop 1 [] s).2) := by
      rw [recvBytes_one ht]; exact Prod.ext (h2 b r hc).1 rfl
    refine ⟨_, (h2 b r hc).2, fun hs => ?_, fun hs => ?_⟩
    · rw [← hst] at hs
      rw [recvUntilLoop]
      split
      · next heq => rw [hr] at heq; simp at heq
      · next heq => rw [hr] at heq; simp at heq
      · next b' s' heq =>
        rw [hr] at heq
        simp only [Prod.mk.injEq, Outcome3.returned.injEq] at heq
        obtain ⟨rfl, rfl⟩ := heq
        simp only [List.isEmpty_cons, Bool.false_eq_true, if_false]
        split
        · rfl
        · next hn => exact if_pos (hs.resolve_left hn)
    · rw [← hst] at hs
      rw [recvUntilLoop]
      split
      · next heq => rw [hr] at heq; simp at heq
      · next heq => rw [hr] at heq; simp at heq
      · next b' s' heq =>
        rw [hr] at heq
        simp only [Prod.mk.injEq, Outcome3.returned.injEq] at heq
        obtain ⟨rfl, rfl⟩ := heq
        simp only [List.isEmpty_cons, Bool.false_eq_true, if_false]
        rw [if_neg (fun h => hs (.inl h))]
        exact if_neg (fun h => hs (.inr h))

/-- No non-empty beginning of `bs` (read after `line`) is a reason to stop. -/
def Runs (expected : Bytes) (size : Option Nat) (line bs : Bytes) : Prop :=
  ∀ p, p <+: bs → p ≠ [] → ¬ Stops expected size (line ++ p)

theorem runs_cons {expected : Bytes} {size : Option Nat} {line bs : Bytes} {b : UInt8}
    (h0 : ¬ Stops expected size (line ++ [b])) (h : Runs expected size (line ++ [b]) bs) :
    Runs expected size line (b :: bs) := by
  intro p hp hne
  cases p with
  | nil => exact absurd rfl hne
  | cons x p =>
    obtain ⟨rfl, hp'⟩ := List.cons_prefix_cons.1 hp
    cases p with
    | nil => exact h0
    | cons y p =>
      have := h (y :: p) hp' (by simp)
      rwa [List.append_assoc] at this

theorem until_outcome {t : Transport} {h : Handle} (ht : t.socket = some h) (expected : Bytes)
    (size : Option Nat) (items : List Item)
    (to : Timeout) (hto : Usable to) (line : Bytes) (s : List Delivery) (c : Clock)
    (hs : content s = items) :
    ∃ s' c',
    ((∃ bs, recvUntilLoop t expected size to line s c = (.returned (line ++ bs), s', c') ∧
        items = bytesOnly bs ++ content s' ∧ bs ≠ [] ∧ Runs expected size line bs.dropLast ∧
        (to.targetTime = none → Stops expected size (line ++ bs))) ∨
     (∃ bs e, recvUntilLoop t expected size to line s c = (.raised e, s', c') ∧
        items = bytesOnly bs ++ .fail e :: content s' ∧ Runs expected size line bs) ∨
     (∃ bs, recvUntilLoop t expected size to line s c = (.pending, s', c') ∧
        items = bytesOnly bs ∧ content s' = [] ∧ Runs expected size line bs)) := by
  have nil : ∀ line, Runs expected size line [] := by
    intro line p hp hne; exact absurd (List.prefix_nil.1 hp) hne
  induction items generalizing to line s c with
  | nil =>
    obtain ⟨s', h1, h2⟩ := (until_step ht expected size to line s c).1 hs
    exact ⟨s', c, .inr (.inr ⟨[], h2, rfl, h1, nil _⟩)⟩
  | cons i items ih =>
    cases i with
    | fail e =>
      obtain ⟨s', h1, h2⟩ := (until_step ht expected size to line s c).2.1 e items hs
      refine ⟨s', c, .inr (.inl ⟨[], e, h2, ?_, nil _⟩)⟩
      rw [h1]; rfl
    | byte b =>
      obtain ⟨s1, h1, h2, h2'⟩ := (until_step ht expected size to line s c).2.2 b items hs
      by_cases hb : Stops expected size (line ++ [b])
      · refine ⟨s1, c, .inl ⟨[b], h2 hb, ?_, by simp, nil _, fun _ => hb⟩⟩
        rw [h1]; rfl
      · replace h2 := h2' hb
        obtain ⟨to', c1, x, hx, hto'⟩ := usable_expired hto c
        rw [hx] at h2
        cases x with
        | true =>
          dsimp only at h2
          refine ⟨s1, c1, .inl ⟨[b], h2, ?_, by simp, nil _, ?_⟩⟩
          · rw [h1]; rfl
          · intro hn
            unfold Timeout.expired at hx; rw [hn] at hx; simp at hx
        | false =>
          dsimp only at h2
          obtain ⟨s', c', hcase⟩ := ih to' hto' (line ++ [b]) s1 c1 h1
          refine ⟨s', c', ?_⟩
          rw [h2]
          rcases hcase with ⟨bs, g1, g2, g3, g4, g5⟩ | ⟨bs, e, g1, g2, g3⟩ | ⟨bs, g1, g2, g3, g4⟩
          · refine .inl ⟨b :: bs, by rw [g1]; simp, by rw [g2]; rfl, by simp, ?_, ?_⟩
            · rw [List.dropLast_cons_of_ne_nil g3]
              exact runs_cons hb g4
            · intro hn
              have : to'.targetTime = none := by
                unfold Timeout.expired at hx; rw [hn] at hx; simp at hx; rw [← hx.1]; exact hn
              have := g5 this
              rwa [List.append_assoc] at this
          · exact .inr (.inl ⟨b :: bs, e, g1, by rw [g2]; rfl, runs_cons hb g3⟩)
          · exact .inr (.inr ⟨b :: bs, g1, by rw [g2]; rfl, g3, runs_cons hb g4⟩)

/-- C66. Whatever its arguments, the deliveries and the clock: a connected `recv_until(expected, size)`
returns the next bytes of the stream, at least one, stopping at the first point where they end with
`expected` or are `size` in number, and earlier only because of the timeout; or it raises the exception
of the OS that comes before such a point; or there is no such point and it is still reading. -/
theorem C66_recv_until (t : Transport) (h : Handle) (ht : t.socket = some h) (expected : Bytes)
    (size : Option Nat) (s : List Delivery) (c : Clock) :
    (∃ bs s' c', t.recvUntil expected size s c = (.returned bs, s', c') ∧
      content s = bytesOnly bs ++ content s' ∧ bs ≠ [] ∧
      (∀ p, p <+: bs → p ≠ [] → p ≠ bs → ¬ Stops expected size p) ∧
      (t.timeout = none → Stops expected size bs)) ∨
    (∃ bs e s' c', t.recvUntil expected size s c = (.raised e, s', c') ∧
      content s = bytesOnly bs ++ .fail e :: content s' ∧
      (∀ p, p <+: bs → p ≠ [] → ¬ Stops expected size p)) ∨
    (∃ bs s' c', t.recvUntil expected size s c = (.pending, s', c') ∧ content s = bytesOnly bs ∧
      content s' = [] ∧ (∀ p, p <+: bs → p ≠ [] → ¬ Stops expected size p)) := by
  obtain ⟨s', c', hcase⟩ := until_outcome ht expected size (content s) (mkTimeout c t.timeout).1 (usable_mk c _) []
    s (mkTimeout c t.timeout).2 rfl
  have he : t.recvUntil expected size s c = recvUntilLoop t expected size (mkTimeout c t.timeout).1 [] s
    (mkTimeout c t.timeout).2 := rfl
  rw [he]
  rcases hcase with ⟨bs, g1, g2, g3, g4, g5⟩ | ⟨bs, e, g1, g2, g3⟩ | ⟨bs, g1, g2, g3, g4⟩
  · refine .inl ⟨bs, s', c', g1, g2, g3, fun p hp hne hneq => ?_, fun hn => g5 (by rw [hn]; rfl)⟩
    have := g4 p ?_ hne
    · simpa using this
    · obtain ⟨q, rfl⟩ := hp
      cases q with
      | nil => exact absurd (by simp) hneq
      | cons x q =>
        rw [List.dropLast_append_of_ne_nil (by simp)]
        exact List.prefix_append _ _
  · exact .inr (.inl ⟨bs, e, s', c', g1, g2, fun p hp hne => by simpa using g3 p hp hne⟩)
  · exact .inr (.inr ⟨bs, s', c', g1, g2, g3, fun p hp hne => by simpa using g4 p hp hne⟩)

/-- C66. An empty terminator is never found: without a size, `recv_until(b"")` ends only by timeout or
exception. -/
theorem C66_empty_terminator (line : Bytes) : ¬ Stops [] none line := by
  rintro (⟨h, _⟩ | ⟨_, h, _⟩)
  · exact h rfl
  · cases h

example : (({ kind := .tcp, timeout := none, socket := some 1 } : Transport).recvUntil [0x0D, 0x0A] none
    [.seg [1, 0x0D], .seg [], .seg [0x0A, 7]] exClock).1 = .returned [1, 0x0D, 0x0A] := by decide +kernel
example : (({ kind := .tcp, timeout := none, socket := some 1 } : Transport).recvUntil [0x0D] (some 2)
    [.seg [1, 2, 3]] exClock).1 = .returned [1, 2] := by decide +kernel

theorem osRead_content {n : Nat} {s : List Delivery} :
    match osRead n s with
    | none => s = []
    | some (.error e, rest) => content s = .fail e :: content rest
    | some (.ok d, rest) => content s = bytesOnly d ++ content rest ∧ d.length ≤ n := by
  cases s with
  | nil => simp [osRead]
  | cons x s =>
    cases x with
    | fail e => simp [osRead, content]
    | seg d =>
      by_cases h : d.length ≤ n
      · simp [osRead, h, content, bytesOnly]
      · simp only [osRead, if_neg h, content, bytesOnly, List.length_take]
        refine ⟨?_, by omega⟩
        rw [← List.append_assoc, ← List.map_append, List.take_append_drop]

theorem recvLoop_content (amount : Nat) (data : Bytes) (s : List Delivery) (hd : data.length ≤ amount) :
    ∃ bs, content s = bytesOnly bs ++
      (match (recvLoop amount data s).1 with
        | .returned _ => content (recvLoop amount data s).2
        | .raised e => .fail e :: content (recvLoop amount data s).2
        | .pending => []) ∧
      (match (recvLoop amount data s).1 with
        | .returned r => r = data ++ bs ∧ r.length = amount
        | .raised _ => (data ++ bs).length < amount
        | .pending => (data ++ bs).length < amount ∧ (recvLoop amount data s).2 = []) := by
  fun_induction recvLoop amount data s with
  | case1 data s h hr =>
    have := osRead_content (n := amount - data.length) (s := s)
    rw [hr] at this; subst this
    exact ⟨[], by simp [content, bytesOnly], by simpa using h⟩
  | case2 data s h e rest hr =>
    have := osRead_content (n := amount - data.length) (s := s)
    rw [hr] at this
    exact ⟨[], by simp [this, bytesOnly], by simpa using h⟩
  | case3 data s h d rest hr ih =>
    have := osRead_content (n := amount - data.length) (s := s)
    rw [hr] at this
    obtain ⟨hc, hl⟩ := this
    obtain ⟨bs, h1, h2⟩ := ih (by simp only [List.length_append]; omega)
    refine ⟨d ++ bs, ?_, ?_⟩
    · rw [hc, h1]; simp [bytesOnly]
    · simpa [List.append_assoc] using h2
  | case4 data s h => exact ⟨[], by simp [bytesOnly], by simp; omega⟩

/-- C66 (`_recv_bytes`): on a connected transport `_recv_bytes(n)` returns exactly the next `n` bytes of
the stream, in order, however they are cut into segments and whatever empty reads come between, and
leaves the rest of the stream; it raises the OS exception that comes before them; and it goes on
reading when the stream holds fewer.  Without a connection it is a `RuntimeError` and nothing is read. -/
theorem C66_recv_bytes (t : Transport) (n : Nat) (s : List Delivery) :
    (t.socket = none → t.recvBytes n s = (.raised .runtime, s)) ∧
    (∀ h, t.socket = some h →
      (∀ bs tail, bs.length = n → content s = bytesOnly bs ++ tail →
        ∃ s', t.recvBytes n s = (.returned bs, s') ∧ content s' = tail) ∧
      (∀ bs e tail, bs.length < n → content s = bytesOnly bs ++ .fail e :: tail →
        ∃ s', t.recvBytes n s = (.raised e, s') ∧ content s' = tail) ∧
      (∀ bs, bs.length < n → content s = bytesOnly bs → t.recvBytes n s = (.pending, []))) := by
  refine ⟨fun h => by unfold Transport.recvBytes; rw [h], fun h ht => ?_⟩
  have he : t.recvBytes n s = recvLoop n [] s := by unfold Transport.recvBytes; rw [ht]
  rw [he]
  obtain ⟨bs, h1, h2⟩ := recvLoop_content n [] s (Nat.zero_le _)
  -- two ways to split a stream into bytes and a rest
  have key : ∀ (a b : Bytes) (x y : List Item), a.length ≤ b.length →
      bytesOnly a ++ x = bytesOnly b ++ y → x = bytesOnly (b.drop a.length) ++ y ∧ a = b.take a.length := by
    intro a
    induction a with
    | nil => intro b x y _ hh; simpa [bytesOnly] using hh
    | cons u a ih =>
      intro b x y hl hh
      cases b with
      | nil => simp at hl
      | cons v b =>
        simp only [bytesOnly, List.map_cons, List.cons_append, List.cons.injEq, Item.byte.injEq] at hh
        obtain ⟨h3, h4⟩ := ih b x y (by simpa using hl) hh.2
        refine ⟨by simpa using h3, ?_⟩
        simp only [List.length_cons, List.take_succ_cons]
        rw [← h4, hh.1]
  cases hrl : recvLoop n [] s with
  | mk o s' =>
    rw [hrl] at h1 h2
    cases o with
    | returned r =>
      simp only [List.nil_append] at h1 h2
      obtain ⟨rfl, hn⟩ := h2
      refine ⟨fun as tail hl hc => ?_, fun as e tail hl hc => ?_, fun as hl hc => ?_⟩
      · rw [h1] at hc
        obtain ⟨h3, h4⟩ := key _ _ _ _ (by omega) hc
        have : r = as := by rw [h4, List.take_of_length_le (by omega)]
        exact ⟨s', by rw [this], by rw [h3, this]; simp [bytesOnly]⟩
      · rw [h1] at hc
        obtain ⟨h3, -⟩ := key as r _ _ (by omega) hc.symm
        have : r.drop as.length ≠ [] := by simp; omega
        cases hd : r.drop as.length with
        | nil => exact absurd hd this
        | cons u v => rw [hd] at h3; simp [bytesOnly] at h3
      · rw [h1] at hc
        have := congrArg List.length hc
        simp [bytesOnly] at this; omega
    | raised e' =>
      simp only [List.nil_append] at h1 h2
      refine ⟨fun as tail hl hc => ?_, fun as e tail hl hc => ?_, fun as hl hc => ?_⟩
      · rw [h1] at hc
        obtain ⟨h3, -⟩ := key bs as _ _ (by omega) hc
        cases hd : as.drop bs.length with
        | nil => simp at hd; omega
        | cons u v => rw [hd] at h3; simp [bytesOnly] at h3
      · rw [h1] at hc
        rcases Nat.lt_trichotomy bs.length as.length with hlt | heq | hlt
        · obtain ⟨h3, -⟩ := key bs as _ _ (by omega) hc
          cases hd : as.drop bs.length with
          | nil => simp at hd; omega
          | cons u v => rw [hd] at h3; simp [bytesOnly] at h3
        · obtain ⟨h3, h4⟩ := key bs as _ _ (by omega) hc
          have : as.drop bs.length = [] := by simp; omega
          rw [this] at h3
          simp only [bytesOnly, List.map_nil, List.nil_append, List.cons.injEq, Item.fail.injEq] at h3
          exact ⟨s', by rw [h3.1], h3.2⟩
        · obtain ⟨h3, -⟩ := key as bs _ _ (by omega) hc.symm
          cases hd : bs.drop as.length with
          | nil => simp at hd; omega
          | cons u v => rw [hd] at h3; simp [bytesOnly] at h3
      · rw [h1] at hc
        have h5 : Item.fail e' ∈ bytesOnly as := by rw [← hc]; simp
        simp [bytesOnly] at h5
    | pending =>
      simp only [List.nil_append, List.append_nil] at h1 h2
      refine ⟨fun as tail hl hc => ?_, fun as e tail hl hc => ?_, fun as hl hc => by rw [h2.2]⟩
      · rw [h1] at hc
        have := congrArg List.length hc
        simp [bytesOnly] at this; omega
      · rw [h1] at hc
        have h5 : Item.fail e ∈ bytesOnly bs := by rw [hc]; simp
        simp [bytesOnly] at h5

/-- Non-vacuity: three bytes over two segments with an empty read between; the rest of the second
segment stays. -/
example : (⟨.tcp, none, some 3⟩ : Transport).recvBytes 3 [.seg [1, 2], .seg [], .seg [3, 4]] =
    (.returned [1, 2, 3], [.seg [4]]) := by
  obtain ⟨s', h, -⟩ := ((C66_recv_bytes ⟨.tcp, none, some 3⟩ 3 [.seg [1, 2], .seg [], .seg [3, 4]]).2 3 rfl).1
    [1, 2, 3] [.byte 4] rfl rfl
  decide +kernel

/-! ### C67 -/

/-- C67. Successive `recv()` calls without OS exceptions neither lose, repeat nor reorder a byte: what
they return, joined, is the beginning of the stream. -/
theorem C67_nothing_lost (t : Transport) (h : Handle) (ht : t.socket = some h) (n : Nat) (s : List Delivery)
    (c : Clock) (ls : List Bytes) (hls : recvs t n s c = ls.map .ok) :
    bytesOnly ls.flatten <+: content s := by
  induction n generalizing s c ls with
  | zero =>
    cases ls with
    | nil => exact List.nil_prefix
    | cons l ls => cases hls
  | succ n ih =>
    unfold recvs at hls
    rcases C47_recv_cases t h ht s c with ⟨bs, s', c', g1, g2, _⟩ | ⟨bs, e, s', c', g1, _⟩ | ⟨bs, s', c', g1, _⟩
    · rw [g1] at hls
      cases ls with
      | nil => cases hls
      | cons l ls =>
        injection hls with h1 h2
        cases h1
        rw [g2, List.flatten_cons, bytesOnly, List.map_append]
        exact (List.prefix_append_right_inj _).2 (ih s' c' ls h2)
    · rw [g1] at hls
      cases ls with
      | nil => cases hls
      | cons l ls => injection hls with h1 h2; cases h1
    · rw [g1] at hls
      cases ls with
      | nil => exact List.nil_prefix
      | cons l ls => cases hls

theorem bytesOnly_inj {a b : Bytes} (h : bytesOnly a = bytesOnly b) : a = b :=
  (List.map_inj_right (fun _ _ h => by injection h)).1 h

/-- A line at the head of the stream is returned by successive `recv()` calls in one or more pieces,
whatever the timeout and the clock; nothing behind it is read. -/
theorem line_pieces (t : Transport) (h : Handle) (ht : t.socket = some h) (w : Bytes) (hw : 0x0D ∉ w)
    (r : List Item) : ∀ (s : List Delivery) (c : Clock), content s = bytesOnly (w ++ [0x0D]) ++ r →
    ∃ init last s' c', init.flatten ++ last = w ++ [0x0D] ∧ last ≠ [] ∧ content s' = r ∧
      init.length ≤ w.length ∧
      ∀ m, recvs t (init.length + 1 + m) s c = (init ++ [last]).map .ok ++ recvs t m s' c' := by
  suffices H : ∀ k, ∀ w : Bytes, w.length = k → 0x0D ∉ w → ∀ (s : List Delivery) (c : Clock),
      content s = bytesOnly (w ++ [0x0D]) ++ r →
      ∃ init last s' c', init.flatten ++ last = w ++ [0x0D] ∧ last ≠ [] ∧ content s' = r ∧
        init.length ≤ w.length ∧
        ∀ m, recvs t (init.length + 1 + m) s c = (init ++ [last]).map .ok ++ recvs t m s' c' from
    H _ w rfl hw
  intro k
  induction k using Nat.strongRecOn with
  | _ k ih =>
    intro w hk hw s c hs
    have hmem : ∀ (bs : Bytes) (x : List Item), bytesOnly bs ++ x = bytesOnly (w ++ [0x0D]) ++ r →
        (w ++ [0x0D]).length ≤ bs.length → 0x0D ∈ bs := by
      intro bs x hx hlen
      have : bytesOnly (w ++ [0x0D]) <+: bytesOnly bs := by
        refine List.prefix_of_prefix_length_le (l₃ := bytesOnly bs ++ x) ?_ (List.prefix_append _ _) ?_
        · rw [hx]; exact List.prefix_append _ _
        · simpa [bytesOnly] using hlen
      obtain ⟨y, hy⟩ := this
      have : Item.byte 0x0D ∈ bytesOnly bs := by rw [← hy]; simp [bytesOnly]
      simpa [bytesOnly] using this
    rcases C47_recv_cases t h ht s c with ⟨bs, s', c', g1, g2, g3, g4, _⟩ | ⟨bs, e, s', c', g1, g2, g3⟩ |
      ⟨bs, s', c', g1, g2, g3, g4⟩
    · have hlen : bs.length ≤ (w ++ [0x0D]).length := by
        apply Nat.le_of_not_lt
        intro hlt
        apply g4
        have hd : bs = bs.dropLast ++ [bs.getLast g3] := (List.dropLast_concat_getLast g3).symm
        refine hmem bs.dropLast (bytesOnly [bs.getLast g3] ++ content s') ?_ ?_
        · rw [← List.append_assoc]
          have : bytesOnly bs.dropLast ++ bytesOnly [bs.getLast g3] = bytesOnly bs := by
            rw [bytesOnly, bytesOnly, ← List.map_append, ← hd]; rfl
          rw [this, ← g2, hs]
        · rw [List.length_dropLast]; omega
      have hpre : bytesOnly bs <+: bytesOnly (w ++ [0x0D]) := by
        refine List.prefix_of_prefix_length_le (l₃ := content s) (by rw [g2]; exact List.prefix_append _ _)
          (by rw [hs]; exact List.prefix_append _ _) ?_
        simpa [bytesOnly] using hlen
      have hbs : bs <+: w ++ [0x0D] := by
        rw [List.prefix_iff_eq_take] at hpre ⊢
        apply bytesOnly_inj
        rw [hpre]
        simp [bytesOnly, List.map_take]
      obtain ⟨q, hq⟩ := hbs
      have hcont : content s' = bytesOnly q ++ r := by
        rw [g2, ← hq, bytesOnly, bytesOnly, List.map_append, List.append_assoc] at hs
        exact List.append_cancel_left hs
      rcases eq_nil_or_snoc q with rfl | ⟨w', x, rfl⟩
      · refine ⟨[], bs, s', c', by simpa using hq, g3, by simpa [bytesOnly] using hcont, by simp, fun m => ?_⟩
        rw [show ([] : List Bytes).length + 1 + m = m + 1 by simp; omega]
        rw [recvs, g1]
        rfl
      · rw [← List.append_assoc] at hq
        obtain ⟨hq1, hq2⟩ := List.append_inj' hq rfl
        have hx : x = 0x0D := by simpa using hq2
        rw [hx] at hcont
        have hlt : w'.length < k := by
          rw [← hk, ← hq1, List.length_append]
          have := List.length_pos_iff.2 g3
          omega
        obtain ⟨init, last, s2, c2, k1, k2, k3, k4, k5⟩ := ih w'.length hlt w' rfl
          (fun hm => hw (by rw [← hq1]; simp [hm])) s' c' hcont
        refine ⟨bs :: init, last, s2, c2, ?_, k2, k3, ?_, fun m => ?_⟩
        · rw [List.flatten_cons, List.append_assoc, k1, ← List.append_assoc, hq1]
        · have := List.length_pos_iff.2 g3
          rw [← hq1, List.length_append, List.length_cons]; omega
        · have : (bs :: init).length + 1 + m = (init.length + 1 + m) + 1 := by simp; omega
          rw [this, recvs, g1]
          dsimp only
          rw [k5 m]
          rfl
    · exfalso
      by_cases hlen : (w ++ [0x0D]).length ≤ bs.length
      · exact g3 (hmem bs _ (by rw [← g2, hs]) hlen)
      · have h1 := congrArg (fun l => l[bs.length]?) (g2.symm.trans hs)
        simp only [bytesOnly] at h1
        rw [List.getElem?_append_right (by simp), List.getElem?_append_left (by simpa using hlen)] at h1
        simp only [List.length_map, Nat.sub_self, List.getElem?_cons_zero, List.getElem?_map] at h1
        rw [List.getElem?_eq_getElem (by omega)] at h1
        cases h1
    · exfalso
      refine g4 (hmem bs [] (by rw [List.append_nil, ← g2, hs]) ?_)
      have := congrArg List.length (g2.symm.trans hs)
      simp [bytesOnly] at this ⊢
      omega

theorem response_nonempty {C : BlockCipher} {cc : Option CipherContext} {w : Bytes} {pdu : Event}
    (h : Response C cc (w ++ [0x0D]) pdu) : w ≠ [] := by
  rintro rfl
  obtain ⟨w', svc, data, h1, _, h3, _⟩ := h
  obtain ⟨raw, enc, f, g1, g2, _⟩ := h3
  have e1 : returnCharacters ([] ++ [0x0D]) = .ok [0x0D] := by decide +kernel
  rw [e1] at g1
  cases g1
  have e2 : ∀ x, responseFactory [0x0D] ≠ .ok x := by
    have : (responseFactory [0x0D]).isOk = false := by decide +kernel
    intro x hx
    rw [hx] at this
    cases this
  exact e2 _ g2

theorem exchange_link (C : BlockCipher) (t : Transport) (h : Handle) (ht : t.socket = some h) (conn : Conn)
    (hr : Ready conn) (e : Event) (w : Bytes) (pdu : Event) (hw : 0x0D ∉ w)
    (hresp : Response C conn.cipherContext (w ++ [0x0D]) pdu) (hfits : responseOf e.type = some pdu.type)
    (s : List Delivery) (c : Clock) (r : List Item) (hs : content s = bytesOnly (w ++ [0x0D]) ++ r) :
    ∃ n s' c', 1 ≤ n ∧ n ≤ w.length + 1 ∧ content s' = r ∧ ∀ m (sys : Sys) req ss, sys.conn = conn →
      (conn.send C e (sys.rands sys.draws)).2 = .ok req → sys.sends = .ok () :: ss →
      sys.recvs = recvs t (n + m) s c →
      sys.exchange C e = (.returned pdu,
        { sys with sends := ss, recvs := recvs t m s' c', draws := sys.draws + 1,
                   handed := sys.handed ++ [req] }) := by
  obtain ⟨init, last, s', c', h1, h2, h3, h4, h5⟩ := line_pieces t h ht w hw r s c hs
  refine ⟨init.length + 1, s', c', by omega, by omega, h3, fun m sys req ss hconn hsend hss hm => ?_⟩
  subst hconn
  rw [C52_exchange_iff C sys _ e pdu (isRequest_of hfits) hr]
  obtain ⟨g1, g2⟩ := gathered_line init last w h2 (response_nonempty hresp) hw [] last h2 (by simp) h1
  exact ⟨req, hsend, hss, ⟨init, last, w, [], by rw [hm, h5], g1, g2, hw, hresp⟩, hfits, rfl, rfl, rfl, rfl, rfl⟩

/-- C67. The client on a connected TCP or serial transport: if the stream goes on with a response to the
request, cut into segments and interrupted by empty reads in any way, then whatever the timeout of the
transport and the clock, the request is written once, the response is returned, and exactly the bytes of
the response have been taken from the stream.  The timeout has no influence. -/
theorem C67_exchange (C : BlockCipher) (t : Transport) (h : Handle) (ht : t.socket = some h) (sys : Sys)
    (hr : Ready sys.conn) (e : Event) (req : Bytes)
    (hsend : (sys.conn.send C e (sys.rands sys.draws)).2 = .ok req) (ss : List (Res Unit))
    (hss : sys.sends = .ok () :: ss) (w : Bytes) (pdu : Event) (hw : 0x0D ∉ w)
    (hresp : Response C sys.conn.cipherContext (w ++ [0x0D]) pdu) (hfits : responseOf e.type = some pdu.type)
    (s : List Delivery) (c : Clock) (r : List Item) (hs : content s = bytesOnly (w ++ [0x0D]) ++ r) :
    ∃ n s' c', 1 ≤ n ∧ n ≤ w.length + 1 ∧ content s' = r ∧ ∀ m, sys.recvs = recvs t (n + m) s c →
      sys.exchange C e = (.returned pdu,
        { sys with sends := ss, recvs := recvs t m s' c', draws := sys.draws + 1,
                   handed := sys.handed ++ [req] }) := by
  obtain ⟨n, s', c', h1, h2, h3, h4⟩ := exchange_link C t h ht sys.conn hr e w pdu hw hresp hfits s c r hs
  exact ⟨n, s', c', h1, h2, h3, fun m hm => h4 m sys req ss rfl hsend hss hm⟩

/-- One request, the line (without end character) that answers it and what this line means. -/
structure Answered where
  request : Event
  line : Bytes
  pdu : Event

/-- C67. Any number of exchanges, one after the other, over one stream: if the stream consists of the
responses to the requests in order, every request is answered with its own response, none is lost or
taken for another one, and the client ends ready with exactly these bytes taken from the stream. -/
theorem C67_exchanges (C : BlockCipher) (t : Transport) (h : Handle) (ht : t.socket = some h) (conn : Conn)
    (hr : Ready conn) (xs : List Answered)
    (hsend : ∀ x ∈ xs, ∀ rand, ∃ req, (conn.send C x.request rand).2 = .ok req)
    (hx : ∀ x ∈ xs, 0x0D ∉ x.line ∧ Response C conn.cipherContext (x.line ++ [0x0D]) x.pdu ∧
      responseOf x.request.type = some x.pdu.type)
    (s : List Delivery) (c : Clock) (r : List Item)
    (hs : content s = bytesOnly (xs.map fun x => x.line ++ [0x0D]).flatten ++ r) :
    ∃ n s' c', content s' = r ∧ ∀ m (sys : Sys) ss, sys.conn = conn →
      sys.sends = List.replicate xs.length (.ok ()) ++ ss → sys.recvs = recvs t (n + m) s c →
      ∃ sys', exchanges C sys (xs.map (·.request)) = (xs.map fun x => .returned x.pdu, sys') ∧
        sys'.conn = conn ∧ sys'.sends = ss ∧ sys'.recvs = recvs t m s' c' ∧
        sys'.handed.length = sys.handed.length + xs.length := by
  induction xs generalizing s c with
  | nil =>
    refine ⟨0, s, c, by simpa [bytesOnly] using hs, fun m sys ss hc hss hm =>
      ⟨sys, rfl, hc, by simpa using hss, ?_, rfl⟩⟩
    rw [hm, Nat.zero_add]
  | cons x xs ih =>
    obtain ⟨h1, h2, h3⟩ := hx x (by simp)
    obtain ⟨n1, s1, c1, _, _, g1, g2⟩ := exchange_link C t h ht conn hr x.request x.line x.pdu h1 h2 h3 s c
      (bytesOnly (xs.map fun x => x.line ++ [0x0D]).flatten ++ r) (by rw [hs]; simp [bytesOnly])
    obtain ⟨n2, s2, c2, k1, k2⟩ := ih (fun y hy => hsend y (by simp [hy])) (fun y hy => hx y (by simp [hy])) s1 c1 g1
    refine ⟨n1 + n2, s2, c2, k1, fun m sys ss hc hss hm => ?_⟩
    obtain ⟨req, hreq⟩ := hsend x (by simp) (sys.rands sys.draws)
    have he := g2 (n2 + m) sys req (List.replicate xs.length (.ok ()) ++ ss) hc hreq (by rw [hss]; rfl)
      (by rw [hm, Nat.add_assoc])
    obtain ⟨sys', j1, j2, j3, j4, j5⟩ := k2 m _ ss
      (show ({ sys with sends := List.replicate xs.length (.ok ()) ++ ss, recvs := recvs t (n2 + m) s1 c1,
                        draws := sys.draws + 1, handed := sys.handed ++ [req] } : Sys).conn = conn from hc) rfl rfl
    refine ⟨sys', ?_, j2, j3, j4, ?_⟩
    · show ((sys.exchange C x.request).1 :: (exchanges C (sys.exchange C x.request).2 _).1,
        (exchanges C (sys.exchange C x.request).2 _).2) = _
      rw [he]
      dsimp only
      rw [j1]
      rfl
    · rw [j5]
      simp
      omega

/-- Two exchanges over a stream cut into segments in the middle of the responses, with a transport whose
timeout is 0 (so that every `recv()` returns one byte). -/
example : ∃ s', exchanges idCipher
    (exSys 2 (recvs { kind := .tcp, timeout := some 0, socket := some 1 } 60
      [.seg ((exWire .readDeviceTime [0x00, 0x30, 0x12, 0x01, 0x01, 0x20, 0x00, 0x00, 0x00]).take 5), .seg [],
       .seg ((exWire .readDeviceTime [0x00, 0x30, 0x12, 0x01, 0x01, 0x20, 0x00, 0x00, 0x00]).drop 5 ++
        exWire .writeDeviceTime [])] exClock))
    [.readTimeRequest {}, .writeTimeRequest ⟨"000000".toList, ⟨2020, 1, 1, 12, 30, 0, 0⟩, false⟩] =
    ([.returned (.readTimeResponse ⟨⟨2020, 1, 1, 12, 30, 0, 0⟩, [0], false, false, []⟩), .returned (.writeTimeResponse {})], s') :=
  ⟨_, prod_fst (by decide +kernel)⟩

end Elgas
