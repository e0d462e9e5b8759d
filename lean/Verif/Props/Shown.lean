import Verif.Props.ReadBack
import Verif.Props.Texts
import Verif.Props.Damage
import Verif.Spec.Shown
/-!
C110: what is printed of an object tells everything about it but its secrets.
-/
namespace Elgas
open Spec

/-- What may follow a value inside an object: nothing, `,` or `)`. -/
def Closes (r : PyStr) : Prop := ∀ c ∈ r.head?, c = ',' ∨ c = ')'

theorem closes_nil : Closes [] := fun _ h => by cases h
theorem closes_comma (r : PyStr) : Closes (',' :: r) := fun c h => by cases h; exact .inl rfl
theorem closes_paren (r : PyStr) : Closes (')' :: r) := fun c h => by cases h; exact .inr rfl

theorem closes_noDigit {r : PyStr} (h : Closes r) : NoDigit r := by
  intro c hc
  rcases h c hc with rfl | rfl <;> decide

/-- A text without `,` and `)`. -/
def Inside (s : PyStr) : Prop := ∀ c ∈ s, c ≠ ',' ∧ c ≠ ')'

instance (s : PyStr) : Decidable (Inside s) := by unfold Inside; infer_instance

theorem inside_peel {s s' r r' : PyStr} (hs : Inside s) (hs' : Inside s') (hr : Closes r) (hr' : Closes r')
    (h : s ++ r = s' ++ r') : s = s' ∧ r = r' := by
  induction s generalizing s' with
  | nil =>
    cases s' with
    | nil => exact ⟨rfl, h⟩
    | cons c s' =>
      have h : r = c :: (s' ++ r') := h
      have := hs' c List.mem_cons_self
      rcases hr c (by rw [h]; rfl) with h' | h'
      · exact absurd h' this.1
      · exact absurd h' this.2
  | cons c s ih =>
    cases s' with
    | nil =>
      have h : c :: (s ++ r) = r' := h
      have := hs c List.mem_cons_self
      rcases hr' c (by rw [← h]; rfl) with h' | h'
      · exact absurd h' this.1
      · exact absurd h' this.2
    | cons c' s' =>
      simp only [List.cons_append, List.cons.injEq] at h
      obtain ⟨h1, h2⟩ := h
      obtain ⟨h3, h4⟩ := ih (fun c hc => hs c (List.mem_cons_of_mem _ hc))
        (fun c hc => hs' c (List.mem_cons_of_mem _ hc)) h2
      exact ⟨by rw [h1, h3], h4⟩

/-- Texts up to a character that neither contains. -/
theorem upto_peel {x : Char} {s s' r r' : PyStr} (hs : x ∉ s) (hs' : x ∉ s') (h : s ++ x :: r = s' ++ x :: r') :
    s = s' ∧ r = r' := by
  induction s generalizing s' with
  | nil =>
    cases s' with
    | nil => exact ⟨rfl, (List.cons.inj h).2⟩
    | cons c s' => exact absurd (by rw [(List.cons.inj h).1]; exact List.mem_cons_self) hs'
  | cons c s ih =>
    cases s' with
    | nil => exact absurd (by rw [← (List.cons.inj h).1]; exact List.mem_cons_self) hs
    | cons c' s' =>
      simp only [List.cons_append, List.cons.injEq] at h
      obtain ⟨h1, h2⟩ := h
      obtain ⟨h3, h4⟩ := ih (fun h => hs (List.mem_cons_of_mem _ h)) (fun h => hs' (List.mem_cons_of_mem _ h)) h2
      exact ⟨by rw [h1, h3], h4⟩

theorem bytes_peel {b b' : Bytes} {r r' : PyStr} (h : bytesRepr b ++ r = bytesRepr b' ++ r') : b = b' ∧ r = r' := by
  have h1 := C95_bytes b r
  rw [h, C95_bytes b' r'] at h1
  simp only [Option.some.injEq, Prod.mk.injEq] at h1
  exact ⟨h1.1.symm, h1.2.symm⟩

theorem bytearray_peel {b b' : Bytes} {r r' : PyStr} (h : bytearrayRepr b ++ r = bytearrayRepr b' ++ r') :
    b = b' ∧ r = r' := by
  have h1 := C95_bytearray b r
  rw [h, C95_bytearray b' r'] at h1
  simp only [Option.some.injEq, Prod.mk.injEq] at h1
  exact ⟨h1.1.symm, h1.2.symm⟩

theorem paren_noDigit (r : PyStr) : NoDigit (')' :: r) := closes_noDigit (closes_paren r)

theorem numbers_peel (l : List Nat) : ∀ (l' : List Nat) (r r' : PyStr), l ≠ [] → l' ≠ [] →
    (", ".toList).intercalate (l.map fun (n : Nat) => pyStrInt n) ++ ')' :: r =
      (", ".toList).intercalate (l'.map fun (n : Nat) => pyStrInt n) ++ ')' :: r' → l = l' ∧ r = r' := by
  induction l with
  | nil => intro l' r r' h; exact absurd rfl h
  | cons n l ih =>
    intro l' r r' _ hl' h
    cases l' with
    | nil => exact absurd rfl hl'
    | cons n' l' =>
      cases l with
      | nil =>
        cases l' with
        | nil =>
          simp only [List.map_cons, List.map_nil, List.intercalate, List.intersperse_singleton, List.flatten_cons,
            List.flatten_nil, List.append_nil] at h
          obtain ⟨h1, h2⟩ := int_peel (paren_noDigit _) (paren_noDigit _) h
          exact ⟨by rw [Int.ofNat.inj h1], (List.cons.inj h2).2⟩
        | cons m' l' =>
          simp only [List.map_cons, List.map_nil, List.intercalate, List.intersperse_singleton, List.flatten_cons,
            List.flatten_nil, List.append_nil, List.intersperse_cons_cons, List.append_assoc] at h
          obtain ⟨h1, h2⟩ := int_peel (paren_noDigit _) (comma_noDigit _) h
          exact absurd (List.cons.inj h2).1 (by decide)
      | cons m l =>
        cases l' with
        | nil =>
          simp only [List.map_cons, List.map_nil, List.intercalate, List.intersperse_singleton, List.flatten_cons,
            List.flatten_nil, List.append_nil, List.intersperse_cons_cons, List.append_assoc] at h
          obtain ⟨h1, h2⟩ := int_peel (comma_noDigit _) (paren_noDigit _) h
          exact absurd (List.cons.inj h2).1 (by decide)
        | cons m' l' =>
          simp only [List.map_cons, List.intercalate, List.flatten_cons, List.intersperse_cons_cons,
            List.append_assoc] at h
          obtain ⟨h1, h2⟩ := int_peel (comma_noDigit _) (comma_noDigit _) h
          have h2 := List.append_cancel_left (as := ", ".toList) h2
          obtain ⟨h3, h4⟩ := ih (m' :: l') r r' (by simp) (by simp) (by
            simpa only [List.map_cons, List.intercalate] using h2)
          exact ⟨by rw [Int.ofNat.inj h1, h3], h4⟩

theorem datetime_peel {t t' : DateTime} {r r' : PyStr} (h : datetimeRepr t ++ r = datetimeRepr t' ++ r') :
    t = t' ∧ r = r' := by
  unfold datetimeRepr at h
  simp only [List.append_assoc, List.singleton_append] at h
  have h := List.append_cancel_left h
  obtain ⟨h1, h2⟩ := numbers_peel _ _ _ _ (by simp) (by simp) h
  refine ⟨?_, h2⟩
  obtain ⟨y, mo, d, hh, mi, s, us⟩ := t
  obtain ⟨y', mo', d', hh', mi', s', us'⟩ := t'
  simp only [List.cons_append, List.nil_append, List.cons.injEq] at h1
  clear h
  obtain ⟨rfl, rfl, rfl, rfl, rfl, hz⟩ := h1
  have : s = s' ∧ us = us' := by
    by_cases h1 : us = 0 <;> by_cases h2 : us' = 0 <;> by_cases h3 : s = 0 <;> by_cases h4 : s' = 0 <;>
      simp [h1, h2, h3, h4] at hz ⊢ <;> first | exact hz | omega
  rw [this.1, this.2]

mutual
/-- Two values of the same make: they differ at most in their leaves, or where one is `None`. -/
inductive Kin : PyVal → PyVal → Prop
  | same (v : PyVal) : Kin v v
  | noneOther (v : PyVal) : (∀ p stack, "__repr__" ∈ stack → ∃ d l, v.repr p stack = d :: l ∧ d ≠ 'N') → Kin .none v
  | otherNone (v : PyVal) : (∀ p stack, "__repr__" ∈ stack → ∃ d l, v.repr p stack = d :: l ∧ d ≠ 'N') → Kin v .none
  | bool (b b' : Bool) : Kin (.bool b) (.bool b')
  | int (n n' : Int) : Kin (.int n) (.int n')
  | str (s s' : PyStr) : Kin (.str s) (.str s')
  | bytes (b b' : Bytes) : Kin (.bytes b) (.bytes b')
  | bytearray (b b' : Bytes) : Kin (.bytearray b) (.bytearray b')
  | datetime (t t' : DateTime) : Kin (.datetime t) (.datetime t')
  | member (cls n n' : String) (v v' : Nat) : ':' ∉ n.toList → ':' ∉ n'.toList → Kin (.member cls n v) (.member cls n' v')
  | sentinel (n n' : String) : Inside n.toList → Inside n'.toList → Kin (.sentinel n) (.sentinel n')
  | foreign (t t' : PyStr) : Inside t → Inside t' → Kin (.foreign t) (.foreign t')
  | secretStr (s s' : PyStr) : Kin (.secretStr s) (.secretStr s')
  | secretBytes (b b' : Bytes) : Kin (.secretBytes b) (.secretBytes b')
  | obj (cls : String) (as as' : Attrs) : KinAttrs as as' → Kin (.obj cls as) (.obj cls as')
inductive KinAttrs : Attrs → Attrs → Prop
  | nil : KinAttrs .nil .nil
  | cons (name : String) (v v' : PyVal) (as as' : Attrs) : Kin v v' → KinAttrs as as' →
    KinAttrs (.cons name v as) (.cons name v' as')
end

mutual
theorem kin_peel (p : Printing) (stack : List String) (hin : "__repr__" ∈ stack) {v v' : PyVal} (h : Kin v v')
    {r r' : PyStr} (hr : Closes r) (hr' : Closes r') (he : v.repr p stack ++ r = v'.repr p stack ++ r') :
    censored v = censored v' ∧ r = r' := by
  match h with
  | .same v => exact ⟨rfl, List.append_cancel_left he⟩
  | .noneOther v hv =>
    obtain ⟨d, l, h1, h2⟩ := hv p stack hin
    rw [h1] at he
    exact absurd (List.cons.inj he).1.symm h2
  | .otherNone v hv =>
    obtain ⟨d, l, h1, h2⟩ := hv p stack hin
    rw [h1] at he
    exact absurd (List.cons.inj he).1 h2
  | .bool b b' =>
    cases b <;> cases b'
    · exact ⟨rfl, List.append_cancel_left he⟩
    · exact absurd (List.cons.inj he).1 (by decide)
    · exact absurd (List.cons.inj he).1 (by decide)
    · exact ⟨rfl, List.append_cancel_left he⟩
  | .int n n' =>
    obtain ⟨h1, h2⟩ := int_peel (closes_noDigit hr) (closes_noDigit hr') he
    exact ⟨by rw [h1], h2⟩
  | .str s s' =>
    obtain ⟨h1, h2⟩ := strRepr_peel he
    exact ⟨by rw [h1], h2⟩
  | .bytes b b' =>
    obtain ⟨h1, h2⟩ := bytes_peel he
    exact ⟨by rw [h1], h2⟩
  | .bytearray b b' =>
    obtain ⟨h1, h2⟩ := bytearray_peel he
    exact ⟨by rw [h1], h2⟩
  | .datetime t t' =>
    obtain ⟨h1, h2⟩ := datetime_peel he
    exact ⟨by rw [h1], h2⟩
  | .member cls n n' v v' hn hn' =>
    simp only [PyVal.repr, List.append_assoc] at he
    have he := List.append_cancel_left (List.append_cancel_left (List.append_cancel_left he))
    obtain ⟨h1, h2⟩ := upto_peel hn hn' he
    have h2 := (List.cons.inj h2).2
    obtain ⟨h3, h4⟩ := int_peel (fun c h => by cases h; rfl) (fun c h => by cases h; rfl) h2
    exact ⟨by rw [String.toList_inj.1 h1, Int.ofNat.inj h3], (List.cons.inj h4).2⟩
  | .sentinel n n' hn hn' =>
    obtain ⟨h1, h2⟩ := inside_peel hn hn' hr hr' he
    exact ⟨by rw [String.toList_inj.1 h1], h2⟩
  | .foreign t t' ht ht' =>
    obtain ⟨h1, h2⟩ := inside_peel ht ht' hr hr' he
    exact ⟨by rw [h1], h2⟩
  | .secretStr s s' =>
    simp only [PyVal.repr, secretRepr_inside hin] at he
    exact ⟨rfl, List.append_cancel_left he⟩
  | .secretBytes s s' =>
    simp only [PyVal.repr, secretRepr_inside hin] at he
    exact ⟨rfl, List.append_cancel_left he⟩
  | .obj cls as as' ha =>
    simp only [PyVal.repr, List.append_assoc] at he
    have he := List.append_cancel_left (List.append_cancel_left he)
    obtain ⟨h1, h2⟩ := kinAttrs_peel p ("__repr__" :: stack) List.mem_cons_self ha (closes_paren r) (closes_paren r') he
    exact ⟨by simp only [censored, h1], (List.cons.inj h2).2⟩
theorem kinAttrs_peel (p : Printing) (stack : List String) (hin : "__repr__" ∈ stack) {as as' : Attrs}
    (h : KinAttrs as as') {r r' : PyStr} (hr : Closes r) (hr' : Closes r')
    (he : as.repr p stack ++ r = as'.repr p stack ++ r') : censoredAttrs as = censoredAttrs as' ∧ r = r' := by
  match h with
  | .nil => exact ⟨rfl, he⟩
  | .cons name v v' as as' hv ha =>
    match ha with
    | .nil =>
      simp only [Attrs.repr, List.append_assoc] at he
      have he := List.append_cancel_left (List.append_cancel_left he)
      obtain ⟨h1, h2⟩ := kin_peel p stack hin hv hr hr' he
      exact ⟨by simp only [censoredAttrs, h1], h2⟩
    | .cons name2 w w' bs bs' hw hb =>
      simp only [Attrs.repr, List.append_assoc] at he
      have he := List.append_cancel_left (List.append_cancel_left he)
      obtain ⟨h1, h2⟩ := kin_peel p stack hin hv (closes_comma _) (closes_comma _) he
      have h2 := List.append_cancel_left (as := [',', ' ']) h2
      obtain ⟨h3, h4⟩ := kinAttrs_peel p stack hin (.cons name2 w w' bs bs' hw hb) hr hr' h2
      exact ⟨by rw [censoredAttrs, h1, h3]; rfl, h4⟩
end
/-! ### Requests, responses and frames -/

theorem service_colon (s : ServiceNumber) : ':' ∉ s.name.toList := by cases s <;> decide +kernel
theorem archive_colon (a : Archive) : ':' ∉ a.name.toList := by cases a <;> decide +kernel
theorem protocol_colon (a : Protocol) : ':' ∉ a.name.toList := by cases a <;> decide +kernel
theorem pstate_inside (s : PState) : Inside s.name.toList := by cases s <;> decide +kernel
theorem service_value {s s' : ServiceNumber} (h : s.value = s'.value) : s = s' := by
  cases s <;> cases s' <;> first | rfl | (exact absurd h (by decide))
theorem archive_value {s s' : Archive} (h : s.value = s'.value) : s = s' := by
  cases s <;> cases s' <;> first | rfl | (exact absurd h (by decide))
theorem protocol_value {s s' : Protocol} (h : s.value = s'.value) : s = s' := by
  cases s <;> cases s' <;> first | rfl | (exact absurd h (by decide))
theorem pstate_name {s s' : PState} (h : s.name = s'.name) : s = s' := by
  cases s <;> cases s' <;> first | rfl | (exact absurd h (by decide))

theorem obj_class {p : Printing} {stack : List String} {cls cls' : String} {as as' : Attrs} (h : '(' ∉ cls.toList)
    (h' : '(' ∉ cls'.toList) (he : (PyVal.obj cls as).repr p stack = (PyVal.obj cls' as').repr p stack) : cls = cls' := by
  simp only [PyVal.repr, List.append_assoc] at he
  exact String.toList_inj.1 (upto_peel h h' he).1

theorem obj_same {p : Printing} {stack : List String} {cls : String} {as as' : Attrs} (hk : KinAttrs as as')
    (he : (PyVal.obj cls as).repr p stack = (PyVal.obj cls as').repr p stack) : censoredAttrs as = censoredAttrs as' := by
  simp only [PyVal.repr, List.append_assoc] at he
  have he := List.append_cancel_left (List.append_cancel_left he)
  exact (kinAttrs_peel p ("__repr__" :: stack) List.mem_cons_self hk (closes_paren _) (closes_paren _) he).1

theorem kin_object {p : Printing} {stack : List String} {v v' : PyVal} (hk : Kin v v') (hv : ∃ c a, v = .obj c a)
    (hv' : ∃ c a, v' = .obj c a) (he : v.repr p stack = v'.repr p stack) : censored v = censored v' := by
  cases hk with
  | same v => rfl
  | obj cls as as' ha => exact congrArg (PyVal.obj cls) (obj_same ha he)
  | _ => first | (obtain ⟨_, _, h⟩ := hv; cases h; done) | (obtain ⟨_, _, h⟩ := hv'; cases h; done)

theorem archives_iff {p : Printing} (hp : ArchivesPrint p) (n n' : Int) : p.archive n = p.archive n' ↔ n = n' :=
  ⟨hp.distinct n n', fun h => by rw [h]⟩

theorem archive_iff (a a' : Archive) : (a.name = a'.name ∧ a.value = a'.value) ↔ a = a' :=
  ⟨fun h => archive_value h.2, fun h => by rw [h]; exact ⟨rfl, rfl⟩⟩
theorem protocol_iff (a a' : Protocol) : (a.name = a'.name ∧ a.value = a'.value) ↔ a = a' :=
  ⟨fun h => protocol_value h.2, fun h => by rw [h]; exact ⟨rfl, rfl⟩⟩
theorem service_iff (a a' : ServiceNumber) : (a.name = a'.name ∧ a.value = a'.value) ↔ a = a' :=
  ⟨fun h => service_value h.2, fun h => by rw [h]; exact ⟨rfl, rfl⟩⟩

macro "kin" : tactic => `(tactic| (
  try simp only [Attrs.of, archiveVal, serviceVal, passwordVal]
  repeat' first
    | exact KinAttrs.nil | exact Kin.bool _ _ | exact Kin.int _ _ | exact Kin.str _ _ | exact Kin.bytes _ _
    | exact Kin.bytearray _ _ | exact Kin.datetime _ _ | exact Kin.secretStr _ _ | exact Kin.secretBytes _ _
    | exact Kin.same _
    | exact Kin.member _ _ _ _ _ (archive_colon _) (archive_colon _)
    | exact Kin.member _ _ _ _ _ (service_colon _) (service_colon _)
    | exact Kin.member _ _ _ _ _ (protocol_colon _) (protocol_colon _)
    | exact Kin.sentinel _ _ (pstate_inside _) (pstate_inside _)
    | exact Kin.foreign _ _ (ArchivesPrint.inside (by assumption) _) (ArchivesPrint.inside (by assumption) _)
    | refine KinAttrs.cons _ _ _ _ _ ?_ ?_))

theorem eventVal_class (p : Printing) (secret : Bool) (e : Event) :
    ∃ as, eventVal p secret e = .obj (eventClass e.type) as ∧ '(' ∉ (eventClass e.type).toList := by
  have h : '(' ∉ (eventClass e.type).toList := by
    generalize e.type = x
    cases x <;> decide +kernel
  cases e <;> exact ⟨_, rfl, h⟩

theorem eventClass_inj {x x' : EventType} (h : eventClass x = eventClass x') : x = x' := by
  cases x <;> cases x' <;> first | rfl | (exact absurd h (by decide +kernel))

theorem event_type {p : Printing} {stack : List String} {secret secret' : Bool} {e e' : Event}
    (he : (eventVal p secret e).repr p stack = (eventVal p secret' e').repr p stack) : e.type = e'.type := by
  obtain ⟨as, h1, h2⟩ := eventVal_class p secret e
  obtain ⟨as', h1', h2'⟩ := eventVal_class p secret' e'
  rw [h1, h1'] at he
  exact eventClass_inj (obj_class h2 h2' he)

theorem event_shown {p : Printing} (hp : ArchivesPrint p) {stack : List String} {secret : Bool} {e e' : Event}
    (he : (eventVal p secret e).repr p stack = (eventVal p secret e').repr p stack) :
    censored (eventVal p secret e) = censored (eventVal p secret e') := by
  have ht := event_type he
  cases e <;> cases e' <;> first | (simp only [Event.type, reduceCtorEq] at ht; done) | skip
  all_goals
    refine congrArg (PyVal.obj _) (obj_same ?_ he)
    cases secret <;> kin

theorem event_secret_same {p : Printing} (hp : ArchivesPrint p) {e e' : Event} (ht : e.type = e'.type)
    (hc : censored (eventVal p true e) = censored (eventVal p true e')) : withPassword e [] = withPassword e' [] := by
  cases e <;> cases e' <;> first | (simp only [Event.type, reduceCtorEq] at ht; done) | skip
  all_goals
    clear ht
    rename_i q q'
    obtain ⟨⟩ := q
    obtain ⟨⟩ := q'
    simp [eventVal, censored, censoredAttrs, Attrs.of, passwordVal, archiveVal, archives_iff hp, archive_iff,
      protocol_iff, Int.natCast_inj] at hc
    simp [withPassword, ← UInt8.toNat_inj]
    try simp [hc]

theorem event_plain_same {p : Printing} (hp : ArchivesPrint p) {e e' : Event} (ht : e.type = e'.type)
    (hc : censored (eventVal p false e) = censored (eventVal p false e')) : e = e' := by
  cases e <;> cases e' <;> first | (simp only [Event.type, reduceCtorEq] at ht; done) | skip
  all_goals
    clear ht
    rename_i q q'
    obtain ⟨⟩ := q
    obtain ⟨⟩ := q'
    simp [eventVal, censored, censoredAttrs, Attrs.of, passwordVal, archiveVal, archives_iff hp, archive_iff,
      protocol_iff, Int.natCast_inj] at hc
    simp [← UInt8.toNat_inj]
    try simp [hc]

/-- C110. Two requests or responses whose passwords are kept secret print the same text exactly if they are the same but
for the password. -/
theorem C110_secret (p : Printing) (hp : ArchivesPrint p) (stack : List String) (e e' : Event) :
    (eventVal p true e).repr p stack = (eventVal p true e').repr p stack ↔ withPassword e [] = withPassword e' [] := by
  constructor
  · intro he
    exact event_secret_same hp (event_type he) (event_shown hp he)
  · intro h
    rw [← C75_requests p stack e [], ← C75_requests p stack e' [], h]

/-- C110. Two requests or responses without secrets print the same text exactly if they are the same. -/
theorem C110_plain (p : Printing) (hp : ArchivesPrint p) (stack : List String) (e e' : Event) :
    (eventVal p false e).repr p stack = (eventVal p false e').repr p stack ↔ e = e' :=
  ⟨fun he => event_plain_same hp (event_type he) (event_shown hp he), fun h => by rw [h]⟩

/-- C110. Two frames print the same text exactly if they are of the same class, and equal. -/
theorem C110_frame (p : Printing) (stack : List String) (k k' : FrameClass) (f f' : Frame) :
    (printedFrame k f).repr p stack = (printedFrame k' f').repr p stack ↔ k = k' ∧ f = f' := by
  constructor
  · intro he
    cases k <;> cases k' <;>
      first
      | (exact absurd (obj_class (by decide) (by decide) he) (by decide))
      | (refine ⟨rfl, ?_⟩
         have hc := obj_same ?_ he
         · obtain ⟨⟩ := f
           obtain ⟨⟩ := f'
           simp [censored, censoredAttrs, Attrs.of, serviceVal, service_iff] at hc
           simp [hc]
         · kin)
  · rintro ⟨rfl, rfl⟩; rfl

theorem kin_optInt (n n' : Option Int) : Kin (optVal .int n) (optVal .int n') := by
  cases n <;> cases n'
  · exact .same _
  · exact .noneOther _ fun p stack _ => pyStrInt_head _
  · exact .otherNone _ fun p stack _ => pyStrInt_head _
  · exact .int _ _

theorem kin_optKey (k k' : Option Bytes) : Kin (optVal (keyVal true) k) (optVal (keyVal true) k') := by
  have h : ∀ b p stack, "__repr__" ∈ stack → ∃ d l, (keyVal true b).repr p stack = d :: l ∧ d ≠ 'N' := by
    intro b p stack hin
    refine ⟨'<', "SECRET>".toList, ?_, by decide⟩
    simp only [keyVal, if_true, PyVal.repr, secretRepr_inside hin]
    decide
  cases k <;> cases k'
  · exact .same _
  · exact .noneOther _ (h _)
  · exact .otherNone _ (h _)
  · exact .secretBytes _ _

theorem kin_context (x x' : Option CipherContext) :
    Kin (optVal (contextVal true) x) (optVal (contextVal true) x') := by
  have h : ∀ y p stack, "__repr__" ∈ stack → ∃ d l, (contextVal true y).repr p stack = d :: l ∧ d ≠ 'N' := by
    intro y p stack hin
    refine ⟨'C', _, rfl, by decide⟩
  cases x <;> cases x'
  · exact .same _
  · exact .noneOther _ (h _)
  · exact .otherNone _ (h _)
  · refine .obj _ _ _ (.cons _ _ _ _ _ (.int _ _) (.cons _ _ _ _ _ (.secretBytes _ _) .nil))

theorem kin_conn (c c' : Conn) : Kin (connVal true c) (connVal true c') :=
  .obj _ _ _ (.cons _ _ _ _ _ (.int _ _) (.cons _ _ _ _ _ (.int _ _) (.cons _ _ _ _ _ (.int _ _)
    (.cons _ _ _ _ _ (.int _ _) (.cons _ _ _ _ _ (.secretStr _ _) (.cons _ _ _ _ _ (.int _ _)
    (.cons _ _ _ _ _ (kin_optKey _ _) (.cons _ _ _ _ _ (kin_optInt _ _) (.cons _ _ _ _ _ (.bytearray _ _)
    (.cons _ _ _ _ _ (.obj _ _ _ (.cons _ _ _ _ _ (.sentinel _ _ (pstate_inside _) (pstate_inside _)) .nil))
    (.cons _ _ _ _ _ (kin_context _ _) .nil)))))))))))

theorem conn_censored {c c' : Conn} :
    censored (connVal true c) = censored (connVal true c') ↔ blotted c = blotted c' := by
  obtain ⟨⟨sa1, sa2, da1, da2, pw, pid, key, kid⟩, buf, st, ctx⟩ := c
  obtain ⟨⟨sa1', sa2', da1', da2', pw', pid', key', kid'⟩, buf', st', ctx'⟩ := c'
  have hst : st.name = st'.name ↔ st = st' := ⟨pstate_name, fun h => by rw [h]⟩
  rcases key with _ | key <;> rcases key' with _ | key' <;> rcases kid with _ | kid <;> rcases kid' with _ | kid' <;>
    rcases ctx with _ | ⟨i, k⟩ <;> rcases ctx' with _ | ⟨i', k'⟩ <;>
    simp [connVal, blotted, censored, censoredAttrs, Attrs.of, passwordVal, keyVal, contextVal, optVal, hst, and_assoc]

/-- C110. Two connections made by clients print the same text exactly if they agree in everything but the password and
the key: addresses, ids, whether there is a key, data received and not yet used, what they wait for. -/
theorem C110_connection (p : Printing) (stack : List String) (c c' : Conn) :
    (connVal true c).repr p stack = (connVal true c').repr p stack ↔ blotted c = blotted c' := by
  rw [← conn_censored]
  constructor
  · intro he
    exact kin_object (kin_conn c c') ⟨_, _, rfl⟩ ⟨_, _, rfl⟩ he
  · exact fun h => of_censored p stack ⟨_, _, rfl⟩ ⟨_, _, rfl⟩ h

/-- C110. Two clients on the same transport print the same text exactly if they agree in everything but the password and
the key. -/
theorem C110_client (p : Printing) (stack : List String) (tr : PyVal) (a a' : ClientArgs) (c c' : Conn) :
    (clientVal a tr c).repr p stack = (clientVal a' tr c').repr p stack ↔ SamePublic a a' ∧ blotted c = blotted c' := by
  have hkey : ∀ k k' : Option Bytes, censored (optVal (keyVal true) (toSecretByte k)) =
      censored (optVal (keyVal true) (toSecretByte k')) ↔
        ((∃ key, k = some key ∧ key ≠ []) ↔ ∃ key, k' = some key ∧ key ≠ []) := by
    intro k k'
    rcases k with _ | (_ | ⟨b, k⟩) <;> rcases k' with _ | (_ | ⟨b', k'⟩) <;>
      simp [toSecretByte, optVal, keyVal, censored]
  have hid : ∀ n n' : Option Int, censored (optVal .int n) = censored (optVal .int n') ↔ n = n' := by
    intro n n'
    cases n <;> cases n' <;> simp [optVal, censored]
  have h : censored (clientVal a tr c) = censored (clientVal a' tr c') ↔ SamePublic a a' ∧ blotted c = blotted c' := by
    rw [← conn_censored, SamePublic, HasKey, HasKey, ← hkey, ← hid]
    simp [clientVal, censored, censoredAttrs, Attrs.of, passwordVal, and_assoc]
    intro _
    constructor <;> rintro ⟨h1, h2, h3⟩ <;> exact ⟨h2, h1, h3⟩
  rw [← h]
  constructor
  · intro he
    refine kin_object ?_ ⟨_, _, rfl⟩ ⟨_, _, rfl⟩ he
    exact .obj _ _ _ (.cons _ _ _ _ _ (.same _) (.cons _ _ _ _ _ (.secretStr _ _) (.cons _ _ _ _ _ (.int _ _)
      (.cons _ _ _ _ _ (kin_optKey _ _) (.cons _ _ _ _ _ (kin_optInt _ _) (.cons _ _ _ _ _ (kin_conn _ _) .nil))))))
  · exact fun h => of_censored p stack ⟨_, _, rfl⟩ ⟨_, _, rfl⟩ h

/-! ### The log -/

theorem texts_arg {p : Printing} {stack : List String} {ev name : String} {v v' : PyVal}
    (h : (debug ev [(name, v)]).texts p stack = (debug ev [(name, v')]).texts p stack) :
    v.repr p stack = v'.repr p stack := by
  simp only [debug, Record.texts, List.map_cons, List.map_nil, List.cons.injEq, and_true, true_and] at h
  exact List.append_cancel_left h

/-- C110. If the printed logs of two `send` are the same, so are the requests but for the password. -/
theorem C110_log_send (p : Printing) (hp : ArchivesPrint p) (stack : List String) (C C' : BlockCipher) (c c' : Conn)
    (e e' : Event) (r r' : Rand)
    (h : (c.sendL p true C e r).1.map (fun x => x.texts p stack) = (c'.sendL p true C' e' r').1.map fun x => x.texts p stack) :
    withPassword e [] = withPassword e' [] := by
  have hd : ∀ (C : BlockCipher) (c : Conn) (e : Event) (r : Rand), ∃ l,
      (c.sendL p true C e r).1 = debug "Sending request PDU" [("pdu", eventVal p true e)] :: l := by
    intro C c e r
    unfold Conn.sendL
    dsimp only
    cases processEventL c.state e with
    | mk l o => cases o with
      | error x => exact ⟨_, rfl⟩
      | ok s => exact ⟨_, rfl⟩
  obtain ⟨l, h1⟩ := hd C c e r
  obtain ⟨l', h1'⟩ := hd C' c' e' r'
  rw [h1, h1'] at h
  exact (C110_secret p hp stack e e').1 (texts_arg (List.cons.inj h).1)

theorem nextEventL_event {p : Printing} {C : BlockCipher} {c : Conn} {e : Event}
    (he : (c.nextEvent C).2 = .ok (some e)) :
    ∃ l t, (c.nextEventL p C).1 = l ++ [info "Received PDU" [("pdu", eventVal p false e)], t] := by
  rw [← nextEventL_erase p] at he
  unfold Conn.nextEventL at he ⊢
  split at he
  · cases he
  · rename_i hb
    rw [if_neg hb]
    cases hi : indexEnd c.buffer with
    | none => rw [hi] at he; cases he
    | some i =>
      rw [hi] at he
      dsimp only at he ⊢
      cases hx : c.interpretL C (sliceTo c.buffer ((i : Int) + 1)) with
      | mk l o =>
        rw [hx] at he
        cases o with
        | error x =>
          dsimp only at he
          split at he <;> cases he
        | ok f =>
          dsimp only at he ⊢
          cases hf : pduFromResponse f with
          | error x => rw [hf] at he; cases he
          | ok pdu =>
            rw [hf] at he
            dsimp only at he ⊢
            unfold processEventL at he ⊢
            cases ht : transitions c.state pdu.type with
            | none => rw [ht] at he; cases he
            | some s' =>
              rw [ht] at he
              cases he
              exact ⟨l, _, List.append_assoc l [_] [_]⟩

/-- C110. If the printed logs of two `next_event` that return a response are the same, so are the responses. -/
theorem C110_log_event (p : Printing) (hp : ArchivesPrint p) (stack : List String) (C C' : BlockCipher) (c c' : Conn)
    (e e' : Event) (he : (c.nextEvent C).2 = .ok (some e)) (he' : (c'.nextEvent C').2 = .ok (some e'))
    (h : (c.nextEventL p C).1.map (fun x => x.texts p stack) = (c'.nextEventL p C').1.map fun x => x.texts p stack) :
    e = e' := by
  obtain ⟨l, t, h1⟩ := nextEventL_event (p := p) he
  obtain ⟨l', t', h1'⟩ := nextEventL_event (p := p) he'
  rw [h1, h1', List.map_append, List.map_append] at h
  have h := (List.append_inj' h rfl).2
  exact (C110_plain p hp stack e e').1 (texts_arg (List.cons.inj h).1)

/-! ### Archives -/

theorem pyStrInt_inside (n : Int) : Inside (pyStrInt n) := by
  intro c hc
  unfold pyStrInt at hc
  have hd : ∀ c : Char, c.isDigit = true → c ≠ ',' ∧ c ≠ ')' := by
    intro c h
    constructor <;> (rintro rfl; exact absurd h (by decide))
  split at hc
  · rcases List.mem_cons.1 hc with rfl | hc
    · decide
    · exact hd c (digits_mem c hc)
  · exact hd c (digits_mem c hc)

theorem pyStrInt_head' (n : Int) : ∀ l, pyStrInt n ≠ '<' :: l := by
  intro l h
  have hm : '<' ∈ pyStrInt n := by rw [h]; exact List.mem_cons_self
  unfold pyStrInt at hm
  split at hm
  · rcases List.mem_cons.1 hm with h' | hm
    · exact absurd h' (by decide)
    · exact absurd (digits_mem _ hm) (by decide)
  · exact absurd (digits_mem _ hm) (by decide)

theorem pyStrInt_same {n n' : Int} (h : pyStrInt n = pyStrInt n') : n = n' :=
  (int_peel (r := []) (r' := []) (fun _ h => by cases h) (fun _ h => by cases h) (by rw [h])).1

theorem archiveName_inside (a : Archive) : Inside a.name.toList := by cases a <;> decide +kernel

/-- C110. Archives do print so: whether given as numbers, or as members of `Archive` where there is one. -/
theorem C110_archives (printable : Char → Bool) :
    ArchivesPrint ⟨printable, fun n => pyStrInt n⟩ ∧
    ArchivesPrint ⟨printable, archiveText⟩ := by
  refine ⟨⟨fun n => pyStrInt_inside n, fun n n' h => pyStrInt_same h⟩, ⟨fun n => ?_, fun n n' h => ?_⟩⟩
  · show Inside (archiveText n)
    unfold archiveText
    cases Archive.all.find? fun a => (a.value : Int) == n with
    | none => exact pyStrInt_inside n
    | some a =>
      intro c hc
      simp only [List.mem_append, List.mem_singleton] at hc
      rcases hc with (((hc | hc) | hc) | hc) | rfl
      · revert c; decide +kernel
      · exact archiveName_inside a c hc
      · revert c; decide +kernel
      · exact pyStrInt_inside _ c hc
      · decide
  · change archiveText n = archiveText n' at h
    unfold archiveText at h
    cases hf : Archive.all.find? fun a => (a.value : Int) == n with
    | none =>
      cases hf' : Archive.all.find? fun a => (a.value : Int) == n' with
      | none => rw [hf, hf'] at h; exact pyStrInt_same h
      | some a => rw [hf, hf'] at h; exact absurd h (pyStrInt_head' _ _)
    | some a =>
      cases hf' : Archive.all.find? fun a => (a.value : Int) == n' with
      | none => rw [hf, hf'] at h; exact absurd h.symm (pyStrInt_head' _ _)
      | some a' =>
        rw [hf, hf'] at h
        simp only [List.append_assoc] at h
        have h := (upto_peel (archive_colon a) (archive_colon a') (List.append_cancel_left h)).1
        have h1 := List.find?_some hf
        have h2 := List.find?_some hf'
        simp only [beq_iff_eq] at h1 h2
        have : a = a' := by
          revert h
          cases a <;> cases a' <;> first | (intro _; rfl) | (intro h; exact absurd h (by decide +kernel))
        rw [← h1, ← h2, this]

/-! Examples -/

/-- Two requests to write the time, one second apart. -/
def exWriteAt (s : Nat) : Event :=
  .writeTimeRequest { password := "abc123".toList, deviceTime := ⟨2020, 2, 29, 23, 59, s, 0⟩, cryout := false }

-- C110_secret: the text shows all but the password
example : (eventVal ⟨fun _ => true, archiveText⟩ true (exWriteAt 30)).repr exPrint ["<module>"] =
    ("WriteTimeRequest(password=<SECRET>, device_time=datetime.datetime(2020, 2, 29, 23, 59, 30), " ++
      "cryout=False)").toList := by decide +kernel
example : (eventVal exPrint true (exWriteAt 0)).repr exPrint ["<module>"] =
    ("WriteTimeRequest(password=<SECRET>, device_time=datetime.datetime(2020, 2, 29, 23, 59), " ++
      "cryout=False)").toList := by decide +kernel
-- C110_secret, C110_log_send: the same second, other passwords; another second
example : withPassword (exWriteAt 30) [] = withPassword (withPassword (exWriteAt 30) "xyz789".toList) [] ∧
    withPassword (exWriteAt 30) [] ≠ withPassword (exWriteAt 31) [] := by decide +kernel
-- C110_log_event: a connection that waits for the time, and gets it
example : (({ exConn with state := .awaitingReadTimeResponse, buffer := exTimeAnswer }).nextEvent idCipher).2 =
    .ok (some (.readTimeResponse ⟨⟨2020, 1, 1, 12, 30, 0, 0⟩, [0x00], false, false, [0x1B]⟩)) := by
  decide +kernel
-- C110_frame: the encrypted request and the response differ in class and data
example : (printedFrame .encryptedRequest ⟨.readDeviceTime, 0, 0, 1, 0, [0x27]⟩).repr exPrint [] =
    ("EncryptedRequest(service=<ServiceNumber.READ_DEVICE_TIME: 108>, destination_address_1=0, " ++
     "destination_address_2=0, source_address_1=1, source_address_2=0, data=bytearray(b\"\\'\"))").toList := by
  decide +kernel
-- C110_connection: password and key do not matter, what the connection waits for does
example : blotted { exConn with args := { exConn.args with password := "xyz789".toList } } = blotted exConn ∧
    blotted { exConn with state := .awaitingReadTimeResponse } ≠ blotted exConn := by decide +kernel
-- C110_archives
example : archiveText 2 = "<Archive.BINARY: 2>".toList ∧ archiveText 99 = "99".toList := by decide +kernel

end Elgas
