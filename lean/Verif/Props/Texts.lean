import Verif.Spec.Texts
import Verif.Props.ProgramLog
import Verif.Props.ReadBack
/-!
C99: what the exceptions of a client say.
-/
namespace Elgas
open Spec

/-! ### Erasing -/

theorem wcallT_erase (C : BlockCipher) (w : World) (k : Call) :
    ((wcallT C w k).1.erase, (wcallT C w k).2) = wcall C w k := by
  have hr : ∀ {α β : Type} (o : OutcomeT α) (g : α → β),
      (o.andThen (.returned ∘ g)).erase = o.erase.andThen (.returned ∘ g) :=
    fun o g => andThenT_erase o _ _ fun a => rfl
  cases k with
  | readInstantaneousValues =>
    unfold wcallT wcall World.readInstantaneousValues
    dsimp only
    rw [← exchangeT_erase]
    dsimp only
    rw [hr]
  | readTime =>
    unfold wcallT wcall World.readTime
    dsimp only
    rw [← exchangeT_erase]
    dsimp only
    rw [hr, andThenT_erase _ _ timeOf fun a => outcomeForeign_erase _]
  | writeTime t b =>
    unfold wcallT wcall World.writeTime
    dsimp only
    rw [← exchangeT_erase]
    dsimp only
    rw [andThenT_erase _ _ (fun _ => .returned .nothing) fun a => rfl]
    cases (w.exchangeT C _).1.erase <;> rfl
  | readParameters n =>
    unfold wcallT wcall World.readParameters
    dsimp only
    rw [← readPagesT_erase]
    dsimp only
    rw [hr, andThenT_erase _ _ (fun d => .ofRes (parseParameters none (some d))) fun a => by
      rw [ofRes_erase, parseParametersT_erase]; cases parseParameters none (some a) <;> rfl]
  | readArchive a n i =>
    unfold wcallT wcall World.readArchive
    dsimp only
    rw [← exchangeT_erase]
    dsimp only
    rw [hr]
  | readArchiveByTime a n t =>
    unfold wcallT wcall World.readArchiveByTime
    dsimp only
    rw [← exchangeT_erase]
    dsimp only
    rw [hr]

/-- C99. The texts are those of the exceptions that the client raises: without them it is the client of the other
properties. -/
theorem C99_same_client (p : Printing) (look : Look) (C : BlockCipher) (w : World) (a : Action) :
    ((actT p look C w a).1.erase, (actT p look C w a).2) = act C w a := by
  have hu : ∀ {α : Type} (o : OutcomeT α),
      (o.andThen fun _ => .returned Value.nothing).erase = o.erase.andThen fun _ => .returned .nothing :=
    fun o => andThenT_erase o _ _ fun a => rfl
  cases a with
  | connect =>
    unfold actT act
    dsimp only
    rw [← connectT_erase p look]
    dsimp only
    rw [hu]
  | disconnect =>
    unfold actT act
    dsimp only
    rw [← disconnectT_erase]
    dsimp only
    rw [hu]
  | call k => exact wcallT_erase C w k
  | send es =>
    unfold actT act
    dsimp only
    rw [← sendAllT_erase]
    dsimp only
    rw [hu]
  | nextEvent =>
    unfold actT act
    dsimp only
    rw [← nextEventT_erase]
    dsimp only
    rw [andThenT_erase _ _ (.returned ∘ Value.event) fun a => rfl]

/-! ### What is said -/

/-- Every exception of the computation is of this kind. -/
def Tells {α : Type} (P : PyErr → Text → Prop) (x : ResT α) : Prop := ∀ e t, x = .error (e, t) → P e t

theorem tells_ok {α : Type} {P : PyErr → Text → Prop} (a : α) : Tells P (.ok a : ResT α) := by intro e t h; cases h
theorem tells_pure {α : Type} {P : PyErr → Text → Prop} (a : α) : Tells P (pure a : ResT α) := tells_ok a
theorem tells_bind {α β : Type} {P : PyErr → Text → Prop} {x : ResT α} {f : α → ResT β} (hx : Tells P x)
    (hf : ∀ a, Tells P (f a)) : Tells P (x >>= f) := by
  cases x with
  | error e => intro e' t h; injection h with h; exact hx e' t (by rw [h])
  | ok a => exact hf a
theorem tells_say {α : Type} {P : PyErr → Text → Prop} {e : PyErr} {s : String} (h : P e (.said s.toList)) :
    Tells P (say e s : ResT α) := by
  intro e' t h'; injection h' with h'; injection h' with h1 h2; rw [← h1, ← h2]; exact h
theorem tells_foreign {α : Type} {P : PyErr → Text → Prop} {x : Res α} (h : ∀ e, x = .error e → P e .foreign) :
    Tells P (foreign x) := by
  intro e t h'
  cases x with
  | ok a => cases h'
  | error y => injection h' with h'; injection h' with h1 h2; subst h1; subst h2; exact h _ rfl
theorem tells_ite {α : Type} {P : PyErr → Text → Prop} {c : Prop} [Decidable c] {x y : ResT α} (hx : c → Tells P x)
    (hy : ¬ c → Tells P y) : Tells P (if c then x else y) := by
  split
  · next h => exact hx h
  · next h => exact hy h

theorem not_library {l : List PyErr} (hl : .runtime ∉ l ∧ ∀ x, .elgas x ∉ l) {e : PyErr} (h : e ∈ l) :
    ¬ OfLibrary e := by
  rintro (rfl | ⟨x, rfl⟩)
  · exact hl.1 h
  · exact hl.2 x h

theorem serial_not_library {e : PyErr} (h : e ∈ serialErrors) : ¬ OfLibrary e :=
  not_library (l := serialErrors) (by refine ⟨by decide, fun x => ?_⟩; cases x <;> decide) h

theorem className_eq (x : EventType) : x.className = eventClass x := by cases x <;> rfl

theorem transitions_none {s : PState} {x : EventType} (h : transitions s x = none) : ¬ Awaited s x := by
  rintro (⟨rfl, hr⟩ | ha)
  · cases x <;> simp [transitions, responseOf] at h hr
  · cases s <;> simp only [awaits, Option.some.injEq, reduceCtorEq] at ha <;> subst ha <;> simp [transitions] at h

/-- The text of a refusal. -/
def Refusal (x : EventType) (s : PState) (e : PyErr) (t : Text) : Prop :=
  e = .elgas .localProtocol ∧ ¬ Awaited s x ∧ t = .said
    ("Can't handle <class 'elgas.application." ++ eventClass x ++ "'> when state=" ++ s.name).toList

theorem tells_processEvent (s : PState) (e : Event) : Tells (Refusal e.type s) (processEventT s e) := by
  unfold processEventT
  cases h : transitions s e.type with
  | some s' => exact tells_ok _
  | none => exact tells_say ⟨rfl, transitions_none h, by rw [className_eq]⟩

/-! The password. -/

theorem takeWhile_good (l : PyStr) (h : IsLatin1 l) (r : PyStr) :
    (l ++ r).takeWhile (fun c => decide (c.toNat < 256)) = l ++ r.takeWhile (fun c => decide (c.toNat < 256)) := by
  induction l with
  | nil => rfl
  | cons c l ih =>
    rw [List.cons_append, List.takeWhile_cons, if_pos (by simpa using h c (by simp)),
      ih fun x hx => h x (List.mem_cons_of_mem _ hx)]
    rfl

/-- A string that Latin-1 cannot encode has a first run of characters at fault. -/
theorem split_bad (s : PyStr) (h : ¬ IsLatin1 s) : ∃ before bad after, s = before ++ bad ++ after ∧ IsLatin1 before ∧
    bad ≠ [] ∧ (∀ c ∈ bad, 256 ≤ c.toNat) ∧ ∀ d, after.head? = some d → d.toNat < 256 := by
  induction s with
  | nil => exact absurd (fun c hc => by simp at hc) h
  | cons c s ih =>
    by_cases hc : c.toNat < 256
    · obtain ⟨b, m, a, h1, h2, h3, h4, h5⟩ := ih fun hs => h fun x hx => by
        rcases List.mem_cons.1 hx with rfl | hx
        · exact hc
        · exact hs x hx
      refine ⟨c :: b, m, a, by rw [h1]; rfl, fun x hx => ?_, h3, h4, h5⟩
      rcases List.mem_cons.1 hx with rfl | hx
      · exact hc
      · exact h2 x hx
    · have hc : 256 ≤ c.toNat := by omega
      refine ⟨[], (c :: s).takeWhile fun c => decide (256 ≤ c.toNat), (c :: s).dropWhile fun c => decide (256 ≤ c.toNat),
        by simp [List.takeWhile_append_dropWhile], fun x hx => by simp at hx, ?_, fun x hx => ?_, fun d hd => ?_⟩
      · rw [List.takeWhile_cons, if_pos (by simpa using hc)]; simp
      · have := List.all_takeWhile (p := fun c : Char => decide (256 ≤ c.toNat)) (l := c :: s)
        simpa using List.all_eq_true.1 this x hx
      · have := List.head?_dropWhile_not (fun c : Char => decide (256 ≤ c.toNat)) (c :: s)
        rw [hd] at this
        simpa using this

theorem takeWhile_bad (l : PyStr) (h : ∀ c ∈ l, 256 ≤ c.toNat) (r : PyStr) (hr : ∀ d, r.head? = some d → d.toNat < 256) :
    (l ++ r).takeWhile (fun c => decide (256 ≤ c.toNat)) = l := by
  induction l with
  | nil =>
    cases r with
    | nil => rfl
    | cons d r =>
      have := hr d rfl
      rw [List.nil_append, List.takeWhile_cons, if_neg (by simpa using this)]
  | cons c l ih =>
    rw [List.cons_append, List.takeWhile_cons, if_pos (by simpa using h c (by simp)),
      ih fun x hx => h x (List.mem_cons_of_mem _ hx)]

theorem shownAs_encode {c : Char} (hc : 256 ≤ c.toNat) : ShownAs c (encodeErrorChar c) := by
  unfold encodeErrorChar ShownAs
  rw [if_neg (by omega)]
  have h4 := readHex_digits 4 c.toNat []
  have h8 := readHex_digits 8 c.toNat [] (char_lt c)
  rw [List.append_nil] at h4 h8
  split
  · rename_i h
    exact .inl ⟨h, _, rfl, h4 (by omega)⟩
  · rename_i h
    exact .inr ⟨by omega, _, rfl, h8⟩

theorem encodeErrorText_split (before bad after : PyStr) (h1 : IsLatin1 before) (h2 : bad ≠ [])
    (h3 : ∀ c ∈ bad, 256 ≤ c.toNat) (h4 : ∀ d, after.head? = some d → d.toNat < 256) :
    Unencodable (before ++ bad ++ after) (encodeErrorText (before ++ bad ++ after)) ∧
    ∀ rest : PyStr, (∀ d, rest.head? = some d → d.toNat < 256) →
      encodeErrorText (before ++ bad ++ after ++ rest) = encodeErrorText (before ++ bad ++ after) := by
  have hb : ∀ r : PyStr, (before ++ bad ++ r).takeWhile (fun c => decide (c.toNat < 256)) = before := by
    intro r
    rw [List.append_assoc, takeWhile_good before h1]
    cases bad with
    | nil => exact absurd rfl h2
    | cons c bad =>
      have := h3 c (by simp)
      rw [List.cons_append, List.takeWhile_cons, if_neg (by simp only [decide_eq_true_eq]; omega), List.append_nil]
  have hm : ∀ r : PyStr, (∀ d, r.head? = some d → d.toNat < 256) →
      ((before ++ bad ++ r).drop before.length).takeWhile (fun c => decide (256 ≤ c.toNat)) = bad := by
    intro r hr
    rw [List.append_assoc, List.drop_left, takeWhile_bad bad h3 r hr]
  have ht : ∀ r : PyStr, (∀ d, r.head? = some d → d.toNat < 256) →
      encodeErrorText (before ++ bad ++ r) = match bad with
        | [c] => "'latin-1' codec can't encode character '".toList ++ encodeErrorChar c ++ "' in position ".toList ++
            pyStrInt before.length ++ ": ordinal not in range(256)".toList
        | _ => "'latin-1' codec can't encode characters in position ".toList ++ pyStrInt before.length ++ ['-'] ++
            pyStrInt ((before.length : Int) + bad.length - 1) ++ ": ordinal not in range(256)".toList := by
    intro r hr
    unfold encodeErrorText
    dsimp only
    rw [hb, hm r hr]
    split <;> simp_all
  refine ⟨?_, fun rest hrest => ?_⟩
  · rw [ht after h4]
    match bad, h2, h3 with
    | [c], _, h3 =>
      have := Unencodable.one before after c _ h1 (h3 c (by simp)) h4 (shownAs_encode (h3 c (by simp)))
      simpa using this
    | c :: d :: bad, _, h3 => exact Unencodable.many before (c :: d :: bad) after h1 (by simp) h3 h4
  · rw [List.append_assoc (before ++ bad), ht _ ?_, ht _ h4]
    intro d hd
    cases after with
    | nil => exact hrest d hd
    | cons x after => exact h4 d hd

/-- An exception of the interpreter, of another library or of the operating system. -/
def Foreign (e : PyErr) (t : Text) : Prop := t = .foreign ∧ ¬ OfLibrary e

/-- What an exception of `ElgasConnection.send` says. -/
def SendTells (s : PState) (ev : Event) (e : PyErr) (t : Text) : Prop :=
  Refusal ev.type s e t ∨
  (∃ pw str, passwordOf ev = some pw ∧ Unencodable pw str ∧ e = .unicodeEncode ∧ t = .said str) ∨ Foreign e t

theorem padded_latin1 {pw : PyStr} {r : PwRand} (hr : PadOk r) (h : ¬ IsLatin1 (padPassword pw r)) : ¬ IsLatin1 pw := by
  intro hp
  apply h
  intro c hc
  unfold padPassword at hc
  simp only [List.mem_append, List.mem_cons, List.not_mem_nil, or_false] at hc
  rcases hc with (hc | rfl | rfl) | rfl | rfl
  · exact hp c hc
  · decide
  · decide
  · exact possibleChars_latin1 _ hr.1
  · exact possibleChars_latin1 _ hr.2

theorem tells_password {s : PState} {ev : Event} {pw : PyStr} {r : PwRand} (hr : PadOk r) (hp : passwordOf ev = some pw) :
    Tells (SendTells s ev) (passwordBlockT pw r) := by
  intro e t h
  unfold passwordBlockT at h
  cases hb : passwordBlock pw r with
  | ok b => rw [hb] at h; cases h
  | error x =>
    rw [hb] at h
    injection h with h
    injection h with h1 h2
    subst h1; subst h2
    have hn : ¬ IsLatin1 (padPassword pw r) := by
      intro hl
      unfold passwordBlock at hb
      rw [encodeLatin1_ok hl] at hb
      cases hb
    have he : x = .unicodeEncode := by
      unfold passwordBlock at hb
      rw [encodeLatin1_err hn] at hb
      injection hb with hb
      exact hb.symm
    obtain ⟨b, m, a, h1, h2, h3, h4, h5⟩ := split_bad pw (padded_latin1 hr hn)
    obtain ⟨k1, k2⟩ := encodeErrorText_split b m a h2 h3 h4 h5
    refine .inr (.inl ⟨pw, encodeErrorText pw, hp, by rw [h1]; exact k1, he, ?_⟩)
    unfold padPassword
    rw [List.append_assoc, h1, k2 _ (by intro d hd; injection hd with hd; rw [← hd]; decide)]

theorem tells_toBytes {s : PState} {ev : Event} (he : IsRequest ev) {r : Rand} (hr : PadOk r.pw) :
    Tells (SendTells s ev) (ev.toBytesT r) := by
  have hf : Tells (SendTells s ev) (foreign (ev.toBytes r)) :=
    tells_foreign fun e h => .inr (.inr ⟨rfl, serial_not_library (only_toBytes he r e h)⟩)
  unfold Event.toBytesT
  split
  all_goals first
    | exact hf
    | exact tells_bind (tells_password hr rfl) fun _ => hf

theorem endsWith_request {ty : UInt8} {f : Frame} {raw : Bytes} (h : requestToBytes ty f = .ok raw) :
    endsWith raw [0x0D] = true := by
  by_cases hf : f.InRange
  · rw [requestToBytes_ok ty f hf] at h
    have h : frame ty (UInt8.ofNat f.service.value) (requestAddress f) f.data = raw := Except.ok.inj h
    rw [← h]
    unfold endsWith frame
    rw [List.isSuffixOf_iff_suffix]
    exact ⟨[0x02] ++ _ ++ [_, _, _], by rw [List.append_assoc]; rfl⟩
  · rcases requestToBytes_error ty f hf with h' | h' <;> rw [h'] at h <;> cases h

theorem tells_escape {s : PState} {ev : Event} {ty : UInt8} {f : Frame} :
    Tells (SendTells s ev) (do let raw ← foreign (requestToBytes ty f); escapeCharactersT raw) := by
  cases h : requestToBytes ty f with
  | error x =>
    intro e t h'
    injection h' with h'
    injection h' with h1 h2
    subst h1; subst h2
    exact .inr (.inr ⟨rfl, serial_not_library (only_requestToBytes ty f _ h)⟩)
  | ok raw =>
    have : (do let raw ← foreign (Except.ok raw : Res Bytes); escapeCharactersT raw) = escapeCharactersT raw := rfl
    rw [this]
    unfold escapeCharactersT
    rw [endsWith_request h]
    exact tells_foreign fun e h' => .inr (.inr ⟨rfl, serial_not_library (only_escape raw e h')⟩)

theorem tells_serialise {C : BlockCipher} {c : Conn} {s : PState} {ev : Event} (he : IsRequest ev) {r : Rand}
    (hr : PadOk r.pw) : Tells (SendTells s ev) (c.serialiseT C ev r) := by
  have hf : ∀ {α : Type} (x : Res α), Only serialErrors x → Tells (SendTells s ev) (foreign x) :=
    fun x hx => tells_foreign fun e h => .inr (.inr ⟨rfl, serial_not_library (hx e h)⟩)
  unfold Conn.serialiseT
  refine tells_bind (tells_toBytes he hr) fun d => ?_
  cases c.cipherContext with
  | none => exact tells_bind (hf _ (only_service he)) fun sv => tells_escape
  | some ctx =>
    exact tells_bind (hf _ (only_service he)) fun sv => tells_bind (hf _ (only_encrypt _ _ _ _)) fun x => tells_escape

theorem transitions_request {s s' : PState} {x : EventType} (h : transitions s x = some s') :
    (responseOf x).isSome ∨ IsResponseType x := by
  cases s <;> cases x <;> simp only [transitions, reduceCtorEq] at h <;>
    first
    | exact .inl rfl
    | exact .inr ⟨.readInstantaneousValuesRequest, rfl⟩
    | exact .inr ⟨.readTimeRequest, rfl⟩
    | exact .inr ⟨.writeTimeRequest, rfl⟩
    | exact .inr ⟨.readDeviceParametersRequest, rfl⟩
    | exact .inr ⟨.readArchiveByTimeRequest, rfl⟩
    | exact .inr ⟨.readArchiveRequest, rfl⟩

theorem tells_serialise_any {C : BlockCipher} {c : Conn} {s : PState} {ev : Event} {r : Rand}
    (hr : PadOk r.pw) : Tells (SendTells s ev) (c.serialiseT C ev r) := by
  by_cases he : IsRequest ev
  · exact tells_serialise he hr
  · -- no other class has `to_bytes`, but for `CallResponse`, which has no `service`
    have ha : ∀ {e t}, (e, t) = ((.attribute, .foreign) : PyErr × Text) → SendTells s ev e t := by
      intro e t h
      injection h with h1 h2
      subst h1; subst h2
      exact .inr (.inr ⟨rfl, by rintro (h | ⟨x, h⟩) <;> cases h⟩)
    intro e t h
    cases ev
    all_goals first
      | exact (he rfl).elim
      | (injection h with h; exact ha h.symm)
      | (unfold Conn.serialiseT at h
         cases hc : c.cipherContext <;> rw [hc] at h <;> (injection h with h; exact ha h.symm))

theorem tells_send (C : BlockCipher) (c : Conn) (ev : Event) {r : Rand} (hr : PadOk r.pw) :
    Tells (SendTells c.state ev) (c.sendT C ev r).2 := by
  unfold Conn.sendT
  cases h : processEventT c.state ev with
  | error x =>
    intro e t h'
    injection h' with h'
    exact .inl (tells_processEvent c.state ev e t (by rw [h, h']))
  | ok s' => exact tells_serialise_any hr

/-- What an exception of `ElgasConnection.next_event` says. -/
def PollTells (c : Conn) (e : PyErr) (t : Text) : Prop :=
  (∃ x, IsResponseType x ∧ Refusal x c.state e t) ∨ (IsDeviceError e ∧ t = .said []) ∨
  ((∃ ctx, c.cipherContext = some ctx) ∧ e = .assertion ∧ t = .said []) ∨
  (∃ d : Bytes, d.length < 6 ∧ e = .value ∧ t = .said (bytesRepr d ++ " is not a BCD encoded datetime".toList)) ∨
  Foreign e t

/-- Exceptions that are not of the library. -/
def Outer {α : Type} (x : Res α) : Prop := ∀ e, x = .error e → ¬ OfLibrary e

theorem outer_ok {α : Type} (a : α) : Outer (.ok a : Res α) := by intro e h; cases h
theorem outer_raise {α : Type} {e : PyErr} (h : ¬ OfLibrary e) : Outer (raise e : Res α) := by
  intro e' h'; injection h' with h'; rw [← h']; exact h
theorem outer_bind {α β : Type} {x : Res α} {f : α → Res β} (hx : Outer x) (hf : ∀ a, Outer (f a)) : Outer (x >>= f) := by
  cases x with
  | error e => intro e' h; injection h with h; exact hx e' (by rw [h])
  | ok a => exact hf a
theorem outer_only {α : Type} {l : List PyErr} (hl : .runtime ∉ l ∧ ∀ x, .elgas x ∉ l) {x : Res α} (h : Only l x) :
    Outer x := fun e he => not_library hl (h e he)

theorem builtin {e : PyErr} (h : e ≠ .runtime) (h' : ∀ x, e ≠ .elgas x) : ¬ OfLibrary e := by
  rintro (rfl | ⟨x, rfl⟩)
  · exact h rfl
  · exact h' x rfl

theorem outer_pyGet {α : Type} (l : List α) (i : Int) : Outer (pyGet l i) := by
  unfold pyGet
  dsimp only
  repeat' first
    | exact outer_ok _
    | exact outer_raise (builtin (by decide) (by intro x; cases x <;> decide))
    | split

theorem outer_return (d : Bytes) : Outer (returnCharacters d) := by
  have key : ∀ n (d : Bytes), d.length ≤ n → Outer (returnCharacters d) := by
    intro n
    induction n with
    | zero =>
      intro d hd
      cases d with
      | nil => exact outer_ok _
      | cons b r => simp at hd
    | succ n ih =>
      intro d hd
      cases d with
      | nil => exact outer_ok _
      | cons b r =>
        unfold returnCharacters
        split
        · cases r with
          | nil => exact outer_raise (builtin (by decide) (by intro x; cases x <;> decide))
          | cons m r =>
            refine outer_bind (ih r (by simp at hd; omega)) fun out => ?_
            repeat' first
              | exact outer_ok _
              | split
        · exact outer_bind (ih r (by simp at hd; omega)) fun out => outer_ok _
  exact key _ d (Nat.le_refl _)

theorem outer_service (n : Nat) : Outer (ServiceNumber.ofValue n) := by
  unfold ServiceNumber.ofValue
  split
  · exact outer_ok _
  · exact outer_raise (builtin (by decide) (by intro x; cases x <;> decide))

theorem tells_outer {α : Type} {P : PyErr → Text → Prop} (hP : ∀ e t, Foreign e t → P e t) {x : Res α} (h : Outer x) :
    Tells P (foreign x) := tells_foreign fun e he => hP _ _ ⟨rfl, h e he⟩

/-- What the `try` block of `next_event` says. -/
def ReadTells (cc : Option CipherContext) (e : PyErr) (t : Text) : Prop :=
  e = .value ∨ (IsDeviceError e ∧ t = .said []) ∨ ((∃ ctx, cc = some ctx) ∧ e = .assertion ∧ t = .said []) ∨ Foreign e t

section
variable {cc : Option CipherContext}

theorem reads_foreign (e : PyErr) (t : Text) (h : Foreign e t) : ReadTells cc e t := .inr (.inr (.inr h))

theorem tells_value {α : Type} (s : String) : Tells (ReadTells cc) (say .value s : ResT α) := tells_say (.inl rfl)

theorem tells_frame (name : String) (ty : UInt8) (d : Bytes) : Tells (ReadTells cc) (frameFromBytesT name ty d) := by
  have hg : ∀ i, Tells (ReadTells cc) (foreign (pyGet d i)) := fun i => tells_outer reads_foreign (outer_pyGet d i)
  unfold frameFromBytesT
  refine tells_ite (fun _ => tells_value _) fun _ => tells_ite (fun _ => tells_value _) fun _ => ?_
  refine tells_bind (tells_outer reads_foreign (outer_service _)) fun sv => ?_
  refine tells_ite (fun _ => tells_value _) fun _ => ?_
  refine tells_bind (hg _) fun lrc => tells_ite (fun _ => tells_value _) fun _ => ?_
  refine tells_bind (hg _) fun ck => tells_ite (fun _ => tells_value _) fun _ => ?_
  exact tells_bind (hg _) fun drc => tells_ite (fun _ => tells_value _) fun _ => tells_ok _

theorem tells_factory (d : Bytes) : Tells (ReadTells cc) (responseFactoryT d) := by
  unfold responseFactoryT
  refine tells_ite (fun _ => tells_bind (tells_frame _ _ _) fun f => tells_ok _) fun _ => ?_
  exact tells_ite (fun _ => tells_bind (tells_frame _ _ _) fun f => tells_ok _) fun _ => tells_value _

theorem outer_decrypt (C : BlockCipher) (d k i : Bytes) : Outer (aesCbcDecrypt C d k i) := by
  unfold aesCbcDecrypt
  repeat' first
    | exact outer_ok _
    | exact outer_raise (builtin (by decide) (by intro x; cases x <;> decide))
    | split

theorem outer_serial {α : Type} {x : Res α} (h : Only serialErrors x) : Outer x :=
  fun e he => serial_not_library (h e he)

theorem tells_decrypt (C : BlockCipher) (c : CipherContext) (hc : cc = some c) (d : Bytes) :
    Tells (ReadTells cc) (c.decryptT C d) := by
  unfold CipherContext.decryptT
  refine tells_bind (tells_outer reads_foreign (outer_pyGet _ _)) fun k => ?_
  refine tells_ite (fun _ => tells_say (.inr (.inr (.inl ⟨⟨c, hc⟩, rfl, rfl⟩)))) fun _ => ?_
  refine tells_bind (tells_outer reads_foreign (outer_decrypt _ _ _ _)) fun dec => ?_
  refine tells_bind (tells_outer reads_foreign (outer_serial (only_toBytesLE _ _))) fun len => ?_
  refine tells_bind (tells_outer reads_foreign (outer_serial (only_toBytesBE _ _))) fun crc => ?_
  exact tells_ite (fun _ => tells_value _) fun _ => tells_ok _

theorem tells_raiseError (d : Bytes) (h1 : d.length = 1) : Tells (ReadTells cc) (raiseErrorT d) := by
  unfold raiseErrorT
  refine tells_bind (tells_outer reads_foreign (outer_pyGet _ _)) fun _ => ?_
  cases h : raiseError d with
  | ok u => exact tells_ok _
  | error x =>
    refine tells_say (.inr (.inl ⟨?_, rfl⟩))
    match d, h1 with
    | [b], _ =>
      by_cases ho : OneBit b
      · obtain ⟨k, _, _, e, he, hr⟩ := (raiseError_single b).1 ho
        rw [hr] at h
        injection h with h
        exact ⟨k, e, he, h.symm⟩
      · rw [(raiseError_single b).2 ho] at h; cases h

end

theorem tells_interpret (C : BlockCipher) (c : Conn) (d : Bytes) : Tells (ReadTells c.cipherContext) (c.interpretT C d) := by
  unfold Conn.interpretT
  refine tells_bind (tells_outer reads_foreign (outer_return _)) fun raw => ?_
  refine tells_bind (tells_factory _) fun x => ?_
  obtain ⟨b, f⟩ := x
  have hk : ∀ f : Frame, Tells (ReadTells c.cipherContext) (if f.data.length = 1 then do
      raiseErrorT f.data
      return f
    else return f) := fun f =>
    tells_ite (fun h => tells_bind (tells_raiseError _ h) fun _ => tells_ok _) fun _ => tells_ok _
  cases b with
  | false => exact hk f
  | true =>
    cases hc : c.cipherContext with
    | none =>
      intro e t h
      injection h with h
      injection h with h1 h2
      subst h1; subst h2
      exact reads_foreign _ _ ⟨rfl, builtin (by decide) (by intro x; cases x <;> decide)⟩
    | some ctx =>
      rw [hc] at hk
      dsimp only
      rw [if_pos rfl]
      exact tells_bind (x := ctx.decryptT C f.data) (tells_decrypt C ctx rfl _) fun d => hk _

theorem poll_foreign {c : Conn} (e : PyErr) (t : Text) (h : Foreign e t) : PollTells c e t := .inr (.inr (.inr (.inr h)))

theorem outer_pdu (f : Frame) : Outer (pduFromResponse f) := by
  intro e h
  rcases refuses_error (pdu_refuses.1 h) with rfl | rfl | rfl <;>
    exact builtin (by decide) (by intro x; cases x <;> decide)

theorem outer_datetime (d : Bytes) : Outer (bytesToDatetime d) := by
  intro e h
  rcases C17_decode_errors d with ⟨t, a, b, h'⟩ | h' <;> rw [h'] at h
  · cases h
  · injection h with h
    rw [← h]
    exact builtin (by decide) (by intro x; cases x <;> decide)

theorem tells_datetime {c : Conn} (d : Bytes) : Tells (PollTells c) (bytesToDatetimeT (sliceTo d 6)) := by
  unfold bytesToDatetimeT
  refine tells_ite (fun h => tells_say ?_) fun _ => tells_outer poll_foreign (outer_datetime _)
  have h6 : (sliceTo d 6).length ≤ 6 := by rw [sliceTo_ofNat]; simp; omega
  refine .inr (.inr (.inr (.inl ⟨sliceTo d 6, by omega, rfl, ?_⟩)))
  rw [String.toList_append, String.toList_ofList]

theorem tells_pdu {c : Conn} (f : Frame) : Tells (PollTells c) (pduFromResponseT f) := by
  unfold pduFromResponseT
  split
  · exact tells_bind (tells_datetime _) fun _ => tells_outer poll_foreign (outer_pdu f)
  · exact tells_bind (tells_datetime _) fun _ => tells_outer poll_foreign (outer_pdu f)
  · exact tells_outer poll_foreign (outer_pdu f)

theorem tells_poll (C : BlockCipher) (c : Conn) : Tells (PollTells c) (c.nextEventT C).2 := by
  unfold Conn.nextEventT
  split
  · exact tells_ok _
  cases indexEnd c.buffer with
  | none => exact tells_ok _
  | some i =>
    dsimp only
    cases hi : c.interpretT C (sliceTo c.buffer ((i : Int) + 1)) with
    | error x =>
      dsimp only
      split
      · exact tells_ok _
      · next hv =>
        intro e t h
        injection h with h
        subst h
        rcases tells_interpret C c _ e t hi with rfl | h | h | h
        · exact absurd rfl hv
        · exact .inr (.inl h)
        · exact .inr (.inr (.inl h))
        · exact poll_foreign _ _ h
    | ok f =>
      dsimp only
      cases hp : pduFromResponseT f with
      | error x =>
        intro e t h
        injection h with h
        subst h
        exact tells_pdu f e t hp
      | ok pdu =>
        dsimp only
        cases he : processEventT c.state pdu with
        | ok s' => exact tells_ok _
        | error x =>
          intro e t h
          injection h with h
          subst h
          refine .inl ⟨pdu.type, ?_, tells_processEvent _ _ _ _ he⟩
          have hd : pduFromResponse f = .ok pdu := by rw [← pduFromResponseT_erase, hp]; rfl
          have hd := pdu_decodes.1 hd
          generalize f.service = sv at hd
          generalize f.data = fd at hd
          cases hd <;> first
            | exact ⟨.readInstantaneousValuesRequest, rfl⟩
            | exact ⟨.readTimeRequest, rfl⟩
            | exact ⟨.writeTimeRequest, rfl⟩
            | exact ⟨.readDeviceParametersRequest, rfl⟩
            | exact ⟨.readArchiveByTimeRequest, rfl⟩
            | exact ⟨.readArchiveRequest, rfl⟩

/-! ### The world -/

/-- `w'` is `w` some exchanges later: same client and handle, and the operating system has no other exceptions in store. -/
structure Later (w w' : World) : Prop where
  password : w'.password = w.password
  rands : w'.rands = w.rands
  transport : w'.transport = w.transport
  context : w'.conn.cipherContext = w.conn.cipherContext
  oses : w'.opens = w.opens ∧ w'.shutdowns = w.shutdowns ∧ w'.closes = w.closes
  writes : ∀ x, x ∈ w'.writes → x ∈ w.writes
  inbox : ∀ h e, Delivery.fail e ∈ w'.inbox h → Delivery.fail e ∈ w.inbox h

theorem Later.refl (w : World) : Later w w := ⟨rfl, rfl, rfl, rfl, ⟨rfl, rfl, rfl⟩, fun _ h => h, fun _ _ h => h⟩
theorem Later.trans {w w' w'' : World} (h : Later w w') (h' : Later w' w'') : Later w w'' :=
  ⟨h'.1.trans h.1, h'.2.trans h.2, h'.3.trans h.3, h'.4.trans h.4,
    ⟨h'.5.1.trans h.5.1, h'.5.2.1.trans h.5.2.1, h'.5.2.2.trans h.5.2.2⟩, fun x hx => h.6 x (h'.6 x hx),
    fun k e he => h.7 k e (h'.7 k e he)⟩

/-- What reading says. -/
def RecvTells (t : Transport) (s : List Delivery) (e : PyErr) (x : Text) : Prop :=
  (t.socket = none ∧ e = .runtime ∧ x = .said "TCP transport not connected.".toList) ∨
  (t.socket ≠ none ∧ Delivery.fail .os ∈ s ∧ e = .elgas .communication ∧ x = .said "Could not receive data".toList) ∨
  (t.socket ≠ none ∧ Delivery.fail e ∈ s ∧ x = .foreign)

theorem recvT_tells (t : Transport) (s : List Delivery) (c : Clock) :
    (∀ e x, (t.recvT s c).1 = .raised e x → RecvTells t s e x) ∧
    (t.socket ≠ none → ∀ e, Delivery.fail e ∈ (t.recvT s c).2.1 → Delivery.fail e ∈ s) := by
  have he := recvT_erase t s c
  cases hs : t.socket with
  | none =>
    refine ⟨fun e x h => .inl ⟨hs, ?_⟩, fun h => absurd rfl h⟩
    have hc := recv_closed t s c hs
    rw [← he, h] at hc
    injection hc with hc
    refine ⟨hc, ?_⟩
    unfold Transport.recvT at h
    rw [hs] at h
    split at h
    · cases h
    · injection h with h1 h2; exact h2.symm
    · cases h
  | some k =>
    have hn : t.socket ≠ none := by rw [hs]; simp
    refine ⟨fun e x h => ?_, fun _ e hf => ?_⟩
    · right
      unfold Transport.recvT at h
      cases hu : t.recvUntil [0x0D] none s c with | mk o r =>
      obtain ⟨s', c'⟩ := r
      rw [hu] at h
      cases o with
      | returned d => cases h
      | pending => cases h
      | raised y =>
        dsimp only at h
        rw [hs] at h
        dsimp only [OutcomeT.ofRes] at h
        injection h with h1 h2
        have hm : Delivery.fail y ∈ s := by
          have hu : recvUntilLoop t [0x0D] none (mkTimeout c t.timeout).1 [] s (mkTimeout c t.timeout).2 =
            (.raised y, s', c') := hu
          obtain ⟨s1, c1, _, hcase⟩ := loop_outcome hs (content s) (mkTimeout c t.timeout).1 (usable_mk c _) [] s
            (mkTimeout c t.timeout).2 rfl
          rw [hu] at hcase
          rw [← mem_content]
          rcases hcase with ⟨bs, g1, _⟩ | ⟨bs, e', g1, g2, _⟩ | ⟨bs, g1, _⟩
          · cases g1
          · injection g1 with g1 _
            injection g1 with g1
            rw [g2, g1]
            exact List.mem_append_right _ List.mem_cons_self
          · cases g1
        unfold wrapOsT at h1 h2
        split at h1
        · next hy =>
          rw [if_pos hy] at h2
          subst hy
          exact .inl ⟨hn, hm, h1.symm, h2.symm⟩
        · next hy =>
          rw [if_neg hy] at h2
          exact .inr ⟨hn, by rw [← show y = e from h1]; exact hm, h2.symm⟩
    · have h2 : (t.recvT s c).2 = (t.recv s c).2 := by rw [← he]
      rw [h2] at hf
      rw [← mem_content] at hf ⊢
      rcases C47_recv_cases t k hs s c with ⟨bs, s', c', hr, h1, _⟩ | ⟨bs, e', s', c', hr, h1, _⟩ | ⟨bs, s', c', hr, h1, h3, _⟩ <;>
        rw [hr] at hf <;> rw [h1]
      · exact List.mem_append_right _ hf
      · exact List.mem_append_right _ (List.mem_cons_of_mem _ hf)
      · rw [h3] at hf; cases hf

/-- What sending says. -/
def WSend (st : PState) (w : World) (ev : Event) (e : PyErr) (t : Text) : Prop :=
  SendTells st ev e t ∨
  (w.transport.socket = none ∧ e = .runtime ∧ t = .said (match w.transport.kind with
    | .tcp => "TCP transport not connected." | .serial => "Serial transport not connected." : String).toList) ∨
  (w.transport.socket ≠ none ∧ .error .os ∈ w.writes ∧ e = .elgas .communication ∧
    t = .said "Could no send data".toList) ∨
  (∃ h, w.transport.socket = some h ∧ .fail .os ∈ w.inbox h ∧ e = .elgas .communication ∧
    t = .said "Could not receive data".toList) ∨
  (RaisedByOs w e ∧ t = .foreign)

theorem writeT_tells (st : PState) (w : World) (ev : Event) (d : Bytes) :
    (∀ e t, (w.writeT d).1 = .raised e t → WSend st w ev e t) ∧ Later w (w.writeT d).2 ∧
    ((w.writeT d).1 = .returned () → w.transport.socket ≠ none) ∧ (w.writeT d).2.conn = w.conn := by
  unfold World.writeT Transport.sendT
  cases hs : w.transport.socket with
  | none =>
    refine ⟨fun e t h => .inr (.inl ⟨hs, ?_⟩), .refl w, fun h => (by cases h), rfl⟩
    injection h with h1 h2
    exact ⟨h1.symm, h2.symm⟩
  | some h =>
    cases hw : w.writes with
    | nil =>
      exact ⟨fun e t h => (by cases h), ⟨rfl, rfl, rfl, rfl, ⟨rfl, rfl, rfl⟩, fun x hx => (by simp at hx), fun _ _ h => h⟩,
        fun h => (by cases h), rfl⟩
    | cons r l =>
      have hL : ∀ os : List OsCall, Later w { w with os := os, writes := l } :=
        fun os => ⟨rfl, rfl, rfl, rfl, ⟨rfl, rfl, rfl⟩, fun x hx => (by rw [hw]; exact List.mem_cons_of_mem _ hx), fun _ _ h => h⟩
      cases r with
      | ok u => exact ⟨fun e t h => (by cases h), hL _, fun _ => (by simp), rfl⟩
      | error x =>
        refine ⟨fun e t h => ?_, hL _, fun h => (by cases h), rfl⟩
        injection h with h1 h2
        unfold wrapOsT at h1 h2
        split at h1
        · next hx =>
          rw [if_pos hx] at h2
          subst hx
          exact .inr (.inr (.inl ⟨by rw [hs]; simp, by rw [hw]; exact List.mem_cons_self, h1.symm, h2.symm⟩))
        · next hx =>
          rw [if_neg hx] at h2
          refine .inr (.inr (.inr (.inr ⟨.inr (.inr (.inr (.inl ?_))), h2.symm⟩)))
          rw [hw, ← show x = e from h1]
          exact List.mem_cons_self

theorem setUnread_later {w : World} {h : Handle} (hs : w.transport.socket = some h) {s : List Delivery} (k : Clock)
    (c : Conn) (hc : c.cipherContext = w.conn.cipherContext)
    (hf : ∀ e, Delivery.fail e ∈ s → Delivery.fail e ∈ w.inbox h) :
    Later w { w.setUnread s k with conn := c } := by
  rw [setUnread_some hs]
  refine ⟨rfl, rfl, rfl, hc, ⟨rfl, rfl, rfl⟩, fun _ hx => hx, fun g e he => ?_⟩
  dsimp only at he
  split at he
  · next hg => rw [hg]; exact hf e he
  · exact he

theorem setUnread_sameT (w : World) (s : List Delivery) (k : Clock) :
    w.setUnread s k = { w.setUnread s k with conn := w.conn } := by
  unfold World.setUnread
  cases w.transport.socket <;> rfl

theorem unread_some {w : World} {h : Handle} (hs : w.transport.socket = some h) : w.unread = w.inbox h := by
  unfold World.unread; rw [hs]

theorem receiveT_tells (st : PState) (w : World) (ev : Event) (hs : w.transport.socket ≠ none) :
    (∀ e t, w.receiveT.1 = .raised e t → WSend st w ev e t) ∧ Later w w.receiveT.2 ∧
    w.receiveT.2.conn.state = w.conn.state := by
  cases hs' : w.transport.socket with
  | none => exact absurd hs' hs
  | some h =>
    obtain ⟨h1, h2⟩ := recvT_tells w.transport w.unread w.clock
    have h2 := h2 hs
    unfold World.receiveT
    cases hr : w.transport.recvT w.unread w.clock with | mk o r =>
    obtain ⟨s, c⟩ := r
    rw [hr] at h1 h2
    dsimp only at h1 h2
    rw [unread_some hs'] at h1 h2
    cases o with
    | returned d =>
      refine ⟨fun e t h => (by cases h), setUnread_later hs' c _ (receiveData_frame _ _).2.1 h2, (receiveData_frame _ _).2.2⟩
    | pending =>
      refine ⟨fun e t h => (by cases h), ?_, ?_⟩
      · dsimp only; rw [setUnread_sameT]; exact setUnread_later hs' c _ rfl h2
      · dsimp only; rw [setUnread_sameT]
    | raised x t =>
      refine ⟨fun e t' h => ?_, ?_, ?_⟩
      · injection h with e1 e2
        subst e1; subst e2
        rcases h1 _ _ rfl with ⟨hn, _⟩ | ⟨_, hm, e1, e2⟩ | ⟨_, hm, e2⟩
        · exact absurd hn hs
        · exact .inr (.inr (.inr (.inl ⟨h, hs', hm, e1, e2⟩)))
        · exact .inr (.inr (.inr (.inr ⟨.inr (.inr (.inr (.inr ⟨h, hm⟩))), e2⟩)))
      · dsimp only; rw [setUnread_sameT]; exact setUnread_later hs' c _ rfl h2
      · dsimp only; rw [setUnread_sameT]

theorem raised_mono {w w' : World} (h : Later w w') {e : PyErr} (hr : RaisedByOs w' e) : RaisedByOs w e := by
  unfold RaisedByOs at *
  rw [h.oses.1, h.oses.2.1, h.oses.2.2] at hr
  rcases hr with hr | hr | hr | hr | ⟨k, hr⟩
  · exact .inl hr
  · exact .inr (.inl hr)
  · exact .inr (.inr (.inl hr))
  · exact .inr (.inr (.inr (.inl (h.writes _ hr))))
  · exact .inr (.inr (.inr (.inr ⟨k, h.inbox _ _ hr⟩)))

theorem wsend_mono {st : PState} {w w' : World} {ev : Event} {e : PyErr} {t : Text} (h : Later w w')
    (hr : WSend st w' ev e t) : WSend st w ev e t := by
  unfold WSend at *
  rw [h.transport] at hr
  rcases hr with hr | hr | ⟨h1, h2, h3⟩ | ⟨k, h1, h2, h3⟩ | ⟨h1, h2⟩
  · exact .inl hr
  · exact .inr (.inl hr)
  · exact .inr (.inr (.inl ⟨h1, h.writes _ h2, h3⟩))
  · exact .inr (.inr (.inr (.inl ⟨k, h1, h.inbox _ _ h2, h3⟩)))
  · exact .inr (.inr (.inr (.inr ⟨raised_mono h h1, h2⟩)))

/-- Only requests can be serialised. -/
theorem serialised_request {C : BlockCipher} {c : Conn} {ev : Event} {r : Rand} {d : Bytes}
    (h : c.serialise C ev r = .ok d) : IsRequest ev := by
  cases ev
  all_goals first
    | rfl
    | cases h
    | (unfold Conn.serialise at h
       cases hc : c.cipherContext <;> rw [hc] at h <;> cases h)

theorem connSend_ok {C : BlockCipher} {c : Conn} {ev : Event} {r : Rand} {d : Bytes} (h : (c.send C ev r).2 = .ok d) :
    IsRequest ev ∧ awaits (c.send C ev r).1.state = responseOf ev.type := by
  have hq : IsRequest ev := by
    unfold Conn.send at h
    cases hp : processEvent c.state ev with
    | error x => rw [hp] at h; cases h
    | ok s' => rw [hp] at h; exact serialised_request h
  rcases send_request_cases C c ev r hq with ⟨_, _, h3, _⟩ | ⟨_, h2⟩
  · exact ⟨hq, h3⟩
  · rw [h2] at h; cases h

theorem sendT_tells (C : BlockCipher) (w : World) (ev : Event) (hr : ∀ n, PadOk (w.rands n).pw) :
    (∀ e t, (w.sendT C ev).1 = .raised e t → WSend w.conn.state w ev e t) ∧ Later w (w.sendT C ev).2 ∧
    ((w.sendT C ev).1 = .returned () →
      IsRequest ev ∧ awaits (w.sendT C ev).2.conn.state = responseOf ev.type ∧ w.transport.socket ≠ none) := by
  have ht := tells_send C w.conn ev (hr w.draws)
  have he := connSendT_erase C w.conn ev (w.rands w.draws)
  have hf := send_frame C w.conn ev (w.rands w.draws)
  rw [← he] at hf
  unfold World.sendT
  cases hc : w.conn.sendT C ev (w.rands w.draws) with | mk c o =>
  rw [hc] at ht he hf
  dsimp only at ht he hf
  have hL : Later w { w with conn := c, draws := w.draws + 1 } :=
    ⟨rfl, rfl, rfl, hf.2.1, ⟨rfl, rfl, rfl⟩, fun _ h => h, fun _ _ h => h⟩
  cases o with
  | error x =>
    refine ⟨fun e t h => ?_, hL, fun h => (by cases h)⟩
    injection h with h1 h2
    exact .inl (ht e t (by rw [← h1, ← h2]))
  | ok data =>
    dsimp only
    obtain ⟨hq, ha⟩ : IsRequest ev ∧ awaits c.state = responseOf ev.type := by
      have := connSend_ok (C := C) (c := w.conn) (ev := ev) (r := w.rands w.draws) (d := data) (by rw [← he]; rfl)
      rw [← he] at this
      exact this
    obtain ⟨h1, h2, h3, h4⟩ := writeT_tells w.conn.state { w with conn := c, draws := w.draws + 1 } ev data
    cases hw : ({ w with conn := c, draws := w.draws + 1 } : World).writeT data with | mk o w1 =>
    rw [hw] at h1 h2 h3 h4
    dsimp only at h1 h2 h3 h4
    cases o with
    | raised x t =>
      exact ⟨fun e t' h => wsend_mono hL (h1 e t' h), hL.trans h2, fun h => (by cases h)⟩
    | pending => exact ⟨fun e t' h => (by cases h), hL.trans h2, fun h => (by cases h)⟩
    | returned u =>
      dsimp only
      have hs := h3 rfl
      have hs' : w1.transport.socket ≠ none := by rw [h2.transport]; exact hs
      obtain ⟨k1, k2, k3⟩ := receiveT_tells w.conn.state w1 ev hs'
      refine ⟨fun e t h => wsend_mono (hL.trans h2) (k1 e t h), (hL.trans h2).trans k2, fun _ => ⟨hq, ?_, hs⟩⟩
      rw [k3, h4]
      exact ha

theorem loopT_tells (C : BlockCipher) (t : Transport) (c : Conn) (s : List Delivery) (k : Clock) :
    (∀ e x, (worldLoopT C t c s k).1 = .raised e x →
      (∃ c', c'.cipherContext = c.cipherContext ∧ c'.state = c.state ∧ PollTells c' e x) ∨ RecvTells t s e x) ∧
    (worldLoopT C t c s k).2.1.cipherContext = c.cipherContext ∧
    (t.socket ≠ none → ∀ e, Delivery.fail e ∈ (worldLoopT C t c s k).2.2.1 → Delivery.fail e ∈ s) ∧
    (∀ ev, (worldLoopT C t c s k).1 = .returned ev → (worldLoopT C t c s k).2.1.state = .idle) := by
  fun_induction worldLoopT C t c s k with
  | case1 c s k c1 x hn =>
    have ht := tells_poll C c
    rw [hn] at ht
    refine ⟨fun e y h => .inl ⟨c, rfl, rfl, ?_⟩, ?_, fun _ e h => h, fun ev h => (by cases h)⟩
    · injection h with h1 h2
      exact ht e y (by rw [← h1, ← h2])
    · have := (nextEvent_frame C c).2
      rw [← connNextEventT_erase, hn] at this
      exact this
  | case2 c s k c1 ev hn =>
    refine ⟨fun e y h => (by cases h), ?_, fun _ e h => h, fun ev' h => ?_⟩
    · have := (nextEvent_frame C c).2
      rw [← connNextEventT_erase, hn] at this
      exact this
    · obtain ⟨_, _, h3⟩ := C38_poll_effect C c
      rw [← connNextEventT_erase, hn] at h3
      have := (h3 ev rfl).1
      exact congrArg Conn.state this
  | case3 c s k c1 hn d s1 k1 hr ih =>
    have hc : c1 = c := by
      have := (C38_poll_effect C c).1
      rw [← connNextEventT_erase, hn] at this
      exact this rfl
    subst hc
    obtain ⟨h1, h2⟩ := recvT_tells t s k
    rw [hr] at h2
    obtain ⟨i1, i2, i3, i4⟩ := ih
    obtain ⟨r1, r2, r3⟩ := receiveData_frame c1 d
    refine ⟨fun e x h => ?_, i2.trans r2, fun hs e h => h2 hs e (i3 hs e h), i4⟩
    rcases i1 e x h with ⟨c', g1, g2, g3⟩ | ⟨g1, g2⟩ | ⟨g1, g2, g3⟩ | ⟨g1, g2, g3⟩
    · exact .inl ⟨c', g1.trans r2, g2.trans r3, g3⟩
    · exact .inr (.inl ⟨g1, g2⟩)
    · exact .inr (.inr (.inl ⟨g1, h2 g1 _ g2, g3⟩))
    · exact .inr (.inr (.inr ⟨g1, h2 g1 _ g2, g3⟩))
  | case4 c s k c1 hn e x s1 k1 hr =>
    have hc : c1 = c := by
      have := (C38_poll_effect C c).1
      rw [← connNextEventT_erase, hn] at this
      exact this rfl
    subst hc
    obtain ⟨h1, h2⟩ := recvT_tells t s k
    rw [hr] at h1 h2
    refine ⟨fun e' x' h => .inr (h1 e' x' (by injection h with a b; rw [a, b])), rfl, h2, fun ev h => (by cases h)⟩
  | case5 c s k c1 hn s1 k1 hr =>
    have hc : c1 = c := by
      have := (C38_poll_effect C c).1
      rw [← connNextEventT_erase, hn] at this
      exact this rfl
    subst hc
    obtain ⟨h1, h2⟩ := recvT_tells t s k
    rw [hr] at h2
    exact ⟨fun e' x' h => (by cases h), rfl, h2, fun ev h => (by cases h)⟩

/-- What waiting for a response says. -/
def WPoll (st : PState) (w : World) (e : PyErr) (t : Text) : Prop :=
  (∃ c' : Conn, c'.cipherContext = w.conn.cipherContext ∧ c'.state = st ∧ PollTells c' e t) ∨
  RecvTells w.transport w.unread e t

theorem nextEventT_tells (C : BlockCipher) (w : World) :
    (∀ e t, (w.nextEventT C).1 = .raised e t → WPoll w.conn.state w e t) ∧
    (w.transport.socket ≠ none → Later w (w.nextEventT C).2) ∧
    (∀ ev, (w.nextEventT C).1 = .returned ev → (w.nextEventT C).2.conn.state = .idle) := by
  obtain ⟨h1, h2, h3, h4⟩ := loopT_tells C w.transport w.conn w.unread w.clock
  unfold World.nextEventT
  cases hl : worldLoopT C w.transport w.conn w.unread w.clock with | mk o r =>
  obtain ⟨c, s, k⟩ := r
  rw [hl] at h1 h2 h3 h4
  dsimp only at h1 h2 h3 h4 ⊢
  refine ⟨h1, fun hs => ?_, h4⟩
  cases hs' : w.transport.socket with
  | none => exact absurd hs' hs
  | some h => exact setUnread_later hs' k c h2 (by rw [← unread_some hs']; exact h3 hs)

/-- What an exchange says. -/
def ExTells (st : PState) (w : World) (ev : Event) (e : PyErr) (t : Text) : Prop :=
  WSend st w ev e t ∨
  (∃ c' : Conn, c'.cipherContext = w.conn.cipherContext ∧ awaits c'.state = responseOf ev.type ∧ PollTells c' e t)

theorem extells_mono {st : PState} {w w' : World} {ev : Event} {e : PyErr} {t : Text} (h : Later w w')
    (hr : ExTells st w' ev e t) : ExTells st w ev e t := by
  rcases hr with hr | ⟨c', h1, h2⟩
  · exact .inl (wsend_mono h hr)
  · exact .inr ⟨c', h1.trans h.context, h2⟩

theorem exchangeT_tells (C : BlockCipher) (w : World) (ev : Event) (hr : ∀ n, PadOk (w.rands n).pw) :
    (∀ e t, (w.exchangeT C ev).1 = .raised e t → ExTells w.conn.state w ev e t) ∧ Later w (w.exchangeT C ev).2 ∧
    (∀ x, (w.exchangeT C ev).1 = .returned x → (w.exchangeT C ev).2.conn.state = .idle) := by
  obtain ⟨h1, h2, h3⟩ := sendT_tells C w ev hr
  unfold World.exchangeT
  cases hs : w.sendT C ev with | mk o w1 =>
  rw [hs] at h1 h2 h3
  dsimp only at h1 h2 h3
  cases o with
  | raised x t => 
    refine ⟨fun e t' h => .inl (h1 e t' (by injection h with a b; rw [a, b])), h2, fun x h => (by cases h)⟩
  | pending => exact ⟨fun e t' h => (by cases h), h2, fun x h => (by cases h)⟩
  | returned u =>
    dsimp only
    obtain ⟨hq, ha, hn⟩ := h3 rfl
    have hn' : w1.transport.socket ≠ none := by rw [h2.transport]; exact hn
    obtain ⟨k1, k2, k3⟩ := nextEventT_tells C w1
    refine ⟨fun e t h => ?_, h2.trans (k2 hn'), k3⟩
    rcases k1 e t h with ⟨c', g1, g2, g3⟩ | ⟨g1, _⟩ | ⟨_, g2, g3⟩ | ⟨_, g2, g3⟩
    · exact .inr ⟨c', g1.trans h2.context, by rw [g2]; exact ha, g3⟩
    · exact absurd g1 hn'
    · cases hs' : w1.transport.socket with
      | none => exact absurd hs' hn'
      | some h =>
        rw [unread_some hs'] at g2
        exact .inl (wsend_mono h2 (.inr (.inr (.inr (.inl ⟨h, hs', g2, g3⟩)))))
    · cases hs' : w1.transport.socket with
      | none => exact absurd hs' hn'
      | some h =>
        rw [unread_some hs'] at g2
        exact .inl (wsend_mono h2 (.inr (.inr (.inr (.inr ⟨.inr (.inr (.inr (.inr ⟨h, g2⟩))), g3⟩)))))

/-- A request is never refused when no response is awaited. -/
theorem extells_idle {st : PState} {w : World} {ev : Event} (hq : IsRequest ev) {e : PyErr} {t : Text}
    (h : ExTells .idle w ev e t) : ExTells st w ev e t := by
  rcases h with ((⟨_, h, _⟩ | h) | h) | h
  · exact absurd (.inl ⟨rfl, hq⟩) h
  · exact .inl (.inl (.inr h))
  · exact .inl (.inr h)
  · exact .inr h

theorem pagesT_tells (C : BlockCipher) (w : World) (n : Int) (total : Bytes) (hr : ∀ n, PadOk (w.rands n).pw)
    (e : PyErr) (t : Text) (h : (w.readPagesT C n total).1 = .raised e t) :
    ∃ m, ExTells w.conn.state w (pageRequest w.password m) e t := by
  fun_induction World.readPagesT C w n total with
  | case1 w n total e' t' w1 hx =>
    obtain ⟨h1, h2, h3⟩ := exchangeT_tells C w (.readDeviceParametersRequest
      { password := w.password, objectCount := n, bufferLength := 1024 }) hr
    rw [hx] at h1
    exact ⟨n, h1 e t (by injection h with a b; rw [a, b])⟩
  | case2 => cases h
  | case3 => cases h
  | case4 w n total r w1 hx he ih =>
    obtain ⟨h1, h2, h3⟩ := exchangeT_tells C w (.readDeviceParametersRequest
      { password := w.password, objectCount := n, bufferLength := 1024 }) hr
    rw [hx] at h2 h3
    obtain ⟨m, hm⟩ := ih (by rw [h2.rands]; exact hr) h
    rw [h3 _ rfl, h2.password] at hm
    exact ⟨m, extells_mono h2 (extells_idle (ev := pageRequest w.password m) rfl hm)⟩
  | case5 =>
    injection h with a b
    subst a; subst b
    exact ⟨0, .inl (.inl (.inr (.inr ⟨rfl, builtin (by decide) (by intro x; cases x <;> decide)⟩)))⟩

theorem sendAllT_tells (C : BlockCipher) (es : List Event) : ∀ (w : World), (∀ n, PadOk (w.rands n).pw) →
    ∀ e t, (w.sendAllT C es).1 = .raised e t → ∃ ev ∈ es, ∃ st, WSend st w ev e t ∧
      (st = w.conn.state ∨ ∃ q ∈ es, IsRequest q ∧ awaits st = responseOf q.type) := by
  induction es with
  | nil => intro w hr e t h; cases h
  | cons ev es ih =>
    intro w hr e t h
    obtain ⟨h1, h2, h3⟩ := sendT_tells C w ev hr
    unfold World.sendAllT at h
    cases hs : w.sendT C ev with | mk o w1 =>
    rw [hs] at h h1 h2 h3
    dsimp only at h1 h2 h3
    cases o with
    | raised x t' => exact ⟨ev, List.mem_cons_self, _, h1 e t h, .inl rfl⟩
    | pending => cases h
    | returned u =>
      obtain ⟨ev', hm, st, hw, hst⟩ := ih w1 (by rw [h2.rands]; exact hr) e t h
      refine ⟨ev', List.mem_cons_of_mem _ hm, st, wsend_mono h2 hw, .inr ?_⟩
      rcases hst with rfl | ⟨q, hq, hq'⟩
      · exact ⟨ev, List.mem_cons_self, (h3 rfl).1, (h3 rfl).2.1⟩
      · exact ⟨q, List.mem_cons_of_mem _ hq, hq'⟩

/-- Said for a reason, or not of the library. -/
def WTells (w : World) (address : String) (a : Action) (e : PyErr) (t : Text) : Prop :=
  (∃ s, t = .said s ∧ Says w address a e s) ∨ (t = .foreign ∧ (OfLibrary e → RaisedByOs w e))

theorem wtells_foreign {w : World} {address : String} {a : Action} {e : PyErr} {t : Text} (h : Foreign e t) :
    WTells w address a e t := .inr ⟨h.1, fun hl => absurd hl h.2⟩

theorem wtells_send {st : PState} {w : World} {address : String} {a : Action} {ev : Event} {e : PyErr} {t : Text}
    (ha : Writes a) (hev : SendsEvent w.password a ev) (hst : StateAtSend w a st) (h : WSend st w ev e t) :
    WTells w address a e t := by
  rcases h with (⟨h1, h2, h3⟩ | ⟨pw, str, h1, h2, h3, h4⟩ | h) | ⟨h1, h2, h3⟩ | ⟨h1, h2, h3, h4⟩ | ⟨k, h1, h2, h3, h4⟩ | ⟨h1, h2⟩
  · exact .inl ⟨_, h3, by rw [h1]; exact .refused a ev st hev hst h2⟩
  · exact .inl ⟨_, h4, by rw [h3]; exact .password a ev pw str hev h1 h2⟩
  · exact wtells_foreign h
  · refine .inl ⟨_, h3, ?_⟩
    rw [h2]
    cases hk : w.transport.kind with
    | tcp => exact .closedTcp a ha hk h1
    | serial => exact .closedSerial a ha hk h1
  · exact .inl ⟨_, h4, by rw [h3]; exact .notSent a ha h1 h2⟩
  · exact .inl ⟨_, h4, by rw [h3]; exact .notReceived a k (.inl ha) h1 h2⟩
  · exact .inr ⟨h2, fun _ => h1⟩

theorem wtells_poll {w : World} {address : String} {a : Action} {c : Conn} {e : PyErr} {t : Text}
    (hc : c.cipherContext = w.conn.cipherContext) (ha : WaitsFor a) (hst : StateAtResponse w a c.state)
    (h : PollTells c e t) : WTells w address a e t := by
  rcases h with ⟨x, h1, h2, h3, h4⟩ | ⟨h1, h2⟩ | ⟨⟨ctx, h1⟩, h2, h3⟩ | ⟨d, h1, h2, h3⟩ | h
  · exact .inl ⟨_, h4, by rw [h2]; exact .unexpected a x _ h1 hst h3⟩
  · exact .inl ⟨_, h2, .device a e ha h1⟩
  · exact .inl ⟨_, h3, by rw [h2]; exact .keyId a ctx ha (hc ▸ h1)⟩
  · exact .inl ⟨_, h3, by rw [h2]; exact .time a d ha h1⟩
  · exact wtells_foreign h

theorem wtells_exchange {w : World} {address : String} {k : Call} {ev : Event} {e : PyErr} {t : Text}
    (hev : RequestOf w.password k ev) (h : ExTells w.conn.state w ev e t) : WTells w address (.call k) e t := by
  rcases h with h | ⟨c', h1, h2, h3⟩
  · exact wtells_send trivial hev (.inl rfl) h
  · exact wtells_poll h1 trivial (.inr ⟨k, ev, rfl, hev, h2⟩) h3

theorem andThen_raised {α β : Type} {o : OutcomeT α} {f : α → OutcomeT β} {e : PyErr} {t : Text}
    (h : o.andThen f = .raised e t) : o = .raised e t ∨ ∃ a, o = .returned a ∧ f a = .raised e t := by
  cases o with
  | returned a => exact .inr ⟨a, rfl, h⟩
  | raised x y => exact .inl (by injection h with a b; rw [a, b])
  | pending => cases h

theorem andThen_pure {α β : Type} {o : OutcomeT α} {f : α → β} {e : PyErr} {t : Text}
    (h : o.andThen (.returned ∘ f) = .raised e t) : o = .raised e t := by
  rcases andThen_raised h with h | ⟨a, _, h⟩
  · exact h
  · cases h

theorem act_tells (p : Printing) (look : Look) (C : BlockCipher) (w : World) (a : Action)
    (hr : ∀ n, PadOk (w.rands n).pw) (e : PyErr) (t : Text) (h : (actT p look C w a).1 = .raised e t) :
    WTells w (look.address p) a e t := by
  cases a with
  | connect =>
    have h := andThen_pure (f := fun _ => Value.nothing) h
    unfold World.connectT Transport.connectT at h
    cases hs : w.transport.socket with
    | some k =>
      rw [hs] at h
      injection h with h1 h2
      refine .inl ⟨_, h2.symm, ?_⟩
      rw [← show PyErr.runtime = e from h1]
      cases hk : w.transport.kind with
      | tcp => exact .connectedTcp hk (by rw [hs]; simp)
      | serial => exact .connectedSerial hk (by rw [hs]; simp)
    | none =>
      rw [hs] at h
      cases ho : w.opens with
      | nil => rw [ho] at h; cases h
      | cons r l =>
        rw [ho] at h
        cases r with
        | ok g => cases h
        | error x =>
          injection h with h1 h2
          unfold wrapOsT at h1 h2
          split at h1
          · next hx =>
            rw [if_pos hx] at h2
            subst hx
            exact .inl ⟨_, h2.symm, by rw [← h1]; exact .unable hs (by rw [ho]; rfl)⟩
          · next hx =>
            rw [if_neg hx] at h2
            exact .inr ⟨h2.symm, fun _ => .inl (by rw [ho, ← show x = e from h1]; exact List.mem_cons_self)⟩
  | disconnect =>
    have h := andThen_pure (f := fun _ => Value.nothing) h
    have key : ∀ x y, (OutcomeT.ofRes (w.transport.disconnectT x y).2.2 : OutcomeT Unit) = .raised e t →
        w.transport.socket ≠ none ∧ ∃ z, (x = .error z ∨ y = .error z) ∧
          ((z = .os ∧ e = .elgas .communication ∧ t = .said []) ∨ (z = e ∧ t = .foreign)) := by
      intro x y h
      unfold Transport.disconnectT Transport.disconnect at h
      cases hs : w.transport.socket with
      | none => rw [hs] at h; cases h
      | some g =>
        rw [hs] at h
        refine ⟨by simp, ?_⟩
        cases hk : w.transport.kind with
        | tcp =>
          rw [hk] at h
          cases x with
          | error z => exact ⟨z, .inl rfl, by
              dsimp only at h
              by_cases hz : z = .os
              · rw [if_pos hz] at h
                injection h with h1 h2
                exact .inl ⟨hz, h1.symm, h2.symm⟩
              · rw [if_neg hz] at h
                dsimp only at h
                rw [hs] at h
                injection h with h1 h2
                exact .inr ⟨h1, h2.symm⟩⟩
          | ok u =>
            cases y with
            | ok u' => cases h
            | error z => exact ⟨z, .inr rfl, by
              dsimp only at h
              by_cases hz : z = .os
              · rw [if_pos hz] at h
                injection h with h1 h2
                exact .inl ⟨hz, h1.symm, h2.symm⟩
              · rw [if_neg hz] at h
                dsimp only at h
                rw [hs] at h
                injection h with h1 h2
                exact .inr ⟨h1, h2.symm⟩⟩
        | serial =>
          rw [hk] at h
          cases y with
          | ok u' => cases h
          | error z => exact ⟨z, .inr rfl, by
              dsimp only at h
              by_cases hz : z = .os
              · rw [if_pos hz] at h
                injection h with h1 h2
                exact .inl ⟨hz, h1.symm, h2.symm⟩
              · rw [if_neg hz] at h
                dsimp only at h
                rw [hs] at h
                injection h with h1 h2
                exact .inr ⟨h1, h2.symm⟩⟩
    have fin : ∀ x y, (∀ z, (x = .error z ∨ y = .error z) → .error z ∈ w.shutdowns ∨ .error z ∈ w.closes) →
        (OutcomeT.ofRes (w.transport.disconnectT x y).2.2 : OutcomeT Unit) = .raised e t →
        WTells w (look.address p) .disconnect e t := by
      intro x y hxy h
      obtain ⟨hs, z, hz, hc⟩ := key x y h
      have hm := hxy z hz
      rcases hc with ⟨rfl, rfl, rfl⟩ | ⟨rfl, rfl⟩
      · exact .inl ⟨_, rfl, .closing hs hm⟩
      · refine .inr ⟨rfl, fun _ => ?_⟩
        rcases hm with hm | hm
        · exact .inr (.inl hm)
        · exact .inr (.inr (.inl hm))
    unfold World.disconnectT at h
    cases hs : w.transport.socket with
    | none => rw [hs] at h; cases h
    | some g =>
      rw [hs] at h
      cases hk : w.transport.kind with
      | serial =>
        rw [hk] at h
        cases hc : w.closes with
        | nil => rw [hc] at h; cases h
        | cons c l =>
          rw [hc] at h
          refine fin _ _ (fun z hz => .inr ?_) h
          rcases hz with hz | hz
          · cases hz
          · rw [hc, hz]; exact List.mem_cons_self
      | tcp =>
        rw [hk] at h
        cases hd : w.shutdowns with
        | nil => rw [hd] at h; cases h
        | cons r l =>
          rw [hd] at h
          cases r with
          | error z =>
            refine fin _ _ (fun z hz => .inl ?_) h
            rcases hz with hz | hz
            · rw [hd, hz]; exact List.mem_cons_self
            · cases hz
          | ok u =>
            cases hc : w.closes with
            | nil => rw [hc] at h; cases h
            | cons c l =>
              rw [hc] at h
              refine fin _ _ (fun z hz => .inr ?_) h
              rcases hz with hz | hz
              · cases hz
              · rw [hc, hz]; exact List.mem_cons_self
  | send es =>
    obtain ⟨ev, hm, st, hw, hst⟩ := sendAllT_tells C es w hr e t (andThen_pure (f := fun _ => Value.nothing) h)
    refine wtells_send trivial hm ?_ hw
    rcases hst with h | ⟨q, h1, h2, h3⟩
    · exact .inl h
    · exact .inr ⟨es, q, rfl, h1, h2, h3⟩
  | nextEvent =>
    rcases (nextEventT_tells C w).1 e t (andThen_pure h) with ⟨c', g1, g2, g3⟩ | ⟨g1, g2, g3⟩ | ⟨g1, g2, g3, g4⟩ | ⟨g1, g2, g3⟩
    · exact wtells_poll g1 trivial (.inl ⟨rfl, g2⟩) g3
    · exact .inl ⟨_, g3, by rw [g2]; exact .closedRead g1⟩
    · cases hs' : w.transport.socket with
      | none => exact absurd hs' g1
      | some k =>
        rw [unread_some hs'] at g2
        exact .inl ⟨_, g4, by rw [g3]; exact .notReceived _ k (.inr rfl) hs' g2⟩
    · cases hs' : w.transport.socket with
      | none => exact absurd hs' g1
      | some k =>
        rw [unread_some hs'] at g2
        exact .inr ⟨g3, fun _ => .inr (.inr (.inr (.inr ⟨k, g2⟩)))⟩
  | call k =>
    cases k with
    | readInstantaneousValues =>
      exact wtells_exchange rfl ((exchangeT_tells C w _ hr).1 e t (andThen_pure h))
    | readTime =>
      rcases andThen_raised (andThen_pure h) with h | ⟨x, _, h⟩
      · exact wtells_exchange rfl ((exchangeT_tells C w _ hr).1 e t h)
      · refine wtells_foreign ?_
        cases x <;> first
          | (cases h; done)
          | (injection h with h1 h2
             exact ⟨h2.symm, by rw [← h1]; exact builtin (by decide) (by intro x; cases x <;> decide)⟩)
    | writeTime x b =>
      rcases andThen_raised h with h | ⟨_, _, h⟩
      · exact wtells_exchange rfl ((exchangeT_tells C w _ hr).1 e t h)
      · cases h
    | readParameters n =>
      rcases andThen_raised (andThen_pure h) with h | ⟨d, _, h⟩
      · obtain ⟨m, hm⟩ := pagesT_tells C w n [] hr e t h
        exact wtells_exchange (k := .readParameters n) ⟨m, rfl⟩ hm
      · unfold parseParametersT at h
        split at h
        · injection h with h1 h2
          exact .inl ⟨_, h2.symm, by rw [← h1]; exact .noData n⟩
        · split at h
          · cases h
          · injection h with h1 h2
            exact .inl ⟨_, h2.symm, by rw [← h1]; exact .parameter n⟩
          · next x hx hp =>
            injection h with h1 h2
            refine wtells_foreign ⟨h2.symm, ?_⟩
            rw [← show x = e from h1]
            exact not_library (l := parseErrors) (by refine ⟨by decide, fun x => ?_⟩; cases x <;> decide)
              (C57_exceptions d _ hp)
    | readArchive x y z =>
      exact wtells_exchange rfl ((exchangeT_tells C w _ hr).1 e t (andThen_pure h))
    | readArchiveByTime x y z =>
      exact wtells_exchange rfl ((exchangeT_tells C w _ hr).1 e t (andThen_pure h))

/-- C99. Whatever a client does, from whatever state: if the repository says something with the exception, it is one
of these texts, and what the text claims is so. -/
theorem C99_says (p : Printing) (look : Look) (C : BlockCipher) (w : World) (hr : ∀ n, PadOk (w.rands n).pw) (a : Action)
    (e : PyErr) (s : PyStr) (h : (actT p look C w a).1 = .raised e (.said s)) : Says w (look.address p) a e s := by
  rcases act_tells p look C w a hr e _ h with ⟨s', h1, h2⟩ | ⟨h1, _⟩
  · injection h1 with h1; rw [h1]; exact h2
  · cases h1

/-- C99. And conversely an exception of the library always says what the library has to say: it is never raised with
another text, unless the operating system raised it. -/
theorem C99_library (p : Printing) (look : Look) (C : BlockCipher) (w : World) (hr : ∀ n, PadOk (w.rands n).pw)
    (a : Action) (e : PyErr) (hl : OfLibrary e) (h : (actT p look C w a).1 = .raised e .foreign) : RaisedByOs w e := by
  rcases act_tells p look C w a hr e _ h with ⟨s', h1, _⟩ | ⟨_, h2⟩
  · cases h1
  · exact h2 hl

/-- C99. With an operating system that raises only `OSError`s, the class of a transport's exception fixes its text up
to the cause: a `RuntimeError` is about the handle, and names the transport. -/
theorem C99_runtime (p : Printing) (look : Look) (C : BlockCipher) (w : World) (hr : ∀ n, PadOk (w.rands n).pw)
    (ho : ∀ e, RaisedByOs w e → e = .os) (a : Action) (t : Text)
    (h : (actT p look C w a).1 = .raised .runtime t) :
    (a = .connect ∧ w.transport.socket ≠ none ∧ t = .said (match w.transport.kind with
      | .tcp => "There is already an active socket to " ++ look.address p
      | .serial => "There is already an active serial port" : String).toList) ∨
    (Writes a ∧ w.transport.socket = none ∧ t = .said (match w.transport.kind with
      | .tcp => "TCP transport not connected." | .serial => "Serial transport not connected." : String).toList) ∨
    (a = .nextEvent ∧ w.transport.socket = none ∧ t = .said "TCP transport not connected.".toList) := by
  rcases act_tells p look C w a hr _ _ h with ⟨s, rfl, hs⟩ | ⟨_, h2⟩
  · cases hs with
    | connectedTcp h1 h2 => exact .inl ⟨rfl, h2, by rw [h1]⟩
    | connectedSerial h1 h2 => exact .inl ⟨rfl, h2, by rw [h1]⟩
    | closedTcp _ h1 h2 h3 => exact .inr (.inl ⟨h1, h3, by rw [h2]⟩)
    | closedSerial _ h1 h2 h3 => exact .inr (.inl ⟨h1, h3, by rw [h2]⟩)
    | closedRead h1 => exact .inr (.inr ⟨rfl, h1, rfl⟩)
    | device _ _ _ hd => obtain ⟨k, x, _, hx⟩ := hd; cases hx
  · cases ho _ (h2 (.inl rfl))

/-- C99. And a `CommunicationError` is about the one call of the operating system that failed. -/
theorem C99_communication (p : Printing) (look : Look) (C : BlockCipher) (w : World) (hr : ∀ n, PadOk (w.rands n).pw)
    (ho : ∀ e, RaisedByOs w e → e = .os) (a : Action) (t : Text)
    (h : (actT p look C w a).1 = .raised (.elgas .communication) t) :
    (a = .connect ∧ w.opens.head? = some (.error .os) ∧ t = .said "Unable to connect socket".toList) ∨
    (a = .disconnect ∧ (.error .os ∈ w.shutdowns ∨ .error .os ∈ w.closes) ∧ t = .said []) ∨
    (Writes a ∧ .error .os ∈ w.writes ∧ t = .said "Could no send data".toList) ∨
    ((Writes a ∨ a = .nextEvent) ∧ (∃ k, w.transport.socket = some k ∧ .fail .os ∈ w.inbox k) ∧
      t = .said "Could not receive data".toList) := by
  rcases act_tells p look C w a hr _ _ h with ⟨s, rfl, hs⟩ | ⟨_, h2⟩
  · cases hs with
    | unable h1 h2 => exact .inl ⟨rfl, h2, rfl⟩
    | closing h1 h2 => exact .inr (.inl ⟨rfl, h2, rfl⟩)
    | notSent _ h1 h2 h3 => exact .inr (.inr (.inl ⟨h1, h3, rfl⟩))
    | notReceived _ k h1 h2 h3 => exact .inr (.inr (.inr ⟨h1, ⟨k, h2, h3⟩, rfl⟩))
    | device _ _ _ hd =>
      obtain ⟨k, x, hk, hx⟩ := hd
      injection hx with hx
      subst hx
      match k with
      | 0 | 1 | 2 | 3 | 4 | 5 | 6 | 7 => cases hk
      | k + 8 => cases hk
  · cases ho _ (h2 (.inr ⟨_, rfl⟩))

/-! ### The text that shows a password -/

/-- C99. A password that Latin-1 cannot encode is accepted by the constructor, and the first request that carries it
raises an exception whose text shows the character at fault and its place (or the places of the run of such
characters). -/
theorem C99_password_shown (C : BlockCipher) (w : World) (hr : ∀ n, PadOk (w.rands n).pw) (hi : w.conn.state = .idle)
    (e : Event) (hq : IsRequest e) (pw : PyStr) (hp : passwordOf e = some pw) (hn : ¬ IsLatin1 pw) :
    ∃ s, Unencodable pw s ∧ (w.sendT C e).1 = .raised .unicodeEncode (.said s) := by
  obtain ⟨b, m, a, h1, h2, h3, h4, h5⟩ := split_bad pw hn
  obtain ⟨k1, k2⟩ := encodeErrorText_split b m a h2 h3 h4 h5
  have hx : ∀ r, PadOk r → passwordBlockT pw r = .error (.unicodeEncode, .said (encodeErrorText pw)) := by
    intro r hr
    have hnp : ¬ IsLatin1 (padPassword pw r) := fun hl => hn fun c hc => hl c (by
      unfold padPassword; simp only [List.mem_append]; exact .inl (.inl hc))
    unfold passwordBlockT passwordBlock
    rw [encodeLatin1_err hnp]
    have : encodeErrorText (padPassword pw r) = encodeErrorText pw := by
      unfold padPassword
      rw [List.append_assoc, h1, k2 _ (by intro d hd; injection hd with hd; rw [← hd]; decide)]
    rw [← this]
  have hs : processEventT w.conn.state e = .ok ((transitions .idle e.type).getD .idle) := by
    unfold processEventT
    rw [hi]
    cases e <;> first | rfl | cases hq
  refine ⟨encodeErrorText pw, by rw [h1]; exact k1, ?_⟩
  unfold World.sendT Conn.sendT
  rw [hs]
  dsimp only
  have hser : ∀ c : Conn, c.serialiseT C e (w.rands w.draws) = .error (.unicodeEncode, .said (encodeErrorText pw)) := by
    intro c
    have hb : e.toBytesT (w.rands w.draws) = .error (.unicodeEncode, .said (encodeErrorText pw)) := by
      unfold Event.toBytesT
      cases e <;> first
        | (cases hp; done)
        | (injection hp with hp; subst hp; dsimp only; rw [hx _ (hr _)]; rfl)
    unfold Conn.serialiseT
    rw [hb]
    rfl
  rw [hser]

/-! ### Constructing a connection -/

/-- The first attribute out of range. -/
def FirstBad (l : List Bound) (s : PyStr) : Prop :=
  ∃ before b after, l = before ++ b :: after ∧ (∀ x ∈ before, x.Ok) ∧ ¬ b.Ok ∧ s = b.text

theorem firstBad_cons {b : Bound} {l : List Bound} {s : PyStr} :
    FirstBad (b :: l) s ↔ (¬ b.Ok ∧ s = b.text) ∨ (b.Ok ∧ FirstBad l s) := by
  constructor
  · rintro ⟨before, x, after, h1, h2, h3, h4⟩
    cases before with
    | nil =>
      injection h1 with e1 e2
      subst e1
      exact .inl ⟨h3, h4⟩
    | cons y before =>
      injection h1 with e1 e2
      subst e1
      exact .inr ⟨h2 _ List.mem_cons_self, before, x, after, e2, fun z hz => h2 z (List.mem_cons_of_mem _ hz), h3, h4⟩
  · rintro (⟨h1, h2⟩ | ⟨h0, before, x, after, h1, h2, h3, h4⟩)
    · exact ⟨[], b, l, rfl, fun z hz => (by cases hz), h1, h2⟩
    · refine ⟨b :: before, x, after, by rw [h1]; rfl, fun z hz => ?_, h3, h4⟩
      rcases List.mem_cons.1 hz with rfl | hz
      · exact h0
      · exact h2 z hz

theorem said_error {α : Type} {x : String} {s : PyStr} :
    (say .value x : ResT α) = .error (.value, .said s) ↔ s = x.toList := by
  unfold say
  constructor
  · intro h; injection h with h; injection h with _ h; injection h with h; exact h.symm
  · rintro rfl; rfl

theorem shown_toList (n : Int) : (shown n).toList = pyStrInt n := String.toList_ofList

theorem quote_toList : ("'" : String).toList = ['\''] := rfl

theorem range_bound {name : String} {lo hi v : Int} {k : ResT Conn} {l : List Bound} {s : PyStr} (hn : name ≠ "password")
    (hk : k = .error (.value, .said s) ↔ FirstBad l s) :
    (do geT name lo v; leT name hi v; k) = .error (.value, .said s) ↔ FirstBad (⟨name, lo, hi, v⟩ :: l) s := by
  rw [firstBad_cons]
  unfold geT leT Bound.Ok Bound.text
  dsimp only
  by_cases h1 : lo ≤ v
  · rw [if_pos h1, if_neg (by omega : ¬ v < lo), if_neg hn]
    by_cases h2 : v ≤ hi
    · rw [if_pos h2]
      show k = _ ↔ _
      rw [hk]
      simp [h1, h2]
    · rw [if_neg h2]
      show (say .value _ : ResT Conn) = _ ↔ _
      rw [said_error]
      simp [h2, String.toList_append, shown_toList, quote_toList]
  · rw [if_neg h1, if_pos (by omega : v < lo)]
    show (say .value _ : ResT Conn) = _ ↔ _
    rw [said_error]
    simp [h1, String.toList_append, shown_toList, quote_toList]

theorem length_bound {v : PyStr} {k : ResT Conn} {l : List Bound} {s : PyStr}
    (hk : k = .error (.value, .said s) ↔ FirstBad l s) :
    (do maxLenT "password" 6 v; k) = .error (.value, .said s) ↔ FirstBad (⟨"password", 0, 6, v.length⟩ :: l) s := by
  rw [firstBad_cons]
  unfold maxLenT Bound.Ok Bound.text
  dsimp only
  rw [if_neg (by omega : ¬ (v.length : Int) < 0), if_pos rfl]
  by_cases h : v.length ≤ 6
  · rw [if_pos h]
    show k = _ ↔ _
    rw [hk]
    simp [(by omega : (0 : Int) ≤ v.length), (by omega : (v.length : Int) ≤ 6)]
  · rw [if_neg h]
    show (say .value _ : ResT Conn) = _ ↔ _
    rw [said_error]
    have h' : ¬ (v.length : Int) ≤ 6 := by omega
    simp only [h', String.toList_append, shown_toList, and_false, not_false_eq_true, true_and, false_and, or_false]
    rfl

/-- C99. The exception of the constructor names the first attribute that is out of range, with its bound and its value;
of the password it shows only the length. -/
theorem C99_construct (a : ConnArgs) (s : PyStr) :
    mkConnT a = .error (.value, .said s) ↔
      ∃ before b after, bounds a = before ++ b :: after ∧ (∀ x ∈ before, x.Ok) ∧ ¬ b.Ok ∧ s = b.text := by
  show _ ↔ FirstBad (bounds a) s
  unfold mkConnT bounds
  refine range_bound (by decide) (range_bound (by decide) (range_bound (by decide) (range_bound (by decide)
    (length_bound (range_bound (by decide) ?_)))))
  constructor
  · intro h; cases h
  · rintro ⟨b, x, c, h, _⟩; cases b <;> cases h

/-- C99. And it has no other exceptions. -/
theorem C99_construct_only (a : ConnArgs) (e : PyErr) (t : Text) (h : mkConnT a = .error (e, t)) :
    e = .value ∧ ∃ s, t = .said s := by
  have key : Tells (fun e t => e = .value ∧ ∃ s, t = .said s) (mkConnT a) := by
    have hg : ∀ n b v, Tells (fun e t => e = .value ∧ ∃ s, t = .said s) (geT n b v) := fun n b v => by
      unfold geT; exact tells_ite (fun _ => tells_ok _) fun _ => tells_say ⟨rfl, _, rfl⟩
    have hl : ∀ n b v, Tells (fun e t => e = .value ∧ ∃ s, t = .said s) (leT n b v) := fun n b v => by
      unfold leT; exact tells_ite (fun _ => tells_ok _) fun _ => tells_say ⟨rfl, _, rfl⟩
    have hm : ∀ n b v, Tells (fun e t => e = .value ∧ ∃ s, t = .said s) (maxLenT n b v) := fun n b v => by
      unfold maxLenT; exact tells_ite (fun _ => tells_ok _) fun _ => tells_say ⟨rfl, _, rfl⟩
    unfold mkConnT
    refine tells_bind (hg _ _ _) fun _ => tells_bind (hl _ _ _) fun _ => ?_
    refine tells_bind (hg _ _ _) fun _ => tells_bind (hl _ _ _) fun _ => ?_
    refine tells_bind (hg _ _ _) fun _ => tells_bind (hl _ _ _) fun _ => ?_
    refine tells_bind (hg _ _ _) fun _ => tells_bind (hl _ _ _) fun _ => ?_
    refine tells_bind (hm _ _ _) fun _ => ?_
    exact tells_bind (hg _ _ _) fun _ => tells_bind (hl _ _ _) fun _ => tells_ok _
  exact key e t h

/-! ### Reading a frame -/

theorem take_drop_byte (d : Bytes) (k : Nat) : (fromLE ((d.take (k + 1)).drop k) : Nat) = (d.getD k 0).toNat := by
  rw [List.drop_take, show k + 1 - k = 1 by omega, List.getD_eq_getElem?_getD, ← List.head?_drop]
  cases d.drop k with
  | nil => rfl
  | cons x l => simp [fromLE]

theorem take_drop_bytes (d : Bytes) (k : Nat) :
    (fromLE ((d.take (k + 2)).drop k) : Nat) = (d.getD k 0).toNat + 256 * (d.getD (k + 1) 0).toNat := by
  rw [List.drop_take, show k + 2 - k = 2 by omega, List.getD_eq_getElem?_getD, List.getD_eq_getElem?_getD,
    ← List.head?_drop, ← List.head?_drop, ← List.drop_drop]
  cases d.drop k with
  | nil => rfl
  | cons x l =>
    cases l with
    | nil => simp [fromLE]
    | cons y l => simp [fromLE]

theorem tail_unique {body body' : Bytes} {l c r l' c' r' : UInt8}
    (h : (0x02 :: body ++ [l, c, r, 0x0D] : Bytes) = 0x02 :: body' ++ [l', c', r', 0x0D]) :
    body = body' ∧ l = l' ∧ c = c' ∧ r = r' := by
  obtain ⟨h1, h2⟩ := List.append_inj' h rfl
  injection h1 with _ h1
  simp at h2
  exact ⟨h1, h2⟩

theorem frame_tail {ty : UInt8} {d : Bytes} (h1 : [0x02, 0xFE, ty] <+: d) (h2 : [0x0D] <:+ d) (h : 5 ≤ d.length) :
    ∃ body l c r, d = 0x02 :: body ++ [l, c, r, 0x0D] := by
  obtain ⟨u, hu⟩ := h2
  obtain ⟨v, hv⟩ := h1
  have hl : u.length = d.length - 1 := by rw [← hu]; simp
  have e1 : u = u.take 1 ++ ((u.drop 1).take (u.length - 4) ++ (u.drop 1).drop (u.length - 4)) := by
    rw [List.take_append_drop, List.take_append_drop]
  have e2 : u.take 1 = [0x02] := by
    have : d.take 1 = u.take 1 := by rw [← hu, List.take_append_of_le_length (by omega)]
    rw [← this, ← hv]; rfl
  have e3 : ((u.drop 1).drop (u.length - 4)).length = 3 := by simp; omega
  match h3 : (u.drop 1).drop (u.length - 4), e3 with
  | [l, c, r], _ =>
    refine ⟨(u.drop 1).take (u.length - 4), l, c, r, ?_⟩
    rw [e2, h3] at e1
    rw [← hu]
    conv => lhs; rw [e1]
    simp

/-- C99. The `ValueError` of reading a frame tells the first check that fails, and the two numbers that differ: of the
length, of the LRC and of the checksum.  Of the DRC it shows the received number twice. -/
theorem C99_frame (name : String) (ty : UInt8) (d : Bytes) (s : PyStr) :
    frameFromBytesT name ty d = .error (.value, .said s) ↔ FrameSays name ty d s := by
  unfold frameFromBytesT
  have hst : startsWith d [0x02, 0xFE, ty] = true ↔ [0x02, 0xFE, ty] <+: d := by
    unfold startsWith; exact List.isPrefixOf_iff_prefix
  have hen : endsWith d [0x0D] = true ↔ [0x0D] <:+ d := by
    unfold endsWith; exact List.isSuffixOf_iff_suffix
  by_cases h1 : [0x02, 0xFE, ty] <+: d
  rotate_left
  · rw [if_pos (by rw [Bool.not_eq_true', Bool.eq_false_iff, ne_eq, hst]; exact h1), said_error]
    constructor
    · rintro rfl; exact .start h1
    · intro h
      cases h with
      | start => rfl
      | ending h => exact absurd h h1
      | length h => exact absurd h.1 h1
      | lrc _ _ _ _ h => exact absurd h.1 h1
      | checksum _ _ _ _ h => exact absurd h.1 h1
      | drc _ _ _ _ h => exact absurd h.1 h1
  rw [if_neg (by simpa [hst] using h1)]
  by_cases h2 : [0x0D] <:+ d
  rotate_left
  · rw [if_pos (by rw [Bool.not_eq_true', Bool.eq_false_iff, ne_eq, hen]; exact h2), said_error]
    constructor
    · rintro rfl; exact .ending h1 h2
    · intro h
      cases h with
      | start h => exact absurd h1 h
      | ending => rfl
      | length h => exact absurd h.2.1 h2
      | lrc _ _ _ _ h => exact absurd h.2.1 h2
      | checksum _ _ _ _ h => exact absurd h.2.1 h2
      | drc _ _ _ _ h => exact absurd h.2.1 h2
  rw [if_neg (by simpa [hen] using h2)]
  have hsv : fromLE (slice d 3 4) = (d.getD 3 0).toNat := by rw [slice_ofNat]; exact take_drop_byte d 3
  have han : fromLE (slice d 4 6) = announced d := by rw [slice_ofNat]; exact take_drop_bytes d 4
  rw [hsv, han]
  cases hs : ServiceNumber.ofValue (d.getD 3 0).toNat with
  | error e =>
    have hn : (d.getD 3 0).toNat ∉ services := by
      rw [← service_ofValue_mem, hs]; rintro ⟨s, h⟩; cases h
    constructor
    · intro h; cases h
    · intro h
      cases h with
      | start h => exact absurd h1 h
      | ending _ h => exact absurd h2 h
      | length h => exact absurd h.2.2 hn
      | lrc _ _ _ _ h => exact absurd h.2.2 hn
      | checksum _ _ _ _ h => exact absurd h.2.2 hn
      | drc _ _ _ _ h => exact absurd h.2.2 hn
  | ok sv =>
    have ho : Outlined ty d := ⟨h1, h2, (service_ofValue_mem _).1 ⟨sv, hs⟩⟩
    have hl3 : 3 ≤ d.length := by obtain ⟨v, rfl⟩ := h1; simp
    show (if (announced d : Int) ≠ (d.length : Int) - 1 then _ else _ : ResT Frame) = _ ↔ _
    by_cases h3 : announced d = d.length - 1
    rotate_left
    · rw [if_pos (by omega), said_error]
      have e : ((d.length : Int) - 1) = ((d.length - 1 : Nat) : Int) := by omega
      constructor
      · rintro rfl
        rw [e]
        have := FrameSays.length (name := name) ho h3
        simpa [String.toList_append, shown_toList] using this
      · intro h
        cases h with
        | start h => exact absurd h1 h
        | ending _ h => exact absurd h2 h
        | length h => rw [e]; simp [String.toList_append, shown_toList]
        | lrc _ _ _ _ _ h => exact absurd h h3
        | checksum _ _ _ _ _ h => exact absurd h h3
        | drc _ _ _ _ _ h => exact absurd h h3
    rw [if_neg (by omega)]
    have hl5 : 5 ≤ d.length := by
      rcases Nat.lt_or_ge d.length 5 with h | h
      · unfold announced at h3
        rw [List.getD_eq_getElem?_getD, List.getD_eq_getElem?_getD, List.getElem?_eq_none (by omega),
          List.getElem?_eq_none (by omega)] at h3
        simp at h3
        omega
      · exact h
    obtain ⟨body, l, c, r, hd⟩ := frame_tail h1 h2 hl5
    have hlen : d.length = body.length + 5 := by rw [hd]; simp
    have g4 : pyGet d (-4) = .ok l := by rw [pyGet_neg4 (by omega)]; subst hd; simp
    have g3 : pyGet d (-3) = .ok c := by rw [pyGet_neg3 (by omega)]; subst hd; simp
    have g2 : pyGet d (-2) = .ok r := by rw [pyGet_neg2 (by omega)]; subst hd; simp
    have gb : slice d 1 (-4) = body := by
      rw [show slice d 1 (-4) = (d.take (d.length - 4)).drop 1 from slice_nat_neg d 1 4 (by omega), hlen]; subst hd; simp
    rw [g4, g3, g2, gb, calculateLrc_eq, calculateChecksum_eq, calculateDrc_eq]
    show (if l.toNat ≠ (xorAll body).toNat then _ else _ : ResT Frame) = _ ↔ _
    by_cases h4 : l = xorAll body
    rotate_left
    · rw [if_pos (fun h => h4 (UInt8.toNat_inj.1 h)), said_error]
      constructor
      · rintro rfl
        have := FrameSays.lrc (name := name) body l c r ho h3 hd h4
        simpa [String.toList_append, shown_toList] using this
      · intro h
        cases h with
        | start h => exact absurd h1 h
        | ending _ h => exact absurd h2 h
        | length _ h => exact absurd h3 h
        | lrc b' l' c' r' _ _ hd' h =>
          obtain ⟨rfl, rfl, rfl, rfl⟩ := tail_unique (hd.symm.trans hd')
          simp [String.toList_append, shown_toList]
        | checksum b' l' c' r' _ _ hd' h =>
          obtain ⟨rfl, rfl, rfl, rfl⟩ := tail_unique (hd.symm.trans hd')
          exact absurd h h4
        | drc b' l' c' r' _ _ hd' h =>
          obtain ⟨rfl, rfl, rfl, rfl⟩ := tail_unique (hd.symm.trans hd')
          exact absurd h h4
    rw [if_neg (fun h => h (by rw [h4]))]
    show (if c.toNat ≠ sumMod body then _ else _ : ResT Frame) = _ ↔ _
    by_cases h5 : c.toNat = sumMod body
    rotate_left
    · rw [if_pos h5, said_error]
      constructor
      · rintro rfl
        have := FrameSays.checksum (name := name) body l c r ho h3 hd h4 h5
        simpa [String.toList_append, shown_toList] using this
      · intro h
        cases h with
        | start h => exact absurd h1 h
        | ending _ h => exact absurd h2 h
        | length _ h => exact absurd h3 h
        | lrc b' l' c' r' _ _ hd' h =>
          obtain ⟨rfl, rfl, rfl, rfl⟩ := tail_unique (hd.symm.trans hd')
          exact absurd h4 h
        | checksum b' l' c' r' _ _ hd' h =>
          obtain ⟨rfl, rfl, rfl, rfl⟩ := tail_unique (hd.symm.trans hd')
          simp [String.toList_append, shown_toList]
        | drc b' l' c' r' _ _ hd' _ h =>
          obtain ⟨rfl, rfl, rfl, rfl⟩ := tail_unique (hd.symm.trans hd')
          exact absurd h h5
    rw [if_neg (fun h => h h5)]
    show (if r.toNat ≠ (rotXor body).toNat then _ else _ : ResT Frame) = _ ↔ _
    by_cases h6 : r = rotXor body
    rotate_left
    · rw [if_pos (fun h => h6 (UInt8.toNat_inj.1 h)), said_error]
      constructor
      · rintro rfl
        have := FrameSays.drc (name := name) body l c r ho h3 hd h4 h5 h6
        simpa [String.toList_append, shown_toList] using this
      · intro h
        cases h with
        | start h => exact absurd h1 h
        | ending _ h => exact absurd h2 h
        | length _ h => exact absurd h3 h
        | lrc b' l' c' r' _ _ hd' h =>
          obtain ⟨rfl, rfl, rfl, rfl⟩ := tail_unique (hd.symm.trans hd')
          exact absurd h4 h
        | checksum b' l' c' r' _ _ hd' _ h =>
          obtain ⟨rfl, rfl, rfl, rfl⟩ := tail_unique (hd.symm.trans hd')
          exact absurd h5 h
        | drc b' l' c' r' _ _ hd' _ _ h =>
          obtain ⟨rfl, rfl, rfl, rfl⟩ := tail_unique (hd.symm.trans hd')
          simp [String.toList_append, shown_toList]
    rw [if_neg (fun h => h (by rw [h6]))]
    constructor
    · intro h; cases h
    · intro h
      cases h with
      | start h => exact absurd h1 h
      | ending _ h => exact absurd h2 h
      | length _ h => exact absurd h3 h
      | lrc b' l' c' r' _ _ hd' h =>
        obtain ⟨rfl, rfl, rfl, rfl⟩ := tail_unique (hd.symm.trans hd')
        exact absurd h4 h
      | checksum b' l' c' r' _ _ hd' _ h =>
        obtain ⟨rfl, rfl, rfl, rfl⟩ := tail_unique (hd.symm.trans hd')
        exact absurd h5 h
      | drc b' l' c' r' _ _ hd' _ _ h =>
        obtain ⟨rfl, rfl, rfl, rfl⟩ := tail_unique (hd.symm.trans hd')
        exact absurd h6 h

/-! ### Decrypting -/

theorem foreign_bind {α β : Type} (a : α) (f : α → ResT β) : (foreign (.ok a) >>= f) = f a := rfl

/-- C99. The text about a wrong CRC has its two values exchanged: as received ("Got") it shows the CRC that was
calculated, and as right ("should be") the one in the data.  The `AssertionError` about a wrong key id has no text. -/
theorem C99_decrypt (C : BlockCipher) (c : CipherContext) (d : Bytes) :
    (∀ k, d[2]? = some k → (k.toNat : Int) ≠ c.keyId → c.decryptT C d = .error (.assertion, .said [])) ∧
    (∀ k body x y, d[2]? = some k → (k.toNat : Int) = c.keyId → c.key.length = 16 →
      CbcOf (C.enc c.key) c.key (body ++ [x, y]) (d.drop 3) →
      [x, y] ≠ be2 (swapBytes (crc16Modbus (d.take 3 ++ body))) →
      c.decryptT C d = .error (.value, .said ("Incorrect CRC in encrypted data. Got ".toList ++
        bytesRepr (be2 (swapBytes (crc16Modbus (d.take 3 ++ body)))) ++ " should be ".toList ++ bytesRepr [x, y] ++
        " ".toList))) := by
  have e0 : ∀ k, d[2]? = some k → pyGet (sliceTo d 3) 2 = .ok k := by
    intro k hk
    have hl : 2 < d.length := by
      rcases Nat.lt_or_ge 2 d.length with h | h
      · exact h
      · rw [List.getElem?_eq_none h] at hk; cases hk
    have hl3 : 2 < (sliceTo d 3).length := by simp; omega
    have : pyGet (sliceTo d 3) 2 = .ok (sliceTo d 3)[2] := pyGet_nat_lt (sliceTo d 3) 2 hl3
    rw [this]
    rw [List.getElem?_eq_getElem hl] at hk
    injection hk with hk
    simp [hk]
  constructor
  · intro k hk hne
    unfold CipherContext.decryptT
    dsimp only
    rw [e0 k hk]
    rw [foreign_bind, if_pos hne]
    rfl
  · intro k body x y hk hid hkey hcbc hne
    have hb : 3 ≤ d.length := by
      rcases Nat.lt_or_ge 2 d.length with h | h
      · omega
      · rw [List.getElem?_eq_none h] at hk; cases hk
    have hk2 : d[2] = k := by
      rw [List.getElem?_eq_getElem (by omega)] at hk; injection hk
    have hp : PlainOf C c d (body ++ [x, y]) := hcbc
    have hw := hp.whole
    have hl := hp.len_eq
    have e1 : aesCbcDecrypt C (sliceFrom d 3) c.key c.key = .ok (body ++ [x, y]) := by
      unfold aesCbcDecrypt
      simp only [sliceFrom_ofNat]
      rw [if_neg (by omega), if_neg (by omega),
        cbcDecrypt_unique C c.key hkey ((d.drop 3).length / 16) c.key _ (d.drop 3) hkey (by omega) hp]
    have e2 : fromLE (sliceTo (sliceTo d 3) 2) = leAt d 0 2 := by
      rw [fromLE_leAt]; simp [List.take_take]
    have hlt : leAt d 0 2 < 65536 := leAt_lt d 0 2
    have e3 : toBytesLE 2 (leAt d 0 2 : Int) = .ok (d.take 2) := by
      rw [toBytesLE_ok (by omega) (by generalize leAt d 0 2 = x at hlt; omega), Int.toNat_natCast, fromLE_leAt]
      have : ((d.drop 0).take 2).length = 2 := by simp; omega
      have := leBytes_fromLE ((d.drop 0).take 2)
      rw [‹((d.drop 0).take 2).length = 2›] at this
      rw [this, List.drop_zero]
    have e4 : d.take 2 ++ [d[2]] = d.take 3 := (List.take_succ_eq_append_getElem (by omega)).symm
    have e5 : sliceTo (body ++ [x, y]) (-2) = body := by rw [sliceTo_neg_ofNat _ 2 (by omega)]; simp
    have e6 : sliceFrom (body ++ [x, y]) (-2) = [x, y] := by rw [sliceFrom_neg_ofNat _ 2 (by omega)]; simp
    unfold CipherContext.decryptT
    dsimp only
    rw [e0 k hk]
    rw [foreign_bind, if_neg (fun h => h hid), e1, e2, e3, foreign_bind, foreign_bind, e5, e6, ← hk2, e4, beCrc,
      calculateCrc_eq, foreign_bind, if_pos (Ne.symm hne)]
    unfold say
    have o : ∀ l : List Char, (String.ofList l).toList = l := fun l => String.toList_ofList
    rw [String.toList_append, String.toList_append, String.toList_append, String.toList_append, o (bytesRepr _),
      o (bytesRepr [x, y])]

theorem foreign_said {α : Type} (r : Res α) (e : PyErr) (s : PyStr) : foreign r ≠ .error (e, .said s) := by
  cases r with
  | ok a => intro h; cases h
  | error x => intro h; injection h with h; injection h with _ h; cases h

/-- C99. The functions of utils.py that users call raise their own `ValueError`s exactly for these arguments, with these
texts. -/
theorem C99_helpers (d : Bytes) (n : Nat) (s : PyStr) :
    (escapeCharactersT d = .error (.value, .said s) ↔
      ¬ [0x0D] <:+ d ∧ s = "Data does not end with end-char 0x0D".toList) ∧
    (bytesToDatetimeT d = .error (.value, .said s) ↔
      d.length ≠ 6 ∧ s = bytesRepr d ++ " is not a BCD encoded datetime".toList) ∧
    (parseIpAddressT d = .error (.value, .said s) ↔
      d.length ≠ 4 ∧ s = "IP addreess data should be 4 bytes, got ".toList ++ pyStrInt d.length) ∧
    (popManyT n d = .error (.value, .said s) ↔
      n < 2 ∧ s = "Only use pop_many if you need to get more than 1 byte".toList) ∧
    (responseFactoryT d = .error (.value, .said s) ↔
      (¬ [0x02, 0xFE, 0x86] <+: d ∧ ¬ [0x02, 0xFE, 0x87] <+: d ∧ s = "Data is not a response frame".toList) ∨
      ([0x02, 0xFE, 0x86] <+: d ∧ FrameSays "Response" 0x86 d s) ∨
      ([0x02, 0xFE, 0x87] <+: d ∧ FrameSays "Response" 0x87 d s)) := by
  have o : ∀ l : List Char, (String.ofList l).toList = l := fun l => String.toList_ofList
  have hst : ∀ p, startsWith d p = true ↔ p <+: d := fun p => by
    unfold startsWith; exact List.isPrefixOf_iff_prefix
  have hen : endsWith d [0x0D] = true ↔ [0x0D] <:+ d := by
    unfold endsWith; exact List.isSuffixOf_iff_suffix
  refine ⟨?_, ?_, ?_, ?_, ?_⟩
  · unfold escapeCharactersT
    by_cases h : [0x0D] <:+ d
    · rw [if_neg (by simpa [hen] using h)]
      exact ⟨fun x => absurd x (foreign_said _ _ _), fun x => absurd h x.1⟩
    · rw [if_pos (by rw [Bool.not_eq_true', Bool.eq_false_iff, ne_eq, hen]; exact h), said_error]
      exact ⟨fun x => ⟨h, x⟩, fun x => x.2⟩
  · unfold bytesToDatetimeT
    by_cases h : d.length ≠ 6
    · rw [if_pos h, said_error, String.toList_append, o (bytesRepr d)]
      exact ⟨fun x => ⟨h, x⟩, fun x => x.2⟩
    · rw [if_neg h]
      exact ⟨fun x => absurd x (foreign_said _ _ _), fun x => absurd x.1 h⟩
  · unfold parseIpAddressT shown
    by_cases h : d.length ≠ 4
    · rw [if_pos h, said_error, String.toList_append, o (pyStrInt _)]
      exact ⟨fun x => ⟨h, x⟩, fun x => x.2⟩
    · rw [if_neg h]
      exact ⟨fun x => absurd x (foreign_said _ _ _), fun x => absurd x.1 h⟩
  · unfold popManyT
    by_cases h : n < 2
    · rw [if_pos h, said_error]
      exact ⟨fun x => ⟨h, x⟩, fun x => x.2⟩
    · rw [if_neg h]
      exact ⟨fun x => absurd x (foreign_said _ _ _), fun x => absurd x.1 h⟩
  · have hb : ∀ (r : ResT Frame) (b : Bool), (r >>= fun f => (pure (b, f) : ResT (Bool × Frame))) = .error (.value, .said s) ↔
        r = .error (.value, .said s) := by
      intro r b
      cases r with
      | ok a => exact ⟨fun h => (by cases h), fun h => (by cases h)⟩
      | error x =>
        constructor
        · intro h; injection h with h; rw [h]
        · intro h; injection h with h; rw [h]; rfl
    have h67 : [0x02, 0xFE, 0x86] <+: d → ¬ [0x02, 0xFE, 0x87] <+: d := by
      rintro ⟨x, rfl⟩ ⟨y, h⟩
      injection h with _ h
      injection h with _ h
      injection h with h
      exact absurd h (by decide)
    unfold responseFactoryT
    by_cases h6 : [0x02, 0xFE, 0x86] <+: d
    · rw [if_pos ((hst _).2 h6)]
      refine (hb _ _).trans ((C99_frame _ _ _ _).trans ?_)
      refine ⟨fun h => .inr (.inl ⟨h6, h⟩), ?_⟩
      rintro (h | h | h)
      · exact absurd h6 h.1
      · exact h.2
      · exact absurd h.1 (h67 h6)
    · rw [if_neg (by rw [hst]; exact h6)]
      by_cases h7 : [0x02, 0xFE, 0x87] <+: d
      · rw [if_pos ((hst _).2 h7)]
        refine (hb _ _).trans ((C99_frame _ _ _ _).trans ?_)
        refine ⟨fun h => .inr (.inr ⟨h7, h⟩), ?_⟩
        rintro (h | h | h)
        · exact absurd h7 h.2.1
        · exact absurd h.1 h6
        · exact h.2
      · rw [if_neg (by rw [hst]; exact h7), said_error]
        refine ⟨fun h => .inl ⟨h6, h7, h⟩, ?_⟩
        rintro (h | h | h)
        · exact h.2.2
        · exact absurd h.1 h6
        · exact absurd h.1 h7

/-- C99. The texts change nothing else: without them the functions are those of the other properties. -/
theorem C99_same_functions (C : BlockCipher) (c : CipherContext) (a : ConnArgs) (name : String) (ty : UInt8) (d : Bytes)
    (n : Nat) :
    (escapeCharactersT d).erase = escapeCharacters d ∧ (bytesToDatetimeT d).erase = bytesToDatetime d ∧
    (parseIpAddressT d).erase = parseIpAddress d ∧ (popManyT n d).erase = popMany n d ∧
    (frameFromBytesT name ty d).erase = frameFromBytes ty d ∧ (responseFactoryT d).erase = responseFactory d ∧
    (c.decryptT C d).erase = c.decrypt C d ∧ (mkConnT a).erase = mkConn a :=
  ⟨escapeCharactersT_erase d, bytesToDatetimeT_erase d, parseIpAddressT_erase d, popManyT_erase n d,
    frameFromBytesT_erase name ty d, responseFactoryT_erase d, decryptT_erase C c d, mkConnT_erase a⟩

/-! ### Concrete cases -/

def exLook : Look := ⟨.tcp "10.0.0.9".toList 5000, fun _ => "<socket>".toList⟩

/-- The texts of the actions of a program (`none` for an action that returns or waits). -/
def exTells (kind : Kind) (a : ClientArgs) (env : OsEnv) (as : List Action) : List (Option (PyErr × Text)) :=
  match mkWorld kind (some 0) a env with
  | .ok w => (as.foldl (fun (acc : List (Option (PyErr × Text)) × World) x =>
      let y := actT exPrint exLook idCipher acc.2 x
      (acc.1 ++ [match y.1 with | .raised e t => some (e, t) | _ => none], y.2)) ([], w)).1
  | .error _ => []

-- the transports that are connected twice, and used without a handle; the serial one names the other on reading
example : exTells .tcp exArgs exEnv [.nextEvent, .connect, .connect, .disconnect, .send []] =
    [some (.runtime, .said "TCP transport not connected.".toList), none,
      some (.runtime, .said "There is already an active socket to ('10.0.0.9', 5000)".toList), none, none] := by
  decide +kernel
example : exTells .serial exArgs exEnv [.nextEvent, .call .readTime, .connect, .connect] =
    [some (.runtime, .said "TCP transport not connected.".toList),
      some (.runtime, .said "Serial transport not connected.".toList), none,
      some (.runtime, .said "There is already an active serial port".toList)] := by decide +kernel
-- a second request while the first is open
example : exTells .tcp exArgs exEnv [.connect, .send [.readTimeRequest {}, .readTimeRequest {}]] =
    [none, some (.elgas .localProtocol, .said
      "Can't handle <class 'elgas.application.ReadTimeRequest'> when state=AWAITING_READ_TIME_RESPONSE".toList)] := by
  decide +kernel
-- the calls of the operating system that fail
example : exTells .tcp exArgs { exEnv with opens := [.error .os] } [.connect] =
    [some (.elgas .communication, .said "Unable to connect socket".toList)] := by decide +kernel
example : exTells .tcp exArgs { exEnv with shutdowns := [.error .os] } [.connect, .disconnect] =
    [none, some (.elgas .communication, .said [])] := by decide +kernel
example : exTells .serial exArgs { exEnv with writes := [.error .os] } [.connect, .call .readTime] =
    [none, some (.elgas .communication, .said "Could no send data".toList)] := by decide +kernel
example : exTells .serial exArgs { exEnv with inbox := fun _ => [.fail .os] } [.connect, .call .readTime] =
    [none, some (.elgas .communication, .said "Could not receive data".toList)] := by decide +kernel
-- a password that Latin-1 cannot encode
example : exTells .tcp { exArgs with password := "pa€".toList } exEnv [.connect, .call .readInstantaneousValues] =
    [none, some (.unicodeEncode, .said
      "'latin-1' codec can't encode character '\\u20ac' in position 2: ordinal not in range(256)".toList)] := by
  decide +kernel
example : exTells .tcp { exArgs with password := "p€€a".toList } exEnv [.connect, .call .readInstantaneousValues] =
    [none, some (.unicodeEncode, .said
      "'latin-1' codec can't encode characters in position 1-2: ordinal not in range(256)".toList)] := by decide +kernel
-- and the hypotheses of C99_says, C99_runtime and C99_communication
example : ∃ w, mkWorld .tcp (some 0) exArgs { exEnv with opens := [.error .os] } = .ok w ∧
    (∀ n, PadOk (w.rands n).pw) ∧ (∀ e, RaisedByOs w e → e = .os) := by
  refine ⟨_, rfl, fun n => by show PadOk ('a', 'b'); decide +kernel, ?_⟩
  rintro e (h | h | h | h | ⟨k, h⟩)
  · simpa using h
  · have : Except.error e ∈ List.replicate 2 (Except.ok () : Res Unit) := h
    simp at this
  · have : Except.error e ∈ List.replicate 2 (Except.ok () : Res Unit) := h
    simp at this
  · have : Except.error e ∈ List.replicate 2 (Except.ok () : Res Unit) := h
    simp at this
  · have h : Delivery.fail e ∈ (if k = 5 ∨ k = 6 then exStream else []) := h
    have hc : ∀ x ∈ exStream, (match x with | .fail _ => false | _ => true) = true := by decide +kernel
    split at h
    · have := hc _ h; cases this
    · cases h

-- the arguments of a connection: the first that is out of its bounds
example : mkConnT ⟨0, 256, 0, -1, [], 801, none, none⟩ =
    .error (.value, .said "'source_address_2' must be <= 255: 256".toList) := by decide +kernel
example : mkConnT ⟨0, 0, 0, 0, "1234567".toList, 800, none, none⟩ =
    .error (.value, .said "Length of 'password' must be <= 6: 7".toList) := by decide +kernel
example : mkConnT ⟨0, 0, 0, 0, "123456".toList, 800, none, none⟩ =
    .error (.value, .said "'password_id' must be >= 801: 800".toList) := by decide +kernel

-- a frame whose last check byte is wrong: the text shows the byte that arrived twice
example : frameFromBytesT "Response" 0x86
      ([0x02, 0xFE, 0x86, 0x6C, 15, 0, 0, 0, 0, 0, 0, 0] ++ [xorAll [0xFE, 0x86, 0x6C, 15, 0, 0, 0, 0, 0, 0, 0],
        UInt8.ofNat (sumMod [0xFE, 0x86, 0x6C, 15, 0, 0, 0, 0, 0, 0, 0]), 7, 0x0D]) =
    .error (.value, .said "Incorrect DRC. Got 7, should be 7".toList) := by decide +kernel
example : frameFromBytesT "Response" 0x86 [0x02, 0xFE, 0x86, 0x6C, 15, 0, 0x0D] =
    .error (.value, .said "Length field does not correspond to length of data. Got 6, should be 15 ".toList) := by
  decide +kernel
-- another key id
example : CipherContext.decryptT idCipher ⟨5, List.replicate 16 0⟩ [0, 0, 6] = .error (.assertion, .said []) := by
  decide +kernel

-- a check sum that is wrong: the text exchanges the two
example : CipherContext.decryptT idCipher ⟨5, List.replicate 16 0⟩ ([0, 0, 5] ++ List.replicate 16 0) =
    .error (.value, .said "Incorrect CRC in encrypted data. Got b'\\xb5s' should be b'\\x00\\x00' ".toList) := by
  decide +kernel
-- the response to another request
example : exTells .tcp exArgs exEnv [.connect, .call .readInstantaneousValues] =
    [none, some (.elgas .localProtocol, .said ("Can't handle <class 'elgas.application.ReadTimeResponse'> when " ++
      "state=AWAITING_READ_ACTUAL_VALUES_RESPONSE").toList)] := by decide +kernel

-- the helpers
example : parseIpAddressT [1, 2, 3] = .error (.value, .said "IP addreess data should be 4 bytes, got 3".toList) := by
  decide +kernel
example : bytesToDatetimeT [1, 2] = .error (.value, .said "b'\\x01\\x02' is not a BCD encoded datetime".toList) := by
  decide +kernel

end Elgas
