import Verif.Spec.AnyConn
import Verif.Spec.Integration
import Verif.Props.Args
import Verif.Props.Connection
/-!
C109: connections whose arguments and attributes are of any type.
-/
namespace Elgas
open Spec

theorem between_iff {lo hi : Int} (x : Arg) : Between lo hi x ↔ x.ge lo = .ok true ∧ x.le hi = .ok true := by
  constructor
  · intro h
    cases h with
    | number x n hn h1 h2 =>
      rw [(number_ge hn lo).1, (number_ge hn hi).2, decide_eq_true h1, decide_eq_true h2]; exact ⟨rfl, rfl⟩
    | float b hf h1 h2 =>
      refine ⟨?_, ?_⟩
      · unfold Arg.ge; dsimp only; rw [if_pos hf]; exact congrArg Except.ok (decide_eq_true h1)
      · unfold Arg.le; dsimp only; rw [if_pos hf]; exact congrArg Except.ok (decide_eq_true h2)
  · rintro ⟨h1, h2⟩
    have num : ∀ n, Number x n → Between lo hi x := by
      intro n hn
      rw [(number_ge hn lo).1] at h1
      rw [(number_ge hn hi).2] at h2
      exact .number x n hn (of_decide_eq_true (Except.ok.inj h1)) (of_decide_eq_true (Except.ok.inj h2))
    cases x with
    | int n => exact num n (.int n)
    | bool b => cases b with | true => exact num 1 .true | false => exact num 0 .false
    | float b =>
      unfold Arg.ge Arg.le at *
      dsimp only at h1 h2
      by_cases hf : finite64 b = true
      · rw [if_pos hf] at h1 h2
        exact .float b hf (of_decide_eq_true (Except.ok.inj h1)) (of_decide_eq_true (Except.ok.inj h2))
      · rw [if_neg hf] at h1 h2
        have h1' := Except.ok.inj h1
        have h2' := Except.ok.inj h2
        cases hn : neg64 b <;> rw [hn] at h1' h2' <;> simp at h1' h2'
    | _ => cases h1

theorem ge_error {x : Arg} {n : Int} {e : PyErr} (h : x.ge n = .error e ∨ x.le n = .error e) : e = .type := by
  cases x with
  | float b => unfold Arg.ge Arg.le at h; dsimp only at h; rcases h with h | h <;> (split at h <;> cases h)
  | bool b => rcases h with h | h <;> cases h
  | int b => rcases h with h | h <;> cases h
  | _ => rcases h with h | h <;> (cases h; rfl)

theorem validate_cases (lo hi : Int) (x : Arg) :
    (x.validate lo hi = .ok () ∧ Between lo hi x) ∨
    (∃ e, x.validate lo hi = .error e ∧ (e = .type ∨ e = .value) ∧ ¬ Between lo hi x) := by
  rw [between_iff]
  unfold Arg.validate
  cases h1 : x.ge lo with
  | error e => exact .inr ⟨e, rfl, .inl (ge_error (.inl h1)), fun h => by cases h.1⟩
  | ok b =>
    cases b with
    | false => exact .inr ⟨_, rfl, .inr rfl, fun h => by cases h.1⟩
    | true =>
      cases h2 : x.le hi with
      | error e => exact .inr ⟨e, rfl, .inl (ge_error (.inr h2)), fun h => by cases h.2⟩
      | ok b =>
        cases b with
        | false => exact .inr ⟨_, rfl, .inr rfl, fun h => by cases h.2⟩
        | true => exact .inl ⟨rfl, rfl, rfl⟩

theorem validateLen_cases (n : Nat) (x : Arg) :
    (x.validateLen n = .ok () ∧ Short n x) ∨
    (∃ e, x.validateLen n = .error e ∧ (e = .type ∨ e = .value) ∧ ¬ Short n x) := by
  unfold Arg.validateLen
  have key : ∀ m, x.len = .ok m → (m ≤ n ↔ Short n x) := by
    intro m hm
    cases x with
    | str s => cases hm; exact ⟨.str _, fun h => by cases h; assumption⟩
    | bytes s => cases hm; exact ⟨.bytes _, fun h => by cases h; assumption⟩
    | ints s => cases hm; exact ⟨.ints _, fun h => by cases h; assumption⟩
    | _ => cases hm
  cases hl : x.len with
  | error e =>
    refine .inr ⟨e, rfl, .inl ?_, fun h => ?_⟩
    · cases x <;> first | (cases hl; rfl) | cases hl
    · cases h <;> cases hl
  | ok m =>
    rw [bind_ok]
    by_cases hm : m ≤ n
    · rw [if_neg (fun h => h hm)]; exact .inl ⟨rfl, (key m hl).1 hm⟩
    · rw [if_pos hm]; exact .inr ⟨_, rfl, .inr rfl, fun h => hm ((key m hl).2 h)⟩

/-- C109. A connection is created from exactly these arguments, and they become its attributes as they are. -/
theorem C109_created (a : AnyArgs) :
    (Creates a ∧ ∃ c, mkAnyConn a = .ok c ∧ c.args = a ∧ c.buffer = [] ∧ c.state = .idle ∧
      c.context = (if a.encryptionKey = .none ∨ a.encryptionKeyId = .none then none
        else some (a.encryptionKeyId, a.encryptionKey))) ∨
    (¬ Creates a ∧ ∃ e, mkAnyConn a = .error e ∧ (e = .type ∨ e = .value)) := by
  have hc : createAnyContext a = if a.encryptionKey = .none ∨ a.encryptionKeyId = .none then none
        else some (a.encryptionKeyId, a.encryptionKey) := by
    unfold createAnyContext
    cases a.encryptionKey <;> cases a.encryptionKeyId <;> simp
  rw [← hc]
  unfold mkAnyConn
  rcases validate_cases 0 65535 a.sourceAddress1 with ⟨h1, g1⟩ | ⟨e, h1, he, g1⟩
  rotate_left
  · exact .inr ⟨fun h => g1 h.1, e, by rw [h1]; rfl, he⟩
  rcases validate_cases 0 255 a.sourceAddress2 with ⟨h2, g2⟩ | ⟨e, h2, he, g2⟩
  rotate_left
  · exact .inr ⟨fun h => g2 h.2, e, by rw [h1, bind_ok, h2]; rfl, he⟩
  rcases validate_cases 0 65535 a.destinationAddress1 with ⟨h3, g3⟩ | ⟨e, h3, he, g3⟩
  rotate_left
  · exact .inr ⟨fun h => g3 h.3, e, by rw [h1, bind_ok, h2, bind_ok, h3]; rfl, he⟩
  rcases validate_cases 0 255 a.destinationAddress2 with ⟨h4, g4⟩ | ⟨e, h4, he, g4⟩
  rotate_left
  · exact .inr ⟨fun h => g4 h.4, e, by rw [h1, bind_ok, h2, bind_ok, h3, bind_ok, h4]; rfl, he⟩
  rcases validateLen_cases 6 a.password with ⟨h5, g5⟩ | ⟨e, h5, he, g5⟩
  rotate_left
  · exact .inr ⟨fun h => g5 h.5, e, by rw [h1, bind_ok, h2, bind_ok, h3, bind_ok, h4, bind_ok, h5]; rfl, he⟩
  rcases validate_cases 801 849 a.passwordId with ⟨h6, g6⟩ | ⟨e, h6, he, g6⟩
  rotate_left
  · exact .inr ⟨fun h => g6 h.6, e, by rw [h1, bind_ok, h2, bind_ok, h3, bind_ok, h4, bind_ok, h5, bind_ok, h6]; rfl, he⟩
  refine .inl ⟨⟨g1, g2, g3, g4, g5, g6⟩, { args := a, buffer := [], state := .idle, context := createAnyContext a }, ?_, rfl, rfl, rfl, rfl⟩
  rw [h1, bind_ok, h2, bind_ok, h3, bind_ok, h4, bind_ok, h5, bind_ok, h6, bind_ok]; rfl

/-! ### With the declared types -/

theorem toBytesBig_number {x : Arg} {n : Int} (h : Number x n) (w : Nat) : x.toBytesBig w = toBytesBE w n := by
  unfold Arg.toBytesBig; rw [number_index.1 h]

theorem append_number {x : Arg} {n : Int} (h : Number x n) : x.append = toByte n := by
  unfold Arg.append; rw [number_index.1 h]

theorem anyRequest_typed {c : AnyConn} {t : Conn} (h : TypedAs c t) (ty : UInt8) (service : ServiceNumber) (data : Bytes) :
    anyRequestToBytes ty service c.args data = requestToBytes ty
      { service, da1 := t.args.destinationAddress1, da2 := t.args.destinationAddress2,
        sa1 := t.args.sourceAddress1, sa2 := t.args.sourceAddress2, data } := by
  unfold anyRequestToBytes requestToBytes
  dsimp only [Frame.length]
  rw [toBytesBig_number h.destinationAddress1, append_number h.destinationAddress2, toBytesBig_number h.sourceAddress1,
    append_number h.sourceAddress2]
  rfl

theorem anyEncrypt_typed {x : Arg} {n : Int} (h : Number x n) (C : BlockCipher) (key data : Bytes) (r : PadRand) :
    anyEncrypt C x (.bytes key) data r = ({ keyId := n, key } : CipherContext).encrypt C data r := by
  unfold anyEncrypt
  rw [number_index.1 h]
  dsimp only
  cases hl : toBytesLE 2 data.length with
  | error e => unfold CipherContext.encrypt; rw [hl]; rfl
  | ok b => rw [bind_ok]

theorem serialise_typed {c : AnyConn} {t : Conn} (h : TypedAs c t) (C : BlockCipher) (e : Event) (r : Rand) :
    c.serialise C e r = t.serialise C e r := by
  unfold AnyConn.serialise Conn.serialise
  simp only [anyRequest_typed h]
  have hc := h.context
  generalize c.context = x at hc
  generalize t.cipherContext = y at hc
  cases hc with
  | none => rfl
  | some x n key hn => simp only [anyEncrypt_typed hn]

theorem equalsByte_iff (x : Arg) (n : UInt8) : x.equalsByte n = true ↔ EqualTo x n.toNat := by
  have num : ∀ m, Number x m → (m = n.toNat ↔ EqualTo x n.toNat) := by
    intro m hm
    constructor
    · rintro rfl; exact .number _ _ hm
    · intro h
      cases h with
      | number _ _ h => have := (number_index.1 hm).symm.trans (number_index.1 h); exact Option.some.inj this
      | float b n _ _ => cases hm
  cases x with
  | bool b => cases b with
    | true => rw [← num 1 .true]; unfold Arg.equalsByte; dsimp only; rw [decide_eq_true_iff]; exact eq_comm
    | false => rw [← num 0 .false]; unfold Arg.equalsByte; dsimp only; rw [decide_eq_true_iff]; exact eq_comm
  | int m => rw [← num m (.int m)]; unfold Arg.equalsByte; dsimp only; rw [decide_eq_true_iff]; exact eq_comm
  | float b =>
    unfold Arg.equalsByte
    dsimp only
    rw [Bool.and_eq_true, decide_eq_true_iff]
    constructor
    · rintro ⟨h1, h2⟩; exact .float b _ h1 h2.symm
    · intro h
      cases h with
      | number _ _ h => cases h
      | float b n h1 h2 => exact ⟨h1, h2.symm⟩
  | _ =>
    constructor
    · intro h; cases h
    · intro h
      cases h with
      | number _ _ h => cases h

theorem equalTo_inj {x : Arg} {n m : Int} (h : EqualTo x n) (h' : EqualTo x m) : n = m := by
  cases h with
  | number _ _ h =>
    cases h' with
    | number _ _ h' => have := (number_index.1 h).symm.trans (number_index.1 h'); exact Option.some.inj this
    | float b _ _ => cases h
  | float b _ hf hv =>
    cases h' with
    | number _ _ h' => cases h'
    | float b _ hf' hv' =>
      rw [hv] at hv'
      exact Rat.intCast_inj.1 hv'

theorem anyDecrypt_reads {x : Arg} {n : Int} (h : EqualTo x n) (C : BlockCipher) (key data : Bytes) :
    anyDecrypt C x (.bytes key) data = ({ keyId := n, key } : CipherContext).decrypt C data := by
  unfold anyDecrypt
  conv => rhs; unfold CipherContext.decrypt
  dsimp only
  cases hg : pyGet (sliceTo data 3) 2 with
  | error e => rfl
  | ok m =>
    simp only [bind_ok]
    by_cases hm : (m.toNat : Int) = n
    · have he : x.equalsByte m = true := (equalsByte_iff x m).2 (hm ▸ h)
      rw [he, if_neg (by simp), if_neg (by simp [hm])]
      unfold CipherContext.decrypt
      dsimp only
      rw [hg]
      simp [hm]
    · have he : ¬ x.equalsByte m = true := fun hx => hm (equalTo_inj ((equalsByte_iff x m).1 hx) h)
      rw [if_pos he, if_pos hm]
      rfl

theorem interpret_reads {c : AnyConn} {t : Conn} (h : ReadsAs c.context t.cipherContext) (C : BlockCipher) (data : Bytes) :
    c.interpret C data = t.interpret C data := by
  unfold AnyConn.interpret Conn.interpret
  generalize c.context = x at h
  generalize t.cipherContext = y at h
  cases h with
  | none => rfl
  | some x n key hn => simp only [anyDecrypt_reads hn]

/-- C109. What a connection delivers depends on its key id only by the number it equals: a float that equals the key id
of the device opens the answers of the device. -/
theorem C109_reads (C : BlockCipher) (c : AnyConn) (t : Conn) (h : ReadsAs c.context t.cipherContext)
    (hb : c.buffer = t.buffer) (hs : c.state = t.state) :
    (c.nextEvent C).2 = (t.nextEvent C).2 ∧ (c.nextEvent C).1.buffer = (t.nextEvent C).1.buffer ∧
    (c.nextEvent C).1.state = (t.nextEvent C).1.state ∧ (c.nextEvent C).1.args = c.args ∧
    (c.nextEvent C).1.context = c.context := by
  unfold AnyConn.nextEvent Conn.nextEvent
  dsimp only
  simp only [hb, hs, interpret_reads h]
  split
  · exact ⟨rfl, hb, hs, rfl, rfl⟩
  · cases indexEnd t.buffer with
    | none => exact ⟨rfl, hb, hs, rfl, rfl⟩
    | some i =>
      dsimp only
      cases t.interpret C _ with
      | error e => dsimp only; split <;> exact ⟨rfl, hb, hs, rfl, rfl⟩
      | ok f =>
        dsimp only
        cases pduFromResponse f with
        | error e => exact ⟨rfl, hb, hs, rfl, rfl⟩
        | ok pdu =>
          dsimp only
          cases processEvent t.state pdu with
          | error e => exact ⟨rfl, hb, hs, rfl, rfl⟩
          | ok s' => exact ⟨rfl, rfl, rfl, rfl, rfl⟩

theorem typed_reads {x : Option (Arg × Arg)} {y : Option CipherContext} (h : TypedContext x y) : ReadsAs x y := by
  cases h with
  | none => exact .none
  | some x n key hn => exact .some x n key (.number _ _ hn)

theorem nextEvent_typed {c : AnyConn} {t : Conn} (h : TypedAs c t) (C : BlockCipher) :
    TypedAs (c.nextEvent C).1 (t.nextEvent C).1 ∧ (c.nextEvent C).2 = (t.nextEvent C).2 := by
  obtain ⟨h1, h2, h3, h4, h5⟩ := C109_reads C c t (typed_reads h.context) h.buffer h.state
  obtain ⟨g1, g2⟩ := nextEvent_frame C t
  refine ⟨⟨?_, ?_, ?_, ?_, ?_, h2, h3⟩, h1⟩
  · rw [h4, g1]; exact h.sourceAddress1
  · rw [h4, g1]; exact h.sourceAddress2
  · rw [h4, g1]; exact h.destinationAddress1
  · rw [h4, g1]; exact h.destinationAddress2
  · rw [h5, g2]; exact h.context

theorem send_typed {c : AnyConn} {t : Conn} (h : TypedAs c t) (C : BlockCipher) (e : Event) (r : Rand) :
    TypedAs (c.send C e r).1 (t.send C e r).1 ∧ (c.send C e r).2 = (t.send C e r).2 := by
  unfold AnyConn.send Conn.send
  rw [h.state]
  cases processEvent t.state e with
  | error x => exact ⟨h, rfl⟩
  | ok s' =>
    have h' : TypedAs { c with state := s' } { t with state := s' } := ⟨h.1, h.2, h.3, h.4, h.5, h.6, rfl⟩
    exact ⟨h', serialise_typed h' C e r⟩

theorem receive_typed {c : AnyConn} {t : Conn} (h : TypedAs c t) (b : Bytes) :
    TypedAs (c.receiveData (.bytes b)).1 (t.receiveData b) ∧ (c.receiveData (.bytes b)).2 = .ok () := by
  unfold AnyConn.receiveData Conn.receiveData
  simp only [Arg.truth, h.buffer]
  cases hb : b.isEmpty with
  | true => exact ⟨by simpa using h, rfl⟩
  | false =>
    simp only [Bool.not_false, not_true_eq_false, if_false, Bool.false_eq_true]
    split
    · exact ⟨h, rfl⟩
    · exact ⟨⟨h.1, h.2, h.3, h.4, h.5, rfl, h.7⟩, rfl⟩

theorem truth_none (x : Arg) : KeyOf x none ↔ x.truth = false := by
  rw [keyOf_iff]
  unfold Arg.toSecretByte
  cases hx : x.truth with
  | false => exact ⟨fun _ => rfl, fun _ => rfl⟩
  | true =>
    refine ⟨fun h => ?_, fun h => by cases h⟩
    rw [if_pos rfl, bind_eq_ok] at h
    obtain ⟨b, _, h⟩ := h
    cases h

/-- C109. Data that is not bytes changes nothing: what counts as false is ignored, and for everything else, a list of
bytes or a text included, `receive_data` raises `TypeError`. -/
theorem C109_no_bytes (c : AnyConn) (x : Arg) (h : ∀ b, x ≠ .bytes b) :
    (c.receiveData x).1 = c ∧ (KeyOf x none → (c.receiveData x).2 = .ok ()) ∧
    (¬ KeyOf x none → (c.receiveData x).2 = .error .type) := by
  rw [truth_none]
  unfold AnyConn.receiveData
  cases hx : x.truth with
  | false => exact ⟨rfl, fun _ => rfl, fun h => absurd rfl h⟩
  | true =>
    refine ⟨?_, fun h => (by cases h), fun _ => ?_⟩
    · cases x <;> first | exact absurd rfl (h _) | rfl
    · cases x <;> first | exact absurd rfl (h _) | rfl

/-- C109. A connection whose addresses are numbers, and whose cipher context, if there is one, has a number as key id and
bytes as key, behaves in every history as the one with the declared types: `True` is 1, and what is assigned to the
password, the password id, the key or the key id of the connection makes no difference. -/
theorem C109_run (C : BlockCipher) (c : AnyConn) (t : Conn) (h : TypedAs c t) (ops : List AnyOp) (ops' : List (Option Op))
    (ho : Each SaysOp ops ops') :
    TypedAs (anyRun C c ops).1 (run C t (ops'.filterMap id)).1 ∧
    ∃ outs, Each SaysOutcome (anyRun C c ops).2 outs ∧ outs.filterMap id = (run C t (ops'.filterMap id)).2 := by
  induction ho generalizing c t with
  | nil => exact ⟨h, [], .nil, rfl⟩
  | @cons a b as bs hab _ ih =>
    have skip : ∀ (d : AnyConn) (o : AnyOutcome), anyStep C c a = (d, o) → b = none → SaysOutcome o none →
        TypedAs d t → (TypedAs (anyRun C c (a :: as)).1 (run C t ((b :: bs).filterMap id)).1 ∧
        ∃ outs, Each SaysOutcome (anyRun C c (a :: as)).2 outs ∧
          outs.filterMap id = (run C t ((b :: bs).filterMap id)).2) := by
      intro d o hs hb hso hd
      subst hb
      obtain ⟨i1, outs, i2, i3⟩ := ih d t hd
      have hf : (none :: bs).filterMap id = bs.filterMap (id : Option Op → Option Op) := rfl
      rw [hf]
      unfold anyRun
      dsimp only
      rw [hs]
      exact ⟨i1, none :: outs, .cons hso i2, i3⟩
    have take : ∀ (d : AnyConn) (o : AnyOutcome) (op : Op) (t' : Conn) (o' : Outcome), anyStep C c a = (d, o) →
        b = some op → step C t op = (t', o') → SaysOutcome o (some o') →
        TypedAs d t' → (TypedAs (anyRun C c (a :: as)).1 (run C t ((b :: bs).filterMap id)).1 ∧
        ∃ outs, Each SaysOutcome (anyRun C c (a :: as)).2 outs ∧
          outs.filterMap id = (run C t ((b :: bs).filterMap id)).2) := by
      intro d o op t' o' hs hb hs' hso hd
      subst hb
      obtain ⟨i1, outs, i2, i3⟩ := ih d t' hd
      have hf : (some op :: bs).filterMap id = op :: bs.filterMap (id : Option Op → Option Op) := rfl
      rw [hf]
      unfold anyRun run
      dsimp only
      rw [hs, hs']
      refine ⟨i1, some o' :: outs, .cons hso i2, ?_⟩
      show o' :: outs.filterMap id = _
      rw [i3]
    cases hab with
    | send e r =>
      obtain ⟨h1, h2⟩ := send_typed h C e r
      refine take _ _ _ _ _ rfl rfl rfl ?_ h1
      rw [← h2]; exact .sent e _
    | receive b =>
      obtain ⟨h1, h2⟩ := receive_typed h b
      refine take _ _ _ _ _ rfl rfl rfl ?_ h1
      rw [h2]; exact .received
    | noData x hx =>
      refine skip _ _ rfl rfl (.nothing _) ?_
      rw [(C109_no_bytes c x hx).1]; exact h
    | poll =>
      obtain ⟨h1, h2⟩ := nextEvent_typed h C
      refine take _ _ _ _ _ rfl rfl rfl ?_ h1
      rw [← h2]; exact .polled _
    | password x => exact skip _ _ rfl rfl .assigned ⟨h.1, h.2, h.3, h.4, h.5, h.6, h.7⟩
    | passwordId x => exact skip _ _ rfl rfl .assigned ⟨h.1, h.2, h.3, h.4, h.5, h.6, h.7⟩
    | encryptionKey x => exact skip _ _ rfl rfl .assigned ⟨h.1, h.2, h.3, h.4, h.5, h.6, h.7⟩
    | encryptionKeyId x => exact skip _ _ rfl rfl .assigned ⟨h.1, h.2, h.3, h.4, h.5, h.6, h.7⟩

theorem validate_number {x : Arg} {n : Int} (h : Number x n) (lo hi : Int) :
    x.validate lo hi = if lo ≤ n ∧ n ≤ hi then .ok () else .error .value := by
  unfold Arg.validate
  rw [(number_ge h lo).1, (number_ge h hi).2]
  by_cases h1 : lo ≤ n
  · by_cases h2 : n ≤ hi
    · rw [if_pos ⟨h1, h2⟩, decide_eq_true h1, decide_eq_true h2]; rfl
    · rw [if_neg (fun h => h2 h.2), decide_eq_true h1, decide_eq_false h2]; rfl
  · rw [if_neg (fun h => h1 h.1), decide_eq_false h1]; rfl

/-- C109. A connection created with numbers, a text as password and a key that is bytes is that of the declared types,
and it is refused in the same cases. -/
theorem C109_typed (a : AnyArgs) (t : ConnArgs) (h1 : Number a.sourceAddress1 t.sourceAddress1)
    (h2 : Number a.sourceAddress2 t.sourceAddress2) (h3 : Number a.destinationAddress1 t.destinationAddress1)
    (h4 : Number a.destinationAddress2 t.destinationAddress2) (h5 : a.password = .str t.password)
    (h6 : Number a.passwordId t.passwordId)
    (h7 : (a.encryptionKey = .none ∧ t.encryptionKey = none) ∨ ∃ b, a.encryptionKey = .bytes b ∧ t.encryptionKey = some b)
    (h8 : KeyIdOf a.encryptionKeyId t.encryptionKeyId) :
    (mkAnyConn a = .error .value ∧ mkConn t = .error .value) ∨
    ∃ c d, mkAnyConn a = .ok c ∧ mkConn t = .ok d ∧ TypedAs c d := by
  have hlen : a.password.validateLen 6 = if t.password.length ≤ 6 then .ok () else .error .value := by
    rw [h5]
    unfold Arg.validateLen Arg.len
    dsimp only
    rw [bind_ok]
    by_cases h : t.password.length ≤ 6
    · rw [if_pos h, if_neg (fun h' => h' h)]; rfl
    · rw [if_neg h, if_pos h]; rfl
  have hctx : TypedContext (createAnyContext a) (createCipherContext t) := by
    unfold createAnyContext createCipherContext
    generalize a.encryptionKeyId = i at h8
    generalize t.encryptionKeyId = j at h8
    rcases h7 with ⟨hk, hk'⟩ | ⟨b, hk, hk'⟩ <;> rw [hk, hk']
    · exact .none
    · cases h8 with
      | none => exact .none
      | number x n hn =>
        cases hn with
        | int n => exact .some _ n b (.int n)
        | true => exact .some _ 1 b .true
        | false => exact .some _ 0 b .false
  rw [mkConn_eq]
  unfold mkAnyConn
  rw [validate_number h1, validate_number h2, validate_number h3, validate_number h4, hlen, validate_number h6]
  by_cases ha : ArgsOk t
  · right
    rw [if_pos ha]
    obtain ⟨g1, g2, g3, g4, g5, g6⟩ := ha
    rw [if_pos g1, if_pos g2, if_pos g3, if_pos g4, if_pos g5, if_pos g6]
    exact ⟨⟨a, [], .idle, createAnyContext a⟩, _, rfl, rfl, ⟨h1, h2, h3, h4, hctx, rfl, rfl⟩⟩
  · left
    rw [if_neg ha]
    refine ⟨?_, rfl⟩
    by_cases g1 : 0 ≤ t.sourceAddress1 ∧ t.sourceAddress1 ≤ 65535
    rotate_left
    · rw [if_neg g1]; rfl
    rw [if_pos g1, bind_ok]
    by_cases g2 : 0 ≤ t.sourceAddress2 ∧ t.sourceAddress2 ≤ 255
    rotate_left
    · rw [if_neg g2]; rfl
    rw [if_pos g2, bind_ok]
    by_cases g3 : 0 ≤ t.destinationAddress1 ∧ t.destinationAddress1 ≤ 65535
    rotate_left
    · rw [if_neg g3]; rfl
    rw [if_pos g3, bind_ok]
    by_cases g4 : 0 ≤ t.destinationAddress2 ∧ t.destinationAddress2 ≤ 255
    rotate_left
    · rw [if_neg g4]; rfl
    rw [if_pos g4, bind_ok]
    by_cases g5 : t.password.length ≤ 6
    rotate_left
    · rw [if_neg g5]; rfl
    rw [if_pos g5, bind_ok]
    by_cases g6 : 801 ≤ t.passwordId ∧ t.passwordId ≤ 849
    rotate_left
    · rw [if_neg g6]; rfl
    exact absurd ⟨g1, g2, g3, g4, g5, g6⟩ ha

/-! ### What goes into a request -/

/-- Putting an attribute into a request. -/
def writeSlot : Slot → Res Unit
  | .field f => do let _ ← writeField f
  | .key (.bytes b) => if b.length ≠ 16 then raise .value else .ok ()
  | .key _ => raise .type

/-- Putting attributes into a request. -/
def writeSlots : List Slot → Res Unit
  | [] => .ok ()
  | s :: ss => do writeSlot s; writeSlots ss

theorem unfit_iff (s : Slot) (e : PyErr) : Unfit s e ↔ writeSlot s = .error e := by
  cases s with
  | field f =>
    have : writeSlot (.field f) = .error e ↔ writeField f = .error e := by
      unfold writeSlot
      dsimp only
      cases writeField f with
      | error x => exact ⟨fun h => (by cases h; rfl), fun h => by cases h; rfl⟩
      | ok b => exact ⟨fun h => (by cases h), fun h => by cases h⟩
    rw [this, ← unwritable_iff]
    exact ⟨fun h => by cases h; assumption, fun h => .field f e h⟩
  | key x =>
    have no : (∀ b, x ≠ .bytes b) → (Unfit (.key x) e ↔ (raise .type : Res Unit) = .error e) := by
      intro hx
      constructor
      · intro h
        cases h with
        | noKey _ _ => rfl
        | key b _ => exact absurd rfl (hx b)
      · intro h; cases h; exact .noKey x hx
    cases x with
    | bytes b =>
      unfold writeSlot
      constructor
      · intro h
        cases h with
        | noKey _ hx => exact absurd rfl (hx b)
        | key b hb => exact if_pos hb
      · intro h
        dsimp only at h
        split at h
        · next hb => cases h; exact .key b hb
        · cases h
    | _ => exact no fun b h => by cases h

theorem writeSlots_cases (l : List Slot) :
    (writeSlots l = .ok () ∧ ∀ s ∈ l, ∀ x, ¬ Unfit s x) ∨
    (∃ e, writeSlots l = .error e ∧
      ∃ before s after, l = before ++ s :: after ∧ (∀ g ∈ before, ∀ x, ¬ Unfit g x) ∧ Unfit s e) := by
  induction l with
  | nil => exact .inl ⟨rfl, fun s hs => by cases hs⟩
  | cons s l ih =>
    cases hs : writeSlot s with
    | error e =>
      refine .inr ⟨e, ?_, [], s, l, rfl, fun g hg => (by cases hg), (unfit_iff s e).2 hs⟩
      unfold writeSlots; rw [hs]; rfl
    | ok u =>
      have hno : ∀ x, ¬ Unfit s x := fun x h => by rw [(unfit_iff s x).1 h] at hs; cases hs
      have hw : writeSlots (s :: l) = writeSlots l := by
        conv => lhs; unfold writeSlots
        rw [hs]; rfl
      rw [hw]
      rcases ih with ⟨h1, h2⟩ | ⟨e, h1, before, s', after, h2, h3, h4⟩
      · refine .inl ⟨h1, fun g hg => ?_⟩
        rcases List.mem_cons.1 hg with rfl | hg
        · exact hno
        · exact h2 g hg
      · refine .inr ⟨e, h1, s :: before, s', after, by rw [h2]; rfl, fun g hg => ?_, h4⟩
        rcases List.mem_cons.1 hg with rfl | hg
        · exact hno
        · exact h3 g hg

theorem writeSlots_fault {l before after : List Slot} {s : Slot} {e : PyErr} (hl : l = before ++ s :: after)
    (hb : ∀ g ∈ before, ∀ x, ¬ Unfit g x) (hu : Unfit s e) : writeSlots l = .error e := by
  subst hl
  induction before with
  | nil => rw [List.nil_append]; unfold writeSlots; rw [(unfit_iff s e).1 hu]; rfl
  | cons g before ih =>
    show writeSlots (g :: (before ++ s :: after)) = _
    unfold writeSlots
    cases hg : writeSlot g with
    | error x => exact absurd ((unfit_iff g x).2 hg) (hb g List.mem_cons_self x)
    | ok b =>
      rw [bind_ok]
      exact ih fun g' hg' => hb g' (List.mem_cons_of_mem _ hg')

/-- The addresses as they go into a request. -/
def addressSlots (a : AnyArgs) : List Slot :=
  [.field (.number 2 a.destinationAddress1), .field (.byte a.destinationAddress2),
   .field (.number 2 a.sourceAddress1), .field (.byte a.sourceAddress2)]

theorem toBytesBig_eq (w : Nat) (x : Arg) : x.toBytesBig w = (x.toBytes w).map List.reverse := by
  unfold Arg.toBytesBig Arg.toBytes
  cases x.index with
  | none => rfl
  | some n =>
    dsimp only
    unfold toBytesBE toBytesLE
    split <;> rfl

theorem anyRequest_slots (ty : UInt8) (service : ServiceNumber) (a : AnyArgs) (data : Bytes) (hd : data.length ≤ 65520)
    (e : PyErr) (h : writeSlots (addressSlots a) = .error e) : anyRequestToBytes ty service a data = .error e := by
  have hsv : ∃ b, toByte (service.value : Int) = .ok b := by cases service <;> exact ⟨_, rfl⟩
  obtain ⟨sv, hsv⟩ := hsv
  have hln : ∃ b, toBytesLE 2 ((data.length + 15 : Nat) : Int) = .ok b := by
    unfold toBytesLE
    rw [if_pos ⟨Int.natCast_nonneg _, by omega⟩]
    exact ⟨_, rfl⟩
  obtain ⟨ln, hln⟩ := hln
  unfold anyRequestToBytes
  rw [hsv, bind_ok, hln, bind_ok, toBytesBig_eq, toBytesBig_eq]
  unfold addressSlots writeSlots writeSlots writeSlots writeSlots writeSlots writeSlot writeField at h
  dsimp only at h
  cases h1 : a.destinationAddress1.toBytes 2 with
  | error x => rw [h1] at h; cases h; rfl
  | ok b1 =>
    rw [h1] at h
    cases h2 : a.destinationAddress2.append with
    | error x => rw [h2] at h; cases h; rfl
    | ok b2 =>
      rw [h2] at h
      cases h3 : a.sourceAddress1.toBytes 2 with
      | error x => rw [h3] at h; cases h; rfl
      | ok b3 =>
        rw [h3] at h
        cases h4 : a.sourceAddress2.append with
        | error x => rw [h4] at h; cases h; rfl
        | ok b4 => rw [h4] at h; cases h

theorem anyEncrypt_slots (C : BlockCipher) (x k : Arg) (data : Bytes) (r : PadRand) (hd : data.length ≤ 65535) :
    (∀ e, writeSlots [.field (.byte x), .key k] = .error e → anyEncrypt C x k data r = .error e) ∧
    (writeSlots [.field (.byte x), .key k] = .ok () → ∃ n b, Number x n ∧ 0 ≤ n ∧ n ≤ 255 ∧ k = .bytes b ∧ b.length = 16) := by
  have hln : ∃ b, toBytesLE 2 (data.length : Int) = .ok b := by
    unfold toBytesLE
    rw [if_pos ⟨Int.natCast_nonneg _, by omega⟩]
    exact ⟨_, rfl⟩
  obtain ⟨ln, hln⟩ := hln
  have hw : writeSlots [.field (.byte x), .key k] = (do let _ ← x.append; writeSlot (.key k)) := by
    unfold writeSlots writeSlots writeSlots
    cases hk : writeSlot (.key k) <;> cases ha : x.append <;> simp [writeSlot, writeField, ha]
  rw [hw]
  unfold anyEncrypt Arg.append
  rw [hln, bind_ok]
  cases hx : x.index with
  | none => exact ⟨fun e h => (by cases h; rfl), fun h => by cases h⟩
  | some n =>
    dsimp only
    by_cases hn : 0 ≤ n ∧ n < 256
    · have hb : toByte n = .ok (UInt8.ofNat n.toNat) := by unfold toByte; rw [if_pos hn]
      rw [hb]
      rw [bind_ok]
      cases k with
      | bytes b =>
        dsimp only [writeSlot]
        by_cases hl : b.length ≠ 16
        · refine ⟨fun e h => ?_, fun h => ?_⟩
          · rw [if_pos hl] at h
            cases h
            exact (C30_encrypt_outcome C ⟨n, b⟩ data r).2.1 hd (.inr (.inr hl))
          · rw [if_pos hl] at h; cases h
        · refine ⟨fun e h => ?_, fun h => ⟨n, b, number_index.2 hx, hn.1, by omega, rfl, Classical.not_not.1 hl⟩⟩
          rw [if_neg hl] at h; cases h
      | _ => exact ⟨fun e h => (by cases h; dsimp only; rw [hb]; rfl), fun h => by cases h⟩
    · have hb : toByte n = .error .value := by unfold toByte; rw [if_neg hn]; rfl
      rw [hb]
      refine ⟨fun e h => ?_, fun h => by cases h⟩
      cases h
      cases k with
      | bytes b => exact (C30_encrypt_outcome C ⟨n, b⟩ data r).2.1 hd (by simp only; omega)
      | _ => dsimp only; rw [hb]; rfl

theorem addresses_typed (a : AnyArgs) (h : writeSlots (addressSlots a) = .ok ()) :
    ∃ d1 d2 s1 s2, Number a.destinationAddress1 d1 ∧ Number a.destinationAddress2 d2 ∧ Number a.sourceAddress1 s1 ∧
      Number a.sourceAddress2 s2 ∧ (0 ≤ d1 ∧ d1 ≤ 65535) ∧ (0 ≤ d2 ∧ d2 ≤ 255) ∧ (0 ≤ s1 ∧ s1 ≤ 65535) ∧ (0 ≤ s2 ∧ s2 ≤ 255) := by
  have hno : ∀ s ∈ addressSlots a, ∀ x, ¬ Unfit s x := by
    rcases writeSlots_cases (addressSlots a) with h' | ⟨e, h', _⟩
    · exact h'.2
    · rw [h] at h'; cases h'
  have num : ∀ x, (∀ e, ¬ Unfit (.field (.number 2 x)) e) → ∃ n, Number x n ∧ 0 ≤ n ∧ n ≤ 65535 := by
    intro x hx
    cases hi : x.index with
    | none => exact absurd (.field _ _ (.noNumber 2 x (no_number.2 hi))) (hx .attribute)
    | some n =>
      by_cases hr : 0 ≤ n ∧ n < 256 ^ 2
      · exact ⟨n, number_index.2 hi, hr.1, by have := hr.2; omega⟩
      · exact absurd (.field _ _ (.number 2 x n (number_index.2 hi) (by simpa using hr))) (hx .overflow)
  have byt : ∀ x, (∀ e, ¬ Unfit (.field (.byte x)) e) → ∃ n, Number x n ∧ 0 ≤ n ∧ n ≤ 255 := by
    intro x hx
    cases hi : x.index with
    | none => exact absurd (.field _ _ (.noByte x (no_number.2 hi))) (hx .type)
    | some n =>
      by_cases hr : 0 ≤ n ∧ n < 256
      · exact ⟨n, number_index.2 hi, hr.1, by omega⟩
      · exact absurd (.field _ _ (.byte x n (number_index.2 hi) hr)) (hx .value)
  unfold addressSlots at hno
  obtain ⟨d1, h1, g1⟩ := num a.destinationAddress1 (hno _ (by simp))
  obtain ⟨d2, h2, g2⟩ := byt a.destinationAddress2 (hno _ (by simp))
  obtain ⟨s1, h3, g3⟩ := num _ (hno (.field (.number 2 a.sourceAddress1)) (by simp))
  obtain ⟨s2, h4, g4⟩ := byt _ (hno (.field (.byte a.sourceAddress2)) (by simp))
  exact ⟨d1, d2, s1, s2, h1, h2, h3, h4, g1, g2, g3, g4⟩

theorem slots_eq (c : AnyConn) : slots c =
    (match c.context with | none => [] | some (keyId, key) => [.field (.byte keyId), .key key]) ++ addressSlots c.args := rfl

theorem writeSlots_append (l l' : List Slot) : writeSlots (l ++ l') = (do writeSlots l; writeSlots l') := by
  induction l with
  | nil => rfl
  | cons s l ih =>
    show (do writeSlot s; writeSlots (l ++ l')) = (do (do writeSlot s; writeSlots l); writeSlots l')
    rw [ih]
    cases writeSlot s <;> rfl

theorem serialise_fault {C : BlockCipher} {c : AnyConn} {e : Event} {r : Rand} {body : Bytes} {service : ServiceNumber}
    (hb : e.toBytes r = .ok body) (hs : e.service = .ok service) (hl : body.length ≤ 65500) {x : PyErr}
    (h : writeSlots (slots c) = .error x) : c.serialise C e r = .error x := by
  rw [slots_eq, writeSlots_append] at h
  unfold AnyConn.serialise
  rw [hb, bind_ok, hs]
  cases hc : c.context with
  | none =>
    rw [hc] at h
    dsimp only
    rw [bind_ok, anyRequest_slots _ _ _ _ (by omega) x h]
    rfl
  | some p =>
    obtain ⟨i, k⟩ := p
    rw [hc] at h
    dsimp only at h ⊢
    rw [bind_ok]
    cases hw : writeSlots [.field (.byte i), .key k] with
    | error y =>
      rw [hw] at h; cases h
      rw [(anyEncrypt_slots C i k body r.pad (by omega)).1 x hw]; rfl
    | ok u =>
      rw [hw, bind_ok] at h
      obtain ⟨n, b, hn, h0, h1, rfl, h16⟩ := (anyEncrypt_slots C i k body r.pad (by omega)).2 hw
      obtain ⟨ct, hct⟩ := (C30_encrypt_outcome C ⟨n, b⟩ body r.pad).2.2 (by omega) h0 h1 h16
      rw [anyEncrypt_typed hn, hct, bind_ok, anyRequest_slots _ _ _ _ ?_ x h]
      · rfl
      · have := (C30_encrypt_shape C _ _ _ _ hct).1
        rw [this]; unfold paddedLength; omega

theorem serialise_fit {C : BlockCipher} {c : AnyConn} {e : Event} {r : Rand} {body : Bytes} {service : ServiceNumber}
    (hb : e.toBytes r = .ok body) (hs : e.service = .ok service) (hl : body.length ≤ 65500)
    (h : writeSlots (slots c) = .ok ()) : ∃ t w, TypedAs c t ∧ c.serialise C e r = .ok w := by
  rw [slots_eq, writeSlots_append, bind_eq_ok] at h
  obtain ⟨u, h1, h2⟩ := h
  obtain ⟨d1, d2, s1, s2, n1, n2, n3, n4, g1, g2, g3, g4⟩ := addresses_typed c.args h2
  have key : ∀ ty data, data.length ≤ 65520 → ∃ wire, (do
      let frameData ← requestToBytes ty { service, da1 := d1, da2 := d2, sa1 := s1, sa2 := s2, data }
      escapeCharacters frameData) = Except.ok wire := by
    intro ty data hd
    obtain ⟨fd, hf⟩ := (C14_request_range ty { service, da1 := d1, da2 := d2, sa1 := s1, sa2 := s2, data }).1.2
      ⟨g1, g2, g3, g4, hd⟩
    have hlay := C10_request_layout _ _ _ hf
    rw [hf, bind_ok]
    have : fd.getLast? = some 0x0D := by
      rw [hlay]; unfold frame; dsimp only; rw [List.getLast?_append]; rfl
    obtain ⟨w, hw, _⟩ := C01_unescape_escape fd this
    exact ⟨w, hw⟩
  cases hc : c.context with
  | none =>
    have ht : TypedAs c (Conn.mk (ConnArgs.mk s1 s2 d1 d2 [] 801 none none) c.buffer c.state none) :=
      ⟨n3, n4, n1, n2, by rw [hc]; exact .none, rfl, rfl⟩
    obtain ⟨w, hw⟩ := key requestType body (by omega)
    refine ⟨_, w, ht, ?_⟩
    rw [serialise_typed ht]
    unfold Conn.serialise
    rw [hb, bind_ok, hs]
    dsimp only
    rw [bind_ok]
    exact hw
  | some p =>
    obtain ⟨i, k⟩ := p
    rw [hc] at h1
    obtain ⟨n, b, hn, h0, h255, rfl, h16⟩ := (anyEncrypt_slots C i k body r.pad (by omega)).2 h1
    have ht : TypedAs c (Conn.mk (ConnArgs.mk s1 s2 d1 d2 [] 801 none none) c.buffer c.state (some ⟨n, b⟩)) :=
      ⟨n3, n4, n1, n2, by rw [hc]; exact .some i n b hn, rfl, rfl⟩
    obtain ⟨ct, hct⟩ := (C30_encrypt_outcome C ⟨n, b⟩ body r.pad).2.2 (by omega) h0 h255 h16
    obtain ⟨w, hw⟩ := key encryptedRequestType ct (by
      have := (C30_encrypt_shape C _ _ _ _ hct).1
      rw [this]; unfold paddedLength; omega)
    refine ⟨_, w, ht, ?_⟩
    rw [serialise_typed ht]
    unfold Conn.serialise
    dsimp only
    rw [hb, bind_ok, hs, bind_ok, hct, bind_ok]
    exact hw

theorem sends_service {e : Event} (he : IsRequest e) : ∃ s, e.service = .ok s := by
  unfold IsRequest at he
  cases e <;> simp [Event.type, responseOf] at he <;> exact ⟨_, rfl⟩

theorem firstUnfit_slots {c : AnyConn} {x : PyErr} : FirstUnfit c x ↔ writeSlots (slots c) = .error x := by
  constructor
  · rintro ⟨before, s, after, h1, h2, h3⟩; exact writeSlots_fault h1 h2 h3
  · intro h
    rcases writeSlots_cases (slots c) with ⟨h', _⟩ | ⟨e, h', g⟩
    · rw [h] at h'; cases h'
    · rw [h] at h'; cases h'; exact g

/-- C109. A request whose body can be built is sent exactly if the key id, the key and the addresses can go into it; then
the connection is one with the declared types.  Otherwise `send` raises what the first of them raises that cannot.  Either
way an idle connection waits for the answer afterwards, and nothing else of it is changed. -/
theorem C109_sends (C : BlockCipher) (c : AnyConn) (hi : c.state = .idle) (e : Event) (he : IsRequest e) (r : Rand)
    (body : Bytes) (hb : e.toBytes r = .ok body) (hl : body.length ≤ 65500) :
    (((∀ s ∈ slots c, ∀ x, ¬ Unfit s x) ∧ (∃ w, (c.send C e r).2 = .ok w) ∧ ∃ t, TypedAs c t) ∨
      ∃ x, FirstUnfit c x ∧ (c.send C e r).2 = .error x) ∧
    ∃ s, awaits s = responseOf e.type ∧ (c.send C e r).1 = { c with state := s } := by
  obtain ⟨s', hs, ha⟩ := C34_idle_accepts e he
  obtain ⟨sv, hsv⟩ := sends_service he
  have hsend : c.send C e r = ({ c with state := s' }, ({ c with state := s' } : AnyConn).serialise C e r) := by
    unfold AnyConn.send; rw [hi, hs]
  rw [hsend]
  refine ⟨?_, s', ha, rfl⟩
  have hsl : slots { c with state := s' } = slots c := rfl
  rcases writeSlots_cases (slots c) with ⟨h, g⟩ | ⟨x, h, g⟩
  · obtain ⟨t, w, ht, hw⟩ := serialise_fit (C := C) (c := { c with state := s' }) hb hsv hl (hsl ▸ h)
    exact .inl ⟨g, ⟨w, hw⟩, { t with state := c.state }, ⟨ht.1, ht.2, ht.3, ht.4, ht.5, ht.6, rfl⟩⟩
  · exact .inr ⟨x, g, serialise_fault (c := { c with state := s' }) hb hsv hl (hsl ▸ h)⟩

/-- The attributes that go into a request are the same. -/
theorem step_slots (C : BlockCipher) (c : AnyConn) (op : AnyOp) (h : ∀ x, op ≠ .set x) :
    (anyStep C c op).1.args = c.args ∧ (anyStep C c op).1.context = c.context := by
  cases op with
  | set x => exact absurd rfl (h x)
  | send e r =>
    unfold anyStep AnyConn.send
    dsimp only
    cases processEvent c.state e <;> exact ⟨rfl, rfl⟩
  | receive d =>
    unfold anyStep AnyConn.receiveData
    dsimp only
    split
    · exact ⟨rfl, rfl⟩
    · split
      · split <;> exact ⟨rfl, rfl⟩
      · exact ⟨rfl, rfl⟩
  | poll =>
    unfold anyStep AnyConn.nextEvent
    dsimp only
    split
    · exact ⟨rfl, rfl⟩
    · split
      · exact ⟨rfl, rfl⟩
      · split
        · split <;> exact ⟨rfl, rfl⟩
        · split
          · exact ⟨rfl, rfl⟩
          · split <;> exact ⟨rfl, rfl⟩

theorem slots_step (C : BlockCipher) (c : AnyConn) (op : AnyOp) (h : ∀ x, op ≠ .set x) :
    slots (anyStep C c op).1 = slots c := by
  obtain ⟨h1, h2⟩ := step_slots C c op h
  rw [slots_eq, slots_eq, h1, h2]

theorem send_unfit (C : BlockCipher) {c : AnyConn} {x : PyErr} (h : FirstUnfit c x) (e : Event) (he : IsRequest e) (r : Rand)
    (hl : ∀ b, e.toBytes r = .ok b → b.length ≤ 65500) (w : Bytes) : (c.send C e r).2 ≠ .ok w := by
  intro hw
  unfold AnyConn.send at hw
  cases hp : processEvent c.state e with
  | error y => rw [hp] at hw; cases hw
  | ok s' =>
    rw [hp] at hw
    dsimp only at hw
    obtain ⟨sv, hsv⟩ := sends_service he
    cases hb : e.toBytes r with
    | error y => unfold AnyConn.serialise at hw; rw [hb] at hw; cases hw
    | ok body =>
      rw [serialise_fault (c := { c with state := s' }) hb hsv (hl body hb) (firstUnfit_slots.1 h)] at hw
      cases hw

/-- C109. As long as nothing is assigned, a connection with an attribute that cannot go into a request never sends one,
whatever else happens to it. -/
theorem C109_never_sends (C : BlockCipher) (c : AnyConn) (x : PyErr) (h : FirstUnfit c x) (ops : List AnyOp)
    (ho : ∀ op ∈ ops, ∀ s, op ≠ .set s) (hl : ∀ e r b, AnyOp.send e r ∈ ops → e.toBytes r = .ok b → b.length ≤ 65500)
    (e : Event) (he : IsRequest e) (w : Bytes) : AnyOutcome.sent e (.ok w) ∉ (anyRun C c ops).2 := by
  induction ops generalizing c with
  | nil => intro h; cases h
  | cons op ops ih =>
    intro hm
    unfold anyRun at hm
    dsimp only at hm
    rcases List.mem_cons.1 hm with hm | hm
    · cases op with
      | send e' r =>
        unfold anyStep at hm
        dsimp only at hm
        injection hm with h1 h2
        subst h1
        exact send_unfit C h e he r (fun b hb => hl e r b List.mem_cons_self hb) w h2.symm
      | receive d => cases hm
      | poll => cases hm
      | set s => cases hm
    · have hset := ho op List.mem_cons_self
      refine ih (anyStep C c op).1 ?_ (fun op hop => ho op (List.mem_cons_of_mem _ hop))
        (fun e r b hm => hl e r b (List.mem_cons_of_mem _ hm)) hm
      rw [firstUnfit_slots, slots_step C c op hset]
      exact firstUnfit_slots.1 h

/-- C109. An address that is a float is accepted by the constructor, but the connection never sends a request. -/
theorem C109_float (C : BlockCipher) (a : AnyArgs) (c : AnyConn) (hc : mkAnyConn a = .ok c) (b : Nat)
    (h : a.destinationAddress1 = .float b ∨ a.destinationAddress2 = .float b ∨ a.sourceAddress1 = .float b ∨
      a.sourceAddress2 = .float b) (ops : List AnyOp)
    (ho : ∀ op ∈ ops, ∀ s, op ≠ .set s) (hl : ∀ e r b, AnyOp.send e r ∈ ops → e.toBytes r = .ok b → b.length ≤ 65500)
    (e : Event) (he : IsRequest e) (w : Bytes) : AnyOutcome.sent e (.ok w) ∉ (anyRun C c ops).2 := by
  have hf : ∃ x, FirstUnfit c x := by
    rcases writeSlots_cases (slots c) with ⟨_, g⟩ | ⟨x, _, g⟩
    · exfalso
      have ha : c.args = a := by
        rcases C109_created a with ⟨_, c', h1, h2, _⟩ | ⟨_, e, h1, _⟩
        · rw [hc] at h1; cases h1; exact h2
        · rw [hc] at h1; cases h1
      have hn : ∀ n, ¬ Number (.float b) n := fun n hn => by cases hn
      rw [slots_eq, ha] at g
      unfold addressSlots at g
      rcases h with h | h | h | h <;> rw [h] at g
      · exact g (.field (.number 2 (.float b))) (by simp) .attribute (.field _ _ (.noNumber 2 _ hn))
      · exact g (.field (.byte (.float b))) (by simp) .type (.field _ _ (.noByte _ hn))
      · exact g (.field (.number 2 (.float b))) (by simp) .attribute (.field _ _ (.noNumber 2 _ hn))
      · exact g (.field (.byte (.float b))) (by simp) .type (.field _ _ (.noByte _ hn))
    · exact ⟨x, g⟩
  obtain ⟨x, hf⟩ := hf
  exact C109_never_sends C c x hf ops ho hl e he w

/-! ### What is never opened -/

theorem pyGet_fails {l : Bytes} {i : Int} {e : PyErr} (h : pyGet l i = .error e) : e = .index := by
  unfold pyGet at h
  dsimp only at h
  repeat' split at h
  all_goals first | (cases h; rfl) | cases h

theorem anyDecrypt_closed (C : BlockCipher) {x k : Arg} (h : ¬ Opens (some (x, k))) (data : Bytes) :
    ∃ e, anyDecrypt C x k data = .error e ∧ e.isValueError = false := by
  unfold anyDecrypt
  dsimp only
  cases hg : pyGet (sliceTo data 3) 2 with
  | error e =>
    rw [pyGet_fails hg]; exact ⟨_, rfl, rfl⟩
  | ok m =>
    rw [bind_ok]
    cases he : x.equalsByte m with
    | false => exact ⟨.assertion, rfl, rfl⟩
    | true =>
      have heq := (equalsByte_iff x m).1 he
      cases k with
      | bytes b => exact absurd (.some x _ b heq (Int.natCast_nonneg _) (by have := m.toNat_lt; omega)) h
      | _ => exact ⟨.type, rfl, rfl⟩

theorem anyNext_line {C : BlockCipher} {c : AnyConn} {w rest : Bytes} (h : 0x0D ∉ w) (hb : c.buffer = w ++ 0x0D :: rest) :
    c.nextEvent C =
      match c.interpret C (w ++ [0x0D]) with
      | .error e => if e.isValueError then (c, .ok none) else (c, .error e)
      | .ok response =>
        match pduFromResponse response with
        | .error e => (c, .error e)
        | .ok pdu =>
          match processEvent c.state pdu with
          | .error e => (c, .error e)
          | .ok s' => ({ c with state := s', buffer := [] }, .ok (some pdu)) := by
  have hne : c.buffer.isEmpty = false := by rw [hb]; cases w <;> simp
  have hs : sliceTo c.buffer ((w.length : Int) + 1) = w ++ [0x0D] := by
    rw [hb, show ((w.length : Int) + 1) = ((w.length + 1 : Nat) : Int) by omega, sliceTo_nat]
    rw [show w ++ 0x0D :: rest = (w ++ [0x0D]) ++ rest by simp, List.take_append_of_le_length (by simp)]
    exact List.take_of_length_le (by simp)
  unfold AnyConn.nextEvent
  rw [hne, if_neg (by simp)]
  have hi : indexEnd c.buffer = some w.length := by rw [hb]; exact indexEnd_line h rest
  rw [hi]
  dsimp only
  rw [hs]
  rfl

theorem next_closed {C : BlockCipher} {c : AnyConn} (ho : ¬ Opens c.context) (hn : EncryptedNext c) :
    c.nextEvent C = (c, .ok none) ∨ ∃ e, c.nextEvent C = (c, .error e) := by
  obtain ⟨line, rest, raw, h1, h2, h3, h4⟩ := hn
  rw [anyNext_line h1 h2]
  have hi : ∃ e, c.interpret C (line ++ [0x0D]) = .error e := by
    unfold AnyConn.interpret
    rw [h3, bind_ok]
    unfold responseFactory
    have hs : startsWith raw [0x02, 0xFE, 0x87] = true := by
      rw [startsWith_iff, ← h4]; exact List.take_prefix 3 raw
    have hs' : startsWith raw [0x02, 0xFE, 0x86] = false := by
      cases hx : startsWith raw [0x02, 0xFE, 0x86] with
      | false => rfl
      | true =>
        rw [startsWith_iff] at hx
        obtain ⟨l, rfl⟩ := hx
        simp at h4
    rw [hs', hs]
    simp only [Bool.false_eq_true, if_false, if_true]
    cases frameFromBytes encryptedResponseType raw with
    | error e => exact ⟨e, rfl⟩
    | ok f =>
      simp only [bind_ok, pure_res, if_true]
      cases hc : c.context with
      | none => exact ⟨_, rfl⟩
      | some p =>
        obtain ⟨x, k⟩ := p
        rw [hc] at ho
        obtain ⟨e, he, _⟩ := anyDecrypt_closed C ho f.data
        dsimp only
        rw [he]
        exact ⟨_, rfl⟩
  obtain ⟨e, hi⟩ := hi
  rw [hi]
  dsimp only
  split
  · exact .inl rfl
  · exact .inr ⟨e, rfl⟩

/-- C109. A connection whose key is no bytes, or whose key id equals no byte, or that has no key, delivers nothing any
more once the next line it has received is an encrypted response, whatever it is asked to send and whatever arrives, as
long as nothing is assigned. -/
theorem C109_never_opens (C : BlockCipher) (c : AnyConn) (ho : ¬ Opens c.context) (hn : EncryptedNext c) (ops : List AnyOp)
    (hs : ∀ op ∈ ops, ∀ s, op ≠ .set s) (e : Event) : AnyOutcome.polled (.ok (some e)) ∉ (anyRun C c ops).2 := by
  induction ops generalizing c with
  | nil => intro h; cases h
  | cons op ops ih =>
    have hset := hs op List.mem_cons_self
    have hst := step_slots C c op hset
    have keep : EncryptedNext (anyStep C c op).1 ∧ (anyStep C c op).2 ≠ .polled (.ok (some e)) := by
      cases op with
      | set s => exact absurd rfl (hset s)
      | send e' r =>
        refine ⟨?_, fun h => by cases h⟩
        unfold anyStep AnyConn.send
        dsimp only
        cases processEvent c.state e' <;> exact hn
      | receive d =>
        refine ⟨?_, fun h => by cases h⟩
        obtain ⟨line, rest, raw, h1, h2, h3, h4⟩ := hn
        unfold anyStep AnyConn.receiveData
        dsimp only
        split
        · exact ⟨line, rest, raw, h1, h2, h3, h4⟩
        · split
          · split
            · exact ⟨line, rest, raw, h1, h2, h3, h4⟩
            · exact ⟨line, _, raw, h1, by rw [h2, List.append_assoc]; rfl, h3, h4⟩
          · exact ⟨line, rest, raw, h1, h2, h3, h4⟩
      | poll =>
        unfold anyStep
        dsimp only
        rcases next_closed (C := C) ho hn with h | ⟨x, h⟩
        · rw [h]; exact ⟨hn, fun h => by cases h⟩
        · rw [h]; exact ⟨hn, fun h => by cases h⟩
    intro hm
    unfold anyRun at hm
    rcases List.mem_cons.1 hm with hm | hm
    · exact keep.2 hm.symm
    · exact ih (anyStep C c op).1 (by rw [hst.2]; exact ho) keep.1 (fun op hop => hs op (List.mem_cons_of_mem _ hop)) hm

/-! ### Examples -/

/-- Created with `True` as an address and a list as password. -/
def exAny : AnyArgs :=
  { sourceAddress1 := .bool true, sourceAddress2 := .int 2, destinationAddress1 := .int 3, destinationAddress2 := .int 0,
    password := .ints [1, 2], passwordId := .int 801 }

/-- Created with an address 1.0. -/
def exFloatAddress : AnyArgs := { exAny with destinationAddress2 := .float 0x3FF0000000000000 }

/-- Created with a key id 1.0 and a key of 16 bytes. -/
def exFloatKey : AnyArgs :=
  { exAny with encryptionKey := .bytes (List.replicate 16 7), encryptionKeyId := .float 0x3FF0000000000000 }

theorem exAny_created : (mkAnyConn exAny).isOk = true ∧ (mkAnyConn exFloatAddress).isOk = true ∧ (mkAnyConn exFloatKey).isOk = true := by
  decide +kernel

example : ∃ c, mkAnyConn exAny = .ok c ∧ ∃ t, TypedAs c t ∧ ∀ s ∈ slots c, ∀ x, ¬ Unfit s x := by
  refine ⟨⟨exAny, [], .idle, none⟩, by decide +kernel, ⟨⟨1, 2, 3, 0, [], 801, none, none⟩, [], .idle, none⟩,
    ⟨.true, .int 2, .int 3, .int 0, .none, rfl, rfl⟩, ?_⟩
  rcases writeSlots_cases (slots ⟨exAny, [], .idle, none⟩) with ⟨_, g⟩ | ⟨e, g, _⟩
  · exact g
  · cases g

/-- It sends, and afterwards it waits for the answer. -/
example : ∃ w, ((⟨exAny, [], .idle, none⟩ : AnyConn).send idCipher (.readTimeRequest {}) exRand).2 = .ok w := by
  rcases (C109_sends idCipher ⟨exAny, [], .idle, none⟩ rfl (.readTimeRequest {}) rfl exRand [] rfl (by decide)).1 with h | ⟨x, h, _⟩
  · exact h.2.1
  · have := firstUnfit_slots.1 h; cases this

/-- The second byte of the destination cannot be written: `TypeError`. -/
example : ∃ c, mkAnyConn exFloatAddress = .ok c ∧ FirstUnfit c .type :=
  ⟨⟨exFloatAddress, [], .idle, none⟩, by decide +kernel, firstUnfit_slots.2 (by rfl)⟩

/-- A float key id opens answers but cannot go into a request. -/
example : ∃ c, mkAnyConn exFloatKey = .ok c ∧ FirstUnfit c .type ∧ ReadsAs c.context (some ⟨1, List.replicate 16 7⟩) ∧
    Opens c.context := by
  have he : EqualTo (.float 0x3FF0000000000000) 1 := .float _ _ (by decide +kernel) (by decide +kernel)
  exact ⟨⟨exFloatKey, [], .idle, some (.float 0x3FF0000000000000, .bytes (List.replicate 16 7))⟩, by decide +kernel,
    firstUnfit_slots.2 (by rfl), .some _ _ _ he, .some _ _ _ he (by decide) (by decide)⟩

/-- A key that is a text opens nothing. -/
example : ¬ Opens (some (.int 1, .str "k".toList)) := fun h => by cases h

example : EncryptedNext ⟨exAny, [0x02, 0xFE, 0x87, 0x0D], .idle, none⟩ :=
  ⟨[0x02, 0xFE, 0x87], [], [0x02, 0xFE, 0x87, 0x0D], by decide, rfl, by decide +kernel, rfl⟩

example : ¬ Creates { exAny with password := .int 12 } := fun h => by have := h.password; cases this
example : ¬ Creates { exAny with sourceAddress1 := .str "1".toList } := fun h => by
  have := h.sourceAddress1
  cases this with
  | number _ _ h _ _ => cases h

end Elgas
