import Verif.Props.Integration
import Verif.Spec.Distinct
/-!
C69: the bytes on the wire determine the request.  C71: what equal ciphertext blocks mean.
-/
namespace Elgas
open Spec

theorem leOf_inj {w a b : Nat} (ha : a < 256 ^ w) (hb : b < 256 ^ w) (h : leOf a w = leOf b w) : a = b := by
  induction w generalizing a b with
  | zero => simp at ha hb; omega
  | succ w ih =>
    simp only [leOf, List.cons.injEq] at h
    have h1 : a % 256 = b % 256 := by
      have := congrArg UInt8.toNat h.1
      simpa using this
    have h2 : a / 256 = b / 256 :=
      ih (by rw [Nat.pow_succ] at ha; omega) (by rw [Nat.pow_succ] at hb; omega) h.2
    omega

theorem pwBytes_inj {p p' : PyStr} {r r' : PwRand} (hr : PadOk r) (hr' : PadOk r') (hp : IsLatin1 p) (hp' : IsLatin1 p')
    (h : pwBytes p r = pwBytes p' r') : p = p' :=
  C22_injective p p' r r' hr hr' _ (passwordBlock_ok hr hp) (by
    have := passwordBlock_ok hr' hp'
    rw [this]; exact congrArg _ h.symm)

theorem bcdEnc_inj {m n : Nat} (h : bcdEnc m = bcdEnc n) : m = n := by
  rw [← bcdValue_bcdEnc m, h, bcdValue_bcdEnc]

/-- The encoding of a valid time: five bytes and the year. -/
theorem time_bytes {t : DateTime} {b : Bytes} (ht : t.Valid) (h : datetimeToBytes t = .ok b) :
    b = bcdEnc t.second ++ bcdEnc t.minute ++ bcdEnc t.hour ++ bcdEnc t.day ++ bcdEnc t.month ++
      bcdEnc (t.year - 2000) ∧ 2000 ≤ t.year ∧ (bcdEnc t.second).length = 1 ∧ (bcdEnc t.minute).length = 1 ∧
      (bcdEnc t.hour).length = 1 ∧ (bcdEnc t.day).length = 1 ∧ (bcdEnc t.month).length = 1 ∧
      ((bcdEnc (t.year - 2000)).length = 1 ∨ (bcdEnc (t.year - 2000)).length = 2) := by
  by_cases hy : 2000 ≤ t.year
  · rw [datetimeToBytes_eq t hy] at h
    obtain ⟨hy0, hy1, hm0, hm, hd0, hd, hh, hmi, hs, hus⟩ := ht
    have hdm := daysInMonth_le t.year t.month
    have one : ∀ n, n < 100 → (bcdEnc n).length = 1 := fun n hn => by rw [bcdEnc_lt hn]; rfl
    refine ⟨(Except.ok.inj h).symm, hy, one _ (by omega), one _ (by omega), one _ (by omega), one _ (by omega),
      one _ (by omega), ?_⟩
    by_cases h1 : t.year - 2000 < 100
    · exact .inl (one _ h1)
    · right
      rw [bcdEnc_ge (by omega), List.length_append, one _ (by omega)]; rfl
  · rw [C18_before_2000 t (by omega)] at h; cases h

theorem second_of_bytes {t u : DateTime} {b : Bytes} (ht : t.Valid) (hu : u.Valid)
    (h : datetimeToBytes t = .ok b) (h' : datetimeToBytes u = .ok b) : SameSecond t u := by
  obtain ⟨e, hy, a1, a2, a3, a4, a5, _⟩ := time_bytes ht h
  obtain ⟨e', hy', b1, b2, b3, b4, b5, _⟩ := time_bytes hu h'
  rw [e] at e'
  simp only [List.append_assoc] at e'
  have c1 := List.append_inj e' (by omega)
  have c2 := List.append_inj c1.2 (by omega)
  have c3 := List.append_inj c2.2 (by omega)
  have c4 := List.append_inj c3.2 (by omega)
  have c5 := List.append_inj c4.2 (by omega)
  have := bcdEnc_inj c5.2
  simp only [SameSecond, Prod.mk.injEq]
  exact ⟨by omega, bcdEnc_inj c5.1, bcdEnc_inj c4.1, bcdEnc_inj c3.1, bcdEnc_inj c2.1, bcdEnc_inj c1.1⟩

theorem time_length {t : DateTime} {b : Bytes} (ht : t.Valid) (h : datetimeToBytes t = .ok b) :
    b.length = 6 ∨ b.length = 7 := by
  obtain ⟨e, hy, a1, a2, a3, a4, a5, a6⟩ := time_bytes ht h
  rw [e]; simp only [List.length_append]; omega

/-- Two password blocks cannot be shifted by one byte against each other. -/
theorem pw_shift {p p' : PyStr} {r r' : PwRand} {x x' : Bytes} (h : pwBytes p r ++ x = pwBytes p' r' ++ x')
    (hl : p.length = p'.length + 1) : False := by
  unfold pwBytes at h
  simp only [List.append_assoc] at h
  have e1 := congrArg (fun l => l[p.length]?) h
  have l1 : (latin1 p).length = p.length := by simp [latin1]
  have l2 : (latin1 p').length = p'.length := by simp [latin1]
  rw [List.getElem?_append_right (l₁ := latin1 p) (by omega), List.getElem?_append_right (l₁ := latin1 p') (by omega), l1, l2,
    hl, Nat.sub_self, Nat.add_sub_cancel_left] at e1
  simp at e1

theorem pw_tail {p p' : PyStr} {r r' : PwRand} {x x' t t' : Bytes} (hx : x.length = x'.length)
    (ht : t.length = 6 ∨ t.length = 7) (ht' : t'.length = 6 ∨ t'.length = 7)
    (h : pwBytes p r ++ (x ++ t) = pwBytes p' r' ++ (x' ++ t')) : t.length = t'.length := by
  have hl := congrArg List.length h
  simp only [List.length_append, pwBytes_length] at hl
  rcases ht with ht | ht <;> rcases ht' with ht' | ht'
  · omega
  · exact (pw_shift h (by omega)).elim
  · exact (pw_shift h.symm (by omega)).elim
  · omega

/-- C69. The bodies of two requests of the same kind are equal only if the requests are the same, whatever
the random characters are. -/
theorem C69_body (e e' : Event) (r r' : Rand) (b : Bytes) (hr : PadOk r.pw) (hr' : PadOk r'.pw)
    (he : IsRequest e) (hty : e.type = e'.type) (ht : ValidTime e) (ht' : ValidTime e')
    (h : e.toBytes r = .ok b) (h' : e'.toBytes r' = .ok b) : SameRequest e e' := by
  cases e <;> simp only [IsRequest, Event.type, responseOf, Option.isSome, Bool.false_eq_true] at he <;>
    cases e' <;> simp only [Event.type, reduceCtorEq] at hty
  case readInstantaneousValuesRequest.readInstantaneousValuesRequest q q' =>
    obtain ⟨h1, h2⟩ := (C21_read_values q _ hr b).1 h
    obtain ⟨h1', h2'⟩ := (C21_read_values q' _ hr' b).1 h'
    exact pwBytes_inj hr hr' h1 h1' (h2.symm.trans h2')
  case readTimeRequest.readTimeRequest => trivial
  case writeTimeRequest.writeTimeRequest q q' =>
    obtain ⟨h1, t, h2, h3⟩ := (C21_write_time q _ hr b).1 h
    obtain ⟨h1', t', h2', h3'⟩ := (C21_write_time q' _ hr' b).1 h'
    rw [h3] at h3'
    have e1 := List.append_inj' h3' rfl
    have e2 := List.append_inj' e1.1 (pw_tail (x := []) (x' := []) rfl (time_length ht h2) (time_length ht' h2') e1.1)
    obtain ⟨e3, rfl⟩ := e2
    exact ⟨pwBytes_inj hr hr' h1 h1' e3, second_of_bytes ht ht' h2 h2'⟩
  case readDeviceParametersRequest.readDeviceParametersRequest q q' =>
    obtain ⟨h1, ⟨a1, a2⟩, ⟨a3, a4⟩, h3⟩ := (C21_read_parameters q _ hr b).1 h
    obtain ⟨h1', ⟨b1, b2⟩, ⟨b3, b4⟩, h3'⟩ := (C21_read_parameters q' _ hr' b).1 h'
    rw [h3] at h3'
    have e1 := List.append_inj' h3' (by simp [leOf_length])
    have e2 := List.append_inj' e1.1 (by simp [leOf_length])
    have e3 := pwBytes_inj hr hr' h1 h1' e2.1
    have e4 := leOf_inj (by omega) (by omega) e2.2
    have e5 := leOf_inj (by omega) (by omega) e1.2
    cases q; cases q'
    simp only [SameRequest, ReadDeviceParametersRequest.mk.injEq] at *
    exact ⟨e3, by omega, by omega⟩
  case readArchiveRequest.readArchiveRequest q q' =>
    obtain ⟨h1, ⟨a1, a2⟩, ⟨a3, a4⟩, ⟨a5, a6⟩, h3⟩ := (C21_read_archive q _ hr b).1 h
    obtain ⟨h1', ⟨b1, b2⟩, ⟨b3, b4⟩, ⟨b5, b6⟩, h3'⟩ := (C21_read_archive q' _ hr' b).1 h'
    rw [h3] at h3'
    have e1 := List.append_inj' h3' (by simp [leOf_length])
    have e2 := List.append_inj' e1.1 (by simp [leOf_length])
    have e3 := List.append_inj' e2.1 (by simp)
    have e4 := pwBytes_inj hr hr' h1 h1' e3.1
    have e5 := leOf_inj (by omega) (by omega) e2.2
    have e6 := leOf_inj (by omega) (by omega) e1.2
    have e7 : q.archive.toNat = q'.archive.toNat := by
      have := leOf_inj (w := 1) (a := q.archive.toNat) (b := q'.archive.toNat) (by omega) (by omega) (by
        have := e3.2
        simp only [leOf, List.cons.injEq, and_true] at this ⊢
        rw [Nat.mod_eq_of_lt (by omega), Nat.mod_eq_of_lt (by omega)]; exact this)
      exact this
    cases q; cases q'
    simp only [SameRequest, ReadArchiveRequest.mk.injEq] at *
    exact ⟨e4, by omega, by omega, by omega⟩
  case readArchiveByTimeRequest.readArchiveByTimeRequest q q' =>
    obtain ⟨h1, ⟨a1, a2⟩, ⟨a3, a4⟩, t, h2, h3⟩ := (C21_read_archive_by_time q _ hr b).1 h
    obtain ⟨h1', ⟨b1, b2⟩, ⟨b3, b4⟩, t', h2', h3'⟩ := (C21_read_archive_by_time q' _ hr' b).1 h'
    rw [h3] at h3'
    have e0 := List.append_inj' h3' (by
      refine pw_tail (p := q.password) (p' := q'.password) (r := r.pw) (r' := r'.pw)
        (x := [UInt8.ofNat q.archive.toNat] ++ leOf q.amount.toNat 2)
        (x' := [UInt8.ofNat q'.archive.toNat] ++ leOf q'.amount.toNat 2) (by simp [leOf_length])
        (time_length ht h2) (time_length ht' h2') ?_
      simpa only [List.append_assoc] using h3')
    obtain ⟨e0, rfl⟩ := e0
    have e1 := List.append_inj' e0 (by simp [leOf_length])
    have e3 := List.append_inj' e1.1 (by simp)
    have e4 := pwBytes_inj hr hr' h1 h1' e3.1
    have e6 := leOf_inj (by omega) (by omega) e1.2
    have e7 : q.archive.toNat = q'.archive.toNat := by
      have := leOf_inj (w := 1) (a := q.archive.toNat) (b := q'.archive.toNat) (by omega) (by omega) (by
        have := e3.2
        simp only [leOf, List.cons.injEq, and_true] at this ⊢
        rw [Nat.mod_eq_of_lt (by omega), Nat.mod_eq_of_lt (by omega)]; exact this)
      exact this
    exact ⟨e4, by omega, by omega, second_of_bytes ht ht' h2 h2'⟩

theorem frame_inj {ty svc svc' : UInt8} {a a' d d' : Bytes} (ha : a.length = 6) (ha' : a'.length = 6)
    (h : frame ty svc a d = frame ty svc' a' d') : svc = svc' ∧ d = d' := by
  unfold frame at h
  have e1 := (List.append_inj' h (by simp)).1
  have e2 := (List.append_inj e1 (by simp)).2
  unfold frameBody at e2
  dsimp only at e2
  have e3 := List.append_inj e2 (by simp [ha, ha'])
  have e4 := List.append_inj e3.1 (by simp)
  simp only [List.cons.injEq] at e4
  exact ⟨e4.1.2.2.1, e3.2⟩

theorem type_of_code {t t' : EventType} {s : UInt8} (h : requestCode t = some s) (h' : requestCode t' = some s) :
    t = t' := by
  rw [← h'] at h
  revert h h'
  cases t <;> cases t' <;> simp [requestCode]

theorem addressBytes_length (a : ConnArgs) : (addressBytes a).length = 6 := by rfl

/-- C69. The bytes on the wire determine the request: if two connections with the same configuration, each
in any state it can get into, send the same bytes, then for the same request, whatever the random draws are. -/
theorem C69_wire (C : BlockCipher) (a : ConnArgs) (c c' : Conn) (hc : Reachable C a c) (hc' : Reachable C a c')
    (e e' : Event) (he : IsRequest e) (he' : IsRequest e') (ht : ValidTime e) (ht' : ValidTime e')
    (r r' : Rand) (hr : PadOk r.pw) (hr' : PadOk r'.pw) (wire : Bytes)
    (h : (c.send C e r).2 = .ok wire) (h' : (c'.send C e' r').2 = .ok wire) : SameRequest e e' := by
  by_cases hk : a.encryptionKey = none ∨ a.encryptionKeyId = none
  · obtain ⟨s, b, h1, h2, h3⟩ := C32_plaintext C a c hc e r wire h hk
    obtain ⟨s', b', h1', h2', h3'⟩ := C32_plaintext C a c' hc' e' r' wire h' hk
    rw [h3] at h3'
    obtain ⟨e1, rfl⟩ := frame_inj (addressBytes_length a) (addressBytes_length a) (Except.ok.inj h3')
    subst e1
    exact C69_body e e' r r' b hr hr' he (type_of_code h1 h1') ht ht' h2 h2'
  · cases hkey : a.encryptionKey with
    | none => exact absurd (.inl hkey) hk
    | some key =>
      cases hid : a.encryptionKeyId with
      | none => exact absurd (.inr hid) hk
      | some id =>
        obtain ⟨s, b, ct, h1, h2, h3, h4⟩ := C32_encrypted C a c hc e r wire h key id hkey hid
        obtain ⟨s', b', ct', h1', h2', h3', h4'⟩ := C32_encrypted C a c' hc' e' r' wire h' key id hkey hid
        rw [h3] at h3'
        obtain ⟨e1, rfl⟩ := frame_inj (addressBytes_length a) (addressBytes_length a) (Except.ok.inj h3')
        subst e1
        rw [h4] at h4'
        cases h4'
        exact C69_body e e' r r' b hr hr' he (type_of_code h1 h1') ht ht' h2 h2'

/-- C69. What is not on the wire: two "write time" requests that differ in the `cryout` flag or in the
fraction of the second are sent as the same bytes. -/
theorem C69_not_on_the_wire (C : BlockCipher) (c : Conn) (p : PyStr) (t : DateTime) (us : Nat) (cry cry' : Bool) (r : Rand) :
    (c.send C (.writeTimeRequest ⟨p, t, cry⟩) r).2 =
      (c.send C (.writeTimeRequest ⟨p, { t with microsecond := us }, cry'⟩) r).2 := rfl

/-! ### C71 -/

theorem block_eq_of_take {a b : Bytes} {n i : Nat} (h : a.take (16 * n) = b.take (16 * n)) (hi : i < n) : block a i = block b i := by
  unfold block
  have e : ∀ x : Bytes, (x.drop (16 * i)).take 16 = ((x.take (16 * n)).drop (16 * i)).take 16 := by
    intro x
    rw [List.drop_take, List.take_take, Nat.min_eq_left (by omega)]
  rw [e, h, ← e]

theorem take_eq_of_blocks {a b : Bytes} {n : Nat} (h : ∀ i < n, block a i = block b i) : a.take (16 * n) = b.take (16 * n) := by
  induction n with
  | zero => simp
  | succ n ih =>
    have e : ∀ x : Bytes, x.take (16 * (n + 1)) = x.take (16 * n) ++ block x n := by
      intro x
      rw [show 16 * (n + 1) = 16 * n + 16 by omega, List.take_add]; rfl
    rw [e, e, ih (fun i hi => h i (by omega)), h n (by omega)]

theorem block_length {p : Bytes} {i : Nat} (h : 16 * (i + 1) ≤ p.length) : (block p i).length = 16 := by
  simp [block]; omega

theorem enc_inj (C : BlockCipher) {k x y : Bytes} (hk : k.length = 16) (hx : x.length = 16) (hy : y.length = 16)
    (h : C.enc k x = C.enc k y) : x = y := by
  rw [← C.dec_enc k x hk hx, h, C.dec_enc k y hk hy]

theorem xor_inj {a b k : Bytes} (ha : a.length = 16) (hb : b.length = 16) (hk : k.length = 16)
    (h : xorBytes a k = xorBytes b k) : a = b := by
  rw [← xorBlock_cancel a k (by omega), ← xorBlock_cancel b k (by omega)]
  exact congrArg (xorBlock · k) h

/-- Cipher block chaining with a fixed initialisation vector: the first `n` blocks of two ciphertexts agree
exactly if those of the plaintexts do. -/
theorem cbc_prefix (C : BlockCipher) {k iv p p' c c' : Bytes} (hk : k.length = 16) (hiv : iv.length = 16)
    (h : CbcOf (C.enc k) iv p c) (h' : CbcOf (C.enc k) iv p' c') (n : Nat) (hn : 16 * n ≤ p.length) (hn' : 16 * n ≤ p'.length) :
    c.take (16 * n) = c'.take (16 * n) ↔ p.take (16 * n) = p'.take (16 * n) := by
  have hl := h.len_eq
  have hl' := h'.len_eq
  constructor
  · intro hc
    apply take_eq_of_blocks
    intro i hi
    have hp1 := block_length (p := p) (i := i) (by omega)
    have hp2 := block_length (p := p') (i := i) (by omega)
    cases i with
    | zero =>
      have e1 := h.first (by omega)
      have e2 := h'.first (by omega)
      rw [block_eq_of_take hc hi, e2] at e1
      have x1 : (xorBytes (block p 0) iv).length = 16 := by simp [xorBytes, hp1, hiv]
      have x2 : (xorBytes (block p' 0) iv).length = 16 := by simp [xorBytes, hp2, hiv]
      exact xor_inj hp1 hp2 hiv (enc_inj C hk x2 x1 e1).symm
    | succ i =>
      have e1 := h.next i (by omega)
      have e2 := h'.next i (by omega)
      have hb := block_eq_of_take hc (by omega : i < n)
      have hbl := block_length (p := c') (i := i) (by omega)
      rw [block_eq_of_take hc hi, e2, hb] at e1
      have x1 : (xorBytes (block p (i + 1)) (block c' i)).length = 16 := by simp [xorBytes, hp1, hbl]
      have x2 : (xorBytes (block p' (i + 1)) (block c' i)).length = 16 := by simp [xorBytes, hp2, hbl]
      exact xor_inj hp1 hp2 hbl (enc_inj C hk x2 x1 e1).symm
  · intro hp
    apply take_eq_of_blocks
    intro i hi
    induction i with
    | zero => rw [h.first (by omega), h'.first (by omega), block_eq_of_take hp hi]
    | succ i ih => rw [h.next i (by omega), h'.next i (by omega), block_eq_of_take hp hi, ih (by omega)]

/-- C71. Every encryption under a key uses the same initialisation vector: of two encrypted messages, the
first `n` blocks of the ciphertexts agree exactly if the first `16 n` bytes of the messages do, whatever
the random padding is.  An eavesdropper sees the length of every message and which messages start alike. -/
theorem C71_prefix (C : BlockCipher) (c : CipherContext) (d d' : Bytes) (r r' : PadRand) (b b' : Bytes)
    (h : c.encrypt C d r = .ok b) (h' : c.encrypt C d' r' = .ok b')
    (n : Nat) (hn : 16 * n ≤ d.length) (hn' : 16 * n ≤ d'.length) :
    (b.drop 3).take (16 * n) = (b'.drop 3).take (16 * n) ↔ d.take (16 * n) = d'.take (16 * n) := by
  have hkey : c.key.length = 16 := by
    have ho := C30_encrypt_outcome C c d r
    by_cases hd : d.length ≤ 65535
    · by_cases hk : c.key.length = 16
      · exact hk
      · rw [ho.2.1 hd (.inr (.inr hk))] at h; cases h
    · rw [ho.1 (by omega)] at h; cases h
  obtain ⟨_, _, _, pad, _, _, h1⟩ := C30_encrypt_shape C c d r b h
  obtain ⟨_, _, _, pad', _, _, h1'⟩ := C30_encrypt_shape C c d' r' b' h'
  rw [cbc_prefix C hkey hkey h1 h1' n (by simp; omega) (by simp; omega)]
  have e : ∀ x y z : Bytes, 16 * n ≤ x.length → (x ++ y ++ z).take (16 * n) = x.take (16 * n) := by
    intro x y z hx
    rw [List.append_assoc, List.take_append_of_le_length hx]
  rw [e _ _ _ hn, e _ _ _ hn']

/-- C71. Hence a message is sent as the same bytes every time, up to its last block. -/
theorem C71_repeated (C : BlockCipher) (c : CipherContext) (d : Bytes) (r r' : PadRand) (b b' : Bytes)
    (h : c.encrypt C d r = .ok b) (h' : c.encrypt C d r' = .ok b') :
    b.take (3 + 16 * (d.length / 16)) = b'.take (3 + 16 * (d.length / 16)) := by
  obtain ⟨l1, l2, ⟨k, l3, l4⟩, _⟩ := C30_encrypt_shape C c d r b h
  obtain ⟨l1', l2', ⟨k', l3', l4'⟩, _⟩ := C30_encrypt_shape C c d r' b' h'
  have hp := (C71_prefix C c d d r r' b b' h h' (d.length / 16) (by omega) (by omega)).2 rfl
  have hh : b.take 3 = b'.take 3 := by
    have hk : k = k' := by
      apply UInt8.toNat_inj.1; omega
    match b, b', l1, l1' with
    | x0 :: x1 :: x2 :: t, y0 :: y1 :: y2 :: t', _, _ =>
      simp only [leAt, List.drop_zero, List.take_succ_cons, List.take_zero, List.foldr] at l2 l2'
      simp at l3 l3'
      have hx := x0.toNat_lt; have hy := y0.toNat_lt
      have q0 : x0 = y0 := UInt8.toNat_inj.1 (by omega)
      have q1 : x1 = y1 := UInt8.toNat_inj.1 (by omega)
      simp [q0, q1, l3, l3', hk]
    | [], _, l, _ => simp at l; omega
    | [_], _, l, _ => simp at l; omega
    | [_, _], _, l, _ => simp at l; omega
    | _ :: _ :: _ :: _, [], _, l => simp at l; omega
    | _ :: _ :: _ :: _, [_], _, l => simp at l; omega
    | _ :: _ :: _ :: _, [_, _], _, l => simp at l; omega
  rw [List.take_add, List.take_add, hh, hp]

/-! ### Concrete cases -/

-- C69: two requests, two different wires
example : ∃ w w', (exConn.send idCipher (.readArchiveRequest ⟨"000000".toList, 1, 2, 3⟩) exRand).2 = .ok w ∧
    (exConn.send idCipher (.readArchiveRequest ⟨"000000".toList, 1, 2, 4⟩) exRand).2 = .ok w' ∧ w ≠ w' :=
  ⟨_, _, rfl, rfl, by decide +kernel⟩
example : IsRequest exWrite ∧ ValidTime exWrite ∧ PadOk exRand.pw ∧ Reachable idCipher exConn.args exConn ∧
    (∃ w, (exConn.send idCipher exWrite exRand).2 = .ok w) :=
  ⟨rfl, by show DateTime.Valid _; decide, by decide +kernel, ⟨exConn, [], by decide, rfl⟩, _, rfl⟩
/-- The same 20 bytes, padded with `x`. -/
def exTwice (x : UInt8) : Res Bytes :=
  (⟨1, List.replicate 16 7⟩ : CipherContext).encrypt idCipher (List.replicate 20 5) (fun _ => x)
-- C71: two draws of padding: header and first block agree, the second block does not
example : (exTwice 1).map (List.take 19) = (exTwice 2).map (List.take 19) ∧ (exTwice 1).map List.length = .ok 35 ∧
    exTwice 1 ≠ exTwice 2 := by decide +kernel

end Elgas
