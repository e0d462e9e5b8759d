import Verif.Lemmas.FrameRoundtrip
/-! Properties C05 and C09 - C14: the frame codec (frames.py). -/
namespace Elgas
open Spec

/-! ### C13: decoding fails only with ValueError -/

/-- C13. `Request/Response/EncryptedResponse.from_bytes` on any bytes: a frame or `ValueError`. -/
theorem C13_from_bytes_total (ty : UInt8) (b : Bytes) :
    (∃ f, frameFromBytes ty b = .ok f) ∨ frameFromBytes ty b = .error .value := by
  rcases frameFromBytes_cases ty b with ⟨f, hf, _⟩ | ⟨h, _⟩
  · exact .inl ⟨f, hf⟩
  · exact .inr h

/-- C13. `ResponseFactory.from_bytes` on any bytes: a frame or `ValueError`. -/
theorem C13_factory_total (b : Bytes) :
    (∃ e f, responseFactory b = .ok (e, f)) ∨ responseFactory b = .error .value := by
  unfold responseFactory
  split
  · rcases C13_from_bytes_total responseType b with ⟨f, hf⟩ | h
    · exact .inl ⟨false, f, by simp [hf]⟩
    · exact .inr (by simp [h])
  · split
    · rcases C13_from_bytes_total encryptedResponseType b with ⟨f, hf⟩ | h
      · exact .inl ⟨true, f, by simp [hf]⟩
      · exact .inr (by simp [h])
    · exact .inr rfl

/-! ### C05: single-byte corruption -/

theorem xorAll_set (d : Bytes) (i : Nat) (v : UInt8) (h : i < d.length) :
    xorAll (d.set i v) = xorAll d → d[i] = v := by
  induction d generalizing i with
  | nil => simp at h
  | cons x d ih =>
    cases i with
    | zero =>
      simp only [List.set_cons_zero, xorAll_cons, List.getElem_cons_zero, u8_xor_right_cancel]
      exact fun h => h.symm
    | succ i =>
      simp only [List.set_cons_succ, xorAll_cons, List.getElem_cons_succ, u8_xor_left_cancel]
      exact ih i (by simpa using h)

/-- Two strings with valid redundancy bytes cannot differ in exactly one byte. -/
theorem not_both_accepted {ty ty' : UInt8} {b : Bytes} {f f' : Frame} {i : Nat} {v : UInt8}
    (hi : i < b.length) (hv : v ≠ b[i]) (h : Accepted ty b f) (h' : Accepted ty' (b.set i v) f') :
    False := by
  obtain ⟨body, l, c, r, hb, hl, hc, hr⟩ := accepted_decomp h
  obtain ⟨body', l', c', r', hb', hl', hc', hr'⟩ := accepted_decomp h'
  subst hb
  have hlen := congrArg List.length hb'
  simp only [List.length_set, List.length_cons, List.length_append, List.length_nil] at hlen
  have hbl : body.length = body'.length := by omega
  cases i with
  | zero =>
    simp only [List.set_cons_zero, List.cons.injEq] at hb'
    exact hv hb'.1
  | succ i =>
    simp only [List.set_cons_succ, List.cons.injEq, true_and] at hb'
    by_cases hib : i < body.length
    · rw [List.set_append_left (h := hib)] at hb'
      obtain ⟨e1, e2⟩ := List.append_inj hb' (by simpa using hbl)
      simp only [List.cons.injEq] at e2
      have hx : xorAll (body.set i v) = xorAll body := by rw [e1, ← hl, ← hl', e2.1]
      have := xorAll_set body i v hib hx
      apply hv
      simp [List.getElem_append_left hib, this]
    · rw [List.set_append_right (h := by omega)] at hb'
      obtain ⟨e1, e2⟩ := List.append_inj hb' hbl
      subst e1
      have hcc : c = c' := UInt8.toNat_inj.1 (by rw [hc, hc'])
      rw [← hcc, hl', ← hl, hr', ← hr] at e2
      apply hv
      have hj : i - body.length < [l, c, r, 0x0D].length := by
        simp only [List.length_cons, List.length_append, List.length_nil] at hi ⊢; omega
      have e3 : ([l, c, r, 0x0D].set (i - body.length) v)[i - body.length]'(by simpa using hj)
          = [l, c, r, 0x0D][i - body.length] := by
        simp only [e2]
      rw [List.getElem_set_self] at e3
      rw [e3]
      simp only [List.getElem_cons_succ]
      rw [List.getElem_append_right (by omega)]

/-- C05. Replacing any one byte of an accepted frame by any different value gives a byte string that
the same `from_bytes` rejects with `ValueError`. -/
theorem C05_single_byte_corruption (ty : UInt8) (b : Bytes) (f : Frame)
    (h : frameFromBytes ty b = .ok f) (i : Nat) (hi : i < b.length) (v : UInt8) (hv : v ≠ b[i]) :
    frameFromBytes ty (b.set i v) = .error .value := by
  rcases frameFromBytes_cases ty (b.set i v) with ⟨g, hg, ha⟩ | ⟨hg, _⟩
  · exact (not_both_accepted hi hv (frameFromBytes_accepted h) ha).elim
  · exact hg

theorem factory_accepted {b : Bytes} {e : Bool} {f : Frame} (h : responseFactory b = .ok (e, f)) :
    Accepted (if e then encryptedResponseType else responseType) b f := by
  unfold responseFactory at h
  split at h
  · rw [bind_eq_ok] at h
    obtain ⟨g, hg, h2⟩ := h
    simp at h2
    obtain ⟨rfl, rfl⟩ := h2
    exact frameFromBytes_accepted hg
  · split at h
    · rw [bind_eq_ok] at h
      obtain ⟨g, hg, h2⟩ := h
      simp at h2
      obtain ⟨rfl, rfl⟩ := h2
      exact frameFromBytes_accepted hg
    · simp at h

/-- C05 at `ResponseFactory.from_bytes` (what the connection calls): also a corruption of the frame
type, which would select another class, is rejected. -/
theorem C05_single_byte_corruption_factory (b : Bytes) (x : Bool × Frame)
    (h : responseFactory b = .ok x) (i : Nat) (hi : i < b.length) (v : UInt8) (hv : v ≠ b[i]) :
    responseFactory (b.set i v) = .error .value := by
  rcases C13_factory_total (b.set i v) with ⟨e, g, hg⟩ | hg
  · exact (not_both_accepted hi hv (factory_accepted h) (factory_accepted hg)).elim
  · exact hg

-- a well-formed answer to "read time" and the same with one bit of its address changed
example : responseFactory [0x02, 0xFE, 0x86, 0x6C, 0x0F, 0x00, 0x12, 0x34, 0x01, 0xFF, 0xFE, 0x0A, 0x37, 0x4D,
      0x1C, 0x0D] = .ok (false, ⟨.readDeviceTime, 0x3412, 1, 0xFEFF, 0x0A, []⟩) ∧
    responseFactory [0x02, 0xFE, 0x86, 0x6C, 0x0F, 0x00, 0x12, 0x35, 0x01, 0xFF, 0xFE, 0x0A, 0x37, 0x4D,
      0x1C, 0x0D] = .error .value := by
  have h : responseFactory [0x02, 0xFE, 0x86, 0x6C, 0x0F, 0x00, 0x12, 0x34, 0x01, 0xFF, 0xFE, 0x0A, 0x37,
      0x4D, 0x1C, 0x0D] = .ok (false, ⟨.readDeviceTime, 0x3412, 1, 0xFEFF, 0x0A, []⟩) := by decide +kernel
  exact ⟨h, C05_single_byte_corruption_factory _ _ h 7 (by decide) 0x35 (by decide)⟩

/-! ### C10: layout -/

/-- C10. The bytes of a request frame; two-byte addresses big endian. -/
theorem C10_request_layout (ty : UInt8) (f : Frame) (b : Bytes) (h : requestToBytes ty f = .ok b) :
    b = frame ty (UInt8.ofNat f.service.value)
      (be2 f.da1.toNat ++ [UInt8.ofNat f.da2.toNat] ++ be2 f.sa1.toNat ++ [UInt8.ofNat f.sa2.toNat])
      f.data := by
  by_cases hr : f.InRange
  · rw [requestToBytes_ok ty f hr] at h
    injection h with h
    exact h.symm
  · rcases requestToBytes_error ty f hr with h' | h' <;> rw [h'] at h <;> simp at h

/-- C10. The bytes of a response frame; two-byte addresses little endian. -/
theorem C10_response_layout (ty : UInt8) (f : Frame) (b : Bytes) (h : responseToBytes ty f = .ok b) :
    b = frame ty (UInt8.ofNat f.service.value)
      (le2 f.da1.toNat ++ [UInt8.ofNat f.da2.toNat] ++ le2 f.sa1.toNat ++ [UInt8.ofNat f.sa2.toNat])
      f.data := by
  by_cases hr : f.InRange
  · rw [responseToBytes_ok ty f hr] at h
    injection h with h
    exact h.symm
  · rcases responseToBytes_error ty f hr with h' | h' <;> rw [h'] at h <;> simp at h

/-- The number in the two length bytes (offsets 4 and 5) of a frame. -/
def lengthField (b : Bytes) : Nat := (b.getD 4 0).toNat + 256 * (b.getD 5 0).toNat

theorem frame_lengthField (ty svc : UInt8) (a d : Bytes) (h : (frame ty svc a d).length ≤ 65536) :
    lengthField (frame ty svc a d) = (frame ty svc a d).length - 1 := by
  have hlen : (frame ty svc a d).length = a.length + d.length + 10 := by
    simp [frame, frameBody]; omega
  rw [hlen] at h ⊢
  simp only [lengthField, frame, frameBody, List.cons_append, List.nil_append, List.getD_cons_succ,
    List.getD_cons_zero, List.append_assoc]
  rw [u8_ofNat_toNat_lt (by omega), u8_ofNat_toNat_lt (by omega)]
  omega

/-- C10. In every frame `to_bytes` returns (requests and responses), the length field equals the
number of bytes after STX. -/
theorem C10_length_field (ty : UInt8) (f : Frame) (b : Bytes)
    (h : requestToBytes ty f = .ok b ∨ responseToBytes ty f = .ok b) :
    lengthField b = b.length - 1 ∧ b.length = f.data.length + 16 := by
  have key : ∀ a : Bytes, a.length = 6 → f.data.length ≤ 65520 →
      b = frame ty (UInt8.ofNat f.service.value) a f.data →
      lengthField b = b.length - 1 ∧ b.length = f.data.length + 16 := by
    intro a ha hd hb
    have hl : b.length = f.data.length + 16 := by rw [hb]; simp [frame, frameBody]; omega
    refine ⟨?_, hl⟩
    rw [hb]; apply frame_lengthField; rw [← hb, hl]; omega
  by_cases hr : f.InRange
  · rcases h with h | h
    · exact key _ (by simp [be2]) hr.data (C10_request_layout ty f b h)
    · exact key _ (by simp [le2]) hr.data (C10_response_layout ty f b h)
  · rcases h with h | h
    · rcases requestToBytes_error ty f hr with h' | h' <;> rw [h'] at h <;> simp at h
    · rcases responseToBytes_error ty f hr with h' | h' <;> rw [h'] at h <;> simp at h

example : requestToBytes requestType ⟨.readDeviceTime, 0x3412, 1, 0x0102, 7, [0xAA, 0xBB]⟩ =
      .ok [0x02, 0xFE, 0x84, 0x6C, 0x11, 0x00, 0x34, 0x12, 0x01, 0x01, 0x02, 0x07, 0xAA, 0xBB,
        0x35, 0xB5, 0x14, 0x0D] ∧
    responseToBytes responseType ⟨.readDeviceTime, 0x3412, 1, 0x0102, 7, [0xAA, 0xBB]⟩ =
      .ok [0x02, 0xFE, 0x86, 0x6C, 0x11, 0x00, 0x12, 0x34, 0x01, 0x02, 0x01, 0x07, 0xAA, 0xBB,
        0x37, 0xB7, 0xB6, 0x0D] := by decide +kernel

/-! ### C14: range of the fields -/

/-- C14. `Request.to_bytes` succeeds iff all fields are in range; otherwise it raises
`OverflowError` or `ValueError`. -/
theorem C14_request_range (ty : UInt8) (f : Frame) :
    ((∃ b, requestToBytes ty f = .ok b) ↔
      (0 ≤ f.da1 ∧ f.da1 ≤ 65535) ∧ (0 ≤ f.da2 ∧ f.da2 ≤ 255) ∧ (0 ≤ f.sa1 ∧ f.sa1 ≤ 65535) ∧
      (0 ≤ f.sa2 ∧ f.sa2 ≤ 255) ∧ f.data.length ≤ 65520) ∧
    (∀ e, requestToBytes ty f = .error e → e = .overflow ∨ e = .value) := by
  constructor
  · constructor
    · rintro ⟨b, hb⟩
      apply Classical.byContradiction
      intro hn
      rcases requestToBytes_error ty f (fun ⟨a, b, c, d, e⟩ => hn ⟨a, b, c, d, e⟩) with h | h <;>
        rw [h] at hb <;> simp at hb
    · rintro ⟨a, b, c, d, e⟩
      exact ⟨_, requestToBytes_ok ty f ⟨a, b, c, d, e⟩⟩
  · intro e he
    by_cases hr : f.InRange
    · rw [requestToBytes_ok ty f hr] at he; simp at he
    · rcases requestToBytes_error ty f hr with h | h <;> rw [h] at he <;> simp at he <;> simp [← he]

/-- C14. The same for `Response.to_bytes`. -/
theorem C14_response_range (ty : UInt8) (f : Frame) :
    ((∃ b, responseToBytes ty f = .ok b) ↔
      (0 ≤ f.da1 ∧ f.da1 ≤ 65535) ∧ (0 ≤ f.da2 ∧ f.da2 ≤ 255) ∧ (0 ≤ f.sa1 ∧ f.sa1 ≤ 65535) ∧
      (0 ≤ f.sa2 ∧ f.sa2 ≤ 255) ∧ f.data.length ≤ 65520) ∧
    (∀ e, responseToBytes ty f = .error e → e = .overflow ∨ e = .value) := by
  constructor
  · constructor
    · rintro ⟨b, hb⟩
      apply Classical.byContradiction
      intro hn
      rcases responseToBytes_error ty f (fun ⟨a, b, c, d, e⟩ => hn ⟨a, b, c, d, e⟩) with h | h <;>
        rw [h] at hb <;> simp at hb
    · rintro ⟨a, b, c, d, e⟩
      exact ⟨_, responseToBytes_ok ty f ⟨a, b, c, d, e⟩⟩
  · intro e he
    by_cases hr : f.InRange
    · rw [responseToBytes_ok ty f hr] at he; simp at he
    · rcases responseToBytes_error ty f hr with h | h <;> rw [h] at he <;> simp at he <;> simp [← he]

/-- The exception of the first field out of range, in the order the fields are written: the length, then
the addresses; `int.to_bytes` raises `OverflowError`, `bytearray.append` `ValueError`. -/
def firstOutOfRange (f : Frame) : Option PyErr :=
  if 65520 < f.data.length then some .overflow
  else if f.da1 < 0 ∨ 65535 < f.da1 then some .overflow
  else if f.da2 < 0 ∨ 255 < f.da2 then some .value
  else if f.sa1 < 0 ∨ 65535 < f.sa1 then some .overflow
  else if f.sa2 < 0 ∨ 255 < f.sa2 then some .value
  else none

/-- C14. Which exception `Request.to_bytes` raises: the one of the first field out of range. -/
theorem C14_request_error (ty : UInt8) (f : Frame) (e : PyErr) :
    requestToBytes ty f = .error e ↔ firstOutOfRange f = some e := by
  have key : ∀ x, firstOutOfRange f = some x → requestToBytes ty f = .error x := by
    intro x hx
    have hs := service_value_lt f.service
    have hS := @frame_length_small f
    have hB := @frame_length_big f
    unfold requestToBytes
    rw [toByte_ok (by omega) (by omega)]
    generalize (f.length : Int) = L at *
    simp only [bind_ok]
    unfold firstOutOfRange at hx
    split at hx
    · next h1 => cases hx; rw [toBytesLE2_err (hB (by omega))]; simp only [bind_error]
    · next h1 =>
      rw [toBytesLE_ok (hS (by omega)).1 (hS (by omega)).2]
      split at hx
      · cases hx; rw [toBytesBE2_err (by omega)]; simp only [bind_ok, bind_error]
      · rw [toBytesBE_ok (by omega) (by omega)]
        split at hx
        · cases hx; rw [toByte_err (by omega)]; simp only [bind_ok, bind_error]
        · rw [toByte_ok (by omega) (by omega)]
          split at hx
          · cases hx; rw [toBytesBE2_err (by omega)]; simp only [bind_ok, bind_error]
          · rw [toBytesBE_ok (by omega) (by omega)]
            split at hx
            · cases hx; rw [toByte_err (by omega)]; simp only [bind_ok, bind_error]
            · cases hx
  refine ⟨fun h => ?_, key e⟩
  cases hf : firstOutOfRange f with
  | some x => rw [key x hf] at h; cases h; rfl
  | none =>
    have hr : f.InRange := by
      unfold firstOutOfRange at hf
      repeat' split at hf
      all_goals first | (exact ⟨by omega, by omega, by omega, by omega, by omega⟩) | cases hf
    rw [requestToBytes_ok ty f hr] at h; cases h

/-- C14. Which exception `Response.to_bytes` raises. -/
theorem C14_response_error (ty : UInt8) (f : Frame) (e : PyErr) :
    responseToBytes ty f = .error e ↔ firstOutOfRange f = some e := by
  have key : ∀ x, firstOutOfRange f = some x → responseToBytes ty f = .error x := by
    intro x hx
    have hs := service_value_lt f.service
    have hS := @frame_length_small f
    have hB := @frame_length_big f
    unfold responseToBytes
    rw [toByte_ok (by omega) (by omega)]
    generalize (f.length : Int) = L at *
    simp only [bind_ok]
    unfold firstOutOfRange at hx
    split at hx
    · next h1 => cases hx; rw [toBytesLE2_err (hB (by omega))]; simp only [bind_error]
    · next h1 =>
      rw [toBytesLE_ok (hS (by omega)).1 (hS (by omega)).2]
      split at hx
      · cases hx; rw [toBytesLE2_err (by omega)]; simp only [bind_ok, bind_error]
      · rw [toBytesLE_ok (x := f.da1) (by omega) (by omega)]
        split at hx
        · cases hx; rw [toByte_err (by omega)]; simp only [bind_ok, bind_error]
        · rw [toByte_ok (by omega) (by omega)]
          split at hx
          · cases hx; rw [toBytesLE2_err (by omega)]; simp only [bind_ok, bind_error]
          · rw [toBytesLE_ok (x := f.sa1) (by omega) (by omega)]
            split at hx
            · cases hx; rw [toByte_err (by omega)]; simp only [bind_ok, bind_error]
            · cases hx
  refine ⟨fun h => ?_, key e⟩
  cases hf : firstOutOfRange f with
  | some x => rw [key x hf] at h; cases h; rfl
  | none =>
    have hr : f.InRange := by
      unfold firstOutOfRange at hf
      repeat' split at hf
      all_goals first | (exact ⟨by omega, by omega, by omega, by omega, by omega⟩) | cases hf
    rw [responseToBytes_ok ty f hr] at h; cases h

example : requestToBytes requestType ⟨.readDeviceTime, 70000, 256, 0, 0, []⟩ = .error .overflow :=
  (C14_request_error _ _ _).2 (by decide)
example : responseToBytes responseType ⟨.readDeviceTime, 7, -1, 70000, 0, []⟩ = .error .value :=
  (C14_response_error _ _ _).2 (by decide)

/-! ### C09: response round trip -/

/-- C09. `Response.from_bytes(r.to_bytes())` returns an equal object whenever `to_bytes` succeeds
(by C14: for all in-range fields and up to 65520 data bytes).  `ty` is 0x86 for `Response` and 0x87
for `EncryptedResponse`. -/
theorem C09_response_roundtrip (ty : UInt8) (f : Frame) (b : Bytes)
    (h : responseToBytes ty f = .ok b) : frameFromBytes ty b = .ok f := by
  by_cases hr : f.InRange
  · rw [responseToBytes_ok ty f hr] at h
    injection h with h
    rw [← h]
    exact frameFromBytes_iff.2 (accepted_response ty f hr)
  · rcases responseToBytes_error ty f hr with h' | h' <;> rw [h'] at h <;> simp at h

theorem startsWith_of_accepted {ty ty' : UInt8} {b : Bytes} {f : Frame} (h : Accepted ty b f) :
    startsWith b [0x02, 0xFE, ty'] = (ty' == ty) := by
  obtain ⟨t, ht⟩ := startsWith_iff.1 h.prefix_ok
  rw [← ht]
  simp [startsWith, List.isPrefixOf]

theorem factory_of_accepted {b : Bytes} {f : Frame} (e : Bool)
    (h : Accepted (if e then encryptedResponseType else responseType) b f) :
    responseFactory b = .ok (e, f) := by
  unfold responseFactory
  cases e
  · change Accepted responseType b f at h
    have h1 := startsWith_of_accepted (ty' := 0x86) h
    simp only [h1]
    rw [if_pos (by decide), frameFromBytes_iff.2 h]; rfl
  · change Accepted encryptedResponseType b f at h
    have h1 := startsWith_of_accepted (ty' := 0x86) h
    have h2 := startsWith_of_accepted (ty' := 0x87) h
    simp only [h1, h2]
    rw [if_neg (by decide), if_pos (by decide), frameFromBytes_iff.2 h]; rfl

/-- C09. `ResponseFactory.from_bytes` returns an equal object of the same class. -/
theorem C09_factory_roundtrip (f : Frame) (b : Bytes) :
    (responseToBytes responseType f = .ok b → responseFactory b = .ok (false, f)) ∧
    (responseToBytes encryptedResponseType f = .ok b → responseFactory b = .ok (true, f)) := by
  constructor
  · intro h
    exact factory_of_accepted false (frameFromBytes_iff.1 (C09_response_roundtrip _ f b h))
  · intro h
    exact factory_of_accepted true (frameFromBytes_iff.1 (C09_response_roundtrip _ f b h))

/-! ### C11: request round trip -/

/-- C11. `Request.from_bytes(q.to_bytes())` returns the request with both two-byte addresses
byte-swapped (`to_bytes` writes them big endian, `from_bytes` reads them little endian). -/
theorem C11_request_from_bytes (ty : UInt8) (f : Frame) (b : Bytes)
    (h : requestToBytes ty f = .ok b) :
    frameFromBytes ty b = .ok { f with da1 := (swapBytes f.da1.toNat : Nat),
                                       sa1 := (swapBytes f.sa1.toNat : Nat) } := by
  by_cases hr : f.InRange
  · rw [requestToBytes_ok ty f hr] at h
    injection h with h
    rw [← h]
    exact frameFromBytes_iff.2 (accepted_request ty f hr)
  · rcases requestToBytes_error ty f hr with h' | h' <;> rw [h'] at h <;> simp at h

/-- C11. The full claim `Request.from_bytes(q.to_bytes()) == q` holds exactly for the requests whose
two-byte addresses have equal high and low bytes.  (For all requests the claim is false.) -/
theorem C11_request_roundtrip_iff (ty : UInt8) (f : Frame) (b : Bytes)
    (h : requestToBytes ty f = .ok b) :
    frameFromBytes ty b = .ok f ↔ f.da1 / 256 = f.da1 % 256 ∧ f.sa1 / 256 = f.sa1 % 256 := by
  rw [C11_request_from_bytes ty f b h]
  have hr := (C14_request_range ty f).1.1 ⟨b, h⟩
  obtain ⟨s, da1, da2, sa1, sa2, d⟩ := f
  simp only [Except.ok.injEq, Frame.mk.injEq, true_and, and_true, swapBytes] at hr ⊢
  omega

/-- C11. A request to address 1 does not round-trip. -/
theorem C11_request_roundtrip_fails :
    ∃ f b, requestToBytes requestType f = .ok b ∧ frameFromBytes requestType b ≠ .ok f := by
  let f : Frame := ⟨.readDeviceTime, 1, 0, 0, 0, []⟩
  have hr : f.InRange := by decide
  refine ⟨f, _, requestToBytes_ok _ f hr, ?_⟩
  rw [Ne, C11_request_roundtrip_iff _ f _ (requestToBytes_ok _ f hr)]
  decide

/-! ### C12: accepted frames are well-formed -/

/-- C12. Every accepted byte string of at least 16 bytes is the `to_bytes()` of the returned object.
(Without the length condition the claim is false: `C12_short_frame_accepted`.) -/
theorem C12_accepted_is_serialised (ty : UInt8) (b : Bytes) (f : Frame)
    (h : frameFromBytes ty b = .ok f) (hlen : 16 ≤ b.length) : responseToBytes ty f = .ok b :=
  (accepted_unique' (frameFromBytes_accepted h) hlen).2

/-- C12. ... and of no other object. -/
theorem C12_unique (ty : UInt8) (b : Bytes) (f g : Frame)
    (h : frameFromBytes ty b = .ok f) (hg : responseToBytes ty g = .ok b) : g = f := by
  have := C09_response_roundtrip ty g b hg
  rw [h] at this
  exact (Except.ok.inj this).symm

example : responseToBytes responseType ⟨.readDeviceTime, 0x3412, 1, 0xFEFF, 0x0A, []⟩ = .ok [0x02, 0xFE, 0x86,
    0x6C, 0x0F, 0x00, 0x12, 0x34, 0x01, 0xFF, 0xFE, 0x0A, 0x37, 0x4D, 0x1C, 0x0D] :=
  C12_accepted_is_serialised _ _ _ (by decide +kernel) (by decide)

/-- C12. 16 bytes is the exact border: no shorter accepted string is the `to_bytes()` of anything. -/
theorem C12_iff (ty : UInt8) (b : Bytes) (f : Frame) (h : frameFromBytes ty b = .ok f) :
    (∃ g, responseToBytes ty g = .ok b) ↔ 16 ≤ b.length := by
  constructor
  · rintro ⟨g, hg⟩
    have := (C10_length_field ty g b (.inr hg)).2
    omega
  · intro hlen; exact ⟨f, C12_accepted_is_serialised ty b f h hlen⟩

/-- C12. Accepted byte strings have at least 9 bytes, for each of the four frame types. -/
theorem C12_min_length (ty : UInt8)
    (hty : ty = requestType ∨ ty = encryptedRequestType ∨ ty = responseType ∨
      ty = encryptedResponseType) (b : Bytes) (f : Frame)
    (h : frameFromBytes ty b = .ok f) : 9 ≤ b.length := by
  have ha := frameFromBytes_accepted h
  have h5 := ha.len_ge
  have hsv := service_ofValue_ok ha.service_ok
  have hlf := ha.length_ok
  obtain ⟨body, l, c, r, hb, hl, hc, hr⟩ := accepted_decomp ha
  obtain ⟨t, ht⟩ := startsWith_iff.1 ha.prefix_ok
  apply Classical.byContradiction
  intro hlt
  have hbl : b.length = body.length + 5 := by rw [hb]; simp
  have hbd : body.length = 0 ∨ body.length = 1 ∨ body.length = 2 ∨ body.length = 3 := by omega
  rcases hbd with h0 | h0 | h0 | h0
  · have : body = [] := List.length_eq_zero_iff.1 h0
    subst this
    rw [hb] at hlf
    simp [fromLE] at hlf
  · match body, h0 with
    | [x], _ =>
      rw [hb] at hlf
      have hr0 := r.toNat_lt
      simp [fromLE] at hlf
      try omega
  · match body, h0 with
    | [x, y], _ =>
      rw [hb] at hlf ht hsv
      simp only [List.cons_append, List.nil_append, List.cons.injEq] at ht
      obtain ⟨_, rfl, rfl, _⟩ := ht
      simp [fromLE] at hlf hsv
      have : c.toNat = 6 := by have := c.toNat_lt; omega
      rw [this] at hc
      rcases hty with rfl | rfl | rfl | rfl <;> simp [sumMod, requestType, encryptedRequestType,
        responseType, encryptedResponseType] at hc
  · match body, h0 with
    | [x, y, z], _ =>
      rw [hb] at hlf ht hsv
      simp only [List.cons_append, List.nil_append, List.cons.injEq] at ht
      obtain ⟨_, rfl, rfl, _⟩ := ht
      simp [fromLE] at hlf hsv
      have h7 : l.toNat = 7 ∧ c.toNat = 0 := by have := l.toNat_lt; omega
      have hl7 : l = 7 := UInt8.toNat_inj.1 h7.1
      rw [hl7] at hl
      rw [h7.2] at hc
      have key : ∀ s : ServiceNumber, ∀ ty ∈ [requestType, encryptedRequestType, responseType,
          encryptedResponseType], ¬ (7 = xorAll [0xFE, ty, UInt8.ofNat s.value] ∧
            0 = sumMod [0xFE, ty, UInt8.ofNat s.value]) := by
        intro s; cases s <;> decide
      have hz : z = UInt8.ofNat f.service.value := by rw [← hsv]; simp
      refine key f.service ty ?_ ⟨by rw [← hz]; exact hl, by rw [← hz]; exact hc⟩
      rcases hty with h | h | h | h <;> simp [h]

/-- C12. The claim for all accepted byte strings is false: this 9-byte string is accepted as a
response to a read-parameters request and is not the serialisation of any response. -/
theorem C12_short_frame_accepted :
    ∃ b f, b.length = 9 ∧ frameFromBytes responseType b = .ok f ∧
      ∀ g, responseToBytes responseType g ≠ .ok b := by
  have h : frameFromBytes responseType [0x02, 0xFE, 0x86, 0x70, 0x08, 0x00, 0xFC, 0x05, 0x0D] =
      .ok ⟨.readScadaParameters, 252 + 256 * 5, 13, 0, 0, []⟩ := by decide
  refine ⟨_, _, rfl, h, fun g hg => ?_⟩
  have := (C12_iff responseType _ _ h).1 ⟨g, hg⟩
  simp at this

/-- C12. Every length from 9 to 15 occurs. -/
theorem C12_short_lengths :
    ∀ n, 9 ≤ n → n ≤ 15 → ∃ b f, b.length = n ∧ frameFromBytes responseType b = .ok f ∧
      ∀ g, responseToBytes responseType g ≠ .ok b := by
  have wit : ∀ b f n, b.length = n → n < 16 → frameFromBytes responseType b = .ok f →
      ∃ b f, b.length = n ∧ frameFromBytes responseType b = .ok f ∧
        ∀ g, responseToBytes responseType g ≠ .ok b := by
    intro b f n hb hn hf
    refine ⟨b, f, hb, hf, fun g hg => ?_⟩
    have := (C12_iff responseType b f hf).1 ⟨g, hg⟩
    omega
  intro n h1 h2
  have hn : n = 9 ∨ n = 10 ∨ n = 11 ∨ n = 12 ∨ n = 13 ∨ n = 14 ∨ n = 15 := by omega
  rcases hn with rfl | rfl | rfl | rfl | rfl | rfl | rfl
  · exact wit [0x02, 0xFE, 0x86, 0x70, 0x08, 0x00, 0xFC, 0x05, 0x0D] ⟨.readScadaParameters, 1532, 13, 0, 0, []⟩ _ rfl (by decide) (by decide +kernel)
  · exact wit [0x02, 0xFE, 0x86, 0x70, 0x09, 0x00, 0x01, 0xFD, 0x08, 0x0D] ⟨.readScadaParameters, 64769, 8, 13, 0, []⟩ _ rfl (by decide) (by decide +kernel)
  · exact wit [0x02, 0xFE, 0x86, 0x70, 0x0A, 0x00, 0x00, 0x02, 0xFE, 0x1C, 0x0D] ⟨.readScadaParameters, 512, 254, 3356, 0, []⟩ _ rfl (by decide) (by decide +kernel)
  · exact wit [0x02, 0xFE, 0x86, 0x70, 0x0B, 0x00, 0x00, 0x00, 0x03, 0xFF, 0x30, 0x0D] ⟨.readScadaParameters, 0, 3, 12543, 13, []⟩ _ rfl (by decide) (by decide +kernel)
  · exact wit [0x02, 0xFE, 0x86, 0x70, 0x0C, 0x00, 0x00, 0x00, 0x00, 0x04, 0x00, 0x10, 0x0D] ⟨.readScadaParameters, 0, 0, 4, 16, []⟩ _ rfl (by decide) (by decide +kernel)
  · exact wit [0x02, 0xFE, 0x86, 0x70, 0x0D, 0x00, 0x00, 0x00, 0x00, 0x00, 0x05, 0x01, 0x00, 0x0D] ⟨.readScadaParameters, 0, 0, 1280, 1, []⟩ _ rfl (by decide) (by decide +kernel)
  · exact wit [0x02, 0xFE, 0x86, 0x70, 0x0E, 0x00, 0x00, 0x00, 0x00, 0x00, 0x00, 0x06, 0x02, 0xC0, 0x0D] ⟨.readScadaParameters, 0, 0, 0, 6, []⟩ _ rfl (by decide) (by decide +kernel)
/-! ### The hypotheses are met by concrete frames -/

/-- A response with addresses that use both bytes and with data that contains control bytes. -/
def exFrame : Frame := ⟨.readArchives, 0x1234, 7, 0xFFFF, 255, [0x0D, 0x1B, 0x02, 0x00]⟩

example : ∃ b, responseToBytes responseType exFrame = .ok b ∧ 16 ≤ b.length ∧
    frameFromBytes responseType b = .ok exFrame := 
  ⟨_, responseToBytes_ok _ _ (by decide), by decide +kernel, by decide +kernel⟩
example : ∃ b, requestToBytes requestType exFrame = .ok b ∧
    frameFromBytes requestType b = .ok { exFrame with da1 := 0x3412 } := 
  ⟨_, requestToBytes_ok _ _ (by decide), by decide +kernel⟩

end Elgas
