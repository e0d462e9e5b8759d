import Verif.Lemmas.Cbc
import Verif.Props.Crc
import Verif.Props.Requests
import Verif.Props.Responses
import Verif.Lemmas.FrameRoundtrip
/-!
C29, C30, C31: the encryption layer.

`C : BlockCipher` is any 16-byte block cipher with inverse; `r` are the random padding draws.
-/
namespace Elgas
open Spec

/-! ### Plumbing -/

theorem beCrc (d : Bytes) : toBytesBE 2 (calculateCrc d) = .ok (be2 (calculateCrc d)) := by
  have h := calculateCrc_lt d
  generalize calculateCrc d = x at h
  rw [toBytesBE_ok (by omega) (by omega), Int.toNat_natCast, leBytes_two_lt h]
  rfl

theorem dataPadding_length (d : Bytes) (r : PadRand) :
    d.length + (dataPadding d r).length + 2 = paddedLength d.length := by
  unfold dataPadding paddedLength
  dsimp only
  split
  · simp; omega
  · simp; omega

/-- The clear text of a message: the data, padding and the CRC (high byte first) of the header, the
data and the padding. -/
def clearText (len : Nat) (keyId : UInt8) (body : Bytes) : Bytes :=
  body ++ be2 (calculateCrc (leOf len 2 ++ [keyId] ++ body))

theorem be2_length (n : Nat) : (be2 n).length = 2 := rfl

theorem be2_inj {x y : Nat} (hx : x < 65536) (hy : y < 65536) (h : be2 x = be2 y) : x = y := by
  simp only [be2, List.cons.injEq, and_true] at h
  have a1 := congrArg UInt8.toNat h.1
  have a2 := congrArg UInt8.toNat h.2
  rw [UInt8.toNat_ofNat', UInt8.toNat_ofNat'] at a1 a2
  omega

theorem crc_inj_be2 {d d' : Bytes} (h : be2 (calculateCrc d) = be2 (calculateCrc d')) :
    calculateCrc d = calculateCrc d' := be2_inj (calculateCrc_lt d) (calculateCrc_lt d') h

theorem encrypt_eq (C : BlockCipher) (c : CipherContext) (d : Bytes) (r : PadRand)
    (hd : d.length ≤ 65535) (h0 : 0 ≤ c.keyId) (h1 : c.keyId ≤ 255) :
    c.encrypt C d r = (do
      let ct ← aesCbcEncrypt C (clearText d.length (UInt8.ofNat c.keyId.toNat) (d ++ dataPadding d r)) c.key c.key
      pure (leOf d.length 2 ++ [UInt8.ofNat c.keyId.toNat] ++ ct)) := by
  unfold CipherContext.encrypt
  have e1 : toBytesLE 2 (d.length : Int) = .ok (leOf d.length 2) := by
    rw [toBytesLE_ok (by omega) (by simpa using (by omega)), leBytes_leOf, Int.toNat_natCast]
  rw [e1, toByte_ok h0 (by omega)]
  simp only [bind_ok, beCrc]
  have hl : (leOf d.length 2 ++ [UInt8.ofNat c.keyId.toNat]).length = 3 := by simp [leOf_length]
  generalize hH : leOf d.length 2 ++ [UInt8.ofNat c.keyId.toNat] = H at *
  have e3 : sliceTo (H ++ d ++ dataPadding d r ++ be2 (calculateCrc (H ++ d ++ dataPadding d r))) 3 = H := by
    have : ∀ x : Bytes, (H ++ x).take 3 = H := by
      intro x; have := List.take_left (l₁ := H) (l₂ := x); rwa [hl] at this
    simp only [sliceTo_ofNat, List.append_assoc, this]
  have e4 : sliceFrom (H ++ d ++ dataPadding d r ++ be2 (calculateCrc (H ++ d ++ dataPadding d r))) 3 =
      clearText d.length (UInt8.ofNat c.keyId.toNat) (d ++ dataPadding d r) := by
    have : ∀ x : Bytes, (H ++ x).drop 3 = x := by
      intro x; have := List.drop_left (l₁ := H) (l₂ := x); rwa [hl] at this
    simp only [sliceFrom_ofNat, List.append_assoc, this, clearText]
    rw [← List.append_assoc (leOf _ _), hH]
  rw [e3, e4]

theorem clearText_length (n : Nat) (k : UInt8) (b : Bytes) : (clearText n k b).length = b.length + 2 := by
  simp [clearText, be2_length]

/-! ### C30 -/

/-- C30. Shape of the result: two little-endian length bytes, the key id, and the CBC encryption
(IV = key) of data, padding and CRC, where the padding is the shortest that fills whole blocks and
consists of the drawn bytes. -/
theorem C30_encrypt_shape (C : BlockCipher) (c : CipherContext) (d : Bytes) (r : PadRand) (b : Bytes)
    (h : c.encrypt C d r = .ok b) :
    b.length = 3 + paddedLength d.length ∧
    leAt b 0 2 = d.length ∧ (∃ k, b[2]? = some k ∧ (k.toNat : Int) = c.keyId) ∧
    ∃ pad : Bytes, pad.length < 16 ∧ (∀ x ∈ pad, ∃ i, x = r i) ∧
      CbcOf (C.enc c.key) c.key
        (d ++ pad ++ be2 (calculateCrc (b.take 3 ++ d ++ pad))) (b.drop 3) := by
  by_cases hd : d.length ≤ 65535
  · by_cases hk : 0 ≤ c.keyId ∧ c.keyId ≤ 255
    · rw [encrypt_eq C c d r hd hk.1 hk.2, bind_eq_ok] at h
      obtain ⟨ct, h1, h2⟩ := h
      have hct : (clearText d.length (UInt8.ofNat c.keyId.toNat) (d ++ dataPadding d r)).length
          = paddedLength d.length := by
        rw [clearText_length, List.length_append, dataPadding_length]
      have hmod : paddedLength d.length % 16 = 0 := by unfold paddedLength; omega
      unfold aesCbcEncrypt at h1
      split at h1
      · simp at h1
      · next hkey =>
        split at h1
        · simp at h1
        · have hkey : c.key.length = 16 := by omega
          have hs := cbcEncrypt_spec C c.key hkey _ c.key _ hkey
            (show (clearText d.length (UInt8.ofNat c.keyId.toNat) (d ++ dataPadding d r)).length =
              16 * ((clearText d.length (UInt8.ofNat c.keyId.toNat) (d ++ dataPadding d r)).length / 16)
              by omega)
          simp only [Except.ok.injEq] at h1
          rw [h1] at hs
          simp only [pure_res, Except.ok.injEq] at h2
          have hl : (leOf d.length 2 ++ [UInt8.ofNat c.keyId.toNat]).length = 3 := by simp [leOf_length]
          have t3 : b.take 3 = leOf d.length 2 ++ [UInt8.ofNat c.keyId.toNat] := by
            rw [← h2]; have := List.take_left (l₁ := leOf d.length 2 ++ [UInt8.ofNat c.keyId.toNat]) (l₂ := ct)
            rwa [hl] at this
          have d3 : b.drop 3 = ct := by
            rw [← h2]; have := List.drop_left (l₁ := leOf d.length 2 ++ [UInt8.ofNat c.keyId.toNat]) (l₂ := ct)
            rwa [hl] at this
          refine ⟨?_, ?_, ⟨UInt8.ofNat c.keyId.toNat, ?_, ?_⟩, dataPadding d r, ?_, ?_, ?_⟩
          · rw [← h2, List.length_append, hl, hs.len_eq, hct]
          · rw [← h2, List.append_assoc]
            exact leAt_leOf [] _ _ _ _ rfl (by simp; omega)
          · rw [← h2]; rfl
          · rw [u8_ofNat_toNat_lt (by omega)]; omega
          · unfold dataPadding; dsimp only; split <;> simp; omega
          · unfold dataPadding; dsimp only; split
            · simp
            · simp only [List.mem_map]; rintro x ⟨i, _, rfl⟩; exact ⟨i, rfl⟩
          · rw [t3, d3]
            simpa only [clearText, List.append_assoc] using hs
    · unfold CipherContext.encrypt at h
      have e1 : toBytesLE 2 (d.length : Int) = .ok (leOf d.length 2) := by
        rw [toBytesLE_ok (by omega) (by simpa using (by omega)), leBytes_leOf, Int.toNat_natCast]
      have e2 : toByte c.keyId = .error .value := by
        rcases toByte_cases c.keyId with ⟨h1, h2, _⟩ | ⟨_, h⟩
        · exact absurd ⟨h1, by omega⟩ hk
        · exact h
      rw [e1, e2] at h
      simp at h
  · unfold CipherContext.encrypt at h
    rw [toBytesLE2_err (by omega)] at h
    simp at h

/-- C30. When encryption succeeds and what it raises otherwise. -/
theorem C30_encrypt_outcome (C : BlockCipher) (c : CipherContext) (d : Bytes) (r : PadRand) :
    (65535 < d.length → c.encrypt C d r = .error .overflow) ∧
    (d.length ≤ 65535 → (c.keyId < 0 ∨ 255 < c.keyId ∨ c.key.length ≠ 16) →
      c.encrypt C d r = .error .value) ∧
    (d.length ≤ 65535 → 0 ≤ c.keyId → c.keyId ≤ 255 → c.key.length = 16 →
      ∃ b, c.encrypt C d r = .ok b) := by
  refine ⟨?_, ?_, ?_⟩
  · intro h
    unfold CipherContext.encrypt
    rw [toBytesLE2_err (by omega)]; rfl
  · intro hd h
    by_cases hk : 0 ≤ c.keyId ∧ c.keyId ≤ 255
    · have : c.key.length ≠ 16 := by
        rcases h with h | h | h
        · omega
        · omega
        · exact h
      rw [encrypt_eq C c d r hd hk.1 hk.2]
      unfold aesCbcEncrypt
      rw [if_pos (.inl this)]; rfl
    · unfold CipherContext.encrypt
      have e1 : toBytesLE 2 (d.length : Int) = .ok (leOf d.length 2) := by
        rw [toBytesLE_ok (by omega) (by simpa using (by omega)), leBytes_leOf, Int.toNat_natCast]
      have e2 : toByte c.keyId = .error .value := by
        rcases toByte_cases c.keyId with ⟨h1, h2, _⟩ | ⟨_, h⟩
        · exact absurd ⟨h1, by omega⟩ hk
        · exact h
      rw [e1, e2]; rfl
  · intro hd h0 h1 hk
    rw [encrypt_eq C c d r hd h0 h1]
    unfold aesCbcEncrypt
    rw [if_neg (by omega), if_neg]
    · exact ⟨_, rfl⟩
    · rw [clearText_length, List.length_append, dataPadding_length]
      unfold paddedLength; omega

/-- C30. Without padding (data length 14 modulo 16) nothing random enters: equal messages have equal
ciphertexts. -/
theorem C30_deterministic_without_padding (C : BlockCipher) (c : CipherContext) (d : Bytes)
    (r r' : PadRand) (h : d.length % 16 = 14) : c.encrypt C d r = c.encrypt C d r' := by
  have : dataPadding d r = dataPadding d r' := by
    unfold dataPadding; dsimp only; rw [if_pos (by omega), if_pos (by omega)]
  unfold CipherContext.encrypt
  rw [this]

/-- A cipher meeting the laws exists (the identity): the hypotheses are satisfiable. -/
def idCipher : BlockCipher := ⟨fun _ b => b, fun _ b => b, by simp, by simp, by simp, by simp⟩

example : (⟨1, List.replicate 16 7⟩ : CipherContext).encrypt idCipher [1, 2, 3] (fun _ => 9) =
    .ok ([3, 0, 1] ++ [6, 5, 4, 14, 14, 14, 14, 14, 14, 14, 14, 14, 14, 14, 65, 217]) := by
  decide +kernel

/-! ### Exact meaning of `decrypt` -/

/-- The ciphertext part of `b` is the CBC encryption of `p` under the configured key. -/
def PlainOf (C : BlockCipher) (c : CipherContext) (b p : Bytes) : Prop :=
  CbcOf (C.enc c.key) c.key p (b.drop 3)

theorem plainOf_unique {C : BlockCipher} {c : CipherContext} (hk : c.key.length = 16) {b p p' : Bytes}
    (h : PlainOf C c b p) (h' : PlainOf C c b p') : p = p' := by
  have hw := h.whole
  have hw' := h'.whole
  have := h.len_eq
  have := h'.len_eq
  rw [← cbcDecrypt_unique C c.key hk (p.length / 16) c.key p (b.drop 3) hk (by omega) h,
    ← cbcDecrypt_unique C c.key hk (p'.length / 16) c.key p' (b.drop 3) hk (by omega) h',
    show p.length = p'.length by omega]

theorem plainOf_exists {C : BlockCipher} {c : CipherContext} (hk : c.key.length = 16) {b : Bytes}
    (h : (b.drop 3).length % 16 = 0) : ∃ p, PlainOf C c b p :=
  ⟨_, cbcDecrypt_spec C c.key hk ((b.drop 3).length / 16) c.key (b.drop 3) hk (by omega)⟩

theorem decrypt_eq (C : BlockCipher) (c : CipherContext) (b p : Bytes) (hb : 3 ≤ b.length)
    (hid : (b[2].toNat : Int) = c.keyId) (hk : c.key.length = 16) (hp : PlainOf C c b p) :
    c.decrypt C b =
      if be2 (calculateCrc (b.take 3 ++ p.take (p.length - 2))) = p.drop (p.length - 2)
      then .ok (p.take (leAt b 0 2)) else .error .value := by
  unfold CipherContext.decrypt
  have hw := hp.whole
  have hl := hp.len_eq
  have e0 : pyGet (sliceTo b 3) 2 = .ok b[2] := by
    have hl3 : 2 < (sliceTo b 3).length := by simp; omega
    have : pyGet (sliceTo b 3) 2 = .ok (sliceTo b 3)[2] := pyGet_nat_lt (sliceTo b 3) 2 hl3
    rw [this]; simp
  dsimp only
  rw [e0]
  simp only [bind_ok, hid, ne_eq, not_true_eq_false, if_false, pure_res]
  have e1 : aesCbcDecrypt C (sliceFrom b 3) c.key c.key = .ok p := by
    unfold aesCbcDecrypt
    simp only [sliceFrom_ofNat]
    rw [if_neg (by omega), if_neg (by omega),
      cbcDecrypt_unique C c.key hk ((b.drop 3).length / 16) c.key p (b.drop 3) hk (by omega) hp]
  have e2 : fromLE (sliceTo (sliceTo b 3) 2) = leAt b 0 2 := by
    rw [fromLE_leAt]; simp [List.take_take]
  rw [e1, e2]
  have hlt : leAt b 0 2 < 65536 := leAt_lt b 0 2
  have e3 : toBytesLE 2 (leAt b 0 2 : Int) = .ok (b.take 2) := by
    rw [toBytesLE_ok (by omega) (by generalize leAt b 0 2 = x at hlt; omega), Int.toNat_natCast, fromLE_leAt]
    have : ((b.drop 0).take 2).length = 2 := by simp; omega
    have := leBytes_fromLE ((b.drop 0).take 2)
    rw [‹((b.drop 0).take 2).length = 2›] at this
    rw [this, List.drop_zero]
  have e4 : b.take 2 ++ [b[2]] = b.take 3 := (List.take_succ_eq_append_getElem (by omega)).symm
  simp only [bind_ok, e3, e4, beCrc, sliceTo_neg_ofNat _ 2 (by omega), sliceFrom_neg_ofNat _ 2 (by omega),
    sliceTo_nat]
  generalize be2 (calculateCrc (b.take 3 ++ p.take (p.length - 2))) = x
  by_cases h : x = p.drop (p.length - 2)
  · simp [h]
  · simp [h]

/-! ### C29 -/

/-- C29. Whatever was encrypted is returned by decryption with the same key and key id. -/
theorem C29_decrypt_encrypt (C : BlockCipher) (c : CipherContext) (d : Bytes) (r : PadRand) (b : Bytes)
    (h : c.encrypt C d r = .ok b) : c.decrypt C b = .ok d := by
  obtain ⟨h1, h2, ⟨k, h3, h4⟩, pad, h5, h6, h7⟩ := C30_encrypt_shape C c d r b h
  have hkey : c.key.length = 16 := by
    have ho := C30_encrypt_outcome C c d r
    by_cases hd : d.length ≤ 65535
    · by_cases hk : c.key.length = 16
      · exact hk
      · rw [ho.2.1 hd (.inr (.inr hk))] at h; simp at h
    · rw [ho.1 (by omega)] at h; simp at h
  have hb : 3 ≤ b.length := by omega
  have h3' : b[2] = k := by
    rw [List.getElem?_eq_getElem (by omega)] at h3; simpa using h3
  rw [decrypt_eq C c b _ hb (by rw [h3']; exact h4) hkey h7]
  have hx : ∀ x y : Bytes, y.length = 2 → (x ++ y).take ((x ++ y).length - 2) = x ∧
      (x ++ y).drop ((x ++ y).length - 2) = y := by
    intro x y hy
    have : (x ++ y).length - 2 = x.length := by simp [hy]
    rw [this]
    exact ⟨List.take_left .., List.drop_left ..⟩
  obtain ⟨e1, e2⟩ := hx (d ++ pad) (be2 (calculateCrc (b.take 3 ++ d ++ pad))) rfl
  rw [e1, e2, if_pos (by rw [List.append_assoc]), h2, List.append_assoc, List.take_left]

/-- C29. In particular for every message up to 65535 bytes, byte-sized key id and 16-byte key. -/
theorem C29_roundtrip (C : BlockCipher) (c : CipherContext) (d : Bytes) (r : PadRand)
    (hd : d.length ≤ 65535) (h0 : 0 ≤ c.keyId) (h1 : c.keyId ≤ 255) (hk : c.key.length = 16) :
    (c.encrypt C d r >>= c.decrypt C) = .ok d := by
  obtain ⟨b, hb⟩ := (C30_encrypt_outcome C c d r).2.2 hd h0 h1 hk
  rw [hb, bind_ok, C29_decrypt_encrypt C c d r b hb]

/-! ### C31 -/

/-- C31. When `decrypt` returns, the key id is right, the ciphertext is the CBC encryption of some
plaintext that ends in the CRC of header and plaintext, and the result is the plaintext cut to the
announced length; and conversely. -/
theorem C31_decrypt_iff (C : BlockCipher) (c : CipherContext) (b d : Bytes) :
    c.decrypt C b = .ok d ↔
      c.key.length = 16 ∧ (∃ k, b[2]? = some k ∧ (k.toNat : Int) = c.keyId) ∧
      ∃ body : Bytes,
        CbcOf (C.enc c.key) c.key (body ++ be2 (calculateCrc (b.take 3 ++ body))) (b.drop 3) ∧
        d = (body ++ be2 (calculateCrc (b.take 3 ++ body))).take (leAt b 0 2) := by
  constructor
  · intro h
    by_cases hb : 3 ≤ b.length
    · have e0 : pyGet (sliceTo b 3) 2 = .ok b[2] := by
        have hl3 : 2 < (sliceTo b 3).length := by simp; omega
        have : pyGet (sliceTo b 3) 2 = .ok (sliceTo b 3)[2] := pyGet_nat_lt (sliceTo b 3) 2 hl3
        rw [this]; simp
      by_cases hid : (b[2].toNat : Int) = c.keyId
      · by_cases hk : c.key.length = 16
        · by_cases hm : (b.drop 3).length % 16 = 0
          · obtain ⟨p, hp⟩ := plainOf_exists (C := C) hk hm
            rw [decrypt_eq C c b p hb hid hk hp] at h
            split at h
            · next hc =>
              refine ⟨hk, ⟨b[2], List.getElem?_eq_getElem _, hid⟩, p.take (p.length - 2), ?_, ?_⟩
              · rw [hc, List.take_append_drop]; exact hp
              · rw [hc, List.take_append_drop]
                simpa [eq_comm] using h
            · simp at h
          · unfold CipherContext.decrypt at h
            dsimp only at h
            rw [e0] at h
            simp only [bind_ok, hid, ne_eq, not_true_eq_false, if_false, pure_res] at h
            unfold aesCbcDecrypt at h
            rw [if_neg (by omega), if_pos (by simpa using hm)] at h
            simp at h
        · unfold CipherContext.decrypt at h
          dsimp only at h
          rw [e0] at h
          simp only [bind_ok, hid, ne_eq, not_true_eq_false, if_false, pure_res] at h
          unfold aesCbcDecrypt at h
          rw [if_pos (.inl hk)] at h
          simp at h
      · unfold CipherContext.decrypt at h
        dsimp only at h
        rw [e0] at h
        simp [hid] at h
    · unfold CipherContext.decrypt at h
      have e0 : pyGet (sliceTo b 3) 2 = raise .index :=
        pyGet_nat_ge (sliceTo b 3) 2 (by simp; omega)
      dsimp only at h
      rw [e0] at h
      simp at h
  · rintro ⟨hk, ⟨k, hk2, hid⟩, body, hcbc, hd⟩
    have hb : 3 ≤ b.length := by
      rw [List.getElem?_eq_some_iff] at hk2; obtain ⟨h, _⟩ := hk2; omega
    have h3' : b[2] = k := by
      rw [List.getElem?_eq_getElem (by omega)] at hk2; simpa using hk2
    rw [decrypt_eq C c b _ hb (by rw [h3']; exact hid) hk hcbc]
    have e : (body ++ be2 (calculateCrc (b.take 3 ++ body))).length - 2 = body.length := by
      simp [be2_length]
    rw [e, List.take_left, List.drop_left, if_pos rfl, hd]

/-- C31. The exceptions of `decrypt`: fewer than three bytes `IndexError`; foreign key id
`AssertionError`; otherwise only `ValueError` (key size, partial block, wrong CRC). -/
theorem C31_decrypt_errors (C : BlockCipher) (c : CipherContext) (b : Bytes) :
    (b.length < 3 → c.decrypt C b = .error .index) ∧
    (∀ k, b[2]? = some k → (k.toNat : Int) ≠ c.keyId → c.decrypt C b = .error .assertion) ∧
    (∀ k, b[2]? = some k → (k.toNat : Int) = c.keyId →
      (∃ d, c.decrypt C b = .ok d) ∨ c.decrypt C b = .error .value) ∧
    (∀ k, b[2]? = some k → (k.toNat : Int) = c.keyId →
      (c.key.length ≠ 16 ∨ (b.length - 3) % 16 ≠ 0 ∨ b.length = 3) → c.decrypt C b = .error .value) := by
  have e0 : ∀ k, b[2]? = some k → pyGet (sliceTo b 3) 2 = .ok k := by
    intro k hk
    have hb : 2 < b.length := by
      rw [List.getElem?_eq_some_iff] at hk; obtain ⟨h, _⟩ := hk; omega
    have hl3 : 2 < (sliceTo b 3).length := by simp; omega
    have : pyGet (sliceTo b 3) 2 = .ok (sliceTo b 3)[2] := pyGet_nat_lt (sliceTo b 3) 2 hl3
    rw [this]
    rw [List.getElem?_eq_getElem hb] at hk
    simpa using hk
  have key3 : ∀ k, b[2]? = some k → (k.toNat : Int) = c.keyId →
      (∃ d, c.decrypt C b = .ok d) ∨ c.decrypt C b = .error .value := by
    intro k hk hid
    have hb : 2 < b.length := by
      rw [List.getElem?_eq_some_iff] at hk; obtain ⟨h, _⟩ := hk; omega
    by_cases hkl : c.key.length = 16
    · by_cases hm : (b.drop 3).length % 16 = 0
      · obtain ⟨p, hp⟩ := plainOf_exists (C := C) hkl hm
        rw [decrypt_eq C c b p hb (by
          rw [List.getElem?_eq_getElem hb] at hk; simp at hk; rw [hk]; exact hid) hkl hp]
        split
        · exact .inl ⟨_, rfl⟩
        · exact .inr rfl
      · right
        unfold CipherContext.decrypt
        dsimp only
        rw [e0 k hk]
        simp only [bind_ok, hid, ne_eq, not_true_eq_false, if_false, pure_res]
        unfold aesCbcDecrypt
        rw [if_neg (by omega), if_pos (by simpa using hm)]; rfl
    · right
      unfold CipherContext.decrypt
      dsimp only
      rw [e0 k hk]
      simp only [bind_ok, hid, ne_eq, not_true_eq_false, if_false, pure_res]
      unfold aesCbcDecrypt
      rw [if_pos (.inl hkl)]; rfl
  refine ⟨?_, ?_, key3, ?_⟩
  · intro h
    unfold CipherContext.decrypt
    have e0 : pyGet (sliceTo b 3) 2 = raise .index :=
      pyGet_nat_ge (sliceTo b 3) 2 (by simp; omega)
    dsimp only
    rw [e0]; rfl
  · intro k hk hid
    unfold CipherContext.decrypt
    dsimp only
    rw [e0 k hk]
    simp [hid]
  · intro k hk hid h
    rcases key3 k hk hid with ⟨d, hd⟩ | he
    · exfalso
      obtain ⟨h1, _, body, h3, _⟩ := (C31_decrypt_iff C c b d).1 hd
      have hl := h3.len_eq
      have hw := h3.whole
      simp only [List.length_append, be2_length, List.length_drop] at hl hw
      omega
    · exact he

/-- C31. Changing the announced length of an accepted message in any way is detected. -/
theorem C31_length_tampering (C : BlockCipher) (c : CipherContext) (b d : Bytes) (l0 l1 : UInt8)
    (h : c.decrypt C b = .ok d) (hne : [l0, l1] ≠ b.take 2) :
    c.decrypt C ([l0, l1] ++ b.drop 2) = .error .value := by
  obtain ⟨hk, ⟨k, hk2, hid⟩, body, hcbc, hd⟩ := (C31_decrypt_iff C c b d).1 h
  have hb : 2 < b.length := by
    rw [List.getElem?_eq_some_iff] at hk2; obtain ⟨h, _⟩ := hk2; omega
  have hk2' : ([l0, l1] ++ b.drop 2)[2]? = some k := by simpa using hk2
  rcases (C31_decrypt_errors C c ([l0, l1] ++ b.drop 2)).2.2.1 k hk2' hid with ⟨d', hd'⟩ | he
  · exfalso
    obtain ⟨_, _, body', hcbc', _⟩ := (C31_decrypt_iff C c _ d').1 hd'
    have e1 : ([l0, l1] ++ b.drop 2).drop 3 = b.drop 3 := by simp
    rw [e1] at hcbc'
    have := plainOf_unique hk hcbc hcbc'
    have hl := congrArg List.length this
    simp only [List.length_append, be2_length] at hl
    obtain ⟨hb1, hc1⟩ := List.append_inj this (by omega)
    subst hb1
    have hc : calculateCrc (b.take 3 ++ body) = calculateCrc (([l0, l1] ++ b.drop 2).take 3 ++ body) := crc_inj_be2 hc1
    refine C08_crc_detects_two_bytes _ _ ?_ ?_ 0 ?_ hc
    · simp; omega
    · intro h
      apply hne
      have := congrArg (List.take 2) h
      simp only [List.take_append, List.length_take] at this
      simp [show min 3 b.length = 3 by omega, List.take_take] at this
      exact this.symm
    · intro j hj
      have hj : 2 ≤ j := by omega
      have : b.take 3 = b.take 2 ++ (b.drop 2).take 1 := by
        rw [← List.take_add]
      rw [this]
      have e2 : ([l0, l1] ++ b.drop 2).take 3 = [l0, l1] ++ (b.drop 2).take 1 := by simp
      have hl2 : (b.take 2).length = 2 := by simp; omega
      rw [e2, List.append_assoc, List.append_assoc,
        List.getElem?_append_right (l₁ := b.take 2) (by omega),
        List.getElem?_append_right (l₁ := [l0, l1]) hj, hl2]
      rfl
  · exact he

-- the length 3 replaced by 4 and by 0x0103
example : (⟨1, List.replicate 16 7⟩ : CipherContext).decrypt idCipher
      ([4, 0] ++ [1] ++ [6, 5, 4, 14, 14, 14, 14, 14, 14, 14, 14, 14, 14, 14, 65, 217]) = .error .value ∧
    (⟨1, List.replicate 16 7⟩ : CipherContext).decrypt idCipher
      ([3, 1] ++ [1] ++ [6, 5, 4, 14, 14, 14, 14, 14, 14, 14, 14, 14, 14, 14, 65, 217]) = .error .value :=
  have h : (⟨1, List.replicate 16 7⟩ : CipherContext).decrypt idCipher
      ([3, 0, 1] ++ [6, 5, 4, 14, 14, 14, 14, 14, 14, 14, 14, 14, 14, 14, 65, 217]) = .ok [1, 2, 3] := by
    decide +kernel
  ⟨by simpa using C31_length_tampering _ _ _ _ 4 0 h (by decide),
   by simpa using C31_length_tampering _ _ _ _ 3 1 h (by decide)⟩

/-- C31. Two messages with the same header whose plaintexts differ, within the part covered by the
CRC, in at most two neighbouring bytes cannot both be accepted. -/
theorem C31_body_tampering (C : BlockCipher) (c : CipherContext) (b b' d : Bytes)
    (body body' crc : Bytes) (hcrc : crc.length = 2)
    (hp : CbcOf (C.enc c.key) c.key (body ++ crc) (b.drop 3))
    (hp' : CbcOf (C.enc c.key) c.key (body' ++ crc) (b'.drop 3))
    (hh : b'.take 3 = b.take 3) (hl : body'.length = body.length) (hne : body' ≠ body) (i : Nat)
    (hi : ∀ j, (j < i ∨ i + 2 ≤ j) → body'[j]? = body[j]?)
    (h : c.decrypt C b = .ok d) : c.decrypt C b' = .error .value := by
  obtain ⟨hk, ⟨k, hk2, hid⟩, bd, hcbc, hd⟩ := (C31_decrypt_iff C c b d).1 h
  have hk2' : b'[2]? = some k := by
    have := congrArg (·[2]?) hh
    simp only [List.getElem?_take, show 2 < 3 by omega, if_true] at this
    rw [this, hk2]
  rcases (C31_decrypt_errors C c b').2.2.1 k hk2' hid with ⟨d', hd'⟩ | he
  · exfalso
    obtain ⟨_, _, bd', hcbc', _⟩ := (C31_decrypt_iff C c _ d').1 hd'
    have e1 := plainOf_unique hk hp hcbc
    have e2 := plainOf_unique hk hp' hcbc'
    have l1 := congrArg List.length e1
    have l2 := congrArg List.length e2
    simp only [List.length_append, be2_length, hcrc] at l1 l2
    obtain ⟨a1, a2⟩ := List.append_inj e1 (by omega)
    obtain ⟨a3, a4⟩ := List.append_inj e2 (by omega)
    subst a1 a3
    rw [hh] at a4
    have hc1 := a2.symm.trans a4
    have hc : calculateCrc (b.take 3 ++ body) = calculateCrc (b.take 3 ++ body') := crc_inj_be2 hc1
    refine C08_crc_detects_two_bytes _ _ (by simp [hl]) ?_ ((b.take 3).length + i) ?_ hc
    · intro h; exact hne (List.append_cancel_left h).symm
    · intro j hj
      by_cases hj3 : j < (b.take 3).length
      · rw [List.getElem?_append_left hj3, List.getElem?_append_left hj3]
      · rw [List.getElem?_append_right (by omega), List.getElem?_append_right (by omega)]
        exact (hi _ (by omega)).symm
  · exact he

-- two neighbouring plaintext bytes replaced (1, 2 by 0x51, 0x52), the CRC kept
example : (⟨1, List.replicate 16 7⟩ : CipherContext).decrypt idCipher
    ([3, 0, 1] ++ [86, 85, 4, 14, 14, 14, 14, 14, 14, 14, 14, 14, 14, 14, 65, 217]) = .error .value := by
  refine C31_body_tampering idCipher _ ([3, 0, 1] ++ [6, 5, 4, 14, 14, 14, 14, 14, 14, 14, 14, 14, 14, 14, 65, 217])
    _ [1, 2, 3] [1, 2, 3, 9, 9, 9, 9, 9, 9, 9, 9, 9, 9, 9] [0x51, 0x52, 3, 9, 9, 9, 9, 9, 9, 9, 9, 9, 9, 9] [0x46, 0xDE]
    rfl ?_ ?_ rfl rfl (by decide) 0 ?_ (by decide +kernel)
  · exact ⟨rfl, rfl, fun _ => by decide +kernel, fun i hi => absurd hi (by simp; omega)⟩
  · exact ⟨rfl, rfl, fun _ => by decide +kernel, fun i hi => absurd hi (by simp; omega)⟩
  · rintro j (hj | hj)
    · omega
    · match j, hj with
      | j + 2, _ => rfl

/-- The hypotheses are met by a real message. -/
example : ∃ b d, (⟨1, List.replicate 16 7⟩ : CipherContext).decrypt idCipher b = .ok d ∧
    b.take 2 ≠ [4, 0] ∧ d = [1, 2, 3] :=
  ⟨[3, 0, 1] ++ [6, 5, 4, 14, 14, 14, 14, 14, 14, 14, 14, 14, 14, 14, 65, 217], [1, 2, 3],
    by decide +kernel⟩

/-! ### C63 -/

theorem crc_eq (c : CipherContext) (d : Bytes) (r : PadRand) (hd : d.length ≤ 65535) (h0 : 0 ≤ c.keyId)
    (h1 : c.keyId ≤ 255) :
    c.crc d r = .ok (calculateCrc (leOf d.length 2 ++ [UInt8.ofNat c.keyId.toNat] ++ d ++ dataPadding d r)) := by
  unfold CipherContext.crc
  have e1 : toBytesLE 2 (d.length : Int) = .ok (leOf d.length 2) := by
    rw [toBytesLE_ok (by omega) (by simpa using (by omega)), leBytes_leOf, Int.toNat_natCast]
  rw [e1, toByte_ok h0 (by omega)]
  rfl

/-- C63. When `crc` returns and what it raises otherwise; the key plays no role. -/
theorem C63_crc_outcome (c : CipherContext) (d : Bytes) (r : PadRand) :
    (65535 < d.length → c.crc d r = .error .overflow) ∧
    (d.length ≤ 65535 → (c.keyId < 0 ∨ 255 < c.keyId) → c.crc d r = .error .value) ∧
    (d.length ≤ 65535 → 0 ≤ c.keyId → c.keyId ≤ 255 → ∃ n, c.crc d r = .ok n ∧ n < 65536) ∧
    (∀ key, (⟨c.keyId, key⟩ : CipherContext).crc d r = c.crc d r) := by
  refine ⟨?_, ?_, ?_, fun _ => rfl⟩
  · intro h
    unfold CipherContext.crc
    rw [toBytesLE2_err (by omega)]; rfl
  · intro hd h
    unfold CipherContext.crc
    have e1 : toBytesLE 2 (d.length : Int) = .ok (leOf d.length 2) := by
      rw [toBytesLE_ok (by omega) (by simpa using (by omega)), leBytes_leOf, Int.toNat_natCast]
    have e2 : toByte c.keyId = .error .value := by
      rcases toByte_cases c.keyId with ⟨h1, h2, _⟩ | ⟨_, h⟩
      · omega
      · exact h
    rw [e1, e2]; rfl
  · intro hd h0 h1
    exact ⟨_, crc_eq c d r hd h0 h1, calculateCrc_lt _⟩

/-- C63. With the same padding draws, `crc` is the value that `encrypt` puts (high byte first) at the
end of the plaintext. -/
theorem C63_crc_embedded (C : BlockCipher) (c : CipherContext) (d : Bytes) (r : PadRand) (b : Bytes)
    (h : c.encrypt C d r = .ok b) :
    ∃ n pad, c.crc d r = .ok n ∧ CbcOf (C.enc c.key) c.key (d ++ pad ++ be2 n) (b.drop 3) := by
  obtain ⟨o1, o2, _⟩ := C30_encrypt_outcome C c d r
  have hd : d.length ≤ 65535 := by
    apply Classical.byContradiction; intro hd
    rw [o1 (by omega)] at h; cases h
  have hk : 0 ≤ c.keyId ∧ c.keyId ≤ 255 ∧ c.key.length = 16 := by
    apply Classical.byContradiction; intro hk
    rw [o2 hd (by omega)] at h; cases h
  refine ⟨_, dataPadding d r, crc_eq c d r hd hk.1 hk.2.1, ?_⟩
  rw [encrypt_eq C c d r hd hk.1 hk.2.1, bind_eq_ok] at h
  obtain ⟨ct, h1, h2⟩ := h
  have hl : (leOf d.length 2 ++ [UInt8.ofNat c.keyId.toNat]).length = 3 := by simp [leOf_length]
  have hb : b.drop 3 = ct := by
    rw [← Except.ok.inj h2]
    have := List.drop_left (l₁ := leOf d.length 2 ++ [UInt8.ofNat c.keyId.toNat]) (l₂ := ct)
    rwa [hl] at this
  have hlen := clearText_length d.length (UInt8.ofNat c.keyId.toNat) (d ++ dataPadding d r)
  rw [List.length_append, dataPadding_length] at hlen
  have hmod : paddedLength d.length % 16 = 0 := by unfold paddedLength; omega
  unfold aesCbcEncrypt at h1
  rw [if_neg (by omega), if_neg (by omega)] at h1
  have hs := cbcEncrypt_spec C c.key hk.2.2 _ c.key _ hk.2.2
    (show (clearText d.length (UInt8.ofNat c.keyId.toNat) (d ++ dataPadding d r)).length =
      16 * ((clearText d.length (UInt8.ofNat c.keyId.toNat) (d ++ dataPadding d r)).length / 16) by omega)
  rw [Except.ok.inj h1] at hs
  rw [hb]
  simpa only [clearText, List.append_assoc] using hs

/-- C63. Without padding (length 14 modulo 16) `crc` is a function of the data; otherwise it is not: two
calls on the same data can differ (with draws in the range 0..125 of the code). -/
theorem C63_crc_depends_on_padding (c : CipherContext) (d : Bytes) (hd : d.length ≤ 65535)
    (h0 : 0 ≤ c.keyId) (h1 : c.keyId ≤ 255) :
    (∀ r r', c.crc d r = c.crc d r') ↔ d.length % 16 = 14 := by
  constructor
  · intro h
    apply Classical.byContradiction
    intro hm
    have h := h (fun _ => 0) (fun i => if i = 0 then 1 else 0)
    rw [crc_eq c d _ hd h0 h1, crc_eq c d _ hd h0 h1] at h
    have h := Except.ok.inj h
    generalize leOf d.length 2 ++ [UInt8.ofNat c.keyId.toNat] ++ d = p at h
    obtain ⟨n, hn⟩ : ∃ n, 16 - (d.length + 2) % 16 = n + 1 := ⟨15 - (d.length + 2) % 16, by omega⟩
    have hz : dataPadding d (fun _ => 0) = 0 :: (List.range n).map (fun _ => 0) := by
      unfold dataPadding; dsimp only
      rw [if_neg (by omega), hn, List.range_succ_eq_map, List.map_cons, List.map_map]
      rfl
    have ho : dataPadding d (fun i => if i = 0 then 1 else 0) = 1 :: (List.range n).map (fun _ => 0) := by
      unfold dataPadding; dsimp only
      rw [if_neg (by omega), hn, List.range_succ_eq_map, List.map_cons, List.map_map]
      rfl
    rw [hz, ho] at h
    refine C08_crc_detects_two_bytes _ _ (by simp) (by simp) p.length ?_ h
    intro j hj
    rcases hj with hj | hj
    · rw [List.getElem?_append_left hj, List.getElem?_append_left hj]
    · rw [List.getElem?_append_right (by omega), List.getElem?_append_right (by omega)]
      obtain ⟨k, hk⟩ : ∃ k, j - p.length = k + 1 := ⟨j - p.length - 1, by omega⟩
      rw [hk, List.getElem?_cons_succ, List.getElem?_cons_succ]
  · intro hm r r'
    have : dataPadding d r = dataPadding d r' := by
      unfold dataPadding; dsimp only; rw [if_pos (by omega), if_pos (by omega)]
    rw [crc_eq c d _ hd h0 h1, crc_eq c d _ hd h0 h1, this]

example : (⟨1, []⟩ : CipherContext).crc [1, 2, 3] (fun _ => 9) = .ok 0x46DE ∧
    (⟨1, []⟩ : CipherContext).crc [1, 2, 3] (fun _ => 8) ≠ .ok 0x46DE ∧
    be2 0x46DE = [65 ^^^ 7, 217 ^^^ 7] := by decide +kernel

end Elgas
