import Verif.Lemmas.AesFips
import Verif.Props.Security
/-!
C111: with the cipher the library uses, an encrypted message is the CBC encryption by AES-128 of FIPS-197.
C112: because the initialisation vector is the key, a decrypted forgery tells the key.
-/
namespace Elgas
open Spec

/-- C111. There is exactly one S-box: the affine map of the inverse in the field. -/
theorem C111_sbox : ∃ S, Spec.Aes.IsSbox S ∧ ∀ S', Spec.Aes.IsSbox S' → S' = S :=
  ⟨Aes.sbox, sbox_isSbox, sbox_unique⟩

/-- C111. The block cipher is the cipher of FIPS-197, and its inverse undoes it. -/
theorem C111_aes (S : UInt8 → UInt8) (hS : Spec.Aes.IsSbox S) (key b : Bytes) (hk : key.length = 16)
    (hb : b.length = 16) :
    aes128.enc key b = Spec.Aes.cipher S key b ∧ aes128.dec key (Spec.Aes.cipher S key b) = b := by
  have h : aes128.enc key b = Spec.Aes.cipher S key b := by
    have e := sbox_unique S hS
    have e1 : aes128.enc = Aes.encrypt := by delta aes128; with_reducible rfl
    have h0 := aes_cipher key b hk hb
    rw [e, e1]
    exact h0
  exact ⟨h, by rw [← h]; exact aes128.dec_enc key b hk hb⟩

theorem xorBytes_length16 (a b : Bytes) (ha : a.length = 16) (hb : b.length = 16) : (xorBytes a b).length = 16 := by
  unfold xorBytes; rw [List.length_zipWith, ha, hb]; rfl

theorem block_length16 (d : Bytes) (i : Nat) (h : d.length % 16 = 0) (hi : 16 * i < d.length) :
    (block d i).length = 16 := by
  unfold block; rw [List.length_take, List.length_drop]; omega

theorem cbcOf_congr {enc enc' : Bytes → Bytes} (he : ∀ b : Bytes, b.length = 16 → enc b = enc' b) {iv p c : Bytes}
    (hiv : iv.length = 16) (h : CbcOf enc iv p c) : CbcOf enc' iv p c := by
  have hw := h.whole
  have hl := h.len_eq
  refine ⟨h.len_eq, h.whole, ?_, ?_⟩
  · intro h0
    rw [h.first h0, he _ (xorBytes_length16 _ _ (block_length16 p 0 hw (by omega)) hiv)]
  · intro i hi
    rw [h.next i hi, he _ (xorBytes_length16 _ _ (block_length16 p _ hw hi) (block_length16 c i (by omega) (by omega)))]

/-- C111. What an encrypted message is: the length, the key id, and the CBC encryption under AES-128 of FIPS-197, the
initialisation vector being the key, of the data, filled up with random bytes, and the CRC of all before it. -/
theorem C111_encrypt (S : UInt8 → UInt8) (hS : Spec.Aes.IsSbox S) (c : CipherContext) (d : Bytes) (r : PadRand) (b : Bytes)
    (h : c.encrypt aes128 d r = .ok b) :
    b.length = 3 + paddedLength d.length ∧ leAt b 0 2 = d.length ∧ (∃ k, b[2]? = some k ∧ (k.toNat : Int) = c.keyId) ∧
    ∃ pad : Bytes, pad.length < 16 ∧ (∀ x ∈ pad, ∃ i, x = r i) ∧
      CbcOf (Spec.Aes.cipher S c.key) c.key (d ++ pad ++ be2 (calculateCrc (b.take 3 ++ d ++ pad))) (b.drop 3) := by
  obtain ⟨h1, h2, h3, pad, h4, h5, h6⟩ := C30_encrypt_shape aes128 c d r b h
  have hk := ((C31_decrypt_iff aes128 c b d).1 (C29_decrypt_encrypt aes128 c d r b h)).1
  exact ⟨h1, h2, h3, pad, h4, h5, cbcOf_congr (fun b hb => (C111_aes S hS c.key b hk hb).1) hk h6⟩

/-- C111. Which messages are decrypted, and to what. -/
theorem C111_decrypt (S : UInt8 → UInt8) (hS : Spec.Aes.IsSbox S) (c : CipherContext) (b d : Bytes) :
    c.decrypt aes128 b = .ok d ↔
      c.key.length = 16 ∧ (∃ k, b[2]? = some k ∧ (k.toNat : Int) = c.keyId) ∧
      ∃ body : Bytes,
        CbcOf (Spec.Aes.cipher S c.key) c.key (body ++ be2 (calculateCrc (b.take 3 ++ body))) (b.drop 3) ∧
        d = (body ++ be2 (calculateCrc (b.take 3 ++ body))).take (leAt b 0 2) := by
  rw [C31_decrypt_iff]
  constructor
  · rintro ⟨hk, hid, body, hc, hd⟩
    exact ⟨hk, hid, body, cbcOf_congr (fun b hb => (C111_aes S hS c.key b hk hb).1) hk hc, hd⟩
  · rintro ⟨hk, hid, body, hc, hd⟩
    exact ⟨hk, hid, body, cbcOf_congr (fun b hb => (C111_aes S hS c.key b hk hb).1.symm) hk hc, hd⟩

/-- The specification gives the ciphertext of FIPS-197 appendix C.1. -/
example (S : UInt8 → UInt8) (hS : Spec.Aes.IsSbox S) : Spec.Aes.cipher S
    [0x00, 0x01, 0x02, 0x03, 0x04, 0x05, 0x06, 0x07, 0x08, 0x09, 0x0a, 0x0b, 0x0c, 0x0d, 0x0e, 0x0f]
    [0x00, 0x11, 0x22, 0x33, 0x44, 0x55, 0x66, 0x77, 0x88, 0x99, 0xaa, 0xbb, 0xcc, 0xdd, 0xee, 0xff] =
    [0x69, 0xc4, 0xe0, 0xd8, 0x6a, 0x7b, 0x04, 0x30, 0xd8, 0xcd, 0xb7, 0x80, 0x70, 0xb4, 0xc5, 0x5a] := by
  rw [← (C111_aes S hS _ _ rfl rfl).1]; decide +kernel

/-- A message encrypted under a sixteen-byte key, and what it is decrypted to. -/
example : ((⟨1, List.replicate 16 7⟩ : CipherContext).encrypt aes128 [1, 2, 3] (fun _ => 9) >>=
    (⟨1, List.replicate 16 7⟩ : CipherContext).decrypt aes128) = .ok [1, 2, 3] := by decide +kernel

theorem xor_swap (x k z : Bytes) (hx : x.length = 16) (hk : k.length = 16) (hz : z = List.replicate 16 0) :
    xorBytes (xorBytes x k) (xorBytes x z) = k := by
  subst hz
  refine Aes.state_cases (P := fun x => ∀ k : Bytes, k.length = 16 →
    xorBytes (xorBytes x k) (xorBytes x (List.replicate 16 0)) = k) ?_ x hx k hk
  intro s0 s1 s2 s3 s4 s5 s6 s7 s8 s9 s10 s11 s12 s13 s14 s15 k hk
  refine Aes.state_cases (P := fun k => xorBytes (xorBytes _ k) (xorBytes _ (List.replicate 16 0)) = k) ?_ k hk
  intros
  have e : ∀ a b : UInt8, (a ^^^ b) ^^^ a = b := by
    intro a b; rw [UInt8.xor_comm a b, UInt8.xor_assoc, UInt8.xor_self, UInt8.xor_zero]
  simp [xorBytes, List.replicate, e]

/-- The plaintext block of a ciphertext block. -/
theorem plain_block (C : BlockCipher) (key iv p x : Bytes) (hk : key.length = 16) (hiv : iv.length = 16)
    (hp : p.length = 16) (h : x = C.enc key (xorBytes p iv)) : p = xorBytes (C.dec key x) iv := by
  rw [h, C.dec_enc key _ hk (xorBytes_length16 _ _ hp hiv)]
  exact (xorBlock_cancel p iv (by omega)).symm

/-- C112. Because the initialisation vector is the key: whoever learns what a message is decrypted to whose second
ciphertext block is zero and whose third repeats the first, learns the key. -/
theorem C112_key_revealed (C : BlockCipher) (c : CipherContext) (b d : Bytes) (h : c.decrypt C b = .ok d)
    (hn : 48 ≤ leAt b 0 2) (hl : 51 ≤ b.length) (h1 : block (b.drop 3) 1 = List.replicate 16 0)
    (h2 : block (b.drop 3) 2 = block (b.drop 3) 0) : xorBytes (block d 0) (block d 2) = c.key := by
  obtain ⟨hk, _, body, hc, hd⟩ := (C31_decrypt_iff C c b d).1 h
  generalize body ++ be2 (calculateCrc (b.take 3 ++ body)) = p at hc hd
  have hw := hc.whole
  have hlen := hc.len_eq
  rw [List.length_drop] at hlen
  have hb : ∀ i, i ≤ 2 → block d i = block p i := by
    intro i hi
    rw [hd]
    unfold block
    rw [List.drop_take, List.take_take]
    congr 1
    omega
  rw [hb 0 (by omega), hb 2 (by omega)]
  have hx : (block (b.drop 3) 0).length = 16 := block_length16 _ 0 (by rw [List.length_drop]; omega) (by rw [List.length_drop]; omega)
  have p0 := plain_block C c.key c.key (block p 0) _ hk hk (block_length16 p 0 hw (by omega)) (hc.first (by omega))
  have p2 := plain_block C c.key _ (block p 2) _ hk (by rw [h1]; rfl) (block_length16 p 2 hw (by omega)) (hc.next 1 (by omega))
  rw [h2] at p2
  rw [p0, p2]
  exact xor_swap _ _ _ (C.dec_length _ _ hk hx) hk h1

theorem drop_append_block (a b : Bytes) (n : Nat) (h : a.length = 16 * n) (m : Nat) : block (a ++ b) (n + m) = block b m := by
  unfold block
  rw [show 16 * (n + m) = a.length + 16 * m by omega, ← List.drop_drop, List.drop_left]

/-- C112. Such messages exist for every key and every repeated block: data that are encrypted to one. -/
theorem C112_forgeries (C : BlockCipher) (c : CipherContext) (hk : c.key.length = 16) (h0 : 0 ≤ c.keyId) (h1 : c.keyId ≤ 255)
    (x : Bytes) (hx : x.length = 16) (r : PadRand) : ∃ d b, c.encrypt C d r = .ok b ∧ c.decrypt C b = .ok d ∧
      48 ≤ leAt b 0 2 ∧ 51 ≤ b.length ∧ block (b.drop 3) 0 = x ∧ block (b.drop 3) 1 = List.replicate 16 0 ∧
      block (b.drop 3) 2 = x := by
  have hz : (List.replicate 16 (0 : UInt8)).length = 16 := rfl
  have hdx := C.dec_length _ _ hk hx
  have hdz := C.dec_length _ _ hk hz
  let p0 := xorBytes (C.dec c.key x) c.key
  let p1 := xorBytes (C.dec c.key (List.replicate 16 0)) x
  let p2 := xorBytes (C.dec c.key x) (List.replicate 16 0)
  have l0 : p0.length = 16 := xorBytes_length16 _ _ hdx hk
  have l1 : p1.length = 16 := xorBytes_length16 _ _ hdz hx
  have l2 : p2.length = 16 := xorBytes_length16 _ _ hdx hz
  have hd : (p0 ++ (p1 ++ p2)).length = 48 := by simp only [List.length_append]; omega
  obtain ⟨b, hb⟩ := (C30_encrypt_outcome C c (p0 ++ (p1 ++ p2)) r).2.2 (by omega) h0 h1 hk
  obtain ⟨hl, hle, _, pad, _, _, hc⟩ := C30_encrypt_shape C c _ r b hb
  have hpl : paddedLength 48 = 64 := rfl
  rw [hd, hpl] at hl
  have hlen := hc.len_eq
  rw [List.length_drop] at hlen
  have b0 : block (b.drop 3) 0 = x := by
    rw [hc.first (by omega), List.append_assoc, List.append_assoc, block_append_zero _ _ l0]
    show C.enc c.key (xorBlock (xorBlock (C.dec c.key x) c.key) c.key) = x
    rw [xorBlock_cancel _ _ (by omega), C.enc_dec _ _ hk hx]
  have b1 : block (b.drop 3) 1 = List.replicate 16 0 := by
    rw [hc.next 0 (by omega), b0, List.append_assoc, List.append_assoc,
      show (0 + 1 : Nat) = 1 + 0 from rfl, drop_append_block _ _ 1 (by omega), List.append_assoc, block_append_zero _ _ l1]
    show C.enc c.key (xorBlock (xorBlock (C.dec c.key (List.replicate 16 0)) x) x) = _
    rw [xorBlock_cancel _ _ (by omega), C.enc_dec _ _ hk hz]
  have b2 : block (b.drop 3) 2 = x := by
    rw [hc.next 1 (by omega), b1, List.append_assoc, List.append_assoc,
      show (1 + 1 : Nat) = 1 + 1 from rfl, drop_append_block _ _ 1 (by omega), List.append_assoc,
      show (1 : Nat) = 1 + 0 from rfl, drop_append_block _ _ 1 (by omega), block_append_zero _ _ l2]
    show C.enc c.key (xorBlock (xorBlock (C.dec c.key x) (List.replicate 16 0)) (List.replicate 16 0)) = _
    rw [xorBlock_cancel _ _ (by rw [hdx, hz]; omega), C.enc_dec _ _ hk hx]
  exact ⟨_, b, hb, C29_decrypt_encrypt C c _ r b hb, by omega, by omega, b0, b1, b2⟩

/-- A forgery under a key of AES-128, and the key found from the data it is decrypted to. -/
example : ∃ d b, (⟨1, [3, 1, 4, 1, 5, 9, 2, 6, 5, 3, 5, 8, 9, 7, 9, 3]⟩ : CipherContext).decrypt aes128 b = .ok d ∧
    xorBytes (block d 0) (block d 2) = [3, 1, 4, 1, 5, 9, 2, 6, 5, 3, 5, 8, 9, 7, 9, 3] := by
  obtain ⟨d, b, _, h, hn, hl, h0, h1, h2⟩ := C112_forgeries aes128
    ⟨1, [3, 1, 4, 1, 5, 9, 2, 6, 5, 3, 5, 8, 9, 7, 9, 3]⟩ rfl (by decide) (by decide) (List.replicate 16 9) rfl (fun _ => 0)
  exact ⟨d, b, h, C112_key_revealed aes128 _ b d h hn hl h1 (h2.trans h0.symm)⟩

end Elgas
