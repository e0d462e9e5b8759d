import Verif.Model.Security
import Verif.Lemmas.List
import Verif.Spec.Cbc
/-! CBC mode of the model against its specification. -/
namespace Elgas
open Spec

theorem xorBlock_length (a b : Bytes) : (xorBlock a b).length = min a.length b.length := by
  simp [xorBlock]

theorem xorBlock_cancel (a b : Bytes) (h : a.length ≤ b.length) : xorBlock (xorBlock a b) b = a := by
  induction a generalizing b with
  | nil => simp [xorBlock]
  | cons x a ih =>
    cases b with
    | nil => simp at h
    | cons y b =>
      simp only [xorBlock, List.zipWith_cons_cons, List.cons.injEq]
      refine ⟨?_, ih b (by simpa using h)⟩
      rw [UInt8.xor_assoc, UInt8.xor_self, UInt8.xor_zero]

theorem cbcOf_nil (enc : Bytes → Bytes) (iv : Bytes) : CbcOf enc iv [] [] :=
  ⟨rfl, rfl, by simp, by simp⟩

theorem block_append_zero (a b : Bytes) (h : a.length = 16) : block (a ++ b) 0 = a := by
  have := List.take_left (l₁ := a) (l₂ := b)
  rw [h] at this
  simpa [block] using this

theorem block_append_succ (a b : Bytes) (h : a.length = 16) (i : Nat) :
    block (a ++ b) (i + 1) = block b i := by
  unfold block
  rw [List.drop_append, List.drop_of_length_le (by omega), List.nil_append, h,
    show 16 * (i + 1) - 16 = 16 * i by omega]

theorem cbcOf_append (enc : Bytes → Bytes) (iv p0 p c0 c : Bytes) (hp : p0.length = 16)
    (hc : c0.length = 16) :
    CbcOf enc iv (p0 ++ p) (c0 ++ c) ↔ c0 = enc (xorBytes p0 iv) ∧ CbcOf enc c0 p c := by
  constructor
  · rintro ⟨h1, h2, h3, h4⟩
    have h3' := h3 (by simp; omega)
    rw [block_append_zero _ _ hc, block_append_zero _ _ hp] at h3'
    refine ⟨h3', by simpa [hp, hc] using h1, by simpa [hp] using h2, ?_, ?_⟩
    · intro h
      have := h4 0 (by simp [hp]; omega)
      rwa [block_append_succ _ _ hc, block_append_succ _ _ hp, block_append_zero _ _ hc] at this
    · intro i h
      have := h4 (i + 1) (by simp [hp]; omega)
      rwa [block_append_succ _ _ hc, block_append_succ _ _ hp, block_append_succ _ _ hc] at this
  · rintro ⟨h0, h1, h2, h3, h4⟩
    refine ⟨by simp [hp, hc, h1], by simp [hp, h2], ?_, ?_⟩
    · intro _
      rw [block_append_zero _ _ hc, block_append_zero _ _ hp, h0]
    · intro i h
      rw [block_append_succ _ _ hc, block_append_succ _ _ hp]
      cases i with
      | zero =>
        rw [block_append_zero _ _ hc]
        exact h3 (by simp [hp] at h; omega)
      | succ i =>
        rw [block_append_succ _ _ hc]
        exact h4 i (by simp [hp] at h; omega)

theorem cbcEncrypt_spec (C : BlockCipher) (key : Bytes) (hk : key.length = 16) (n : Nat)
    (iv p : Bytes) (hiv : iv.length = 16) (hp : p.length = 16 * n) :
    CbcOf (C.enc key) iv p (cbcEncrypt C key n iv p) := by
  induction n generalizing iv p with
  | zero =>
    have : p = [] := List.length_eq_zero_iff.1 (by omega)
    subst this; exact cbcOf_nil _ _
  | succ n ih =>
    have h16 : (p.take 16).length = 16 := by simp; omega
    have hx : (xorBlock (p.take 16) iv).length = 16 := by rw [xorBlock_length]; omega
    have hc := C.enc_length key _ hk hx
    have := (cbcOf_append (C.enc key) iv (p.take 16) (p.drop 16)
      (C.enc key (xorBlock (p.take 16) iv))
      (cbcEncrypt C key n (C.enc key (xorBlock (p.take 16) iv)) (p.drop 16)) h16 hc).2
      ⟨rfl, ih _ _ hc (by simp; omega)⟩
    rw [List.take_append_drop] at this
    exact this

theorem cbcDecrypt_unique (C : BlockCipher) (key : Bytes) (hk : key.length = 16) (n : Nat)
    (iv p c : Bytes) (hiv : iv.length = 16) (hp : p.length = 16 * n)
    (h : CbcOf (C.enc key) iv p c) : cbcDecrypt C key n iv c = p := by
  induction n generalizing iv p c with
  | zero =>
    have : p = [] := List.length_eq_zero_iff.1 (by omega)
    subst this; rfl
  | succ n ih =>
    have hcl := h.len_eq
    have h16 : (p.take 16).length = 16 := by simp; omega
    have hc16 : (c.take 16).length = 16 := by simp; omega
    have h' := h
    rw [← List.take_append_drop 16 p, ← List.take_append_drop 16 c,
      cbcOf_append _ _ _ _ _ _ h16 hc16] at h'
    obtain ⟨h1, h2⟩ := h'
    simp only [cbcDecrypt]
    rw [ih _ _ _ hc16 (by simp; omega) h2, h1, C.dec_enc key _ hk
      (by rw [show xorBytes = xorBlock from rfl, xorBlock_length]; omega)]
    rw [show xorBytes = xorBlock from rfl, xorBlock_cancel _ _ (by omega), List.take_append_drop]

theorem cbcDecrypt_spec (C : BlockCipher) (key : Bytes) (hk : key.length = 16) (n : Nat)
    (iv c : Bytes) (hiv : iv.length = 16) (hc : c.length = 16 * n) :
    CbcOf (C.enc key) iv (cbcDecrypt C key n iv c) c := by
  induction n generalizing iv c with
  | zero =>
    have : c = [] := List.length_eq_zero_iff.1 (by omega)
    subst this; exact cbcOf_nil _ _
  | succ n ih =>
    have h16 : (c.take 16).length = 16 := by simp; omega
    have hd := C.dec_length key _ hk h16
    have hx : (xorBlock (C.dec key (c.take 16)) iv).length = 16 := by rw [xorBlock_length]; omega
    have := (cbcOf_append (C.enc key) iv (xorBlock (C.dec key (c.take 16)) iv)
      (cbcDecrypt C key n (c.take 16) (c.drop 16)) (c.take 16) (c.drop 16) hx h16).2
      ⟨by rw [show xorBytes = xorBlock from rfl, xorBlock_cancel _ _ (by omega),
            C.enc_dec key _ hk h16], ih _ _ h16 (by simp; omega)⟩
    rw [List.take_append_drop] at this
    exact this

end Elgas
