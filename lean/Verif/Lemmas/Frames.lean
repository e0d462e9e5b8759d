import Verif.Model.Frames
import Verif.Spec.Frame
import Verif.Lemmas.Redundancy
namespace Elgas
open Spec

/-! ### Integers and bytes -/

@[simp] theorem leBytes_length (w n : Nat) : (leBytes w n).length = w := by
  induction w generalizing n with
  | zero => rfl
  | succ w ih => simp [leBytes, ih]

theorem u8_ofNat_toNat_lt {n : Nat} (h : n < 256) : (UInt8.ofNat n).toNat = n := by
  simp [UInt8.toNat_ofNat']; omega

theorem fromLE_leBytes (w n : Nat) (h : n < 256 ^ w) : fromLE (leBytes w n) = n := by
  induction w generalizing n with
  | zero => simp at h; simp [leBytes, fromLE, h]
  | succ w ih =>
    rw [leBytes, fromLE, u8_ofNat_toNat_lt (Nat.mod_lt _ (by omega)), ih]
    · omega
    · rw [Nat.pow_succ] at h; exact Nat.div_lt_of_lt_mul (by omega)

theorem fromLE_lt (b : Bytes) : fromLE b < 256 ^ b.length := by
  induction b with
  | nil => simp [fromLE]
  | cons x b ih =>
    simp only [fromLE, List.length_cons, Nat.pow_succ]
    have := x.toNat_lt
    omega

theorem leBytes_fromLE (b : Bytes) : leBytes b.length (fromLE b) = b := by
  induction b with
  | nil => rfl
  | cons x b ih =>
    have := x.toNat_lt
    simp only [List.length_cons, leBytes, fromLE]
    rw [show (x.toNat + 256 * fromLE b) / 256 = fromLE b by omega, ih,
      show (x.toNat + 256 * fromLE b) % 256 = x.toNat by omega, UInt8.ofNat_toNat]

theorem fromLE_inj {a b : Bytes} (hl : a.length = b.length) (h : fromLE a = fromLE b) : a = b := by
  rw [← leBytes_fromLE a, ← leBytes_fromLE b, hl, h]

theorem fromLE_append (a b : Bytes) : fromLE (a ++ b) = fromLE a + 256 ^ a.length * fromLE b := by
  induction a with
  | nil => simp [fromLE]
  | cons x a ih => simp only [List.cons_append, fromLE, ih, List.length_cons, Nat.pow_succ]; grind

theorem toBytesLE_ok {w : Nat} {x : Int} (h0 : 0 ≤ x) (h1 : x < 256 ^ w) :
    toBytesLE w x = .ok (leBytes w x.toNat) := by
  simp [toBytesLE, h0, h1]

theorem toBytesBE_ok {w : Nat} {x : Int} (h0 : 0 ≤ x) (h1 : x < 256 ^ w) :
    toBytesBE w x = .ok (leBytes w x.toNat).reverse := by
  simp [toBytesBE, h0, h1]

theorem toBytesLE_iff {w : Nat} {x : Int} {b : Bytes} :
    toBytesLE w x = .ok b ↔ 0 ≤ x ∧ x < 256 ^ w ∧ b = leBytes w x.toNat := by
  unfold toBytesLE
  split
  · next h => simp [h.1, h.2, eq_comm]
  · next h => simp; intro h1 h2; exact absurd ⟨h1, h2⟩ h

theorem toBytesBE_iff {w : Nat} {x : Int} {b : Bytes} :
    toBytesBE w x = .ok b ↔ 0 ≤ x ∧ x < 256 ^ w ∧ b = (leBytes w x.toNat).reverse := by
  unfold toBytesBE
  split
  · next h => simp [h.1, h.2, eq_comm]
  · next h => simp; intro h1 h2; exact absurd ⟨h1, h2⟩ h

theorem toByte_iff {x : Int} {b : UInt8} :
    toByte x = .ok b ↔ 0 ≤ x ∧ x < 256 ∧ b = UInt8.ofNat x.toNat := by
  unfold toByte
  split
  · next h => simp [h.1, h.2, eq_comm]
  · next h => simp; intro h1 h2; exact absurd ⟨h1, h2⟩ h

theorem toByte_ok {x : Int} (h0 : 0 ≤ x) (h1 : x < 256) : toByte x = .ok (UInt8.ofNat x.toNat) := by
  simp [toByte, h0, h1]

theorem leBytes_two (n : Nat) : leBytes 2 n = [UInt8.ofNat (n % 256), UInt8.ofNat (n / 256 % 256)] :=
  rfl

theorem leBytes_two_lt {n : Nat} (h : n < 65536) : leBytes 2 n = le2 n := by
  rw [leBytes_two, le2, Nat.mod_eq_of_lt (a := n / 256) (by omega)]

/-! ### Services -/

theorem service_value_lt (s : ServiceNumber) : s.value < 256 := by cases s <;> decide

theorem service_ofValue_value (s : ServiceNumber) : ServiceNumber.ofValue s.value = .ok s := by
  cases s <;> rfl

theorem service_ofValue_ok {n : Nat} {s : ServiceNumber} (h : ServiceNumber.ofValue n = .ok s) :
    n = s.value := by
  unfold ServiceNumber.ofValue at h
  split at h
  · next s' h' =>
    have := List.find?_some h'
    simp at this h
    rw [← h, this]
  · simp at h

theorem service_ofValue_error {n : Nat} {e : PyErr} (h : ServiceNumber.ofValue n = .error e) :
    e = .value := by
  unfold ServiceNumber.ofValue at h
  split at h
  · simp at h
  · simp at h; exact h.symm

theorem service_ofValue_mem (n : Nat) :
    (∃ s, ServiceNumber.ofValue n = .ok s) ↔ n ∈ Spec.services := by
  constructor
  · rintro ⟨s, h⟩
    rw [service_ofValue_ok h]
    cases s <;> decide
  · intro h
    simp only [Spec.services, List.mem_cons, List.not_mem_nil, or_false] at h
    rcases h with rfl | rfl | rfl | rfl | rfl | rfl | rfl | rfl | rfl | rfl | rfl | rfl | rfl | rfl <;>
      exact ⟨_, rfl⟩

theorem service_value_inj {s t : ServiceNumber} (h : s.value = t.value) : s = t := by
  have h1 := service_ofValue_value s
  rw [h, service_ofValue_value t] at h1
  injection h1 with h1; exact h1.symm

theorem service_pos (s : ServiceNumber) : 0 < s.value := by cases s <;> decide

/-! ### Decoding -/

/-- What a successful `from_bytes` has checked. -/
structure Accepted (ty : UInt8) (b : Bytes) (f : Frame) : Prop where
  prefix_ok : startsWith b [0x02, 0xFE, ty] = true
  suffix_ok : endsWith b [0x0D] = true
  service_ok : ServiceNumber.ofValue (fromLE ((b.take 4).drop 3)) = .ok f.service
  length_ok : fromLE ((b.take 6).drop 4) + 1 = b.length
  lrc_ok : b[b.length - 4]? = some (xorAll ((b.take (b.length - 4)).drop 1))
  checksum_ok : b[b.length - 3]?.map UInt8.toNat = some (sumMod ((b.take (b.length - 4)).drop 1))
  drc_ok : b[b.length - 2]? = some (rotXor ((b.take (b.length - 4)).drop 1))
  fields : f.da1 = fromLE ((b.take 8).drop 6) ∧ f.da2 = fromLE ((b.take 9).drop 8) ∧
    f.sa1 = fromLE ((b.take 11).drop 9) ∧ f.sa2 = fromLE ((b.take 12).drop 11) ∧
    f.data = (b.take (b.length - 4)).drop 12
  len_ge : 5 ≤ b.length

theorem len_of_service {b : Bytes} {s : ServiceNumber}
    (h : ServiceNumber.ofValue (fromLE ((b.take 4).drop 3)) = .ok s) : 4 ≤ b.length := by
  apply Classical.byContradiction
  intro hlt
  have : (b.take 4).drop 3 = [] := List.drop_of_length_le (by simp; omega)
  rw [this] at h
  have := service_ofValue_ok h
  have := service_pos s
  simp [fromLE] at *
  omega

theorem pyGet_neg4 {b : Bytes} (h : 4 ≤ b.length) : pyGet b (-4) = .ok (b[b.length - 4]'(by omega)) :=
  pyGet_neg_le b 4 (by omega) h
theorem pyGet_neg3 {b : Bytes} (h : 4 ≤ b.length) : pyGet b (-3) = .ok (b[b.length - 3]'(by omega)) :=
  pyGet_neg_le b 3 (by omega) (by omega)
theorem pyGet_neg2 {b : Bytes} (h : 4 ≤ b.length) : pyGet b (-2) = .ok (b[b.length - 2]'(by omega)) :=
  pyGet_neg_le b 2 (by omega) (by omega)

/-- Complete case analysis of `from_bytes`: it accepts exactly when `Accepted` holds and raises
`ValueError` otherwise. -/
theorem frameFromBytes_cases (ty : UInt8) (b : Bytes) :
    (∃ f, frameFromBytes ty b = .ok f ∧ Accepted ty b f) ∨
    (frameFromBytes ty b = .error .value ∧ ∀ f, ¬ Accepted ty b f) := by
  unfold frameFromBytes
  by_cases h1 : startsWith b [0x02, 0xFE, ty] = true
  rotate_left
  · right; exact ⟨by simp [h1], fun f hf => h1 hf.prefix_ok⟩
  by_cases h2 : endsWith b [0x0D] = true
  rotate_left
  · right; exact ⟨by simp [h1, h2], fun f hf => h2 hf.suffix_ok⟩
  cases hs : ServiceNumber.ofValue (fromLE ((b.take 4).drop 3)) with
  | error e =>
    right
    refine ⟨by simp [h1, h2, hs, service_ofValue_error hs], fun f hf => ?_⟩
    have := hf.service_ok; rw [hs] at this; simp at this
  | ok s =>
    have h4 := len_of_service hs
    by_cases h3 : fromLE ((b.take 6).drop 4) + 1 = b.length
    rotate_left
    · right
      refine ⟨?_, fun f hf => h3 hf.length_ok⟩
      have h3' : ((fromLE ((b.take 6).drop 4) : Nat) : Int) ≠ (b.length : Int) - 1 := by omega
      simp [h1, h2, hs, h3']
    have h3' : ((fromLE ((b.take 6).drop 4) : Nat) : Int) = (b.length : Int) - 1 := by omega
    have g4 : b[b.length - 4]? = some (b[b.length - 4]'(by omega)) := List.getElem?_eq_getElem _
    have g3 : b[b.length - 3]? = some (b[b.length - 3]'(by omega)) := List.getElem?_eq_getElem _
    have g2 : b[b.length - 2]? = some (b[b.length - 2]'(by omega)) := List.getElem?_eq_getElem _
    by_cases h5 : (b[b.length - 4]'(by omega)).toNat = calculateLrc ((b.take (b.length - 4)).drop 1)
    rotate_left
    · right
      refine ⟨by simp [-List.drop_one, h1, h2, hs, h3', pyGet_neg4 h4, h5], fun f hf => h5 ?_⟩
      have := hf.lrc_ok
      rw [g4] at this; injection this with this
      rw [calculateLrc_eq, this]
    by_cases h6 : (b[b.length - 3]'(by omega)).toNat
        = calculateChecksum ((b.take (b.length - 4)).drop 1)
    rotate_left
    · right
      refine ⟨by simp [-List.drop_one, h1, h2, hs, h3', pyGet_neg4 h4, pyGet_neg3 h4, h5, h6], fun f hf => h6 ?_⟩
      have := hf.checksum_ok
      rw [g3] at this; injection this with this
      rw [calculateChecksum_eq, this]
    by_cases h7 : (b[b.length - 2]'(by omega)).toNat = calculateDrc ((b.take (b.length - 4)).drop 1)
    rotate_left
    · right
      refine ⟨by simp [-List.drop_one, h1, h2, hs, h3', pyGet_neg4 h4, pyGet_neg3 h4, pyGet_neg2 h4, h5, h6, h7],
        fun f hf => h7 ?_⟩
      have := hf.drc_ok
      rw [g2] at this; injection this with this
      rw [calculateDrc_eq, this]
    left
    refine ⟨_, by simp [-List.drop_one, h1, h2, hs, h3', pyGet_neg4 h4, pyGet_neg3 h4, pyGet_neg2 h4, h5, h6, h7]; rfl,
      ?_⟩
    have h5b : 5 ≤ b.length := by
      rcases Nat.lt_or_ge b.length 5 with hlt | hge
      · exfalso
        have he : (b.take 6).drop 4 = [] := List.drop_of_length_le (by simp; omega)
        rw [he] at h3; simp [fromLE] at h3; omega
      · exact hge
    exact {
      prefix_ok := h1
      suffix_ok := h2
      service_ok := hs
      length_ok := h3
      lrc_ok := by
        rw [g4]; congr 1; apply UInt8.toNat_inj.1; rw [h5, calculateLrc_eq]
      checksum_ok := by rw [g3, Option.map_some, h6, calculateChecksum_eq]
      drc_ok := by
        rw [g2]; congr 1; apply UInt8.toNat_inj.1; rw [h7, calculateDrc_eq]
      fields := by simp
      len_ge := h5b }

theorem frameFromBytes_accepted {ty : UInt8} {b : Bytes} {f : Frame}
    (h : frameFromBytes ty b = .ok f) : Accepted ty b f := by
  rcases frameFromBytes_cases ty b with ⟨g, hg, ha⟩ | ⟨hg, _⟩
  · rw [h] at hg; injection hg with hg; rw [hg]; exact ha
  · rw [h] at hg; simp at hg

theorem accepted_unique {ty : UInt8} {b : Bytes} {f g : Frame} (hf : Accepted ty b f)
    (hg : Accepted ty b g) : f = g := by
  have h1 := hf.service_ok
  rw [hg.service_ok] at h1; injection h1 with h1
  obtain ⟨f1, f2, f3, f4, f5⟩ := hf.fields
  obtain ⟨g1, g2, g3, g4, g5⟩ := hg.fields
  cases f; cases g
  simp at *
  exact ⟨h1.symm, by omega, by omega, by omega, by omega, by rw [f5, g5]⟩

theorem frameFromBytes_iff {ty : UInt8} {b : Bytes} {f : Frame} :
    frameFromBytes ty b = .ok f ↔ Accepted ty b f := by
  constructor
  · exact frameFromBytes_accepted
  · intro h
    rcases frameFromBytes_cases ty b with ⟨g, hg, ha⟩ | ⟨_, hn⟩
    · rw [hg, accepted_unique ha h]
    · exact absurd h (hn f)

/-- An accepted frame is STX, a protected part starting with 0xFE and the type, the three redundancy
bytes of that part and the end character. -/
theorem accepted_decomp {ty : UInt8} {b : Bytes} {f : Frame} (h : Accepted ty b f) :
    ∃ body l c r, b = 0x02 :: (body ++ [l, c, r, 0x0D]) ∧ l = xorAll body ∧
      c.toNat = sumMod body ∧ r = rotXor body := by
  obtain ⟨t, ht⟩ := startsWith_iff.1 h.prefix_ok
  obtain ⟨s, hs⟩ := endsWith_singleton.1 h.suffix_ok
  have hlen := h.len_ge
  -- b = 0x02 :: rest with rest.length ≥ 4
  have hb : b = 0x02 :: (0xFE :: ty :: t) := by rw [← ht]; rfl
  generalize hrest : (0xFE :: ty :: t : Bytes) = rest at hb
  have hrl : b.length = rest.length + 1 := by rw [hb]; rfl
  have hsplit : rest = rest.take (rest.length - 4) ++ rest.drop (rest.length - 4) :=
    (List.take_append_drop _ _).symm
  have hdl : (rest.drop (rest.length - 4)).length = 4 := by simp; omega
  match hd : rest.drop (rest.length - 4), hdl with
  | [l, c, r, e], _ =>
    rw [hd] at hsplit
    have hbody : (b.take (b.length - 4)).drop 1 = rest.take (rest.length - 4) := by
      rw [hrl, hb, show rest.length + 1 - 4 = (rest.length - 4) + 1 by omega]; rfl
    have hg : ∀ j, j < 4 → b[b.length - 4 + j]? = [l, c, r, e][j]? := by
      intro j hj
      rw [hrl, hb, show rest.length + 1 - 4 + j = (rest.length - 4 + j) + 1 by omega,
        List.getElem?_cons_succ, ← List.getElem?_drop, hd]
    have he : e = 0x0D := by
      have h3 := hg 3 (by omega)
      have hl := congrArg List.length hs
      simp only [List.length_append, List.length_singleton] at hl
      rw [show b.length - 4 + 3 = s.length by omega, hs] at h3
      simp at h3; exact h3.symm
    refine ⟨rest.take (rest.length - 4), l, c, r, ?_, ?_, ?_, ?_⟩
    · rw [hb]; congr 1; rw [← he]; exact hsplit
    · have := h.lrc_ok
      rw [hbody] at this
      have h0 := hg 0 (by omega)
      simp only [Nat.add_zero] at h0
      rw [h0] at this; simpa using this
    · have := h.checksum_ok
      rw [hbody] at this
      have h0 := hg 1 (by omega)
      rw [show b.length - 4 + 1 = b.length - 3 by omega] at h0
      rw [h0] at this; simpa using this
    · have := h.drc_ok
      rw [hbody] at this
      have h0 := hg 2 (by omega)
      rw [show b.length - 4 + 2 = b.length - 2 by omega] at h0
      rw [h0] at this; simpa using this

end Elgas
