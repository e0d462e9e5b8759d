import Verif.Lemmas.Frames
namespace Elgas
open Spec

/-- Field values that the wire format can carry. -/
structure Frame.InRange (f : Frame) : Prop where
  da1 : 0 ≤ f.da1 ∧ f.da1 ≤ 65535
  da2 : 0 ≤ f.da2 ∧ f.da2 ≤ 255
  sa1 : 0 ≤ f.sa1 ∧ f.sa1 ≤ 65535
  sa2 : 0 ≤ f.sa2 ∧ f.sa2 ≤ 255
  data : f.data.length ≤ 65520

instance (f : Frame) : Decidable f.InRange :=
  decidable_of_iff ((0 ≤ f.da1 ∧ f.da1 ≤ 65535) ∧ (0 ≤ f.da2 ∧ f.da2 ≤ 255) ∧
    (0 ≤ f.sa1 ∧ f.sa1 ≤ 65535) ∧ (0 ≤ f.sa2 ∧ f.sa2 ≤ 255) ∧ f.data.length ≤ 65520)
    ⟨fun ⟨a, b, c, d, e⟩ => ⟨a, b, c, d, e⟩, fun ⟨a, b, c, d, e⟩ => ⟨a, b, c, d, e⟩⟩

/-- The six address bytes of a response (two-byte addresses little endian). -/
def responseAddress (f : Frame) : Bytes :=
  le2 f.da1.toNat ++ [UInt8.ofNat f.da2.toNat] ++ le2 f.sa1.toNat ++ [UInt8.ofNat f.sa2.toNat]

/-- The six address bytes of a request (two-byte addresses big endian). -/
def requestAddress (f : Frame) : Bytes :=
  be2 f.da1.toNat ++ [UInt8.ofNat f.da2.toNat] ++ be2 f.sa1.toNat ++ [UInt8.ofNat f.sa2.toNat]

theorem ofNat_toNat_u8 (x : UInt8) : UInt8.ofNat x.toNat = x := by simp

theorem appendRedundancy_cons (b : Bytes) :
    appendRedundancy (0x02 :: b) =
      0x02 :: (b ++ [xorAll b, UInt8.ofNat (sumMod b), rotXor b, 0x0D]) := by
  simp only [appendRedundancy, sliceFrom_ofNat, calculateLrc_eq, calculateChecksum_eq,
    calculateDrc_eq, ofNat_toNat_u8, List.drop_succ_cons, List.drop_zero, List.cons_append]

theorem be2_eq {n : Nat} (h : n < 65536) : (leBytes 2 n).reverse = be2 n := by
  rw [leBytes_two, be2, Nat.mod_eq_of_lt (a := n / 256) (by omega)]; rfl

theorem responseToBytes_ok (ty : UInt8) (f : Frame) (h : f.InRange) :
    responseToBytes ty f = .ok (frame ty (UInt8.ofNat f.service.value) (responseAddress f) f.data) := by
  obtain ⟨⟨a1, a2⟩, ⟨b1, b2⟩, ⟨c1, c2⟩, ⟨d1, d2⟩, e⟩ := h
  have hs := service_value_lt f.service
  unfold responseToBytes
  rw [toByte_ok (by omega) (by omega), toBytesLE_ok (x := (f.length : Int)) (by omega)
    (by simp [Frame.length]; omega), toBytesLE_ok a1 (by omega), toByte_ok b1 (by omega),
    toBytesLE_ok c1 (by omega), toByte_ok d1 (by omega)]
  simp only [bind_ok, pure_res, List.cons_append, List.nil_append]
  rw [appendRedundancy_cons, Int.toNat_natCast, Int.toNat_natCast,
    leBytes_two_lt (n := f.length) (by simp [Frame.length]; omega),
    leBytes_two_lt (n := f.da1.toNat) (by omega), leBytes_two_lt (n := f.sa1.toNat) (by omega)]
  have hl : 1 + 1 + 1 + 2 + (responseAddress f).length + f.data.length + 3 + 1 = f.length := by
    simp [responseAddress, le2, Frame.length]; omega
  simp only [frame, frameBody, hl]
  simp [responseAddress, le2]

theorem requestToBytes_ok (ty : UInt8) (f : Frame) (h : f.InRange) :
    requestToBytes ty f = .ok (frame ty (UInt8.ofNat f.service.value) (requestAddress f) f.data) := by
  obtain ⟨⟨a1, a2⟩, ⟨b1, b2⟩, ⟨c1, c2⟩, ⟨d1, d2⟩, e⟩ := h
  have hs := service_value_lt f.service
  unfold requestToBytes
  rw [toByte_ok (by omega) (by omega), toBytesLE_ok (x := (f.length : Int)) (by omega)
    (by simp [Frame.length]; omega), toBytesBE_ok a1 (by omega), toByte_ok b1 (by omega),
    toBytesBE_ok c1 (by omega), toByte_ok d1 (by omega)]
  simp only [bind_ok, pure_res, List.cons_append, List.nil_append]
  rw [appendRedundancy_cons, Int.toNat_natCast, Int.toNat_natCast,
    leBytes_two_lt (n := f.length) (by simp [Frame.length]; omega),
    be2_eq (n := f.da1.toNat) (by omega), be2_eq (n := f.sa1.toNat) (by omega)]
  have hl : 1 + 1 + 1 + 2 + (requestAddress f).length + f.data.length + 3 + 1 = f.length := by
    simp [requestAddress, be2, Frame.length]; omega
  simp only [frame, frameBody, hl]
  simp [requestAddress, be2, le2]

theorem toByte_err {x : Int} (h : ¬ (0 ≤ x ∧ x ≤ 255)) : toByte x = .error .value := by
  unfold toByte; rw [if_neg (by omega)]; rfl
theorem toBytesLE2_err {x : Int} (h : ¬ (0 ≤ x ∧ x ≤ 65535)) : toBytesLE 2 x = .error .overflow := by
  unfold toBytesLE; rw [if_neg (by omega)]; rfl
theorem toBytesBE2_err {x : Int} (h : ¬ (0 ≤ x ∧ x ≤ 65535)) : toBytesBE 2 x = .error .overflow := by
  unfold toBytesBE; rw [if_neg (by omega)]; rfl

theorem frame_length_big {f : Frame} (h1 : ¬ f.data.length ≤ 65520) :
    ¬ (0 ≤ (f.length : Int) ∧ (f.length : Int) ≤ 65535) := by
  have hlen : f.length = f.data.length + 15 := rfl
  generalize f.length = n at *
  omega

theorem frame_length_small {f : Frame} (h1 : f.data.length ≤ 65520) :
    0 ≤ (f.length : Int) ∧ (f.length : Int) < 256 ^ 2 := by
  have hlen : f.length = f.data.length + 15 := rfl
  generalize f.length = n at *
  omega

theorem responseToBytes_error (ty : UInt8) (f : Frame) (h : ¬ f.InRange) :
    responseToBytes ty f = .error .overflow ∨ responseToBytes ty f = .error .value := by
  have hs := service_value_lt f.service
  have hS := @frame_length_small f
  have hB := @frame_length_big f
  unfold responseToBytes
  rw [toByte_ok (by omega) (by omega)]
  generalize (f.length : Int) = L at *
  simp only [bind_ok]
  by_cases h1 : f.data.length ≤ 65520
  · rw [toBytesLE_ok (hS h1).1 (hS h1).2]
    by_cases h2 : 0 ≤ f.da1 ∧ f.da1 ≤ 65535
    · rw [toBytesLE_ok h2.1 (by omega)]
      by_cases h3 : 0 ≤ f.da2 ∧ f.da2 ≤ 255
      · rw [toByte_ok h3.1 (by omega)]
        by_cases h4 : 0 ≤ f.sa1 ∧ f.sa1 ≤ 65535
        · rw [toBytesLE_ok h4.1 (by omega)]
          by_cases h5 : 0 ≤ f.sa2 ∧ f.sa2 ≤ 255
          · exact absurd ⟨h2, h3, h4, h5, h1⟩ h
          · right; rw [toByte_err h5]; simp only [bind_ok, bind_error]
        · left; rw [toBytesLE2_err h4]; simp only [bind_ok, bind_error]
      · right; rw [toByte_err h3]; simp only [bind_ok, bind_error]
    · left; rw [toBytesLE2_err h2]; simp only [bind_ok, bind_error]
  · left
    rw [toBytesLE2_err (hB h1)]; simp only [bind_error]

theorem requestToBytes_error (ty : UInt8) (f : Frame) (h : ¬ f.InRange) :
    requestToBytes ty f = .error .overflow ∨ requestToBytes ty f = .error .value := by
  have hs := service_value_lt f.service
  have hS := @frame_length_small f
  have hB := @frame_length_big f
  unfold requestToBytes
  rw [toByte_ok (by omega) (by omega)]
  generalize (f.length : Int) = L at *
  simp only [bind_ok]
  by_cases h1 : f.data.length ≤ 65520
  · rw [toBytesLE_ok (hS h1).1 (hS h1).2]
    by_cases h2 : 0 ≤ f.da1 ∧ f.da1 ≤ 65535
    · rw [toBytesBE_ok h2.1 (by omega)]
      by_cases h3 : 0 ≤ f.da2 ∧ f.da2 ≤ 255
      · rw [toByte_ok h3.1 (by omega)]
        by_cases h4 : 0 ≤ f.sa1 ∧ f.sa1 ≤ 65535
        · rw [toBytesBE_ok h4.1 (by omega)]
          by_cases h5 : 0 ≤ f.sa2 ∧ f.sa2 ≤ 255
          · exact absurd ⟨h2, h3, h4, h5, h1⟩ h
          · right; rw [toByte_err h5]; simp only [bind_ok, bind_error]
        · left; rw [toBytesBE2_err h4]; simp only [bind_ok, bind_error]
      · right; rw [toByte_err h3]; simp only [bind_ok, bind_error]
    · left; rw [toBytesBE2_err h2]; simp only [bind_ok, bind_error]
  · left
    rw [toBytesLE2_err (hB h1)]; simp only [bind_error]

/-- Acceptance of a byte string laid out as a frame with explicit fields. -/
theorem accepted_frame (ty svc a0 a1 a2 a3 a4 a5 : UInt8) (data : Bytes) (s : ServiceNumber)
    (hs : ServiceNumber.ofValue svc.toNat = .ok s) (hd : data.length ≤ 65520) :
    Accepted ty (frame ty svc [a0, a1, a2, a3, a4, a5] data)
      { service := s, da1 := (a0.toNat + 256 * a1.toNat : Nat), da2 := (a2.toNat : Nat),
        sa1 := (a3.toNat + 256 * a4.toNat : Nat), sa2 := (a5.toNat : Nat), data := data } := by
  generalize hb : frame ty svc [a0, a1, a2, a3, a4, a5] data = b
  generalize hbody : frameBody ty svc [a0, a1, a2, a3, a4, a5] data = body
  have hb' : b = 0x02 :: (body ++ [xorAll body, UInt8.ofNat (sumMod body), rotXor body, 0x0D]) := by
    rw [← hb, ← hbody]; rfl
  generalize hlen : 1 + 1 + 1 + 2 + 6 + data.length + 3 + 1 = len at *
  have hbody' : body = 0xFE :: ty :: svc :: UInt8.ofNat (len % 256) :: UInt8.ofNat (len / 256) ::
      a0 :: a1 :: a2 :: a3 :: a4 :: a5 :: data := by
    rw [← hbody, ← hlen]; rfl
  have hbl : body.length = data.length + 11 := by rw [hbody']; simp
  have hl : b.length = body.length + 5 := by rw [hb']; simp
  have hbt : b.take (b.length - 4) = 0x02 :: body := by
    rw [hl, show body.length + 5 - 4 = body.length + 1 by omega, hb', List.take_succ_cons]
    simp
  have htail : ∀ j, b[b.length - 4 + j]? =
      [xorAll body, UInt8.ofNat (sumMod body), rotXor body, 0x0D][j]? := by
    intro j
    rw [hl, show body.length + 5 - 4 + j = (body.length + j) + 1 by omega, hb',
      List.getElem?_cons_succ, List.getElem?_append_right (by omega)]
    simp
  have hex : b = 0x02 :: 0xFE :: ty :: svc :: UInt8.ofNat (len % 256) :: UInt8.ofNat (len / 256) ::
      a0 :: a1 :: a2 :: a3 :: a4 :: a5 :: (data ++ [xorAll body, UInt8.ofNat (sumMod body),
        rotXor body, 0x0D]) := by
    have happ : ∀ tl, body ++ tl = 0xFE :: ty :: svc :: UInt8.ofNat (len % 256) ::
        UInt8.ofNat (len / 256) :: a0 :: a1 :: a2 :: a3 :: a4 :: a5 :: (data ++ tl) := by
      intro tl; rw [hbody']; rfl
    rw [hb', happ]
  refine { prefix_ok := ?_, suffix_ok := ?_, service_ok := ?_, length_ok := ?_, lrc_ok := ?_,
           checksum_ok := ?_, drc_ok := ?_, fields := ?_, len_ge := by omega }
  · rw [hex]; simp [startsWith_iff]
  · rw [hb', ← List.cons_append]
    rw [show (0x02 :: body) ++ [xorAll body, UInt8.ofNat (sumMod body), rotXor body, 0x0D]
      = ((0x02 :: body) ++ [xorAll body, UInt8.ofNat (sumMod body), rotXor body]) ++ [0x0D] by simp]
    exact endsWith_append_singleton _ _
  · rw [hex]; simpa [fromLE] using hs
  · rw [hl, hbl, hex]
    simp only [List.take_succ_cons, List.drop_succ_cons, List.take_zero, List.drop_zero, fromLE]
    rw [u8_ofNat_toNat_lt (by omega), u8_ofNat_toNat_lt (by omega)]
    omega
  · rw [hbt]; have := htail 0; simpa using this
  · rw [hbt]
    have := htail 1
    rw [show b.length - 4 + 1 = b.length - 3 by omega] at this
    rw [this]
    simp only [List.getElem?_cons_succ, List.getElem?_cons_zero, Option.map_some, List.drop_succ_cons,
      List.drop_zero]
    rw [u8_ofNat_toNat_lt (n := sumMod body) (Nat.mod_lt _ (by omega))]
  · rw [hbt]
    have := htail 2
    rw [show b.length - 4 + 2 = b.length - 2 by omega] at this
    rw [this]; rfl
  · rw [hbt]
    refine ⟨?_, ?_, ?_, ?_, ?_⟩
    · rw [hex]; simp [fromLE]
    · rw [hex]; simp [fromLE]
    · rw [hex]; simp [fromLE]
    · rw [hex]; simp [fromLE]
    · rw [hbody']; rfl

/-- An accepted byte string of at least 16 bytes is a frame with explicit fields. -/
theorem accepted_long {ty : UInt8} {b : Bytes} {f : Frame} (h : Accepted ty b f)
    (hlen : 16 ≤ b.length) :
    ∃ a0 a1 a2 a3 a4 a5 : UInt8,
      b = frame ty (UInt8.ofNat f.service.value) [a0, a1, a2, a3, a4, a5] f.data ∧
      f.da1 = (a0.toNat + 256 * a1.toNat : Nat) ∧ f.da2 = (a2.toNat : Nat) ∧
      f.sa1 = (a3.toNat + 256 * a4.toNat : Nat) ∧ f.sa2 = (a5.toNat : Nat) ∧
      f.data.length ≤ 65520 := by
  obtain ⟨body, l, c, r, hb, hl, hc, hr⟩ := accepted_decomp h
  have hbl : b.length = body.length + 5 := by rw [hb]; simp
  -- split the body into its 11 header bytes and the data
  have hsp : ∃ y0 y1 y2 y3 y4 a0 a1 a2 a3 a4 a5 : UInt8, ∃ data : Bytes,
      body = y0 :: y1 :: y2 :: y3 :: y4 :: a0 :: a1 :: a2 :: a3 :: a4 :: a5 :: data := by
    match body, (show 11 ≤ body.length by omega) with
    | y0 :: y1 :: y2 :: y3 :: y4 :: a0 :: a1 :: a2 :: a3 :: a4 :: a5 :: data, _ =>
      exact ⟨_, _, _, _, _, _, _, _, _, _, _, _, rfl⟩
  obtain ⟨y0, y1, y2, y3, y4, a0, a1, a2, a3, a4, a5, data, hbody⟩ := hsp
  have hex : b = 0x02 :: y0 :: y1 :: y2 :: y3 :: y4 :: a0 :: a1 :: a2 :: a3 :: a4 :: a5 ::
      (data ++ [l, c, r, 0x0D]) := by rw [hb, hbody]; simp
  have hdl : body.length = data.length + 11 := by rw [hbody]; simp
  have hp := startsWith_iff.1 h.prefix_ok
  rw [hex] at hp
  obtain ⟨t, ht⟩ := hp
  simp only [List.cons_append, List.nil_append, List.cons.injEq] at ht
  obtain ⟨_, rfl, rfl, _⟩ := ht
  have hsv := service_ofValue_ok h.service_ok
  have hlf := h.length_ok
  rw [hbl, hdl] at hlf
  rw [hex] at hsv hlf
  simp only [List.take_succ_cons, List.drop_succ_cons, List.take_zero, List.drop_zero, fromLE] at hsv hlf
  have hy2 : y2 = UInt8.ofNat f.service.value := by
    rw [← hsv]; simp
  have hbt : b.take (b.length - 4) = 0x02 :: body := by
    rw [hbl, show body.length + 5 - 4 = body.length + 1 by omega, hb, List.take_succ_cons]
    simp
  obtain ⟨f1, f2, f3, f4, f5⟩ := h.fields
  rw [hbt, hbody] at f5
  rw [hex] at f1 f2 f3 f4
  simp only [List.take_succ_cons, List.drop_succ_cons, List.take_zero, List.drop_zero, fromLE] at f1 f2 f3 f4 f5
  have h3 := y3.toNat_lt
  have h4 := y4.toNat_lt
  refine ⟨a0, a1, a2, a3, a4, a5, ?_, by omega, by omega, by omega, by omega, by rw [f5]; omega⟩
  rw [f5]
  have hlenf : 1 + 1 + 1 + 2 + [a0, a1, a2, a3, a4, a5].length + data.length + 3 + 1
      = y3.toNat + 256 * y4.toNat := by simp; omega
  have hfb : frameBody ty (UInt8.ofNat f.service.value) [a0, a1, a2, a3, a4, a5] data = body := by
    unfold frameBody
    simp only [hlenf]
    rw [show (y3.toNat + 256 * y4.toNat) % 256 = y3.toNat by omega,
      show (y3.toNat + 256 * y4.toNat) / 256 = y4.toNat by omega, ← hy2, hbody]
    simp
  unfold frame
  simp only [hfb]
  rw [hb, hl, hr, ← hc]
  simp

theorem accepted_unique' {ty : UInt8} {b : Bytes} {f : Frame} (h : Accepted ty b f)
    (hlen : 16 ≤ b.length) : f.InRange ∧ responseToBytes ty f = .ok b := by
  obtain ⟨a0, a1, a2, a3, a4, a5, hb, h1, h2, h3, h4, h5⟩ := accepted_long h hlen
  have := a0.toNat_lt; have := a1.toNat_lt; have := a2.toNat_lt
  have := a3.toNat_lt; have := a4.toNat_lt; have := a5.toNat_lt
  have hr : f.InRange := ⟨by omega, by omega, by omega, by omega, h5⟩
  refine ⟨hr, ?_⟩
  rw [responseToBytes_ok ty f hr, hb]
  congr 2
  simp only [responseAddress, h1, h2, h3, h4, Int.toNat_natCast, le2]
  rw [show (a0.toNat + 256 * a1.toNat) % 256 = a0.toNat by omega,
    show (a0.toNat + 256 * a1.toNat) / 256 = a1.toNat by omega,
    show (a3.toNat + 256 * a4.toNat) % 256 = a3.toNat by omega,
    show (a3.toNat + 256 * a4.toNat) / 256 = a4.toNat by omega]
  simp

theorem accepted_response (ty : UInt8) (f : Frame) (h : f.InRange) :
    Accepted ty (frame ty (UInt8.ofNat f.service.value) (responseAddress f) f.data) f := by
  have hs := service_value_lt f.service
  obtain ⟨a, b, c, d, e⟩ := h
  have hacc := accepted_frame ty (UInt8.ofNat f.service.value)
    (UInt8.ofNat (f.da1.toNat % 256)) (UInt8.ofNat (f.da1.toNat / 256)) (UInt8.ofNat f.da2.toNat)
    (UInt8.ofNat (f.sa1.toNat % 256)) (UInt8.ofNat (f.sa1.toNat / 256)) (UInt8.ofNat f.sa2.toNat)
    f.data f.service (by rw [u8_ofNat_toNat_lt hs]; exact service_ofValue_value _) e
  rw [u8_ofNat_toNat_lt (n := f.da1.toNat % 256) (by omega),
    u8_ofNat_toNat_lt (n := f.da1.toNat / 256) (by omega),
    u8_ofNat_toNat_lt (n := f.da2.toNat) (by omega),
    u8_ofNat_toNat_lt (n := f.sa1.toNat % 256) (by omega),
    u8_ofNat_toNat_lt (n := f.sa1.toNat / 256) (by omega),
    u8_ofNat_toNat_lt (n := f.sa2.toNat) (by omega)] at hacc
  have hf : f = {
      service := f.service
      da1 := ((f.da1.toNat % 256 + 256 * (f.da1.toNat / 256) : Nat) : Int),
      da2 := (f.da2.toNat : Int),
      sa1 := ((f.sa1.toNat % 256 + 256 * (f.sa1.toNat / 256) : Nat) : Int),
      sa2 := (f.sa2.toNat : Int), data := f.data } := by
    cases f; simp at *; omega
  rw [← hf] at hacc
  exact hacc

theorem accepted_request (ty : UInt8) (f : Frame) (h : f.InRange) :
    Accepted ty (frame ty (UInt8.ofNat f.service.value) (requestAddress f) f.data)
      { f with da1 := (swapBytes f.da1.toNat : Nat), sa1 := (swapBytes f.sa1.toNat : Nat) } := by
  have hs := service_value_lt f.service
  obtain ⟨a, b, c, d, e⟩ := h
  have hacc := accepted_frame ty (UInt8.ofNat f.service.value)
    (UInt8.ofNat (f.da1.toNat / 256)) (UInt8.ofNat (f.da1.toNat % 256)) (UInt8.ofNat f.da2.toNat)
    (UInt8.ofNat (f.sa1.toNat / 256)) (UInt8.ofNat (f.sa1.toNat % 256)) (UInt8.ofNat f.sa2.toNat)
    f.data f.service (by rw [u8_ofNat_toNat_lt hs]; exact service_ofValue_value _) e
  rw [u8_ofNat_toNat_lt (n := f.da1.toNat % 256) (by omega),
    u8_ofNat_toNat_lt (n := f.da1.toNat / 256) (by omega),
    u8_ofNat_toNat_lt (n := f.da2.toNat) (by omega),
    u8_ofNat_toNat_lt (n := f.sa1.toNat % 256) (by omega),
    u8_ofNat_toNat_lt (n := f.sa1.toNat / 256) (by omega),
    u8_ofNat_toNat_lt (n := f.sa2.toNat) (by omega)] at hacc
  have e1 : f.da1.toNat / 256 + 256 * (f.da1.toNat % 256) = swapBytes f.da1.toNat := by
    unfold swapBytes; omega
  have e2 : f.sa1.toNat / 256 + 256 * (f.sa1.toNat % 256) = swapBytes f.sa1.toNat := by
    unfold swapBytes; omega
  rw [e1, e2, Int.toNat_of_nonneg b.1, Int.toNat_of_nonneg d.1] at hacc
  exact hacc

end Elgas
