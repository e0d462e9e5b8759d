import Verif.Props.History
import Verif.Spec.Codes
/-!
C10, C26, C27, C58: the numbers of services, archives, protocols and object types.
-/
namespace Elgas
open Spec

/-- C10. The fourth byte of a request or response frame is the number of its service. -/
theorem C10_service_byte (ty : UInt8) (f : Frame) (b : Bytes)
    (h : requestToBytes ty f = .ok b ∨ responseToBytes ty f = .ok b) :
    (leAt b 3 1, f.service) ∈ serviceCodes := by
  have hb : ∃ t, b = 0x02 :: 0xFE :: ty :: UInt8.ofNat f.service.value :: t := by
    rcases h with h | h
    · rw [C10_request_layout ty f b h]; exact ⟨_, rfl⟩
    · rw [C10_response_layout ty f b h]; exact ⟨_, rfl⟩
  obtain ⟨t, rfl⟩ := hb
  have e : leAt (0x02 :: 0xFE :: ty :: UInt8.ofNat f.service.value :: t) 3 1 = f.service.value := by
    rw [fromLE_leAt]
    simp only [List.drop_succ_cons, List.drop_zero, List.take_succ_cons, List.take_zero, fromLE]
    cases f.service <;> rfl
  rw [e]
  cases f.service <;> decide

example : requestToBytes 0x84 ⟨.readDeviceTime, 1, 2, 3, 4, []⟩ =
    .ok [0x02, 0xFE, 0x84, 0x6C, 0x0F, 0, 0, 1, 2, 0, 3, 4, 0x1D, 0x07, 0x1B, 0x0D] ∧
    (0x6C, ServiceNumber.readDeviceTime) ∈ serviceCodes := by decide +kernel

/-- C10. A frame is decoded to the service of its fourth byte. -/
theorem C10_service_decoded (ty : UInt8) (f : Frame) (b : Bytes) (h : frameFromBytes ty b = .ok f) :
    (leAt b 3 1, f.service) ∈ serviceCodes := by
  have h := (frameFromBytes_iff.1 h).service_ok
  have e : leAt b 3 1 = fromLE ((b.take 4).drop 3) := by
    rw [fromLE_leAt, List.drop_take]
  rw [e]
  unfold ServiceNumber.ofValue at h
  split at h
  · next s hs =>
    injection h with h
    subst h
    have := List.find?_some hs
    rw [beq_iff_eq] at this
    rw [← this]
    cases f.service <;> decide
  · cases h

/-- C26. The archive of an archive response is that of its first byte. -/
theorem C26_archive (b : Bytes) :
    (∀ r, ReadArchiveResponse.fromBytes b = .ok r → (leAt b 0 1, r.archive) ∈ archiveCodes) ∧
    (∀ r, ReadArchiveByTimeResponse.fromBytes b = .ok r → (leAt b 0 1, r.archive) ∈ archiveCodes) := by
  have key : ∀ (x : UInt8) (a : Archive), Archive.ofValue x.toNat = .ok a → (x.toNat, a) ∈ archiveCodes := by
    intro x a h
    rw [← archive_ofValue_ok h]
    cases a <;> decide
  cases b with
  | nil => exact ⟨fun r h => (by cases h), fun r h => (by cases h)⟩
  | cons x t =>
    have hg : pyGet (x :: t) 0 = .ok x := rfl
    have hx : leAt (x :: t) 0 1 = x.toNat := by
      rw [fromLE_leAt]; simp [fromLE]
    rw [hx]
    constructor
    all_goals
      intro r h
      first
        | unfold ReadArchiveResponse.fromBytes at h
        | unfold ReadArchiveByTimeResponse.fromBytes at h
      rw [hg, bind_ok, bind_eq_ok] at h
      obtain ⟨a, ha, h⟩ := h
      injection h with h
      subst h
      exact key x a ha

example : ReadArchiveResponse.fromBytes [3, 1, 0, 0, 0, 9] = .ok ⟨.daily, 1, [9]⟩ ∧
    (3, Archive.daily) ∈ archiveCodes := by decide

/-- C27. The protocol of a call is that of byte 54. -/
theorem C27_protocol (b : Bytes) (c : CallRequest) (h : CallRequest.fromBytes b = .ok c) :
    (leAt b 54 1, c.protocol) ∈ protocolCodes := by
  obtain ⟨h1, h2, h3, h4⟩ := (C27_outcome b).2.1 ⟨c, h⟩
  obtain ⟨c', hc, hl⟩ := C27_fields b h1 h2 h3 h4
  rw [hc] at h
  injection h with h
  subst h
  rw [← hl.protocol]
  cases c'.protocol <;> decide

/-- C27. The reply to a call: for addresses in range, a response frame for the service "call" around a
`CallResponse` is a frame with an empty body. -/
theorem C27_reply (q : CallResponse) (da1 da2 sa1 sa2 : Int) (h1 : 0 ≤ da1 ∧ da1 ≤ 65535) (h2 : 0 ≤ da2 ∧ da2 ≤ 255)
    (h3 : 0 ≤ sa1 ∧ sa1 ≤ 65535) (h4 : 0 ≤ sa2 ∧ sa2 ≤ 255) :
    (q.toBytes >>= fun data => responseToBytes 0x86 { service := .call, da1, da2, sa1, sa2, data }) =
      .ok (frame 0x86 0x87
        (le2 da1.toNat ++ [UInt8.ofNat da2.toNat] ++ le2 sa1.toNat ++ [UInt8.ofNat sa2.toNat]) []) := by
  unfold CallResponse.toBytes
  rw [bind_ok]
  obtain ⟨b, hb⟩ := (C14_response_range 0x86 { service := .call, da1, da2, sa1, sa2, data := [] }).1.2
    ⟨h1, h2, h3, h4, Nat.zero_le _⟩
  rw [hb, C10_response_layout _ _ _ hb]
  rfl

example : (CallResponse.toBytes {} >>= fun data => responseToBytes 0x86 ⟨.call, 1, 2, 3, 4, data⟩) =
    .ok [0x02, 0xFE, 0x86, 0x87, 0x0F, 0, 1, 0, 2, 3, 0, 4, 0xF4, 0x24, 0xCE, 0x0D] := by decide +kernel

/-- C58. A type byte stands for the object type listed under it, and for none if it is not listed. -/
theorem C58_type_numbers (b : UInt8) (t : ObjType) : ObjType.ofByte b = .ok t ↔ (b.toNat, t) ∈ objectCodes := by
  rw [(C58_type_byte b).1 t]
  constructor
  · intro h; rw [← h]; cases t <;> decide
  · have : ∀ p ∈ objectCodes, p.2.value = p.1 := by decide
    exact fun h => this _ h

example : ObjType.ofByte 31 = .ok .BINARY ∧ (31, ObjType.BINARY) ∈ objectCodes := by decide

end Elgas
