import Verif.Props.Damage
/-!
C81: one byte of a request is changed, lost or added on the wire.
-/
namespace Elgas
open Spec

/-! ### Helpers -/

/-- Without an end character, it is the end character that is gone. -/
theorem damaged_open {G arrived : Bytes} (hd : Damaged (escBytes G ++ [0x0D]) arrived) (h : 0x0D ∉ arrived) :
    ∃ X, arrived = escBytes G ++ X := by
  generalize hl : escBytes G ++ [0x0D] = line at hd
  cases hd with
  | changed before b v after hv =>
    rcases eq_nil_or_snoc after with rfl | ⟨init, last, rfl⟩
    · obtain ⟨rfl, _⟩ := List.append_inj' hl rfl
      exact ⟨_, rfl⟩
    · rw [show before ++ b :: (init ++ [last]) = (before ++ b :: init) ++ [last] by simp] at hl
      obtain ⟨_, h2⟩ := List.append_inj' hl rfl
      cases h2
      exact absurd (by simp) h
  | lost before b after =>
    rcases eq_nil_or_snoc after with rfl | ⟨init, last, rfl⟩
    · obtain ⟨rfl, _⟩ := List.append_inj' hl rfl
      exact ⟨[], by simp⟩
    · rw [show before ++ b :: (init ++ [last]) = (before ++ b :: init) ++ [last] by simp] at hl
      obtain ⟨_, h2⟩ := List.append_inj' hl rfl
      cases h2
      exact absurd (by simp) h
  | added before v after =>
    have : (0x0D : UInt8) ∈ before ++ after := by rw [← hl]; simp
    exact absurd (by simp at this ⊢; rcases this with h | h <;> simp [h]) h

/-- The first line of a damaged line and whatever follows it: if it decodes to an accepted frame at all, to the one
that was sent. -/
theorem damaged_frame {G arrived later l rest F : Bytes} (hG : GoodFrame (G ++ [0x0D]))
    (hlen : 16 ≤ (G ++ [0x0D]).length) (hd : Damaged (escBytes G ++ [0x0D]) arrived)
    (hl : arrived ++ later = l ++ 0x0D :: rest) (hn : 0x0D ∉ l)
    (hF : returnCharacters (l ++ [0x0D]) = .ok F) (hg : GoodFrame F) : F = G ++ [0x0D] := by
  rcases damaged_firstLine hd with h | ⟨w, rest', H, h1, h2, h3, h4, _⟩
  · obtain ⟨X, rfl⟩ := damaged_open hd h
    have hsp : ∃ Y, l = escBytes G ++ Y := by
      rcases List.append_eq_append_iff.1 hl with ⟨Y, rfl, _⟩ | ⟨Y, e1, e2⟩
      · exact ⟨X ++ Y, by simp⟩
      · cases Y with
        | nil => exact ⟨X, by simpa using e1.symm⟩
        | cons y Y =>
          simp only [List.cons_append, List.cons.injEq] at e2
          exact absurd (by rw [e1, ← e2.1]; simp) h
    obtain ⟨Y, rfl⟩ := hsp
    obtain ⟨out, ho⟩ := C03_unescape_line_total Y
    rw [List.append_assoc, decode_append G _ _ ho] at hF
    have hF := Except.ok.inj hF
    subst hF
    have h1 := good_same hG hg (by simp at hlen; omega)
    obtain ⟨_, body, a, b, c, hb, _⟩ := hg
    match out, h1 with
    | [x], _ =>
      have hb : G ++ [x] = (0x02 :: (body ++ [a, b, c])) ++ [0x0D] := by rw [hb]; simp
      rw [(List.append_inj' hb rfl).2]
  · have hw : l = w := by
      rw [h1] at hl
      rw [List.append_assoc] at hl
      exact (line_inj hn h2 hl.symm).1
    subst hw
    rw [h3] at hF
    have hF := Except.ok.inj hF
    subst hF
    rw [turned_rejected h4 hG hg hlen]

theorem request_service {t : EventType} {code : UInt8} (h : requestCode t = some code) : code.toNat ∈ services := by
  cases t <;> first | (cases h; decide) | cases h

theorem reads_service {code : UInt8} {b : Bytes} {x : Asked} (h : Reads code b x) : code.toNat ∈ services := by
  cases h <;> decide

/-- A request is, on the wire, a frame of one of the two types. -/
theorem carries_good {C : BlockCipher} {key : Option (UInt8 × Bytes)} {code : UInt8} {body line : Bytes}
    (hs : code.toNat ∈ services) (h : Carries C key 0x84 code body line) :
    ∃ G, line = escBytes G ++ [0x0D] ∧ GoodFrame (G ++ [0x0D]) ∧ 16 ≤ (G ++ [0x0D]).length := by
  have key' : ∀ ty address data, ty ∈ [(0x84 : UInt8), 0x85, 0x86, 0x87] → address.length = 6 → data.length ≤ 65520 →
      ∃ G, escBytes (frame ty code address data).dropLast ++ [0x0D] = escBytes G ++ [0x0D] ∧
        GoodFrame (G ++ [0x0D]) ∧ 16 ≤ (G ++ [0x0D]).length := by
    intro ty address data h1 h2 h3
    have he : (frame ty code address data).dropLast ++ [0x0D] = frame ty code address data := by
      unfold frame
      dsimp only
      rw [List.dropLast_append_of_ne_nil (by simp)]
      simp
    refine ⟨_, rfl, ?_, ?_⟩
    · rw [he]; exact good_frame h1 hs h2 h3
    · rw [he]; simp [frame, frameBody, h2]; omega
  obtain ⟨address, data, h1, h2, h3⟩ := h
  cases key with
  | none =>
    dsimp only at h3
    obtain ⟨_, rfl⟩ := h3
    exact key' _ _ _ (by simp) h1 h2
  | some p =>
    dsimp only at h3
    obtain ⟨_, rfl⟩ := h3
    exact key' _ _ _ (by decide) h1 h2

/-- What the client hands over is a line with a frame the library itself would accept. -/
theorem handed_good {C : BlockCipher} {ca : ConnArgs} {D : Device} (hx : createCipherContext ca = contextOf D.key)
    (ks : List Call) : ∀ s : Sys, Reachable C ca s.conn → ∃ ws, (calls C s ks).2.handed = s.handed ++ ws ∧
      ∀ w ∈ ws, ∃ G, w = escBytes G ++ [0x0D] ∧ GoodFrame (G ++ [0x0D]) ∧ 16 ≤ (G ++ [0x0D]).length := by
  induction ks with
  | nil => intro s _; exact ⟨[], by simp [calls], by simp⟩
  | cons k ks ih =>
    intro s hs
    obtain ⟨_, h2, ws, h3, h4, _⟩ := call_effect (fun _ w => ∃ G, w = escBytes G ++ [0x0D] ∧ GoodFrame (G ++ [0x0D]) ∧
        16 ≤ (G ++ [0x0D]).length) s s.password hs rfl (fun c e j w hc hw => by
          obtain ⟨code, body, g1, _, g3⟩ := send_carries hc hw hx
          exact carries_good (request_service g1) g3) k
    obtain ⟨ws', g1, g2⟩ := ih (call C s k).2 h2
    refine ⟨ws ++ ws', by show (calls C (call C s k).2 ks).2.handed = _; rw [g1, h3, List.append_assoc], fun w hw => ?_⟩
    rcases List.mem_append.1 hw with hw | hw
    · obtain ⟨_, _, h⟩ := h4 w hw; exact h
    · exact g2 w hw

/-! ### Claims -/

/-- C81. One byte of a line a client hands over is changed, lost or added, and anything may follow. If the device finds
a question in the first line that arrives, however leniently it undoes the escaping, it is one it finds in the line as
it was handed over. -/
theorem C81_request (C : BlockCipher) (a : ClientArgs) (sends : List (Res Unit)) (recvs : List (Res Bytes))
    (rands : Nat → Rand) (s : Sys) (hm : mkClient a sends recvs rands = .ok s)
    (D : Device) (hd : D.Ok) (hk : SharesKey a D) (ks : List Call)
    (w : Bytes) (hw : w ∈ (calls C s ks).2.handed) (arrived later l rest : Bytes) (hdam : Damaged w arrived)
    (hl : arrived ++ later = l ++ 0x0D :: rest) (hn : 0x0D ∉ l) (y : Asked)
    (hy : Understands C D (l ++ [0x0D]) y) : Finds C D w y := by
  obtain ⟨h1, _, _, _, _, _, h8⟩ := mkClient_start (C := C) hm
  obtain ⟨ws, g1, g2⟩ := handed_good (shares_context hk hd.key rfl) ks s h1
  rw [g1, h8, List.nil_append] at hw
  obtain ⟨G, rfl, hG, hlen⟩ := g2 w hw
  obtain ⟨line', F, u1, u2, hf⟩ := hy
  have hf' := hf
  obtain ⟨code, body, hc, hr⟩ := hf
  obtain ⟨G', rfl, hG', _⟩ := carries_good (reads_service hr) hc
  have e1 := returnCharacters_of_units _ _ u1
  have e2 := returnCharacters_of_units _ _ u2
  rw [decode_end G'] at e2
  have e2 := Except.ok.inj e2
  subst e2
  have := damaged_frame hG hlen hdam hl hn e1 hG'
  rw [← (List.append_inj' this rfl).1]
  exact hf'

/-- C81. So the device, if it does anything at all, does what the call that wrote the line asked for. -/
theorem C81_meaning (C : BlockCipher) (a : ClientArgs) (sends : List (Res Unit)) (recvs : List (Res Bytes))
    (rands : Nat → Rand) (s : Sys) (hm : mkClient a sends recvs rands = .ok s) (hr : ∀ i, PadOk (rands i).pw)
    (h6 : a.password.length = 6) (D : Device) (hd : D.Ok) (hk : SharesKey a D) (ks : List Call)
    (hks : ∀ k ∈ ks, k.InRange) :
    Written (fun k w => ∃ x, Means a.password k x ∧ ∀ arrived later l rest y, Damaged w arrived →
      arrived ++ later = l ++ 0x0D :: rest → 0x0D ∉ l → Understands C D (l ++ [0x0D]) y → y = x)
      ks (calls C s ks).2.handed := by
  have h := C79_understood C a sends recvs rands s hm hr h6 D hd hk ks hks
  have hq := C81_request C a sends recvs rands s hm D hd hk ks
  generalize (calls C s ks).2.handed = ws at h hq
  clear hm hks
  induction h with
  | nil => exact .nil
  | call k ks ws rest i1 i2 _ ih =>
    refine .call k ks ws rest (fun w hw => ?_) i2 (ih fun w hw => hq w (by simp [hw]))
    obtain ⟨x, hx, hf⟩ := i1 w hw
    exact ⟨x, hx, fun arrived later l rest y g1 g2 g3 g4 =>
      (hf y).1 (hq w (by simp [hw]) arrived later l rest g1 g2 g3 y g4)⟩

/-- The body of a request for 27 records of archive 0, from record 5 on. -/
def exBody : Bytes := [0x30, 0x30, 0x30, 0x30, 0x30, 0x30, 0x21, 0x03, 0x61, 0x62, 0x00, 0x05, 0x00, 0x00, 0x00, 0x1B, 0x00]

/-- That request on the wire. -/
def exRequest : Bytes := escBytes (frame 0x84 0x7C [0, 0, 0, 0, 0, 0] exBody).dropLast ++ [0x0D]

-- a client hands it over
example : ∃ s, mkClient exArgs [.ok ()] [] (fun _ => ⟨('a', 'b'), fun _ => 0⟩) = .ok s ∧
    exRequest ∈ (calls idCipher s [.readArchive 0 27 5]).2.handed := ⟨_, rfl, by decide +kernel⟩

theorem exRequest_found : Finds idCipher (exDevice none (List.replicate 6 0x30)) exRequest
    (.archive (List.replicate 6 0x30) 0 27 5) :=
  ⟨0x7C, exBody, ⟨[0, 0, 0, 0, 0, 0], exBody, rfl, by decide, rfl, rfl⟩, Reads.archive exBody rfl⟩

-- one half of the pair 0x1B 0x1B is lost: still understood, and as the same request
example : Damaged exRequest (exRequest.eraseIdx 27) ∧
    exRequest.eraseIdx 27 ++ exRequest = (exRequest.eraseIdx 27).dropLast ++ 0x0D :: exRequest ∧
    0x0D ∉ (exRequest.eraseIdx 27).dropLast ∧ (exRequest.eraseIdx 27).dropLast ++ [0x0D] ≠ exRequest ∧
    Understands idCipher (exDevice none (List.replicate 6 0x30)) ((exRequest.eraseIdx 27).dropLast ++ [0x0D])
      (.archive (List.replicate 6 0x30) 0 27 5) := by
  refine ⟨.lost (exRequest.take 27) 0x1B (exRequest.drop 28), by decide +kernel, by decide +kernel, by decide +kernel,
    exRequest, frame 0x84 0x7C [0, 0, 0, 0, 0, 0] exBody, ?_, ?_, exRequest_found⟩
  · exact returnCharacters_units _ _ (by decide +kernel)
  · exact returnCharacters_units _ _ (by decide +kernel)

end Elgas
