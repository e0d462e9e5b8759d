import Verif.Spec.Protocol
import Verif.Lemmas.List
import Verif.Props.Escape
import Verif.Props.Frames
/-! Lemmas about the connection model. -/
namespace Elgas
open Spec

theorem indexEnd_none {b : Bytes} (h : 0x0D ∉ b) : indexEnd b = none := by
  induction b with
  | nil => rfl
  | cons x b ih =>
    have hx : x ≠ 0x0D := fun hx => h (by simp [hx])
    simp [indexEnd, hx, ih (fun hb => h (List.mem_cons_of_mem _ hb))]

theorem indexEnd_line {w : Bytes} (h : 0x0D ∉ w) (rest : Bytes) :
    indexEnd (w ++ 0x0D :: rest) = some w.length := by
  induction w with
  | nil => simp [indexEnd]
  | cons x w ih =>
    have hx : x ≠ 0x0D := fun hx => h (by simp [hx])
    simp [indexEnd, hx, ih (fun hb => h (List.mem_cons_of_mem _ hb))]

theorem line_cases (b : Bytes) : 0x0D ∉ b ∨ ∃ w rest, b = w ++ 0x0D :: rest ∧ 0x0D ∉ w := by
  induction b with
  | nil => simp
  | cons x b ih =>
    by_cases hx : x = 0x0D
    · exact .inr ⟨[], b, by simp [hx], by simp⟩
    · rcases ih with h | ⟨w, rest, h, hw⟩
      · exact .inl (by simp [h, Ne.symm hx])
      · exact .inr ⟨x :: w, rest, by simp [h], by simp [hw, Ne.symm hx]⟩

theorem line_inj {w w' rest rest' : Bytes} (h : 0x0D ∉ w) (h' : 0x0D ∉ w')
    (he : w ++ 0x0D :: rest = w' ++ 0x0D :: rest') : w = w' ∧ rest = rest' := by
  have h1 := indexEnd_line h rest
  rw [he, indexEnd_line h'] at h1
  injection h1 with h1
  obtain ⟨a, b⟩ := List.append_inj he h1.symm
  simp at b
  exact ⟨a, b⟩

theorem nextEvent_none {C : BlockCipher} {c : Conn} (h : 0x0D ∉ c.buffer) :
    c.nextEvent C = (c, .ok none) := by
  unfold Conn.nextEvent
  split
  · rfl
  · rw [indexEnd_none h]

theorem nextEvent_line {C : BlockCipher} {c : Conn} {w rest : Bytes} (h : 0x0D ∉ w)
    (hb : c.buffer = w ++ 0x0D :: rest) :
    c.nextEvent C =
      match c.interpret C (w ++ [0x0D]) with
      | .error e => if e.isValueError then (c, .ok none) else (c, .error e)
      | .ok response =>
        match pduFromResponse response with
        | .error e => (c, .error e)
        | .ok pdu =>
          match processEvent c.state pdu with
          | .error e => (c, .error e)
          | .ok s' => ({ c with state := s', buffer := [] }, .ok (some pdu)) := by
  have hne : c.buffer.isEmpty = false := by rw [hb]; cases w <;> simp
  unfold Conn.nextEvent
  rw [hne, hb, indexEnd_line h]
  have : sliceTo (w ++ 0x0D :: rest) ((w.length : Int) + 1) = w ++ [0x0D] := by
    rw [show ((w.length : Int) + 1) = ((w.length + 1 : Nat) : Int) by omega, sliceTo_nat]
    rw [List.take_append, List.take_of_length_le (by omega)]; simp
  simp only [this, Bool.false_eq_true, if_false]
  rfl

theorem interpret_congr {C : BlockCipher} {c c' : Conn} (h : c.cipherContext = c'.cipherContext)
    (line : Bytes) : c.interpret C line = c'.interpret C line := by
  unfold Conn.interpret; rw [h]

/-! ### Events -/

theorem pdu_decodes {f : Frame} {e : Event} : pduFromResponse f = .ok e ↔ Decodes f.service f.data e := by
  obtain ⟨s, a, b, c, d, data⟩ := f
  unfold pduFromResponse
  constructor
  · intro h
    cases s <;> simp only [raise_def] at h ⊢ <;> try (simp at h; done)
    all_goals
      rw [map_eq_ok] at h
      obtain ⟨p, hp, rfl⟩ := h
    all_goals first
      | exact .values _ _ hp | exact .writeTime _ _ hp | exact .time _ _ hp
      | exact .parameters _ _ hp | exact .archive _ _ hp | exact .archiveByTime _ _ hp
  · intro h
    cases h <;> simp_all

theorem decodes_type {s : ServiceNumber} {d : Bytes} {e : Event} (h : Decodes s d e) :
    serviceOf e.type = some s := by
  cases h <;> rfl

theorem processEvent_iff (s s' : PState) (e : Event) :
    processEvent s e = .ok s' ↔
      (s = .idle ∧ ∃ u, responseOf e.type = some u ∧ awaits s' = some u) ∨
      (awaits s = some e.type ∧ s' = .idle) := by
  unfold processEvent
  generalize e.type = t
  cases s <;> cases t <;> cases s' <;> simp [transitions, responseOf, awaits]

theorem processEvent_error (s : PState) (e : Event) (h : ∀ s', processEvent s e ≠ .ok s') :
    processEvent s e = .error (.elgas .localProtocol) := by
  unfold processEvent at *
  split
  · next s' hs => rw [hs] at h; exact absurd rfl (h s')
  · rfl

theorem awaits_none {s : PState} : awaits s = none ↔ s = .idle := by
  cases s <;> simp [awaits]

theorem awaits_inj {s s' : PState} (h : awaits s = awaits s') : s = s' := by
  cases s <;> cases s' <;> simp_all [awaits]

theorem response_not_request {s : PState} {t : EventType} (h : awaits s = some t) :
    responseOf t = none := by
  cases s <;> simp [awaits] at h <;> subst h <;> rfl

/-! ### Interpretation of a line -/

theorem raiseError_single (b : UInt8) :
    (OneBit b → ∃ k, k < 8 ∧ b.toNat = 2 ^ k ∧ ∃ e, errorOfBit k = some e ∧
      raiseError [b] = .error (.elgas e)) ∧
    (¬ OneBit b → raiseError [b] = .ok ()) := by
  have hg : pyGet [b] 0 = .ok b := pyGet_nat_lt [b] 0 (by simp)
  constructor
  · rintro ⟨k, hk, hb⟩
    refine ⟨k, hk, hb, ?_⟩
    unfold raiseError
    rw [hg]
    simp only [bind_ok, hb]
    have : k = 0 ∨ k = 1 ∨ k = 2 ∨ k = 3 ∨ k = 4 ∨ k = 5 ∨ k = 6 ∨ k = 7 := by omega
    rcases this with rfl | rfl | rfl | rfl | rfl | rfl | rfl | rfl <;> exact ⟨_, rfl, by simp⟩
  · intro h
    unfold raiseError
    rw [hg]
    simp only [bind_ok, raise_def, pure_res]
    have hn : ∀ k, k < 8 → b.toNat ≠ 2 ^ k := fun k hk hb => h ⟨k, hk, hb⟩
    have h0 := hn 0 (by omega); have h1 := hn 1 (by omega); have h2 := hn 2 (by omega)
    have h3 := hn 3 (by omega); have h4 := hn 4 (by omega); have h5 := hn 5 (by omega)
    have h6 := hn 6 (by omega); have h7 := hn 7 (by omega)
    simp at h0 h1 h2 h3 h4 h5 h6 h7
    simp [h0, h1, h2, h3, h4, h5, h6, h7]

/-- The result of interpreting a line that delivers data. -/
theorem interpret_delivers {C : BlockCipher} {c : Conn} {line : Bytes} {svc : ServiceNumber}
    {data : Bytes} (h : Delivers C c.cipherContext line svc data) :
    ∃ f : Frame, f.service = svc ∧ f.data = data ∧
      c.interpret C line =
        if data.length = 1 then (raiseError data >>= fun _ => .ok f) else .ok f := by
  obtain ⟨raw, enc, f, h1, h2, h3, h4⟩ := h
  cases enc
  · simp at h4
    refine ⟨f, h3, h4, ?_⟩
    unfold Conn.interpret
    rw [h1, bind_ok, h2, bind_ok]
    simp only [Bool.false_eq_true, if_false, pure_res, bind_ok, h4]
  · simp at h4
    obtain ⟨ctx, hc, hd⟩ := h4
    refine ⟨{ f with data := data }, h3, rfl, ?_⟩
    unfold Conn.interpret
    rw [h1, bind_ok, h2, bind_ok]
    simp only [if_true, hc, hd, pure_res, bind_ok]

theorem interpret_ok {C : BlockCipher} {c : Conn} {line : Bytes} {f : Frame}
    (h : c.interpret C line = .ok f) :
    Delivers C c.cipherContext line f.service f.data ∧
      ∀ b, f.data = [b] → ¬ OneBit b := by
  unfold Conn.interpret at h
  rw [bind_eq_ok] at h
  obtain ⟨raw, h1, h⟩ := h
  rw [bind_eq_ok] at h
  obtain ⟨⟨enc, g⟩, h2, h⟩ := h
  have herr : ∀ f' : Frame,
      (if f'.data.length = 1 then (raiseError f'.data >>= fun _ => .ok f') else .ok f') =
        (.ok f : Res Frame) → f' = f ∧ ∀ b, f.data = [b] → ¬ OneBit b := by
    intro f' hf
    split at hf
    · rw [bind_eq_ok] at hf
      obtain ⟨_, hr, hf⟩ := hf
      simp at hf; subst hf
      refine ⟨rfl, fun b hb ho => ?_⟩
      obtain ⟨k, _, _, e, _, he⟩ := (raiseError_single b).1 ho
      rw [hb, he] at hr; simp at hr
    · next hl =>
      simp at hf; subst hf
      exact ⟨rfl, fun b hb _ => hl (by rw [hb]; rfl)⟩
  cases enc
  · simp only [Bool.false_eq_true, if_false, pure_res, bind_ok] at h
    have := herr g (by simpa using h)
    obtain ⟨rfl, h5⟩ := this
    exact ⟨⟨raw, false, g, h1, h2, rfl, by simp⟩, h5⟩
  · simp only [if_true] at h
    cases hc : c.cipherContext with
    | none => rw [hc] at h; simp at h
    | some ctx =>
      rw [hc] at h
      rw [bind_eq_ok] at h
      obtain ⟨d, hd, h⟩ := h
      simp only [pure_res, bind_ok] at h
      have := herr { g with data := d } h
      obtain ⟨rfl, h5⟩ := this
      exact ⟨⟨raw, true, g, h1, h2, rfl, by simp [hd]⟩, h5⟩

theorem interpret_factory_error {C : BlockCipher} {c : Conn} {line raw : Bytes}
    (h1 : returnCharacters line = .ok raw) (h2 : responseFactory raw = .error .value) :
    c.interpret C line = .error .value := by
  unfold Conn.interpret
  rw [h1, bind_ok, h2]; rfl

end Elgas
