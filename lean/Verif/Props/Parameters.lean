import Verif.Lemmas.Params
/-!
C56–C60: the parameter parser, the factory and the parameter classes.
-/
namespace Elgas
open Spec

/-! ### C58: dispatch -/

theorem objType_mem_all (t : ObjType) : t ∈ ObjType.all := by cases t <;> decide

theorem objType_value_inj {t u : ObjType} (h : t.value = u.value) : t = u := by
  have : ∀ a ∈ ObjType.all, ∀ b ∈ ObjType.all, a.value = b.value → a = b := by decide +kernel
  exact this t (objType_mem_all t) u (objType_mem_all u) h

/-- C58. A type byte stands for the enumeration member with that value; bytes without member raise
`ValueError`. -/
theorem C58_type_byte (b : UInt8) :
    (∀ t, ObjType.ofByte b = .ok t ↔ t.value = b.toNat) ∧
    (ObjType.ofByte b = .error .value ↔ ∀ t : ObjType, t.value ≠ b.toNat) ∧
    (∀ e, ObjType.ofByte b = .error e → e = .value) := by
  unfold ObjType.ofByte
  cases h : ObjType.all.find? fun t => t.value = b.toNat with
  | none =>
    have h' : ∀ t : ObjType, t.value ≠ b.toNat := by
      intro t ht
      have := List.find?_eq_none.1 h t (objType_mem_all t)
      simp [ht] at this
    refine ⟨fun t => ?_, ?_, fun e he => by cases he; rfl⟩
    · simp [h' t]
    · simpa using h'
  | some u =>
    have hu : u.value = b.toNat := by simpa using List.find?_some h
    refine ⟨fun t => ?_, ?_, fun e he => by cases he⟩
    · constructor
      · intro hh; cases hh; exact hu
      · intro hh; exact congrArg _ (objType_value_inj (hu.trans hh.symm))
    · simp only [reduceCtorEq, false_iff]
      exact fun hh => hh u hu

/-- C58. The factory dispatches every type except `CORRECTION_COUNTER` to the class of that type. -/
theorem C58_dispatch (t : ObjType) :
    (t ≠ .CORRECTION_COUNTER → ∃ c, objectMap t = some c ∧ c.cls = classFor t ∧ c.objectType = t ∧
      ∀ d, parameterFromBytes t d = c.fromBytes d) ∧
    (t = .CORRECTION_COUNTER → ∀ d, parameterFromBytes t d = .error .key) := by
  constructor
  · intro h
    cases t <;> first | exact absurd rfl h | exact ⟨_, rfl, rfl, rfl, fun _ => rfl⟩
  · rintro rfl d; rfl

/-- C58. Defect: `DIFFERENCE_BASE_COUNTER` can never be parsed. -/
theorem C58_difference_base_counter (d : Bytes) :
    parameterFromBytes .DIFFERENCE_BASE_COUNTER d = .error .attribute := rfl

/-- The two classes whose constructor needs arguments `from_bytes` does not pass. -/
theorem deviceError_sym : symBody deviceError = some deviceErrorLayout := by decide +kernel
theorem sumOfAlarms_sym : symBody sumOfAlarms = some sumOfAlarmsLayout := by decide +kernel

theorem values_lookup_none (L : Layout) (d : Bytes) (a : Attr) (h : L.fields.lookup a = none) :
    (L.values d).lookup a = none := by
  have : (L.values d).lookup a = (L.fields.lookup a).map fun l => l.read L.size d := by
    unfold Layout.values
    exact lookup_map_snd (fun l => Loc.read L.size d l) L.fields a
  rw [this, h]; rfl

/-- C58. Defect: `DEVICE_ERROR` and `SUM_OF_ALARMS` can never be parsed: every body of acceptable
length raises `TypeError`. -/
theorem C58_missing_arguments (t : ObjType) (ht : t = .DEVICE_ERROR ∨ t = .SUM_OF_ALARMS) (d : Bytes) :
    ∃ L, layout (classFor t) d = some L ∧ parameterFromBytes t d =
      if L.TooShort d then .error .index
      else if L.TooLong d then .error .assertion
      else .error .type := by
  rcases ht with rfl | rfl
  · refine ⟨deviceErrorLayout, rfl, ?_⟩
    show deviceError.fromBytes d = _
    rw [symBody_sound deviceError_sym d,
      construct_missing (f := .error_bit_order_in_actual_values) (by decide) (values_lookup_none _ _ _ (by decide))]
  · refine ⟨sumOfAlarmsLayout, rfl, ?_⟩
    show sumOfAlarms.fromBytes d = _
    rw [symBody_sound sumOfAlarms_sym d,
      construct_missing (f := .error_bit_order_in_actual_values) (by decide) (values_lookup_none _ _ _ (by decide))]

/-- C58. The schema factory knows exactly the types the parameter factory knows. -/
theorem C58_schemas (t : ObjType) :
    ((∃ s, schemaById t = .ok s) ↔ t ≠ .CORRECTION_COUNTER) ∧
    (t = .CORRECTION_COUNTER → schemaById t = .error .key) := by
  cases t <;> simp [schemaById, schemaMap]

/-! ### Time windows -/

theorem execStmts_simples (E : Env) (ss : List Simple) (rest : List Stmt) (s : Bytes) :
    execStmts E (ss.map Stmt.simple ++ rest) s = (execSimples E ss >>= fun E' => execStmts E' rest) s := by
  induction ss generalizing E s with
  | nil => rfl
  | cons x xs ih =>
    rw [List.map_cons, List.cons_append]
    unfold execStmts execSimples
    rw [pbind_apply, pbind_apply, pbind_apply]
    show (Simple.exec E x s >>= _) = _
    cases hx : Simple.exec E x s with
    | error e => rfl
    | ok r =>
      rw [bind_ok, bind_ok, ih, pbind_apply]
      cases rest <;> rfl

theorem popHexRows_apply (w : Nat) (hw : 2 ≤ w) (d : Bytes) (off n : Nat) (hoff : off ≤ d.length) :
    (off + w * n ≤ d.length → popHexRows w n (d.drop off) =
      .ok ((List.range n).map fun i => hexText (bytesAt d (off + w * i) w), d.drop (off + w * n))) ∧
    (d.length < off + w * n → popHexRows w n (d.drop off) = .error .index) := by
  induction n generalizing off with
  | zero => exact ⟨fun _ => rfl, fun h => by omega⟩
  | succ n ih =>
    have hmul : w * (n + 1) = w + w * n := by rw [Nat.mul_succ]; omega
    unfold popHexRows
    by_cases h1 : off + w ≤ d.length
    · have hc := (popMany_bind_cases hw (fun b => do
        let r ← popHexRows w n
        return toHex b :: r) d off hoff).1 h1
      obtain ⟨ia, ib⟩ := ih (off + w) h1
      constructor
      · intro h
        refine hc.trans ?_
        rw [pbind_apply, ia (by omega), bind_ok, ppure_apply]
        have e1 : off + w + w * n = off + w * (n + 1) := by omega
        rw [e1, List.range_succ_eq_map, List.map_cons, List.map_map, toHex_eq]
        congr 2
        congr 1
        apply List.map_congr_left
        intro i _
        have e2 : off + w + w * i = off + w * (i + 1) := by rw [Nat.mul_succ]; omega
        simp only [Function.comp, e2]
      · intro h
        refine hc.trans ?_
        rw [pbind_apply, ib (by omega), bind_error]
    · have hc := (popMany_bind_cases hw (fun b => do
        let r ← popHexRows w n
        return toHex b :: r) d off hoff).2 (by omega)
      exact ⟨fun h => by omega, fun _ => hc⟩

/-- The straight-line prefix of `TimeWindow.from_bytes` (time_window.py:34-44). -/
def timeWindowPrefix : List Simple := [
  .popInt .number 2, .popInt .id 2, .popInt .bit_order_in_actual_values 2,
  .popInt .bit_order_in_data_archive_record 2, .popInt .bit_order_in_binary_archive_record 2,
  .popByte .bit_control, .flag .in_binary_archive .bit_control 0b00000001,
  .flag .in_data_archive .bit_control 0b00000010, .popText .name 23, .popByte .rows_in_window]

def timeWindowYes : List Simple :=
  [.popByte .action_during_change, .popText .text_log_0 13, .popText .text_log_1 13]
def timeWindowNo : List Simple :=
  [.setNone .action_during_change, .setNone .text_log_0, .setNone .text_log_1]

def timeWindowEnv : SEnv := [
  (.rows_in_window, .uint 34 1), (.name, .text 11 23), (.in_data_archive, .flag 10 1),
  (.in_binary_archive, .flag 10 0), (.bit_control, .uint 10 1),
  (.bit_order_in_binary_archive_record, .uint 8 2), (.bit_order_in_data_archive_record, .uint 6 2),
  (.bit_order_in_actual_values, .uint 4 2), (.id, .uint 2 2), (.number, .uint 0 2)]

def timeWindowTail (n : Nat) : SEnv :=
  [(.text_log_1, .text (49 + 10 * n) 13), (.text_log_0, .text (36 + 10 * n) 13),
   (.action_during_change, .uint (35 + 10 * n) 1)]

theorem timeWindow_body : timeWindow.body = some (timeWindowPrefix.map Stmt.simple ++
    [.popRows .rows .rows_in_window 10, .ifData timeWindowYes timeWindowNo, .assertEmpty]) := by
  decide +kernel

theorem timeWindow_prefix : symSimples [] 0 timeWindowPrefix = some (timeWindowEnv, 35) := by decide +kernel

theorem timeWindow_tail (n : Nat) :
    symTail (35 + 10 * n) timeWindowYes timeWindowNo = some (timeWindowTail n, 27) := by
  have h1 : symSimples [] (35 + 10 * n) timeWindowYes = some (timeWindowTail n, 35 + 10 * n + 27) := by
    have a1 : 35 + 10 * n + 1 = 36 + 10 * n := by omega
    have a2 : 36 + 10 * n + 13 = 49 + 10 * n := by omega
    have a3 : 49 + 10 * n + 13 = 35 + 10 * n + 27 := by omega
    have h13 : 2 ≤ 13 := by omega
    simp only [timeWindowYes, symSimples, symSimple, if_pos h13, a1, a2, a3, timeWindowTail]
  unfold symTail
  rw [h1]
  dsimp only
  rw [if_pos ⟨by omega, by rfl⟩]
  congr 2
  omega

theorem popRows_exec (E : Env) (x c : Attr) (w k : Nat) (s : Bytes) (h : E.get c = .ok (.int k)) :
    (Stmt.popRows x c w).exec E s = (popHexRows w k >>= fun rows => pure ((x, Val.strs rows) :: E) : P Env) s := by
  unfold Stmt.exec
  dsimp only
  rw [bind_plift, h, bind_ok]

theorem getD_none {d : Bytes} (h : d.length ≤ 34) : (d.getD 34 0).toNat = 0 := by
  rw [List.getD_eq_getElem?_getD, List.getElem?_eq_none h]; rfl

theorem timeWindow_outcome (d : Bytes) :
    timeWindow.fromBytes d =
      let L := timeWindowLayout (d.getD 34 0).toNat
      if L.TooShort d then .error .index
      else if L.TooLong d then .error .assertion
      else .ok ⟨.TimeWindow, L.values d⟩ := by
  generalize hn : (d.getD 34 0).toNat = n
  dsimp only
  have hsize : (timeWindowLayout n).size = 35 + 10 * n := rfl
  have htail : (timeWindowLayout n).tail = 27 := rfl
  have hshort : (timeWindowLayout n).TooShort d ↔
      d.length < 35 + 10 * n ∨ (35 + 10 * n < d.length ∧ d.length < 35 + 10 * n + 27) := Iff.rfl
  have hlong : (timeWindowLayout n).TooLong d ↔ 35 + 10 * n + 27 < d.length :=
    ⟨fun h => h.2, fun h => ⟨rfl, h⟩⟩
  unfold ParamClass.fromBytes
  rw [timeWindow_body]
  dsimp only
  rw [run_drop, execStmts_simples, pbind_apply]
  have hp := symSimples_sound (35 + 10 * n) d [] timeWindow_prefix (Nat.zero_le _)
  have e0 : rd (35 + 10 * n) d [] ++ [] = ([] : Env) := rfl
  rw [e0] at hp
  by_cases h35 : 35 ≤ d.length
  · rw [hp.2.1 h35, bind_ok, List.append_nil]
    dsimp only
    unfold execStmts
    rw [pbind_apply]
    have hg : Env.get (rd (35 + 10 * n) d timeWindowEnv) .rows_in_window = .ok (.int n) := by
      have : Env.get (rd (35 + 10 * n) d timeWindowEnv) .rows_in_window = .ok (.int (leAt d 34 1)) := rfl
      rw [this, getD_uint, hn]
    rw [popRows_exec _ _ _ _ n _ hg, pbind_apply]
    obtain ⟨ra, rb⟩ := popHexRows_apply 10 (by omega) d 35 n h35
    by_cases hr : 35 + 10 * n ≤ d.length
    · rw [ra hr, bind_ok, ppure_apply, bind_ok]
      dsimp only
      have hE : (Attr.rows, Val.strs ((List.range n).map fun i => hexText (bytesAt d (35 + 10 * i) 10))) ::
          rd (35 + 10 * n) d timeWindowEnv = rd (35 + 10 * n) d ((.rows, .hexRows 35 n 10) :: timeWindowEnv) := rfl
      rw [hE]
      generalize hS : ((Attr.rows, Loc.hexRows 35 n 10) :: timeWindowEnv) = S
      obtain ⟨_, ta, tb⟩ := symTail_sound d (rd (35 + 10 * n) d S) (timeWindow_tail n) hr
      unfold execStmts
      rw [pbind_apply]
      by_cases hs : 35 + 10 * n < d.length ∧ d.length < 35 + 10 * n + 27
      · rw [ta hs.1 hs.2, if_pos (hshort.2 (Or.inr hs))]
        rfl
      · have hns : ¬ (timeWindowLayout n).TooShort d := fun h => by have := hshort.1 h; omega
        rw [tb (by omega), bind_ok, if_neg hns]
        dsimp only
        unfold execStmts
        rw [pbind_apply]
        generalize hE' : rd (35 + 10 * n) d ((timeWindowTail n).map fun p => (p.1, Loc.optional p.2)) ++
          rd (35 + 10 * n) d S = E'
        have ha : Stmt.assertEmpty.exec E' = (do Elgas.assertEmpty; return E' : P Env) := rfl
        rw [ha, assertEmpty_bind]
        by_cases hl : 35 + 10 * n + 27 < d.length
        · rw [if_neg (c := List.drop _ d = []) (by rw [if_neg (by omega), List.drop_eq_nil_iff]; omega), if_pos (hlong.2 hl)]
          rfl
        · rw [if_pos (c := List.drop _ d = []) (by apply List.drop_eq_nil_of_le; split <;> omega), if_neg (fun h => hl (hlong.1 h)),
            bind_ok]
          have hm : execStmts E' [] = (pure E' : P Env) := rfl
          rw [hm, ppure_apply, map_ok, bind_ok]
          dsimp only
          rw [← hE', ← rd_append]
          have hk : symKwargs (((timeWindowTail n).map fun p => (p.1, Loc.optional p.2)) ++ S) timeWindow.kwargs =
              some (timeWindowLayout n).fields := by subst hS; rfl
          rw [symKwargs_sound (35 + 10 * n) d hk, bind_ok]
          unfold construct
          rw [any_rd (35 + 10 * n) d _ (fun a => !timeWindow.fields.contains a), if_neg]
          · have hf : symFields (timeWindowLayout n).fields timeWindow.fields = some (timeWindowLayout n).fields := rfl
            rw [symFields_sound (35 + 10 * n) d hf]
            rfl
          · have : ∀ L : SEnv, L.any (fun p => !timeWindow.fields.contains p.1) =
                (L.map (·.1)).any (fun a => !timeWindow.fields.contains a) := by
              intro L; rw [List.any_map]; rfl
            rw [this]
            have h3 : (timeWindowLayout n).fields.map (·.1) = timeWindow.fields := rfl
            rw [h3]
            decide
    · rw [rb (by omega), if_pos (hshort.2 (Or.inl (by omega)))]
      rfl
  · rw [hp.2.2 (by omega), if_pos (hshort.2 (Or.inl (by omega)))]
    rfl

/-! ### C59, C60: decoding -/

theorem parsable_sym (t : ObjType) (h : Parsable t) (hw : t ≠ .TIME_WINDOW) :
    ∃ c L, objectMap t = some c ∧ c.cls = classFor t ∧ symClass c = some L ∧ layoutOf (classFor t) = some L := by
  have key : ∀ t ∈ ObjType.all, Parsable t → t ≠ .TIME_WINDOW →
      (match objectMap t, layoutOf (classFor t) with
        | some c, some L => decide (c.cls = classFor t ∧ symClass c = some L)
        | _, _ => false) = true := by decide +kernel
  have := key t (objType_mem_all t) h hw
  cases hc : objectMap t with
  | none => rw [hc] at this; cases this
  | some c =>
    cases hL : layoutOf (classFor t) with
    | none => rw [hc, hL] at this; cases this
    | some L =>
      rw [hc, hL] at this
      have := of_decide_eq_true this
      exact ⟨c, L, rfl, this.1, this.2, rfl⟩

theorem layout_eq (t : ObjType) (hw : t ≠ .TIME_WINDOW) (d : Bytes) :
    layout (classFor t) d = layoutOf (classFor t) := by
  cases t <;> first | exact absurd rfl hw | rfl

/-- C60. The exact outcome of parsing any body of any parsable type: `IndexError` when it ends inside
the fixed part or the optional tail, `AssertionError` when the class rejects surplus bytes and there are
some, otherwise the object whose attributes are the values at the offsets of the layout.  There is no
other exception. -/
theorem C60_outcome (t : ObjType) (ht : Parsable t) (d : Bytes) :
    ∃ L, layout (classFor t) d = some L ∧
      parameterFromBytes t d =
        if L.TooShort d then .error .index
        else if L.TooLong d then .error .assertion
        else .ok ⟨classFor t, L.values d⟩ := by
  by_cases hw : t = .TIME_WINDOW
  · subst hw
    exact ⟨_, rfl, timeWindow_outcome d⟩
  · obtain ⟨c, L, h1, h2, h3, h4⟩ := parsable_sym t ht hw
    refine ⟨L, (layout_eq t hw d).trans h4, ?_⟩
    unfold parameterFromBytes
    rw [h1, ← h2]
    exact symClass_sound h3 d

/-- The layout of a body is unique, so the properties below can speak about "the" layout. -/
theorem outcome_of_layout {t : ObjType} (ht : Parsable t) {d : Bytes} {L : Layout}
    (hL : layout (classFor t) d = some L) :
    parameterFromBytes t d =
      if L.TooShort d then .error .index
      else if L.TooLong d then .error .assertion
      else .ok ⟨classFor t, L.values d⟩ := by
  obtain ⟨L', h1, h2⟩ := C60_outcome t ht d
  rw [hL] at h1; cases h1; exact h2

/-- C60. `IndexError` iff the body is too short (or ends inside the optional tail), `AssertionError` iff
it is not and has surplus bytes the class rejects; nothing else is raised. -/
theorem C60_errors (t : ObjType) (ht : Parsable t) (d : Bytes) (L : Layout)
    (hL : layout (classFor t) d = some L) :
    (parameterFromBytes t d = .error .index ↔
      d.length < L.size ∨ (L.size < d.length ∧ d.length < L.size + L.tail)) ∧
    (parameterFromBytes t d = .error .assertion ↔ L.strict = true ∧ L.size + L.tail < d.length) ∧
    (∀ e, parameterFromBytes t d = .error e → e = .index ∨ e = .assertion) ∧
    ((∃ o, parameterFromBytes t d = .ok o) ↔
      d.length = L.size ∨ d.length = L.size + L.tail ∨ (L.strict = false ∧ L.size + L.tail ≤ d.length)) := by
  have h := outcome_of_layout ht hL
  have e1 : L.TooShort d ↔ d.length < L.size ∨ (L.size < d.length ∧ d.length < L.size + L.tail) := Iff.rfl
  have e2 : L.TooLong d ↔ L.strict = true ∧ L.size + L.tail < d.length := Iff.rfl
  by_cases h1 : L.TooShort d
  · rw [if_pos h1] at h
    rw [h]
    have h1' := e1.1 h1
    refine ⟨⟨fun _ => h1', fun _ => rfl⟩, ⟨fun hh => (by cases hh), fun hh => by omega⟩,
      fun e he => by cases he; exact Or.inl rfl, ⟨fun ⟨o, ho⟩ => (by cases ho), fun hh => by omega⟩⟩
  · rw [if_neg h1] at h
    have h1' : ¬ (d.length < L.size ∨ (L.size < d.length ∧ d.length < L.size + L.tail)) := fun hh => h1 (e1.2 hh)
    by_cases h2 : L.TooLong d
    · rw [if_pos h2] at h
      rw [h]
      have h2' := e2.1 h2
      refine ⟨⟨fun hh => (by cases hh), fun hh => absurd hh h1'⟩, ⟨fun _ => h2', fun _ => rfl⟩,
        fun e he => by cases he; exact Or.inr rfl, ⟨fun ⟨o, ho⟩ => (by cases ho), fun hh => ?_⟩⟩
      rcases hh with hh | hh | ⟨hh, _⟩
      · omega
      · omega
      · rw [h2'.1] at hh; cases hh
    · rw [if_neg h2] at h
      rw [h]
      have h2' : ¬ (L.strict = true ∧ L.size + L.tail < d.length) := fun hh => h2 (e2.2 hh)
      refine ⟨⟨fun hh => (by cases hh), fun hh => absurd hh h1'⟩, ⟨fun hh => (by cases hh), fun hh => absurd hh h2'⟩,
        fun e he => (by cases he), ⟨fun _ => ?_, fun _ => ⟨_, rfl⟩⟩⟩
      cases hs : L.strict with
      | false => by_cases hh : d.length = L.size
                 · exact Or.inl hh
                 · exact Or.inr (Or.inr ⟨rfl, by omega⟩)
      | true =>
        have : ¬ L.size + L.tail < d.length := fun hh => h2' ⟨hs, hh⟩
        omega

/-- C59. A parsed object has the class of its type, and each attribute of the layout holds the value
found at its offset of the body; the object has no other attributes. -/
theorem C59_values (t : ObjType) (ht : Parsable t) (d : Bytes) (L : Layout) (o : PObj)
    (hL : layout (classFor t) d = some L) (h : parameterFromBytes t d = .ok o) :
    o.cls = classFor t ∧ o.attrs = L.fields.map fun p => (p.1, p.2.read L.size d) := by
  rw [outcome_of_layout ht hL] at h
  split at h
  · cases h
  · split at h
    · cases h
    · cases h; exact ⟨rfl, rfl⟩

theorem layout_nodup_fixed : ∀ t ∈ ObjType.all, ∀ L, layoutOf (classFor t) = some L →
    (L.fields.map (·.1)).Nodup := by
  have key : ∀ t ∈ ObjType.all, (match layoutOf (classFor t) with
      | some L => decide (L.fields.map (·.1)).Nodup
      | none => true) = true := by decide +kernel
  intro t ht L hL
  have := key t ht
  rw [hL] at this
  exact of_decide_eq_true this

theorem lookup_of_mem {α β : Type} [BEq α] [LawfulBEq α] {l : List (α × β)} (hn : (l.map (·.1)).Nodup)
    {a : α} {b : β} (h : (a, b) ∈ l) : l.lookup a = some b := by
  induction l with
  | nil => cases h
  | cons p l ih =>
    obtain ⟨x, y⟩ := p
    rw [List.map_cons, List.nodup_cons] at hn
    rcases List.mem_cons.1 h with heq | h
    · cases heq; simp
    · have hne : a ≠ x := fun hh => hn.1 (hh ▸ List.mem_map_of_mem (f := (·.1)) h)
      have : (a == x) = false := by simpa using hne
      rw [List.lookup_cons, this]
      exact ih hn.2 h

theorem layout_nodup {t : ObjType} {d : Bytes} {L : Layout} (hL : layout (classFor t) d = some L) :
    (L.fields.map (·.1)).Nodup := by
  by_cases hw : t = .TIME_WINDOW
  · subst hw
    have : timeWindowLayout (d.getD 34 0).toNat = L := by injection hL
    subst this
    have h3 : (timeWindowLayout (d.getD 34 0).toNat).fields.map (·.1) = timeWindow.fields := rfl
    rw [h3]; decide
  · rw [layout_eq t hw d] at hL
    exact layout_nodup_fixed t (objType_mem_all t) L hL

/-- C59. Attribute by attribute: `getattr(obj, name)` is the value found at the offset of `name`. -/
theorem C59_attribute (t : ObjType) (ht : Parsable t) (d : Bytes) (L : Layout) (o : PObj)
    (hL : layout (classFor t) d = some L) (h : parameterFromBytes t d = .ok o)
    (a : Attr) (l : Loc) (hm : (a, l) ∈ L.fields) : o.attrs.lookup a = some (l.read L.size d) := by
  rw [(C59_values t ht d L o hL h).2]
  have := lookup_map_snd (fun l => Loc.read L.size d l) L.fields a
  rw [this, lookup_of_mem (layout_nodup hL) hm]; rfl

/-- Every attribute outside the optional tail is present (not `None`) in every layout, and no attribute
is optional twice. -/
def locOk : Loc → Bool
  | .optional l => plain l
  | _ => true

theorem read_ne_none {l : Loc} (h : plain l = true) (size : Nat) (d : Bytes) : l.read size d ≠ .none := by
  cases l <;> first | (simp [Loc.read]; done) | cases h

theorem layout_locOk_fixed : ∀ t ∈ ObjType.all, ∀ L, layoutOf (classFor t) = some L →
    ∀ p ∈ L.fields, locOk p.2 = true := by
  have key : ∀ t ∈ ObjType.all, (match layoutOf (classFor t) with
      | some L => L.fields.all fun p => locOk p.2
      | none => true) = true := by decide +kernel
  intro t ht L hL
  have := key t ht
  rw [hL] at this
  exact List.all_eq_true.1 this

theorem layout_locOk {t : ObjType} {d : Bytes} {L : Layout} (hL : layout (classFor t) d = some L) :
    ∀ p ∈ L.fields, locOk p.2 = true := by
  by_cases hw : t = .TIME_WINDOW
  · subst hw
    have : timeWindowLayout (d.getD 34 0).toNat = L := by injection hL
    subst this
    have h3 : (timeWindowLayout (d.getD 34 0).toNat).fields.all (fun p => locOk p.2) = true := rfl
    exact List.all_eq_true.1 h3
  · rw [layout_eq t hw d] at hL
    exact layout_locOk_fixed t (objType_mem_all t) L hL

/-- C60. An attribute is `None` exactly when it belongs to the optional tail and the body has exactly
the minimum size. -/
theorem C60_none_iff (t : ObjType) (ht : Parsable t) (d : Bytes) (L : Layout) (o : PObj)
    (hL : layout (classFor t) d = some L) (h : parameterFromBytes t d = .ok o)
    (a : Attr) (l : Loc) (hm : (a, l) ∈ L.fields) :
    o.attrs.lookup a = some .none ↔ (∃ l', l = .optional l') ∧ d.length = L.size := by
  rw [C59_attribute t ht d L o hL h a l hm]
  have hk := layout_locOk hL (a, l) hm
  constructor
  · intro hh
    injection hh with hh
    cases l with
    | optional l' =>
      refine ⟨⟨l', rfl⟩, ?_⟩
      unfold Loc.read at hh
      split at hh
      · assumption
      · exact absurd hh (read_ne_none hk L.size d)
    | _ => exact absurd hh (read_ne_none rfl L.size d)
  · rintro ⟨⟨l', rfl⟩, h2⟩
    unfold Loc.read
    rw [if_pos h2]

/-! ### C56, C57: lists of records -/

/-- What the factory makes of one record. -/
def parseRecord (r : UInt8 × Bytes) : Res PObj := do
  let t ← ObjType.ofByte r.1
  parameterFromBytes t r.2

theorem parseStep_header {w : Bytes} (h : 3 ≤ w.length) :
    parseStep w = (do
      let o ← parseRecord (w.getD 2 0, sliceTo (w.drop 3) ((leAt w 0 2 : Int) - 3))
      return (o, sliceFrom (w.drop 3) ((leAt w 0 2 : Int) - 3))) := by
  unfold parseStep parseRecord
  rw [popMany_apply (by omega), if_pos (by omega), bind_ok]
  dsimp only
  rw [pop0_apply, if_pos (by rw [List.length_drop]; omega), bind_ok]
  dsimp only
  have h1 : (w.drop 2).headD 0 = w.getD 2 0 := by
    rw [List.headD_eq_head?_getD, List.head?_drop, List.getD_eq_getElem?_getD]
  have h2 : fromLE (w.take 2) = leAt w 0 2 := by rw [leAt_eq, List.drop_zero]
  rw [h1, h2, List.drop_drop]
  cases ObjType.ofByte (w.getD 2 0) <;> rfl

theorem parseStep_short {w : Bytes} (h : w.length < 3) : parseStep w = .error .index := by
  unfold parseStep
  rw [popMany_apply (by omega)]
  by_cases h2 : 2 ≤ w.length
  · rw [if_pos h2, bind_ok]
    dsimp only
    rw [pop0_apply, if_neg (by rw [List.length_drop]; omega)]
    rfl
  · rw [if_neg h2]; rfl

/-- C56. One iteration on arbitrary data of at least three bytes.  With a length field `n ≥ 3` the body
is the next `n - 3` bytes (fewer at the end of the data) and parsing goes on behind it; with `n < 3` the
body is everything but the last `3 - n` bytes and parsing goes on with these. -/
theorem C56_iteration (w : Bytes) (h : 3 ≤ w.length) (n : Nat) (hn : n = leAt w 0 2) :
    parseStep w =
      let cut := if 3 ≤ n then n - 3 else (w.length - 3) - (3 - n)
      (do
        let o ← parseRecord (w.getD 2 0, (w.drop 3).take cut)
        return (o, (w.drop 3).drop cut)) := by
  rw [parseStep_header h, ← hn]
  dsimp only
  by_cases h3 : 3 ≤ n
  · have : (n : Int) - 3 = ((n - 3 : Nat) : Int) := by omega
    rw [this, sliceTo_nat, sliceFrom_nat, if_pos h3]
  · have : (n : Int) - 3 = -((3 - n : Nat) : Int) := by omega
    rw [this, if_neg h3]
    unfold sliceTo sliceFrom
    rw [clampIdx_neg _ _ (by omega), List.length_drop]

theorem record_getD (r : UInt8 × Bytes) (rest : Bytes) : (record r ++ rest).getD 2 0 = r.1 := rfl

theorem record_leAt (r : UInt8 × Bytes) (rest : Bytes) (h : r.2.length + 3 < 65536) :
    leAt (record r ++ rest) 0 2 = r.2.length + 3 := by
  have := leAt_leOf [] (r.1 :: r.2 ++ rest) (r.2.length + 3) 0 2 rfl (by omega)
  rw [← this]
  simp [record]

theorem record_drop (r : UInt8 × Bytes) (rest : Bytes) : (record r ++ rest).drop 3 = r.2 ++ rest := rfl

theorem record_length (r : UInt8 × Bytes) : (record r).length = r.2.length + 3 := by
  simp [record, leOf]

theorem parseLoop_step {w w' : Bytes} {o : PObj} (hw : w ≠ []) (h : parseStep w = .ok (o, w')) :
    parseLoop w = (parseLoop w' >>= fun os => .ok (o :: os)) := by
  rw [parseLoop, if_neg hw]
  split
  · next e he => rw [h] at he; cases he
  · next o' w'' he =>
    rw [h] at he
    injection he with he
    injection he with h1 h2
    subst h1 h2
    cases parseLoop w' <;> rfl

theorem parseLoop_error {w : Bytes} {e : PyErr} (hw : w ≠ []) (h : parseStep w = .error e) :
    parseLoop w = .error e := by
  rw [parseLoop, if_neg hw]
  split
  · next e' he => rw [h] at he; cases he; rfl
  · next o' w'' he => rw [h] at he; cases he

theorem parseLoop_nil : parseLoop [] = .ok [] := by rw [parseLoop, if_pos rfl]

theorem parseLoop_record (r : UInt8 × Bytes) (rest : Bytes) (h : r.2.length + 3 < 65536) :
    parseLoop (record r ++ rest) = (do
      let o ← parseRecord r
      let os ← parseLoop rest
      return o :: os) := by
  have hl : 3 ≤ (record r ++ rest).length := by rw [List.length_append, record_length]; omega
  have hne : record r ++ rest ≠ [] := by intro h0; rw [h0] at hl; simp at hl
  have hs := C56_iteration (record r ++ rest) hl _ (record_leAt r rest h).symm
  dsimp only at hs
  rw [if_pos (by omega), record_getD, record_drop] at hs
  have h3 : r.2.length + 3 - 3 = r.2.length := by omega
  rw [h3, List.take_left, List.drop_left] at hs
  cases ho : parseRecord r with
  | error e =>
    have ho' : parseRecord (r.1, r.2) = .error e := ho
    rw [ho', bind_error] at hs
    rw [parseLoop_error hne hs, bind_error]
  | ok o =>
    have ho' : parseRecord (r.1, r.2) = .ok o := ho
    rw [ho', bind_ok] at hs
    rw [parseLoop_step hne hs, bind_ok]
    rfl

/-- C56. Parsing the concatenation of records gives, in order, what the factory returns for each record
alone, or raises the first exception one of them raises. -/
theorem C56_split (rs : List (UInt8 × Bytes)) (hne : rs ≠ []) (h : ∀ r ∈ rs, r.2.length + 3 < 65536) :
    parseParameters none (some (rs.flatMap record)) =
      rs.mapM (fun r => ObjType.ofByte r.1 >>= fun t => parameterFromBytes t r.2) := by
  have key : ∀ rs : List (UInt8 × Bytes), (∀ r ∈ rs, r.2.length + 3 < 65536) →
      parseLoop (rs.flatMap record) = rs.mapM parseRecord := by
    intro rs
    induction rs with
    | nil => intro _; exact parseLoop_nil
    | cons r rs ih =>
      intro h
      rw [List.flatMap_cons, parseLoop_record r _ (h r (by simp)), List.mapM_cons,
        ih (fun x hx => h x (by simp [hx]))]
  have hnil : (rs.flatMap record).isEmpty = false := by
    cases rs with
    | nil => exact absurd rfl hne
    | cons r rs =>
      rw [List.flatMap_cons]
      simp [record, leOf]
  unfold parseParameters
  dsimp only
  rw [hnil]
  exact key rs h

/-- C56. Data given to the constructor takes precedence over the argument of `parse`, unless it is
empty; with neither there is a `TypeError`. -/
theorem C56_data_argument (s a : Option Bytes) :
    (∀ d, s = some d → d ≠ [] → parseParameters s a = parseParameters none (some d)) ∧
    (s = none ∨ s = some [] → parseParameters s a = parseParameters none a) ∧
    parseParameters none none = .error .type := by
  refine ⟨?_, ?_, rfl⟩
  · rintro d rfl hd
    have : d.isEmpty = false := by cases d with
      | nil => exact absurd rfl hd
      | cons => rfl
    unfold parseParameters
    simp [this]
  · rintro (rfl | rfl) <;> rfl

/-- One iteration of the loop leads from data `w` to data `w'`. -/
def Iterates (w w' : Bytes) : Prop := w ≠ [] ∧ ∃ o, parseStep w = .ok (o, w')

/-- `n` iterations. -/
def IteratesN : Nat → Bytes → Bytes → Prop
  | 0, w, w' => w = w'
  | n + 1, w, w' => ∃ v, Iterates w v ∧ IteratesN n v w'

/-- C57. Every iteration consumes at least three bytes, so the loop runs at most `len(data) / 3` times
on any input, also with length fields below 3. -/
theorem C57_terminates (w : Bytes) :
    (∀ w', Iterates w w' → w'.length + 3 ≤ w.length) ∧
    (∀ n w', IteratesN n w w' → 3 * n + w'.length ≤ w.length) := by
  refine ⟨fun w' ⟨_, o, h⟩ => parseStep_length h, fun n => ?_⟩
  induction n generalizing w with
  | zero => intro w' h; cases h; omega
  | succ n ih =>
    rintro w' ⟨v, ⟨_, o, h⟩, h2⟩
    have a := parseStep_length h
    have b := ih v w' h2
    omega

/-- C57. The loop's result is determined by its iterations: it ends when the data is used up or an
iteration raises. -/
theorem C57_result (w : Bytes) :
    (∀ os, parseLoop w = .ok os → IteratesN os.length w []) ∧
    (∀ e, parseLoop w = .error e → ∃ n w', IteratesN n w w' ∧ w' ≠ [] ∧ parseStep w' = .error e) := by
  suffices H : ∀ k, ∀ w : Bytes, w.length = k →
      (∀ os, parseLoop w = .ok os → IteratesN os.length w []) ∧
      (∀ e, parseLoop w = .error e → ∃ n w', IteratesN n w w' ∧ w' ≠ [] ∧ parseStep w' = .error e) from
    H w.length w rfl
  intro k
  induction k using Nat.strongRecOn with
  | _ k ih =>
    intro w hk
    by_cases hw : w = []
    · subst hw
      rw [parseLoop_nil]
      refine ⟨fun os h => by cases h; rfl, fun e h => by cases h⟩
    · cases hs : parseStep w with
      | error e =>
        rw [parseLoop_error hw hs]
        refine ⟨fun os h => (by cases h), fun e' h => ?_⟩
        cases h
        exact ⟨0, w, rfl, hw, hs⟩
      | ok x =>
        obtain ⟨o, w'⟩ := x
        have hlt := parseStep_length hs
        obtain ⟨ia, ib⟩ := ih w'.length (by omega) w' rfl
        rw [parseLoop_step hw hs]
        constructor
        · intro os h
          rw [bind_eq_ok] at h
          obtain ⟨os', h1, h2⟩ := h
          cases h2
          exact ⟨w', ⟨hw, o, hs⟩, ia os' h1⟩
        · intro e h
          rw [bind_eq_error] at h
          rcases h with h | ⟨os', _, h2⟩
          · obtain ⟨n, v, h1, h2⟩ := ib e h
            exact ⟨n + 1, v, ⟨w', ⟨hw, o, hs⟩, h1⟩, h2⟩
          · cases h2

/-- C57. Empty input raises `ValueError`, a truncated header `IndexError`. -/
theorem C57_bad_input (w : Bytes) :
    parseParameters none (some []) = .error .value ∧
    (0 < w.length → w.length < 3 → parseParameters none (some w) = .error .index) := by
  refine ⟨rfl, fun h0 h3 => ?_⟩
  cases w with
  | nil => simp at h0
  | cons b w =>
    show parseLoop (b :: w) = _
    exact parseLoop_error (by simp) (parseStep_short h3)

/-- C57. The exceptions that can leave `parse`. -/
theorem C57_exceptions (w : Bytes) (e : PyErr) (h : parseParameters none (some w) = .error e) :
    e ∈ [PyErr.value, .index, .key, .attribute, .type, .assertion] := by
  by_cases hw : w = []
  · subst hw; cases h; decide
  · have h' : parseLoop w = .error e := by
      cases w with
      | nil => exact absurd rfl hw
      | cons b w => exact h
    obtain ⟨n, v, _, hv, he⟩ := (C57_result w).2 e h'
    by_cases h3 : v.length < 3
    · rw [parseStep_short h3] at he; cases he; decide
    · rw [parseStep_header (by omega), bind_eq_error] at he
      rcases he with he | ⟨_, _, h2⟩
      · unfold parseRecord at he
        rw [bind_eq_error] at he
        rcases he with he | ⟨t, _, h2⟩
        · rw [(C58_type_byte _).2.2 e he]; decide
        · by_cases ht : Parsable t
          · obtain ⟨L, hL, _⟩ := C60_outcome t ht (sliceTo (v.drop 3) ((leAt v 0 2 : Int) - 3))
            rcases (C60_errors t ht _ L hL).2.2.1 e h2 with rfl | rfl <;> decide
          · have : t = .CORRECTION_COUNTER ∨ t = .DIFFERENCE_BASE_COUNTER ∨ t = .DEVICE_ERROR ∨ t = .SUM_OF_ALARMS := by
              unfold Parsable at ht
              cases t <;> simp at ht ⊢
            rcases this with rfl | rfl | h5
            · rw [(C58_dispatch _).2 rfl] at h2; cases h2; decide
            · rw [C58_difference_base_counter] at h2; cases h2; decide
            · obtain ⟨L, _, h6⟩ := C58_missing_arguments t h5 (sliceTo (v.drop 3) ((leAt v 0 2 : Int) - 3))
              rw [h6] at h2
              split at h2
              · cases h2; decide
              · split at h2 <;> (cases h2; decide)
      · cases h2

/-- What an iteration does with the head of the data. -/
theorem parseStep_head {w body rest : Bytes} {ty : UInt8} (h : Head w ty body rest) :
    parseStep w = (do
      let o ← parseRecord (ty, body)
      return (o, rest)) := by
  obtain ⟨lo, hi, after, rfl, n, hn, rfl, rfl⟩ := h
  have hl : 3 ≤ (lo :: hi :: ty :: after).length := by simp only [List.length_cons]; omega
  have := C56_iteration _ hl _ rfl
  have e1 : leAt (lo :: hi :: ty :: after) 0 2 = lo.toNat + 256 * hi.toNat := by
    simp [leAt]
  dsimp only at this
  rw [e1] at this
  have e2 : (lo :: hi :: ty :: after).length - 3 = after.length := rfl
  rw [e2] at this
  rw [this, hn]
  rfl

theorem head_exists {w : Bytes} (h : 3 ≤ w.length) : ∃ ty body rest, Head w ty body rest := by
  match w, h with
  | lo :: hi :: ty :: after, _ => exact ⟨ty, _, _, lo, hi, after, rfl, _, rfl, rfl, rfl⟩

/-- The head takes at least its three bytes. -/
theorem head_length {w body rest : Bytes} {ty : UInt8} (h : Head w ty body rest) : rest.length + 3 ≤ w.length := by
  obtain ⟨lo, hi, after, rfl, n, _, rfl, rfl⟩ := h
  simp only [List.length_drop, List.length_cons]
  omega

theorem head_ne {w body rest : Bytes} {ty : UInt8} (h : Head w ty body rest) : w ≠ [] := by
  have := head_length h
  intro h0
  subst h0
  simp at this

theorem listed_loop {w : Bytes} {r : Res (List PObj)} (h : Listed w r) : parseLoop w = r := by
  induction h with
  | done => exact parseLoop_nil
  | cutOff w hw hl => exact parseLoop_error hw (parseStep_short hl)
  | unknown w ty body rest hh ht =>
    refine parseLoop_error (head_ne hh) ?_
    rw [parseStep_head hh]
    unfold parseRecord
    rw [((C58_type_byte ty).2.1).2 ht]
    rfl
  | unreadable w ty body rest t e hh ht he =>
    refine parseLoop_error (head_ne hh) ?_
    rw [parseStep_head hh]
    unfold parseRecord
    rw [((C58_type_byte ty).1 t).2 ht, bind_ok, he]
    rfl
  | later w ty body rest t o e hh ht ho _ ih =>
    have : parseStep w = .ok (o, rest) := by
      rw [parseStep_head hh]
      unfold parseRecord
      rw [((C58_type_byte ty).1 t).2 ht, bind_ok, ho]
      rfl
    rw [parseLoop_step (head_ne hh) this, ih]
    rfl
  | object w ty body rest t o os hh ht ho _ ih =>
    have : parseStep w = .ok (o, rest) := by
      rw [parseStep_head hh]
      unfold parseRecord
      rw [((C58_type_byte ty).1 t).2 ht, bind_ok, ho]
      rfl
    rw [parseLoop_step (head_ne hh) this, ih]
    rfl

theorem loop_listed (w : Bytes) : Listed w (parseLoop w) := by
  suffices H : ∀ k, ∀ w : Bytes, w.length = k → ∃ r, Listed w r by
    obtain ⟨r, h⟩ := H w.length w rfl
    rw [listed_loop h]
    exact h
  intro k
  induction k using Nat.strongRecOn with
  | _ k ih =>
    intro w hk
    by_cases hw : w = []
    · subst hw; exact ⟨_, .done⟩
    · by_cases hl : w.length < 3
      · exact ⟨_, .cutOff w hw hl⟩
      · obtain ⟨ty, body, rest, hh⟩ := head_exists (w := w) (by omega)
        obtain ⟨r, hr⟩ := ih rest.length (by have := head_length hh; omega) rest rfl
        cases ht : ObjType.ofByte ty with
        | error e =>
          have := (C58_type_byte ty).2.2 e ht
          subst this
          exact ⟨_, .unknown w ty body rest hh ((C58_type_byte ty).2.1.1 ht)⟩
        | ok t =>
          have ht' := ((C58_type_byte ty).1 t).1 ht
          cases ho : parameterFromBytes t body with
          | error e => exact ⟨_, .unreadable w ty body rest t e hh ht' ho⟩
          | ok o =>
            cases r with
            | error e => exact ⟨_, .later w ty body rest t o e hh ht' ho hr⟩
            | ok os => exact ⟨_, .object w ty body rest t o os hh ht' ho hr⟩

/-- C57. The parser ends on every input, with the objects of the records one after the other, or with the first
exception: there is exactly one result for any data. -/
theorem C57_every_input (w : Bytes) (hw : w ≠ []) (r : Res (List PObj)) :
    parseParameters none (some w) = r ↔ Listed w r := by
  have e : parseParameters none (some w) = parseLoop w := by
    cases w with
    | nil => exact absurd rfl hw
    | cons b w => rfl
  rw [e]
  exact ⟨fun h => h ▸ loop_listed w, listed_loop⟩

/-- C57. There are no more objects than the data has headers' worth of bytes. -/
theorem C57_count (w : Bytes) (os : List PObj) (h : parseParameters none (some w) = .ok os) :
    3 * os.length ≤ w.length := by
  by_cases hw : w = []
  · subst hw; cases h
  · have h' := (C57_every_input w hw _).1 h
    generalize hr : (Except.ok os : Res (List PObj)) = r at h'
    induction h' generalizing os with
    | done => cases hr; simp
    | object w ty body rest t o os' hh ht ho hl ih =>
      cases hr
      have := head_length hh
      by_cases h0 : rest = []
      · subst h0
        have : os' = [] := by
          have := listed_loop hl
          rw [parseLoop_nil] at this
          cases this; rfl
        subst this
        simp only [List.length_cons, List.length_nil] at *
        omega
      · have e := ih os' ((C57_every_input rest h0 _).2 hl) h0 rfl
        simp only [List.length_cons]
        omega
    | cutOff | unknown | unreadable | later => cases hr

/-! ### Witnesses -/

/-- A binary channel, number 7, id 0x0102, bit control 0x41, named "Door". -/
def exBinary : Bytes :=
  [7, 0, 2, 1, 0, 0, 0, 0, 0, 0, 0x41, 0x44, 0x6F, 0x6F, 0x72] ++ List.replicate 25 0
/-- The same with the optional tail: action 3, texts "ON" and "OFF". -/
def exBinaryLong : Bytes :=
  exBinary ++ [3] ++ [0x4F, 0x4E] ++ List.replicate 11 0 ++ [0x4F, 0x46, 0x46] ++ List.replicate 10 0
/-- A time window with two rows. -/
def exTimeWindow : Bytes :=
  [1, 0, 5, 0] ++ List.replicate 30 0 ++ [2] ++ List.replicate 10 0x11 ++ List.replicate 10 0xAB

example : Parsable .BINARY ∧ Parsable .TIME_WINDOW := by decide
example : layout (classFor .BINARY) exBinary = some binaryLayout ∧ ¬ binaryLayout.TooShort exBinary ∧
    ¬ binaryLayout.TooLong exBinary := by decide +kernel

/-- Short form: the three optional attributes are `None`. -/
example : (parameterFromBytes .BINARY exBinary).map (fun o => (o.cls, [Attr.number, .id, .in_binary_archive,
      .in_data_archive, .active_indicator, .name, .action_during_change, .text_log_1].map (fun a => o.attrs.lookup a))) =
    .ok (.Binary, [some (.int 7), some (.int 258), some (.bool true), some (.bool false), some (.bool true),
      some (.str "Door".toList), some .none, some .none]) := by decide +kernel
/-- Long form. -/
example : (parameterFromBytes .BINARY exBinaryLong).map (fun o => [Attr.name, .action_during_change,
      .text_log_0, .text_log_1].map (fun a => o.attrs.lookup a)) =
    .ok [some (.str "Door".toList), some (.int 3), some (.str "ON".toList), some (.str "OFF".toList)] := by
  decide +kernel
/-- Between the two forms, and beyond the long one. -/
example : parameterFromBytes .BINARY (exBinaryLong.take 50) = .error .index ∧
    parameterFromBytes .BINARY (exBinaryLong ++ [0]) = .error .assertion := by decide +kernel
example : (parameterFromBytes .TIME_WINDOW exTimeWindow).map (fun o => [Attr.rows_in_window, .rows,
      .action_during_change].map (fun a => o.attrs.lookup a)) =
    .ok [some (.int 2), some (.strs ["11111111111111111111".toList, "abababababababababab".toList]),
      some .none] := by decide +kernel

/-- Two records, one after the other (a binary channel and a time window). -/
def exRecords : List (UInt8 × Bytes) :=
  [(UInt8.ofNat ObjType.BINARY.value, exBinary), (UInt8.ofNat ObjType.TIME_WINDOW.value, exTimeWindow)]

example : exRecords ≠ [] ∧ ∀ r ∈ exRecords, r.2.length + 3 < 65536 := by decide +kernel
example : ∃ a b, parseParameters none (some (exRecords.flatMap record)) = .ok [a, b] ∧
    a.cls = .Binary ∧ b.cls = .TimeWindow := by
  rw [C56_split exRecords (by decide) (by decide +kernel)]
  refine ⟨⟨.Binary, binaryLayout.values exBinary⟩, ⟨.TimeWindow, (timeWindowLayout 2).values exTimeWindow⟩, ?_,
    rfl, rfl⟩
  decide +kernel
/-- A length field of 0: the body is all but the last three bytes of what follows the header. -/
example : ∃ o, parseStep ([0, 0, UInt8.ofNat ObjType.BINARY.value] ++ exBinary ++ [1, 2, 3]) = .ok (o, [1, 2, 3]) :=
  ⟨⟨.Binary, binaryLayout.values exBinary⟩, by decide +kernel⟩

end Elgas
