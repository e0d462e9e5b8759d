import Verif.Props.Codes
import Verif.Props.Schemas
import Verif.Spec.Integration
/-!
C68: exporting, loading and restoring a configuration.
-/
namespace Elgas
open Spec

theorem dump_object (c : Conv) (o : UtilitarianConfigurationObject) :
    ConfigItem.dump c (.object o) = .ok (exported o.parameterType o.data
      (match o.seriesName with | some s => .str s | none => .none)) := by
  cases h : o.seriesName <;> simp [ConfigItem.dump, dumpFields, utilitarianObjectDumpFields, List.lookup, dumpInteger, dumpDict,
      dumpString, exported, pure_res, bind_ok, h]

theorem dump_exported (c : Conv) (t : Int) (d : List (String × Json)) (n : Json) (hn : IsName n) :
    ConfigItem.dump c (.value (exported t d n)) = .ok (exported t d n) := by
  cases n <;> first | (cases hn; done) |
    simp [ConfigItem.dump, dumpFields, utilitarianObjectDumpFields, List.lookup, dumpInteger, dumpDict,
      dumpString, exported, pure_res, bind_ok]

theorem mapM_ok {α β : Type} {f : α → Res β} {g : α → β} {l : List α} (h : ∀ a ∈ l, f a = .ok (g a)) :
    l.mapM f = .ok (l.map g) := by
  induction l with
  | nil => rfl
  | cons a l ih =>
    rw [List.mapM_cons, h a (by simp), ih (fun b hb => h b (by simp [hb]))]; rfl

/-- C68. Dumping a configuration object. -/
theorem C68_dump (c : Conv) (os : List UtilitarianConfigurationObject) :
    configurationDump c (os.map .object) = .ok (configuration (os.map fun o =>
      exported o.parameterType o.data (match o.seriesName with | some s => .str s | none => .none))) := by
  unfold configurationDump
  rw [List.mapM_map, mapM_ok (f := ConfigItem.dump c ∘ ConfigItem.object) (g := fun o => exported o.parameterType o.data
    (match o.seriesName with | some s => .str s | none => .none)) (fun o _ => dump_object c o)]
  rfl

theorem loadInteger_iff (c : Conv) (j r : Json) : loadInteger c j = some r ↔ ∃ n, StandsFor c j n ∧ r = .int n := by
  cases j <;> simp only [loadInteger, reduceCtorEq, false_iff, Option.some.injEq, Option.map_eq_some_iff]
  case int n => 
    constructor
    · rintro rfl; exact ⟨n, .int n, rfl⟩
    · rintro ⟨m, h, rfl⟩; cases h; rfl
  case str s =>
    constructor
    · rintro ⟨n, h, rfl⟩; exact ⟨n, .str s n h, rfl⟩
    · rintro ⟨m, h, rfl⟩; cases h; exact ⟨_, by assumption, rfl⟩
  case num s =>
    constructor
    · rintro ⟨n, h, rfl⟩; exact ⟨n, .num s n h, rfl⟩
    · rintro ⟨m, h, rfl⟩; cases h; exact ⟨_, by assumption, rfl⟩
  all_goals rintro ⟨m, h, _⟩; cases h

theorem loadDict_iff (j r : Json) : loadDict j = some r ↔ ∃ d, j = .dict d ∧ r = .dict d := by
  cases j <;> simp [loadDict, eq_comm]

theorem loadString_iff (j r : Json) : loadString j = some r ↔ IsName j ∧ r = j := by
  cases j <;> simp [loadString, IsName, eq_comm]

theorem loadFields_error (fs : List (String × (Json → Option Json))) (j : Json) (x : PyErr)
    (h : loadFields fs j = .error x) : x = .validation := by
  unfold loadFields at h
  split at h
  · split at h
    · injection h with h; exact h.symm
    · split at h
      · cases h
      · injection h with h; exact h.symm
  · injection h with h; exact h.symm

/-- C68. Which JSON values are accepted as an object of a configuration, and what is returned: a dictionary
of type, data and name.  Everything else raises `ValidationError`. -/
theorem C68_load_object (c : Conv) (j : Json) :
    (∀ r, utilitarianObjectLoad c j = .ok r ↔ ∃ t d n, AcceptedObject c j t d n ∧ r = exported t d n) ∧
    (∀ x, utilitarianObjectLoad c j = .error x → x = .validation) := by
  refine ⟨fun r => ?_, loadFields_error _ _⟩
  unfold utilitarianObjectLoad loadFields
  cases j with
  | dict l =>
    dsimp only
    by_cases hk : (l.any fun p => !(["parameter_type", "data", "series_name"] : List String).contains p.1) = true
    · have : ¬ ∀ p ∈ l, p.1 = "parameter_type" ∨ p.1 = "data" ∨ p.1 = "series_name" := by
        intro h
        obtain ⟨p, hp, h1⟩ := List.any_eq_true.1 hk
        have := h p hp
        simp at h1
        rcases this with h | h | h <;> simp [h] at h1
      simp only [List.map_cons, List.map_nil, hk, if_true]
      constructor
      · intro h; cases h
      · rintro ⟨t, d, n, ⟨l', h1, h2, _⟩, _⟩
        cases h1
        exact absurd h2 this
    · have hall : ∀ p ∈ l, p.1 = "parameter_type" ∨ p.1 = "data" ∨ p.1 = "series_name" := by
        intro p hp
        rw [Bool.not_eq_true, List.any_eq_false] at hk
        have := hk p hp
        simp only [List.contains_eq_mem, List.mem_cons, List.not_mem_nil, or_false, Bool.not_eq_true',
          decide_eq_false_iff_not, Classical.not_not] at this
        exact this
      simp only [List.map_cons, List.map_nil, if_neg hk]
      constructor
      · intro h
        split at h
        · next r' hr =>
          injection h with h
          subst h
          simp only [List.mapM_cons, List.mapM_nil, Option.bind_eq_bind, Option.pure_def, Option.bind_eq_some_iff,
            Option.some.injEq] at hr
          obtain ⟨_, ⟨x1, hx1, v1, hv1, rfl⟩, _, ⟨_, ⟨x2, hx2, v2, hv2, rfl⟩, _, ⟨_, ⟨x3, hx3, v3, hv3, rfl⟩, _, rfl, rfl⟩, rfl⟩, rfl⟩ := hr
          obtain ⟨t, ht, rfl⟩ := (loadInteger_iff c _ _).1 hv1
          obtain ⟨d, rfl, rfl⟩ := (loadDict_iff _ _).1 hv2
          obtain ⟨hn, rfl⟩ := (loadString_iff _ _).1 hv3
          exact ⟨t, d, v3, ⟨l, rfl, hall, ⟨_, hx1, ht⟩, hx2, hx3, hn⟩, rfl⟩
        · cases h
      · rintro ⟨t, d, n, ⟨l', h1, _, ⟨x, hx, ht⟩, hd, hn, hn'⟩, rfl⟩
        cases h1
        simp only [List.mapM_cons, List.mapM_nil, Option.bind_eq_bind, Option.pure_def, hx, hd, hn,
          Option.bind_some, (loadInteger_iff c _ _).2 ⟨t, ht, rfl⟩, (loadDict_iff _ _).2 ⟨d, rfl, rfl⟩,
          (loadString_iff _ _).2 ⟨hn', rfl⟩]
        rfl
  | _ =>
    dsimp only
    constructor
    · intro h; cases h
    · rintro ⟨t, d, n, ⟨l', h1, _⟩, _⟩; cases h1

/-- C68. The simpler `ConfigurationObjectSchema`: dump and load. -/
theorem C68_plain_object (c : Conv) :
    (∀ o : ConfigurationObject, o.dump c = .ok (exportedPlain o.parameterType o.data) ∧
      configurationObjectLoad c (exportedPlain o.parameterType o.data) = .ok (exportedPlain o.parameterType o.data)) ∧
    (∀ j r, configurationObjectLoad c j = .ok r ↔ ∃ t d, AcceptedPlain c j t d ∧ r = exportedPlain t d) ∧
    (∀ j x, configurationObjectLoad c j = .error x → x = .validation) := by
  refine ⟨fun o => ⟨?_, ?_⟩, fun j r => ?_, fun j x => loadFields_error _ _ x⟩
  · simp [ConfigurationObject.dump, dumpFields, configurationObjectDumpFields, List.lookup, dumpInteger, dumpDict,
      pure_res, bind_ok, exportedPlain]
  · simp [configurationObjectLoad, loadFields, List.lookup, loadInteger, loadDict, exportedPlain]
  unfold configurationObjectLoad loadFields
  cases j with
  | dict l =>
    dsimp only
    by_cases hk : (l.any fun p => !(["parameter_type", "data"] : List String).contains p.1) = true
    · have : ¬ ∀ p ∈ l, p.1 = "parameter_type" ∨ p.1 = "data" := by
        intro h
        obtain ⟨p, hp, h1⟩ := List.any_eq_true.1 hk
        have := h p hp
        simp at h1
        rcases this with h | h <;> simp [h] at h1
      simp only [List.map_cons, List.map_nil, hk, if_true]
      constructor
      · intro h; cases h
      · rintro ⟨t, d, ⟨l', h1, h2, _⟩, _⟩
        cases h1
        exact absurd h2 this
    · have hall : ∀ p ∈ l, p.1 = "parameter_type" ∨ p.1 = "data" := by
        intro p hp
        rw [Bool.not_eq_true, List.any_eq_false] at hk
        have := hk p hp
        simp only [List.contains_eq_mem, List.mem_cons, List.not_mem_nil, or_false, Bool.not_eq_true',
          decide_eq_false_iff_not, Classical.not_not] at this
        exact this
      simp only [List.map_cons, List.map_nil, if_neg hk]
      constructor
      · intro h
        split at h
        · next r' hr =>
          injection h with h
          subst h
          simp only [List.mapM_cons, List.mapM_nil, Option.bind_eq_bind, Option.pure_def, Option.bind_eq_some_iff,
            Option.some.injEq] at hr
          obtain ⟨_, ⟨x1, hx1, v1, hv1, rfl⟩, _, ⟨_, ⟨x2, hx2, v2, hv2, rfl⟩, _, rfl, rfl⟩, rfl⟩ := hr
          obtain ⟨t, ht, rfl⟩ := (loadInteger_iff c _ _).1 hv1
          obtain ⟨d, rfl, rfl⟩ := (loadDict_iff _ _).1 hv2
          exact ⟨t, d, ⟨l, rfl, hall, ⟨_, hx1, ht⟩, hx2⟩, rfl⟩
        · cases h
      · rintro ⟨t, d, ⟨l', h1, _, ⟨x, hx, ht⟩, hd⟩, rfl⟩
        cases h1
        simp only [List.mapM_cons, List.mapM_nil, Option.bind_eq_bind, Option.pure_def, hx, hd,
          Option.bind_some, (loadInteger_iff c _ _).2 ⟨t, ht, rfl⟩, (loadDict_iff _ _).2 ⟨d, rfl, rfl⟩]
        rfl
  | _ =>
    dsimp only
    constructor
    · intro h; cases h
    · rintro ⟨t, d, ⟨l', h1, _⟩, _⟩; cases h1

theorem mapM_each {α β : Type} {f : α → Res β} {R : α → β → Prop} (h : ∀ a b, f a = .ok b ↔ R a b)
    (as : List α) (bs : List β) : as.mapM f = .ok bs ↔ Each R as bs := by
  induction as generalizing bs with
  | nil =>
    constructor
    · intro h; cases h; exact .nil
    · intro h; cases h; rfl
  | cons a as ih =>
    rw [List.mapM_cons, bind_eq_ok]
    constructor
    · rintro ⟨b, hb, h'⟩
      rw [bind_eq_ok] at h'
      obtain ⟨bs', hbs, h'⟩ := h'
      cases h'
      exact .cons ((h a b).1 hb) ((ih bs').1 hbs)
    · intro h'
      cases h' with
      | cons hb hbs => exact ⟨_, (h _ _).2 hb, by rw [(ih _).2 hbs]; rfl⟩

/-- C68. Which JSON values are accepted as a configuration: a dictionary with nothing but `objects`, if at
all, a list of accepted objects.  Everything else raises `ValidationError`. -/
theorem C68_load (c : Conv) (j : Json) :
    (∀ r, configurationLoad c j = .ok r ↔
      (j = .dict [] ∧ r = .dict []) ∨
      ∃ l js rs, j = .dict l ∧ (∀ p ∈ l, p.1 = "objects") ∧ l.lookup "objects" = some (.list js) ∧
        Each (fun j r => ∃ t d n, AcceptedObject c j t d n ∧ r = exported t d n) js rs ∧ r = configuration rs) ∧
    (∀ x, configurationLoad c j = .error x → x = .validation) := by
  have herr : ∀ (js : List Json) x, js.mapM (utilitarianObjectLoad c) = .error x → x = .validation := by
    intro js
    induction js with
    | nil => intro x h; cases h
    | cons j js ih =>
      intro x h
      rw [List.mapM_cons, bind_eq_error] at h
      rcases h with h | ⟨_, _, h⟩
      · exact (C68_load_object c j).2 x h
      · rw [bind_eq_error] at h
        rcases h with h | ⟨_, _, h⟩
        · exact ih x h
        · cases h
  have hmap := mapM_each (f := utilitarianObjectLoad c) (fun j r => (C68_load_object c j).1 r)
  unfold configurationLoad
  cases j with
  | dict l =>
    dsimp only
    by_cases hk : (l.any fun p => p.1 != "objects") = true
    · have hno : ¬ ∀ p ∈ l, p.1 = "objects" := by
        intro h
        obtain ⟨p, hp, h1⟩ := List.any_eq_true.1 hk
        simp [h p hp] at h1
      rw [if_pos hk]
      refine ⟨fun r => ⟨fun h => (by cases h), ?_⟩, fun x h => by injection h with h; exact h.symm⟩
      rintro (⟨h, _⟩ | ⟨l', js, rs, h1, h2, _⟩)
      · cases h; simp at hno
      · cases h1; exact absurd h2 hno
    · have hall : ∀ p ∈ l, p.1 = "objects" := by
        intro p hp
        rw [Bool.not_eq_true, List.any_eq_false] at hk
        simpa using hk p hp
      rw [if_neg hk]
      cases hl : l.lookup "objects" with
      | none =>
        have hnil : l = [] := by
          cases l with
          | nil => rfl
          | cons p l =>
            obtain ⟨k, v⟩ := p
            have : k = "objects" := hall (k, v) (by simp)
            subst this
            simp [List.lookup] at hl
        subst hnil
        dsimp only
        refine ⟨fun r => ⟨fun h => ?_, ?_⟩, fun x h => (by cases h)⟩
        · injection h with h; exact .inl ⟨rfl, h.symm⟩
        · rintro (⟨_, rfl⟩ | ⟨l', js, rs, h1, _, h3, _⟩)
          · rfl
          · cases h1; rw [hl] at h3; cases h3
      | some v =>
        have hne : l ≠ [] := by rintro rfl; cases hl
        cases v with
        | list js =>
          dsimp only
          constructor
          · intro r
            rw [bind_eq_ok]
            constructor
            · rintro ⟨rs, h1, h2⟩
              injection h2 with h2
              exact .inr ⟨l, js, rs, rfl, hall, hl, (hmap js rs).1 h1, h2.symm⟩
            · rintro (⟨h, _⟩ | ⟨l', js', rs, h1, _, h3, h4, rfl⟩)
              · cases h; exact absurd rfl hne
              · cases h1
                rw [hl] at h3
                cases h3
                exact ⟨rs, (hmap js rs).2 h4, rfl⟩
          · intro x h
            rw [bind_eq_error] at h
            rcases h with h | ⟨_, _, h⟩
            · exact herr js x h
            · cases h
        | _ =>
          dsimp only
          refine ⟨fun r => ⟨fun h => (by cases h), ?_⟩, fun x h => by injection h with h; exact h.symm⟩
          rintro (⟨h, _⟩ | ⟨l', js, rs, h1, _, h3, _⟩)
          · cases h; exact absurd rfl hne
          · cases h1; rw [hl] at h3; cases h3
  | _ =>
    dsimp only
    refine ⟨fun r => ⟨fun h => (by cases h), ?_⟩, fun x h => by injection h with h; exact h.symm⟩
    rintro (⟨h, _⟩ | ⟨l', js, rs, h1, _⟩)
    · cases h
    · cases h1

theorem accepted_exported (c : Conv) (t : Int) (d : List (String × Json)) (n : Json) (hn : IsName n) :
    AcceptedObject c (exported t d n) t d n := by
  refine ⟨_, rfl, ?_, ⟨_, rfl, .int t⟩, rfl, rfl, hn⟩
  intro p hp
  simp only [List.mem_cons, List.not_mem_nil, or_false] at hp
  rcases hp with rfl | rfl | rfl <;> simp

/-- C68. Loading what was dumped returns the dumped dictionary itself, not the objects; and dumping the
loaded dictionaries gives the same again. -/
theorem C68_roundtrip (c : Conv) (os : List UtilitarianConfigurationObject) :
    ∃ j items, configurationDump c (os.map .object) = .ok j ∧ j = configuration items ∧
      configurationLoad c j = .ok j ∧ configurationDump c (items.map .value) = .ok j := by
  refine ⟨_, _, C68_dump c os, rfl, ?_, ?_⟩
  · refine ((C68_load c _).1 _).2 (.inr ⟨_, _, _, rfl, by simp, rfl, ?_, rfl⟩)
    induction os with
    | nil => exact .nil
    | cons o os ih =>
      refine .cons ⟨_, _, _, accepted_exported c _ _ _ ?_, rfl⟩ ih
      cases o.seriesName <;> trivial
  · unfold configurationDump
    rw [List.mapM_map, mapM_ok (g := id)]
    · simp [configuration, bind_ok, pure_res]
    · intro j hj
      obtain ⟨o, _, rfl⟩ := List.mem_map.1 hj
      refine dump_exported c _ _ _ ?_
      cases o.seriesName <;> trivial

/-! ### The way of a device's parameters through a configuration -/

theorem toJson_inj {a b : Dumped} (h : a.toJson = b.toJson) : a = b := by
  cases a <;> cases b <;> simp only [Dumped.toJson, reduceCtorEq, Json.int.injEq, Json.bool.injEq, Json.str.injEq,
    Json.num.injEq, Json.numText.injEq, Json.list.injEq, Json.dict.injEq] at h <;> first | rfl | skip
  · rw [Int.natCast_inj.1 h]
  · rw [h]
  · rw [h]
  · rw [h]
  · rw [h]
  · rw [List.map_inj_right (fun _ _ h => by injection h)] at h
    rw [h]
  · rw [List.map_inj_right] at h
    · rw [h]
    · rintro ⟨a1, a2⟩ ⟨b1, b2⟩ h
      simp only [Prod.mk.injEq, Json.numText.injEq] at h
      rw [GasAttr.key_inj h.1, h.2]

theorem dumpedItems_inj {x y : List (Attr × Dumped)} (h : dumpedItems x = dumpedItems y) : x = y := by
  unfold dumpedItems at h
  rw [List.map_inj_right] at h
  · exact h
  · rintro ⟨a1, a2⟩ ⟨b1, b2⟩ h
    simp only [Prod.mk.injEq] at h
    rw [Attr.key_inj h.1, toJson_inj h.2]

theorem value_inj {t u : ObjType} (h : t.value = u.value) : t = u := by
  have key : ∀ t ∈ ObjType.all, ∀ u ∈ ObjType.all, t.value = u.value → t = u := by decide +kernel
  exact key t (objType_mem_all t) u (objType_mem_all u) h

/-- C68. An entry of a configuration determines what is restored from it. -/
theorem C68_restores_unique (j : Json) (y y' : Res Loaded) (h : Restores j y) (h' : Restores j y') : y = y' := by
  obtain ⟨t, x, n, s, h1, h2, h3⟩ := h
  obtain ⟨t', x', n', s', h1', h2', h3'⟩ := h'
  rw [h1] at h1'
  simp only [exported, Json.dict.injEq, List.cons.injEq, Prod.mk.injEq, Json.int.injEq, and_true, true_and] at h1'
  have ht := value_inj (Int.natCast_inj.1 h1'.1)
  subst ht
  have hx := dumpedItems_inj h1'.2.1
  subst hx
  rw [h2] at h2'
  injection h2' with h2'
  rw [← h3, ← h3', h2']

theorem parseLoop_objects (w : Bytes) (objs : List PObj) (h : parseLoop w = .ok objs) :
    ∀ o ∈ objs, ∃ t d, parameterFromBytes t d = .ok o := by
  suffices H : ∀ k, ∀ w : Bytes, w.length = k → ∀ objs, parseLoop w = .ok objs →
      ∀ o ∈ objs, ∃ t d, parameterFromBytes t d = .ok o from H _ w rfl objs h
  intro k
  induction k using Nat.strongRecOn with
  | _ k ih =>
    intro w hk objs h
    rw [parseLoop] at h
    split at h
    · cases h; intro o ho; cases ho
    · split at h
      · cases h
      · next o' w' hs =>
        split at h
        · cases h
        · next rest hr =>
          cases h
          intro o ho
          rcases List.mem_cons.1 ho with rfl | ho
          · unfold parseStep at hs
            rw [bind_eq_ok] at hs
            obtain ⟨⟨lb, w1⟩, _, hs⟩ := hs
            dsimp only at hs
            rw [bind_eq_ok] at hs
            obtain ⟨⟨tb, w2⟩, _, hs⟩ := hs
            dsimp only at hs
            rw [bind_eq_ok] at hs
            obtain ⟨t, _, hs⟩ := hs
            rw [bind_eq_ok] at hs
            obtain ⟨o1, h1, hs⟩ := hs
            cases hs
            exact ⟨t, _, h1⟩
          · exact ih _ (by have := parseStep_length hs; omega) w' rfl rest hr o ho

theorem parsable_of_ok {t : ObjType} {d : Bytes} {o : PObj} (h : parameterFromBytes t d = .ok o) : Parsable t := by
  by_cases ht : Parsable t
  · exact ht
  · exfalso
    have : t = .CORRECTION_COUNTER ∨ t = .DIFFERENCE_BASE_COUNTER ∨ t = .DEVICE_ERROR ∨ t = .SUM_OF_ALARMS := by
      revert ht; cases t <;> decide
    rcases this with rfl | rfl | rfl | rfl
    · cases h
    · cases h
    · obtain ⟨L, _, hL⟩ := C58_missing_arguments .DEVICE_ERROR (.inl rfl) d
      rw [hL] at h; repeat' split at h
      all_goals cases h
    · obtain ⟨L, _, hL⟩ := C58_missing_arguments .SUM_OF_ALARMS (.inr rfl) d
      rw [hL] at h; repeat' split at h
      all_goals cases h

theorem objectType_of_ok {t : ObjType} {d : Bytes} {o : PObj} (h : parameterFromBytes t d = .ok o) :
    o.objectType = .ok t := by
  have ht := parsable_of_ok h
  obtain ⟨L, hL, _⟩ := C60_outcome t ht d
  have hc := (C59_values t ht d L o hL h).1
  unfold PObj.objectType
  rw [hc]
  revert ht
  cases t <;> decide

theorem export_object (c : Conv) {o : PObj} {t : ObjType} {d : Bytes} (h : parameterFromBytes t d = .ok o) :
    ∃ x, exportObject c o = .ok (exported t.value (dumpedItems x) .none) ∧
      Survives o (exported t.value (dumpedItems x) .none) := by
  have ht := parsable_of_ok h
  obtain ⟨s, x, h1, h2, h3, h4, h5⟩ := C61_roundtrip t ht d o h
  refine ⟨x, ?_, t, objectType_of_ok h, ?_, ?_, ?_⟩
  · unfold exportObject
    rw [objectType_of_ok h, bind_ok, h1, bind_ok, h2, bind_ok, dump_object]
  · intro hr; exact ⟨t, x, _, s, rfl, h1, h3 hr⟩
  · intro hr hu
    obtain ⟨o', h6, h7⟩ := h4 hr hu
    exact ⟨o', ⟨t, x, _, s, rfl, h1, h6⟩, h7⟩
  · intro hr hu
    obtain ⟨l, h6, h7⟩ := h5 hr hu
    exact ⟨l, ⟨t, x, _, s, rfl, h1, h6⟩, h7⟩

/-- C68. From the device through a configuration and back: the objects parsed from any parameter list can
be exported; the exported configuration loads to itself; and each of its entries restores its object, in
order: an equal object (or dictionary, for the three types without hook), unless a float is not finite or
a flow rate has no `decimals`, when the schema refuses the data. -/
theorem C68_restore (c : Conv) (w : Bytes) (objs : List PObj) (h : parseParameters none (some w) = .ok objs) :
    ∃ items, exportConfiguration c objs = .ok (configuration items) ∧
      configurationLoad c (configuration items) = .ok (configuration items) ∧
      Each Survives objs items := by
  have hobjs : ∀ o ∈ objs, ∃ t d, parameterFromBytes t d = .ok o := by
    unfold parseParameters at h
    dsimp only at h
    split at h
    · cases h
    · exact parseLoop_objects w objs h
  have key : ∃ items, objs.mapM (exportObject c) = .ok items ∧ Each Survives objs items ∧
      ∀ j ∈ items, ∃ t d, j = exported t d .none := by
    clear h
    induction objs with
    | nil => exact ⟨[], rfl, .nil, fun j hj => by cases hj⟩
    | cons o objs ih =>
      obtain ⟨items, h1, h2, h3⟩ := ih (fun o ho => hobjs o (by simp [ho]))
      obtain ⟨t, d, ho⟩ := hobjs o (by simp)
      obtain ⟨x, h4, h5⟩ := export_object c ho
      refine ⟨_ :: items, ?_, .cons h5 h2, ?_⟩
      · rw [List.mapM_cons, h4, bind_ok, h1]; rfl
      · intro j hj
        rcases List.mem_cons.1 hj with rfl | hj
        · exact ⟨_, _, rfl⟩
        · exact h3 j hj
  obtain ⟨items, h1, h2, h3⟩ := key
  refine ⟨items, ?_, ?_, h2⟩
  · unfold exportConfiguration
    rw [h1, bind_ok]
    unfold configurationDump
    rw [List.mapM_map, mapM_ok (g := id)]
    · simp [configuration, bind_ok, pure_res]
    · intro j hj
      obtain ⟨t, d, rfl⟩ := h3 j hj
      exact dump_exported c _ _ _ trivial
  · refine ((C68_load c _).1 _).2 (.inr ⟨_, items, items, rfl, by simp, rfl, ?_, rfl⟩)
    clear h1 h2
    induction items with
    | nil => exact .nil
    | cons j items ih =>
      obtain ⟨t, d, rfl⟩ := h3 j (by simp)
      exact .cons ⟨_, _, _, accepted_exported c t d _ trivial, rfl⟩ (ih (fun j hj => h3 j (by simp [hj])))

/-! ### Concrete cases -/

/-- Conversions: `int("7") == 7`, everything else is refused. -/
def exConv : Conv := ⟨fun s => if s = ['7'] then some 7 else none, fun _ => none, fun _ => []⟩

-- accepted: keys in any order, the type as a string; refused: a boolean type, a missing name, an unknown key
example : utilitarianObjectLoad exConv (.dict [("series_name", .none), ("data", .dict []), ("parameter_type", .str ['7'])]) =
    .ok (exported 7 [] .none) := rfl
example : AcceptedObject exConv (.dict [("series_name", .none), ("data", .dict []), ("parameter_type", .str ['7'])]) 7 [] .none :=
  ⟨_, rfl, by simp, ⟨_, rfl, .str _ _ rfl⟩, rfl, rfl, trivial⟩
example : utilitarianObjectLoad exConv (.dict [("series_name", .none), ("data", .dict []), ("parameter_type", .bool true)]) =
      .error .validation ∧
    utilitarianObjectLoad exConv (.dict [("data", .dict []), ("parameter_type", .int 7)]) = .error .validation ∧
    utilitarianObjectLoad exConv (.dict [("series_name", .none), ("data", .dict []), ("parameter_type", .int 7), ("x", .none)]) =
      .error .validation := ⟨rfl, rfl, rfl⟩
example : configurationLoad exConv (.dict []) = .ok (.dict []) ∧
    configurationLoad exConv (.dict [("objects", .none)]) = .error .validation ∧
    configurationLoad exConv (.list []) = .error .validation ∧
    configurationLoad exConv (.dict [("objects", .list [exported 31 [] .none, .none])]) = .error .validation :=
  ⟨rfl, rfl, rfl, rfl⟩
example : configurationDump exConv [.object ⟨31, [("number", .int 5)], some ['a']⟩, .object ⟨48, [], none⟩] =
    .ok (configuration [exported 31 [("number", .int 5)] (.str ['a']), exported 48 [] .none]) := rfl
-- the way of a binary channel and a time window
example : ∃ objs items, parseParameters none (some (exRecords.flatMap record)) = .ok objs ∧ objs.length = 2 ∧
    exportConfiguration exConv objs = .ok (configuration items) ∧ Each Survives objs items := by
  have h : parseParameters none (some (exRecords.flatMap record)) =
      .ok [⟨.Binary, binaryLayout.values exBinary⟩, ⟨.TimeWindow, (timeWindowLayout 2).values exTimeWindow⟩] := by
    rw [C56_split exRecords (by decide) (by decide +kernel)]
    decide +kernel
  obtain ⟨items, h1, _, h2⟩ := C68_restore exConv _ _ h
  exact ⟨_, items, h, rfl, h1, h2⟩

end Elgas
