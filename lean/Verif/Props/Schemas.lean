import Verif.Spec.Schemas
import Verif.Props.Parameters
/-!
C61: dumping and loading parameter objects with their schemas.
-/
set_option linter.unusedVariables false
namespace Elgas
open Spec

/-- The schema kind fits the kind of value found at the location. -/
def typeOk (k : FieldKind) : Loc → Bool
  | .uint _ _ => k = .integer
  | .flag _ _ => k = .boolean || k = .integer
  | .bits _ _ _ => k = .integer
  | .text _ _ => k = .string
  | .hex _ _ => k = .string
  | .ip _ => k = .string
  | .float32 _ => k = .floatStr || k = .float || k = .number
  | .float64 _ => k = .floatStr || k = .float || k = .number
  | .float32Rounded _ _ => k = .floatStr || k = .float || k = .number
  | .gas _ => k = .gas
  | .hexRows _ _ _ => k = .stringList
  | .optional l => typeOk k l

/-- The value is accepted on loading. -/
def okVal (k : FieldKind) (an : Bool) : Val → Bool
  | .none => an
  | v => k = .number || (floatsOf v).all (·.isFinite)

/-- The value restored. -/
def conv (k : FieldKind) : Val → Val
  | .bool b => if k = .integer then .int b.toNat else .bool b
  | v => v

theorem dump_load {k : FieldKind} {l : Loc} (h : typeOk k l = true) (an : Bool) (size : Nat) (d : Bytes) :
    ∃ x, k.dump (l.read size d) = .ok x ∧
      FieldKind.load an k x = if okVal k an (l.read size d) then some (conv k (l.read size d)) else none := by
  induction l with
  | optional l ih =>
    unfold Loc.read
    split
    · refine ⟨.none, by cases k <;> rfl, ?_⟩
      cases k <;> cases an <;> rfl
    · exact ih h
  | gas off =>
    simp only [typeOk, decide_eq_true_eq] at h
    subst h
    refine ⟨_, rfl, ?_⟩
    simp only [FieldKind.load, okVal, conv, floatsOf, Loc.read, List.all_map]
    rfl
  | _ =>
    simp only [typeOk, decide_eq_true_eq, Bool.or_eq_true] at h
    first
    | (subst h; exact ⟨_, rfl, by simp [FieldKind.load, okVal, conv, floatsOf, Loc.read]⟩)
    | (rcases h with rfl | rfl <;> exact ⟨_, rfl, by simp [FieldKind.load, okVal, conv, floatsOf, Loc.read]⟩)
    | (rcases h with (rfl | rfl) | rfl <;>
        exact ⟨_, rfl, by simp [FieldKind.load, okVal, conv, floatsOf, Loc.read]⟩)

/-- The pieces of `Schema.dump` and `Schema.load`, for any schema and any object that has a value for
each of its fields. -/
theorem dump_eq (s : SchemaDef) (o : PObj) (v : Attr → Val) (g : Attr × FieldKind × Bool → Dumped)
    (hv : ∀ f ∈ s.fields, o.attrs.lookup f.1 = some (v f.1))
    (hg : ∀ f ∈ s.fields, f.2.1.dump (v f.1) = .ok (g f)) :
    s.dump o = .ok (s.fields.map fun f => (f.1, g f)) := by
  unfold SchemaDef.dump
  have key : ∀ fs : List (Attr × FieldKind × Bool), (∀ f ∈ fs, f ∈ s.fields) →
      fs.foldrM (fun (f : Attr × FieldKind × Bool) (acc : List (Attr × Dumped)) =>
        match o.attrs.lookup f.1 with
        | some v => (do
          let x ← f.2.1.dump v
          return (f.1, x) :: acc : Res _)
        | none => return acc) [] = .ok (fs.map fun f => (f.1, g f)) := by
    intro fs
    induction fs with
    | nil => intro _; rfl
    | cons f fs ih =>
      intro h
      rw [List.foldrM_cons, ih (fun x hx => h x (by simp [hx])), bind_ok, hv f (h f (by simp))]
      dsimp only
      rw [hg f (h f (by simp))]
      rfl
  exact key s.fields (fun _ h => h)

theorem lookup_graph {α β : Type} (fs : List (Attr × α)) (hn : (fs.map (·.1)).Nodup)
    (g : Attr × α → β) (f : Attr × α) (hf : f ∈ fs) :
    (fs.map fun f => (f.1, g f)).lookup f.1 = some (g f) := by
  refine lookup_of_mem ?_ (List.mem_map.2 ⟨f, hf, rfl⟩)
  rw [List.map_map]; exact hn

theorem load_fields (s : SchemaDef) (hn : (s.fields.map (·.1)).Nodup)
    (g : Attr × FieldKind × Bool → Dumped) (ok : Attr × FieldKind × Bool → Bool)
    (w : Attr × FieldKind × Bool → Val)
    (h : ∀ f ∈ s.fields, FieldKind.load f.2.2 f.2.1 (g f) = if ok f then some (w f) else none) :
    s.fields.mapM (fun (f : Attr × FieldKind × Bool) => do
      let x ← (s.fields.map fun f => (f.1, g f)).lookup f.1
      let v ← FieldKind.load f.2.2 f.2.1 x
      return (f.1, v)) =
    if s.fields.all ok then some (s.fields.map fun f => (f.1, w f)) else none := by
  have key : ∀ fs : List (Attr × FieldKind × Bool), (∀ f ∈ fs, f ∈ s.fields) →
      fs.mapM (fun (f : Attr × FieldKind × Bool) => do
        let x ← (s.fields.map fun f => (f.1, g f)).lookup f.1
        let v ← FieldKind.load f.2.2 f.2.1 x
        return (f.1, v)) =
      if fs.all ok then some (fs.map fun f => (f.1, w f)) else none := by
    intro fs
    induction fs with
    | nil => intro _; rfl
    | cons f fs ih =>
      intro hs
      rw [List.mapM_cons, ih (fun x hx => hs x (by simp [hx])),
        lookup_graph s.fields hn g f (hs f (by simp))]
      have h1 := h f (hs f (by simp))
      simp only [Option.bind_eq_bind, Option.bind_some]
      rw [h1]
      rw [List.all_cons]
      cases ok f with
      | false => rfl
      | true =>
        cases fs.all ok <;> rfl
  exact key s.fields (fun _ h => h)

theorem load_eq (s : SchemaDef) (hn : (s.fields.map (·.1)).Nodup)
    (g : Attr × FieldKind × Bool → Dumped) (ok : Attr × FieldKind × Bool → Bool)
    (w : Attr × FieldKind × Bool → Val)
    (h : ∀ f ∈ s.fields, FieldKind.load f.2.2 f.2.1 (g f) = if ok f then some (w f) else none) :
    s.load classOf (s.fields.map fun f => (f.1, g f)) =
      if s.fields.all ok then
        match s.postLoad with
        | none => .ok (.dict (s.fields.map fun f => (f.1, w f)))
        | some c => match classOf c with
          | some k => construct k (s.fields.map fun f => (f.1, w f)) >>= fun o => .ok (.object o)
          | none => .error .name
      else .error .validation := by
  unfold SchemaDef.load
  have h0 : ((s.fields.map fun f => (f.1, g f)).any fun p => !(s.fields.map (·.1)).contains p.1) = false := by
    rw [List.any_eq_false]
    intro p hp
    obtain ⟨f, hf, rfl⟩ := List.mem_map.1 hp
    have : (s.fields.map (·.1)).contains f.1 = true := by
      rw [List.contains_iff_mem]; exact List.mem_map_of_mem (f := (·.1)) hf
    simp only [this]
    decide
  rw [h0, if_neg (by decide), load_fields s hn g ok w h]
  cases s.fields.all ok with
  | false => rfl
  | true => cases s.postLoad with
    | none => rfl
    | some c => 
      simp only [if_true]
      cases classOf c <;> rfl

theorem construct_eq (c : ParamClass) (kw : List (Attr × Val)) (h : kw.map (·.1) = c.fields)
    (hn : c.fields.Nodup) : construct c kw = .ok ⟨c.cls, kw⟩ := by
  unfold construct
  have h0 : (kw.any fun p => !c.fields.contains p.1) = false := by
    rw [List.any_eq_false]
    intro p hp
    have : c.fields.contains p.1 = true := by
      rw [List.contains_iff_mem, ← h]; exact List.mem_map_of_mem (f := (·.1)) hp
    simp only [this]
    decide
  rw [h0, if_neg (by decide)]
  have := mapM_lookup kw (by rw [h]; exact hn)
  rw [h] at this
  rw [this]
  rfl

/-! ### The schemas of the repository -/

def isOptional : Loc → Bool
  | .optional _ => true
  | _ => false

def isFlag : Loc → Bool
  | .flag _ _ => true
  | .optional l => isFlag l
  | _ => false

def fieldFits (t : ObjType) (p : (Attr × FieldKind × Bool) × (Attr × Loc)) : Bool :=
  typeOk p.1.2.1 p.2.2 && (decide (p.1.2.1 = .number) == decide (p.1.1 ∈ unchecked t)) &&
  ((isOptional p.2.2 && !p.1.2.2) == (decide (t = .FLOW_RATE) && decide (p.1.1 = .decimals))) &&
  (decide (t = .FLOW_RATE) || decide (t = .TIMER) || !(isFlag p.2.2 && decide (p.1.2.1 = .integer)))

/-- Names agree in order, kinds fit; the hook builds the class of the object. -/
def schemaFits (t : ObjType) (s : SchemaDef) (L : Layout) : Bool :=
  decide (s.fields.map (·.1) = L.fields.map (·.1)) &&
  (s.fields.zip L.fields).all (fieldFits t) &&
  decide (s.postLoad = if Unhooked t then none else some (classFor t)) &&
  (match classOf (classFor t) with
    | some c => decide (c.cls = classFor t) && decide (c.fields = s.fields.map (·.1))
    | none => false)

theorem schema_fits_fixed : ∀ t ∈ ObjType.all, Parsable t → t ≠ .TIME_WINDOW →
    (match schemaMap t, layoutOf (classFor t) with
      | some s, some L => schemaFits t s L
      | _, _ => false) = true := by decide +kernel

theorem schema_fits {t : ObjType} (ht : Parsable t) {d : Bytes} {L : Layout}
    (hL : layout (classFor t) d = some L) : ∃ s, schemaMap t = some s ∧ schemaFits t s L = true := by
  by_cases hw : t = .TIME_WINDOW
  · subst hw
    have : timeWindowLayout (d.getD 34 0).toNat = L := by injection hL
    subst this
    refine ⟨_, rfl, ?_⟩
    generalize (d.getD 34 0).toNat = n
    rfl
  · have := schema_fits_fixed t (objType_mem_all t) ht hw
    rw [layout_eq t hw d] at hL
    rw [hL] at this
    cases hs : schemaMap t with
    | none => rw [hs] at this; cases this
    | some s => rw [hs] at this; exact ⟨s, rfl, this⟩

theorem zip_left {α β γ : Type} (A : List (γ × α)) (B : List (γ × β)) (h : A.map (·.1) = B.map (·.1)) :
    ∀ f ∈ A, ∃ l, (f, (f.1, l)) ∈ A.zip B := by
  induction A generalizing B with
  | nil => intro f hf; cases hf
  | cons a A ih =>
    cases B with
    | nil => cases h
    | cons b B =>
      rw [List.map_cons, List.map_cons, List.cons.injEq] at h
      intro f hf
      rcases List.mem_cons.1 hf with rfl | hf
      · exact ⟨b.2, by rw [h.1]; simp⟩
      · obtain ⟨l, hl⟩ := ih B h.2 f hf
        exact ⟨l, by simp [hl]⟩

theorem zip_right {α β γ : Type} (A : List (γ × α)) (B : List (γ × β)) (h : A.map (·.1) = B.map (·.1)) :
    ∀ p ∈ B, ∃ k, ((p.1, k), p) ∈ A.zip B := by
  induction A generalizing B with
  | nil => intro p hp; cases B with
    | nil => cases hp
    | cons b B => cases h
  | cons a A ih =>
    cases B with
    | nil => intro p hp; cases hp
    | cons b B =>
      rw [List.map_cons, List.map_cons, List.cons.injEq] at h
      intro p hp
      rcases List.mem_cons.1 hp with rfl | hp
      · exact ⟨a.2, by rw [← h.1]; simp⟩
      · obtain ⟨k, hk⟩ := ih B h.2 p hp
        exact ⟨k, by simp [hk]⟩

/-- The value at a name. -/
def valueAt (L : Layout) (d : Bytes) (a : Attr) : Val :=
  match L.fields.lookup a with
  | some l => l.read L.size d
  | none => .none

/-- The restored attributes. -/
def restored (s : SchemaDef) (L : Layout) (d : Bytes) : List (Attr × Val) :=
  s.fields.map fun f => (f.1, conv f.2.1 (valueAt L d f.1))

theorem restored_names (s : SchemaDef) (L : Layout) (d : Bytes) :
    (restored s L d).map (·.1) = s.fields.map (·.1) := by
  simp [restored, List.map_map, Function.comp_def]

theorem pyEq_conv (k : FieldKind) (v : Val) : pyEq v (conv k v) = true := by
  cases v with
  | bool b =>
    unfold conv
    by_cases hk : k = .integer <;> simp [hk, pyEq]
  | _ => simp [conv, pyEq]

theorem conv_read {k : FieldKind} {l : Loc} (h : (isFlag l && decide (k = .integer)) = false) (size : Nat)
    (d : Bytes) : conv k (l.read size d) = l.read size d := by
  induction l with
  | optional l ih =>
    unfold Loc.read
    split
    · rfl
    · exact ih h
  | flag off b =>
    simp only [isFlag, Bool.true_and, decide_eq_false_iff_not] at h
    simp [Loc.read, conv, h]
  | _ => rfl

/-- What dump followed by load does, before the conditions are put in terms of the object. -/
theorem dump_load_raw {t : ObjType} (ht : Parsable t) {d : Bytes} {L : Layout} {o : PObj}
    (hL : layout (classFor t) d = some L) (h : parameterFromBytes t d = .ok o) :
    ∃ s x, schemaMap t = some s ∧ schemaFits t s L = true ∧ s.dump o = .ok x ∧
      s.load classOf x =
        if s.fields.all fun f => okVal f.2.1 f.2.2 (valueAt L d f.1) then
          (if Unhooked t then .ok (.dict (restored s L d))
          else .ok (.object ⟨classFor t, restored s L d⟩))
        else .error .validation := by
  obtain ⟨s, hs, hfit⟩ := schema_fits ht hL
  obtain ⟨hcls, hattrs⟩ := C59_values t ht d L o hL h
  have hfit' := hfit
  simp only [schemaFits, Bool.and_eq_true, decide_eq_true_eq] at hfit'
  obtain ⟨⟨⟨hnames, hz⟩, hpost⟩, hc⟩ := hfit'
  have hndL := layout_nodup hL
  have hnd : (s.fields.map (·.1)).Nodup := by rw [hnames]; exact hndL
  -- every schema field has its location
  have hloc : ∀ f ∈ s.fields, ∃ l, L.fields.lookup f.1 = some l ∧ typeOk f.2.1 l = true := by
    intro f hf
    obtain ⟨l, hl⟩ := zip_left s.fields L.fields hnames f hf
    have h1 := List.all_eq_true.1 hz _ hl
    simp only [fieldFits, Bool.and_eq_true] at h1
    exact ⟨l, lookup_of_mem hndL (List.of_mem_zip hl).2, h1.1.1.1⟩
  let g : Attr × FieldKind × Bool → Dumped := fun f =>
    match f.2.1.dump (valueAt L d f.1) with
    | .ok x => x
    | .error _ => .none
  have hboth : ∀ f ∈ s.fields, f.2.1.dump (valueAt L d f.1) = .ok (g f) ∧
      FieldKind.load f.2.2 f.2.1 (g f) =
        if okVal f.2.1 f.2.2 (valueAt L d f.1) then some (conv f.2.1 (valueAt L d f.1)) else none := by
    intro f hf
    obtain ⟨l, hl, htype⟩ := hloc f hf
    obtain ⟨x, h1, h2⟩ := dump_load htype f.2.2 L.size d
    have hv : valueAt L d f.1 = l.read L.size d := by simp [valueAt, hl]
    have hgx : g f = x := by simp only [g, hv, h1]
    rw [hgx, hv]
    exact ⟨h1, h2⟩
  have hdump := dump_eq s o (valueAt L d) g (by
    intro f hf
    obtain ⟨l, hl, _⟩ := hloc f hf
    rw [hattrs]
    have := lookup_map_snd (fun l => Loc.read L.size d l) L.fields f.1
    rw [this, hl]
    simp [valueAt, hl]) (fun f hf => (hboth f hf).1)
  refine ⟨s, _, hs, hfit, hdump, ?_⟩
  rw [load_eq s hnd g (fun f => okVal f.2.1 f.2.2 (valueAt L d f.1)) (fun f => conv f.2.1 (valueAt L d f.1))
    (fun f hf => (hboth f hf).2)]
  by_cases hall : (s.fields.all fun f => okVal f.2.1 f.2.2 (valueAt L d f.1)) = true
  · rw [if_pos hall, if_pos hall, hpost]
    by_cases hu : Unhooked t
    · rw [if_pos hu, if_pos hu]; rfl
    · rw [if_neg hu, if_neg hu]
      dsimp only
      cases hk : classOf (classFor t) with
      | none => rw [hk] at hc; cases hc
      | some c =>
        rw [hk] at hc
        simp only [Bool.and_eq_true, decide_eq_true_eq] at hc
        dsimp only
        have := construct_eq c (restored s L d) (by rw [restored_names, hc.2]) (by rw [hc.2]; exact hnd)
        rw [hc.1] at this
        unfold restored at this
        rw [this]
        rfl
  · rw [if_neg hall, if_neg hall]

theorem isFinite_iff (x : PyFloat) : x.isFinite = true ↔ Finite x := by
  cases x <;> simp only [PyFloat.isFinite, Finite, decide_eq_true_eq] <;> omega

theorem okVal_iff (k : FieldKind) (an : Bool) (v : Val) :
    okVal k an v = true ↔ (v = .none → an = true) ∧ (k ≠ .number → ∀ x ∈ floatsOf v, Finite x) := by
  by_cases hk : k = .number <;> cases v <;> simp [okVal, floatsOf, hk, isFinite_iff]
  exact forall_comm

theorem all_okVal_iff {t : ObjType} (ht : Parsable t) {d : Bytes} {L : Layout} {o : PObj}
    (hL : layout (classFor t) d = some L) (h : parameterFromBytes t d = .ok o) {s : SchemaDef}
    (hfit : schemaFits t s L = true) :
    (s.fields.all fun f => okVal f.2.1 f.2.2 (valueAt L d f.1)) = true ↔ Restorable t o := by
  obtain ⟨hcls, hattrs⟩ := C59_values t ht d L o hL h
  simp only [schemaFits, Bool.and_eq_true, decide_eq_true_eq] at hfit
  obtain ⟨⟨⟨hnames, hz⟩, hpost⟩, hc⟩ := hfit
  have hndL := layout_nodup hL
  have hfield : ∀ f p, (f, p) ∈ s.fields.zip L.fields →
      (f.2.1 = .number ↔ f.1 ∈ unchecked t) ∧
      ((isOptional p.2 = true ∧ f.2.2 = false) ↔ t = .FLOW_RATE ∧ f.1 = .decimals) := by
    intro f p hp
    have h1 := List.all_eq_true.1 hz _ hp
    simp only [fieldFits, Bool.and_eq_true, beq_iff_eq] at h1
    obtain ⟨⟨⟨_, h2⟩, h3⟩, _⟩ := h1
    constructor
    · by_cases hn : f.2.1 = .number <;> by_cases hu : f.1 ∈ unchecked t <;> simp_all
    · rw [Bool.eq_iff_iff] at h3
      simpa using h3
  have hval : ∀ p ∈ L.fields, valueAt L d p.1 = p.2.read L.size d := by
    intro p hp
    simp [valueAt, lookup_of_mem hndL (show (p.1, p.2) ∈ L.fields from hp)]
  rw [List.all_eq_true]
  constructor
  · intro hall
    refine ⟨?_, ?_⟩
    · intro q hq hnu
      rw [hattrs] at hq
      obtain ⟨p, hp, rfl⟩ := List.mem_map.1 hq
      obtain ⟨k, hk⟩ := zip_right s.fields L.fields hnames p hp
      have h1 := (okVal_iff _ _ _).1 (hall _ (List.of_mem_zip hk).1)
      dsimp only at h1 hnu ⊢
      rw [hval p hp] at h1
      exact h1.2 (fun hn => hnu (((hfield _ _ hk).1).1 hn))
    · rintro rfl hnone
      rw [hattrs] at hnone
      have := lookup_map_snd (fun l => Loc.read L.size d l) L.fields .decimals
      rw [this] at hnone
      cases hl : L.fields.lookup .decimals with
      | none => rw [hl] at hnone; cases hnone
      | some l =>
        rw [hl] at hnone
        injection hnone with hnone
        have hm : (Attr.decimals, l) ∈ L.fields := by
          have := List.lookup_eq_some_iff.1 hl
          obtain ⟨l1, l2, h1, _⟩ := this
          rw [h1]; simp
        obtain ⟨k, hk⟩ := zip_right s.fields L.fields hnames _ hm
        have h1 := (okVal_iff _ _ _).1 (hall _ (List.of_mem_zip hk).1)
        have h2 := ((hfield _ _ hk).2).2 ⟨rfl, rfl⟩
        dsimp only at h1 h2
        have h3 := h1.1 (by rw [hval _ hm]; exact hnone)
        rw [h2.2] at h3
        cases h3
  · rintro ⟨hfin, hdec⟩ f hf
    obtain ⟨l, hl⟩ := zip_left s.fields L.fields hnames f hf
    have hm := (List.of_mem_zip hl).2
    have hv := hval _ hm
    dsimp only at hv
    rw [okVal_iff, hv]
    refine ⟨fun hnone => ?_, fun hnn => ?_⟩
    · cases ha : f.2.2 with
      | true => rfl
      | false =>
        have hk := layout_locOk hL _ hm
        have hopt : isOptional l = true := by
          cases l with
          | optional l' => rfl
          | _ => exact absurd hnone (read_ne_none rfl L.size d)
        have h4 := ((hfield _ _ hl).2).1 ⟨hopt, ha⟩
        have h5 := C59_attribute t ht d L o hL h f.1 l hm
        rw [hnone, h4.2] at h5
        exact absurd h5 (hdec h4.1)
    · refine hfin (f.1, l.read L.size d) ?_ (fun hu => hnn (((hfield _ _ hl).1).2 hu))
      rw [hattrs]
      exact List.mem_map.2 ⟨_, hm, rfl⟩

/-- C61. Dumping an object that was parsed never fails, and loading the dump gives
* a validation error exactly when a (checked) float is not finite or a flow rate has no `decimals`;
* otherwise an equal object, or for the three types without hook a dictionary of equal values. -/
theorem C61_roundtrip (t : ObjType) (ht : Parsable t) (d : Bytes) (o : PObj)
    (h : parameterFromBytes t d = .ok o) :
    ∃ s x, schemaById t = .ok s ∧ s.dump o = .ok x ∧
      (¬ Restorable t o → s.load classOf x = .error .validation) ∧
      (Restorable t o → ¬ Unhooked t → ∃ o', s.load classOf x = .ok (.object o') ∧ SameObject o o') ∧
      (Restorable t o → Unhooked t → ∃ l, s.load classOf x = .ok (.dict l) ∧ SameObject o ⟨o.cls, l⟩) := by
  obtain ⟨L, hL, _⟩ := C60_outcome t ht d
  obtain ⟨s, x, hs, hfit, hd, hload⟩ := dump_load_raw ht hL h
  have hiff := all_okVal_iff ht hL h hfit
  obtain ⟨hcls, hattrs⟩ := C59_values t ht d L o hL h
  have hfit' := hfit
  simp only [schemaFits, Bool.and_eq_true, decide_eq_true_eq] at hfit'
  obtain ⟨⟨⟨hnames, hz⟩, hpost⟩, hc⟩ := hfit'
  have hndL := layout_nodup hL
  have hnd : (s.fields.map (·.1)).Nodup := by rw [hnames]; exact hndL
  have hsame : SameObject o ⟨classFor t, restored s L d⟩ := by
    refine ⟨hcls, ?_, ?_⟩
    · rw [restored_names, hnames, hattrs, List.map_map]; rfl
    · intro a v v' h1 h2
      rw [hattrs] at h1
      have := lookup_map_snd (fun l => Loc.read L.size d l) L.fields a
      rw [this] at h1
      cases hl : L.fields.lookup a with
      | none => rw [hl] at h1; cases h1
      | some l =>
        rw [hl] at h1
        injection h1 with h1
        have hm : (a, l) ∈ L.fields := by
          obtain ⟨l1, l2, h1, _⟩ := List.lookup_eq_some_iff.1 hl
          rw [h1]; simp
        obtain ⟨k, hk⟩ := zip_right s.fields L.fields hnames _ hm
        have h3 := lookup_graph s.fields hnd (fun f => conv f.2.1 (valueAt L d f.1)) _ (List.of_mem_zip hk).1
        dsimp only at h2 h3
        unfold restored at h2
        rw [h3] at h2
        injection h2 with h2
        have hv : valueAt L d a = v := by simp [valueAt, hl, h1]
        rw [← h2, hv]
        exact pyEq_conv _ _
  refine ⟨s, x, by simp [schemaById, hs], hd, ?_, ?_, ?_⟩
  · intro hr
    rw [hload, if_neg (fun hh => hr (hiff.1 hh))]
  · intro hr hu
    rw [hload, if_pos (hiff.2 hr), if_neg hu]
    exact ⟨_, rfl, hsame⟩
  · intro hr hu
    rw [hload, if_pos (hiff.2 hr), if_pos hu]
    rw [hcls]
    exact ⟨_, rfl, hsame⟩

/-- C61. Except for flow rates and timers, whose flags come back as 0 and 1, the very same object
comes back. -/
theorem C61_identical (t : ObjType) (ht : Parsable t) (hx : t ≠ .FLOW_RATE ∧ t ≠ .TIMER)
    (hu : ¬ Unhooked t) (d : Bytes) (o : PObj)
    (h : parameterFromBytes t d = .ok o) (hr : Restorable t o) :
    ∃ s x, schemaById t = .ok s ∧ s.dump o = .ok x ∧ s.load classOf x = .ok (.object o) := by
  obtain ⟨L, hL, _⟩ := C60_outcome t ht d
  obtain ⟨s, x, hs, hfit, hd, hload⟩ := dump_load_raw ht hL h
  have hiff := all_okVal_iff ht hL h hfit
  obtain ⟨hcls, hattrs⟩ := C59_values t ht d L o hL h
  simp only [schemaFits, Bool.and_eq_true, decide_eq_true_eq] at hfit
  obtain ⟨⟨⟨hnames, hz⟩, hpost⟩, hc⟩ := hfit
  have hndL := layout_nodup hL
  refine ⟨s, x, by simp [schemaById, hs], hd, ?_⟩
  rw [hload, if_pos (hiff.2 hr), if_neg hu]
  have : restored s L d = o.attrs := by
    have h1 : restored s L d = (s.fields.map (·.1)).map fun a => (a, valueAt L d a) := by
      unfold restored
      rw [List.map_map]
      apply List.map_congr_left
      intro f hf
      obtain ⟨l, hl⟩ := zip_left s.fields L.fields hnames f hf
      have h1 := List.all_eq_true.1 hz _ hl
      simp only [fieldFits, Bool.and_eq_true, Bool.or_eq_true, decide_eq_true_eq, Bool.not_eq_true'] at h1
      have h2 : (isFlag l && decide (f.2.1 = .integer)) = false := by
        rcases h1.2 with (h2 | h2) | h2
        · exact absurd h2 hx.1
        · exact absurd h2 hx.2
        · exact h2
      have hv : valueAt L d f.1 = l.read L.size d := by
        simp [valueAt, lookup_of_mem hndL (List.of_mem_zip hl).2]
      simp only [Function.comp_def]
      rw [hv, conv_read h2]
    rw [h1, hnames, hattrs, List.map_map]
    apply List.map_congr_left
    intro p hp
    simp [valueAt, lookup_of_mem hndL (show (p.1, p.2) ∈ L.fields from hp)]
  rw [this, ← hcls]

/-- C61. Defect: every flow rate transmitted without its optional last byte is parsed, dumped, and then
rejected by its own schema. -/
theorem C61_flow_rate_without_decimals (d : Bytes) (h : d.length = 50) :
    ∃ o s x, parameterFromBytes .FLOW_RATE d = .ok o ∧ schemaById .FLOW_RATE = .ok s ∧ s.dump o = .ok x ∧
      s.load classOf x = .error .validation := by
  have ht : Parsable .FLOW_RATE := by decide
  have hL : layout (classFor .FLOW_RATE) d = some flowRateLayout := rfl
  obtain ⟨o, ho⟩ := ((C60_errors _ ht d _ hL).2.2.2).2 (.inl h)
  obtain ⟨s, x, h1, h2, h3, _⟩ := C61_roundtrip _ ht d o ho
  refine ⟨o, s, x, ho, h1, h2, h3 ?_⟩
  rintro ⟨_, hr⟩
  refine hr rfl ((C60_none_iff _ ht d _ o hL ho .decimals (.optional (.uint 50 1)) (by decide)).2 ⟨⟨_, rfl⟩, h⟩)

/-! ### Witnesses -/

/-- The binary channel of `exBinary` meets the hypotheses of `C61_identical`. -/
example : Parsable .BINARY ∧ ¬ Unhooked .BINARY ∧
    Restorable .BINARY ⟨.Binary, binaryLayout.values exBinary⟩ ∧
    parameterFromBytes .BINARY exBinary = .ok ⟨.Binary, binaryLayout.values exBinary⟩ := by
  refine ⟨by decide, by decide, ⟨by decide +kernel, by decide⟩, by decide +kernel⟩

/-- A flow rate with `decimals` comes back equal, but not identical: its flags are integers. -/
example : ∃ o o' s x, parameterFromBytes .FLOW_RATE (List.replicate 51 0x41) = .ok o ∧
    schemaById .FLOW_RATE = .ok s ∧ s.dump o = .ok x ∧ s.load classOf x = .ok (.object o') ∧
    o.attrs.lookup .in_data_archive = some (.bool true) ∧ o'.attrs.lookup .in_data_archive = some (.int 1) :=
  ⟨⟨.FlowRate, flowRateLayout.values (List.replicate 51 0x41)⟩,
    ⟨.FlowRate, restored flowRateSchema flowRateLayout (List.replicate 51 0x41)⟩, _,
    flowRateSchema.fields.map (fun f => (f.1, match f.2.1.dump (valueAt flowRateLayout (List.replicate 51 0x41) f.1) with
      | .ok x => x
      | .error _ => .none)), by decide +kernel, rfl, by decide +kernel, by decide +kernel, by decide +kernel,
      by decide +kernel⟩

/-- A single with all bits set is a NaN; a counter with one cannot be restored. -/
example : ¬ Finite (.single 0xFFFFFFFF) ∧ Finite (.single 0x3F800000) ∧ ¬ Finite (.rounded 0xFF800000 2) := by decide
example : ¬ Restorable .COUNTER ⟨.Counter, counterLayout.values (List.replicate counterLayout.size 0xFF)⟩ := by
  intro h
  exact absurd h.1 (by decide +kernel)
end Elgas
