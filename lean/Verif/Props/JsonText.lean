import Verif.Lemmas.JsonText
import Verif.Props.Integration
import Verif.Props.Responses
import Verif.Props.Float
/-!
C96: configurations as JSON text.
-/
namespace Elgas
open Spec

/-- C96. What `json.dumps` writes, `json.loads` reads back. -/
theorem C96_text {F : FloatText} (hF : FloatTextOk F) {j : Json} (h : Document j) :
    jsonLoads F (j.text F) = .ok (asRead F j) := by
  have := reads_back hF h (2 * (j.text F).length + 2) [] (.inl rfl) (by simp)
  unfold jsonLoads
  rw [skipSpace_starts (starts_text hF h)]
  rw [List.append_nil] at this
  rw [this]
  rfl

/-! ### The text is printable ASCII -/

theorem ascii_append {a b : PyStr} (ha : Printable a) (hb : Printable b) : Printable (a ++ b) := by
  intro c hc
  rcases List.mem_append.1 hc with h | h
  · exact ha c h
  · exact hb c h

theorem ascii_hex4 (n : Nat) : Printable (hex4 n) := by
  have key : ∀ d, d < 16 → 0x20 ≤ (Nat.digitChar d).toNat ∧ (Nat.digitChar d).toNat ≤ 0x7E := by decide
  intro c hc
  simp only [hex4, List.mem_cons, List.not_mem_nil, or_false] at hc
  rcases hc with rfl | rfl | rfl | rfl <;> exact key _ (by omega)

theorem ascii_char (c : Char) : Printable (jsonChar c) := by
  have key : ∀ l : PyStr, (∀ c ∈ l, 0x20 ≤ c.toNat ∧ c.toNat ≤ 0x7E) → Printable l := fun _ h => h
  unfold jsonChar
  repeat' split
  all_goals try (exact key _ (by decide))
  · rename_i h
    intro d hd
    rw [List.mem_singleton] at hd
    subst hd
    exact h
  · exact ascii_append (key _ (by decide)) (ascii_hex4 _)
  · exact ascii_append (ascii_append (ascii_append (key _ (by decide)) (ascii_hex4 _)) (key _ (by decide))) (ascii_hex4 _)

theorem ascii_str (s : PyStr) : Printable (jsonStr s) := by
  have q : Printable ['"'] := by intro c hc; rw [List.mem_singleton] at hc; subst hc; decide
  refine ascii_append (ascii_append q ?_) q
  intro c hc
  obtain ⟨d, _, h⟩ := List.mem_flatMap.1 hc
  exact ascii_char d c h

theorem ascii_digit {c : Char} (h : c.isDigit = true) : 0x20 ≤ c.toNat ∧ c.toNat ≤ 0x7E := by
  simp only [Char.isDigit, Bool.and_eq_true, decide_eq_true_eq] at h
  have h1 := UInt32.le_iff_toNat_le.1 h.1
  have h2 := UInt32.le_iff_toNat_le.1 h.2
  have e1 : '0'.val.toNat = 48 := rfl
  have e2 : '9'.val.toNat = 57 := rfl
  have : c.toNat = c.val.toNat := rfl
  omega

theorem ascii_digits {s : PyStr} (h : Digits s) : Printable s := fun c hc => ascii_digit (h.2 c hc)

theorem ascii_decimal {s : PyStr} (h : IsDecimal s) : Printable s := by
  obtain ⟨sign, whole, frac, exp, rfl, h1, h2, h3, h4, _⟩ := h
  have nil : Printable [] := fun c hc => by cases hc
  have cons : ∀ {c : Char} {s : PyStr}, (0x20 ≤ c.toNat ∧ c.toNat ≤ 0x7E) → Printable s → Printable (c :: s) := by
    intro c s hc hs d hd
    rcases List.mem_cons.1 hd with rfl | hd
    · exact hc
    · exact hs d hd
  refine ascii_append (ascii_append (ascii_append ?_ ?_) ?_) ?_
  · rcases h1 with rfl | rfl
    · exact nil
    · exact cons (by decide) nil
  · rcases h2 with rfl | ⟨h, _⟩
    · exact cons (by decide) nil
    · exact ascii_digits h
  · rcases h3 with rfl | ⟨d, h, rfl⟩
    · exact nil
    · exact cons (by decide) (ascii_digits h)
  · rcases h4 with rfl | ⟨d, h, rfl | rfl | rfl⟩
    · exact nil
    · exact cons (by decide) (ascii_digits h)
    · exact cons (by decide) (cons (by decide) (ascii_digits h))
    · exact cons (by decide) (cons (by decide) (ascii_digits h))

theorem ascii_float {F : FloatText} (hF : FloatTextOk F) {b : Nat} (hb : b < 2 ^ 64) : Printable (F.json b) := by
  unfold FloatText.json
  have key : ∀ l : PyStr, (∀ c ∈ l, 0x20 ≤ c.toNat ∧ c.toNat ≤ 0x7E) → Printable l := fun _ h => h
  split
  · exact ascii_decimal (hF.decimal b hb (by assumption))
  · repeat' split
    all_goals exact key _ (by decide)

theorem ascii_int (n : Int) : Printable (pyStrInt n) := by
  have hd : Printable (Nat.toDigits 10 n.natAbs) :=
    fun c h => ascii_digit (Nat.isDigit_of_mem_toDigits (by omega) (by omega) h)
  unfold pyStrInt
  split
  · intro c hc
    rcases List.mem_cons.1 hc with rfl | hc
    · decide
    · exact hd c hc
  · exact hd

/-- C96. The text is printable ASCII: no line break, nothing that depends on an encoding. -/
theorem C96_ascii {F : FloatText} (hF : FloatTextOk F) {j : Json} (h : Document j) : Printable (j.text F) := by
  have key : ∀ l : PyStr, (∀ c ∈ l, 0x20 ≤ c.toNat ∧ c.toNat ≤ 0x7E) → Printable l := fun _ h => h
  induction h with
  | none => simp only [Json.text]; exact key _ (by decide)
  | bool b => cases b <;> simp only [Json.text] <;> exact key _ (by decide)
  | int n => simp only [Json.text]; exact ascii_int n
  | str s => simp only [Json.text]; exact ascii_str s
  | num x hx => simp only [Json.text]; exact ascii_float hF hx
  | numText x hx => simp only [Json.text]; exact ascii_str _
  | list l hd ih =>
    simp only [Json.text]
    refine ascii_append (ascii_append (key _ (by decide)) ?_) (key _ (by decide))
    induction l with
    | nil => simp only [Json.elements]; exact key _ (by decide)
    | cons j l ih' =>
      have h1 := ih j List.mem_cons_self
      cases l with
      | nil => simpa only [Json.elements] using h1
      | cons k l =>
        simp only [Json.elements]
        exact ascii_append (ascii_append h1 (key _ (by decide)))
          (ih' (fun j h => hd j (List.mem_cons_of_mem _ h)) (fun j h => ih j (List.mem_cons_of_mem _ h)))
  | dict l hk hd ih =>
    simp only [Json.text]
    refine ascii_append (ascii_append (key _ (by decide)) ?_) (key _ (by decide))
    clear hk
    induction l with
    | nil => simp only [Json.items]; exact key _ (by decide)
    | cons p l ih' =>
      have h1 := ih p List.mem_cons_self
      cases l with
      | nil =>
        simp only [Json.items]
        exact ascii_append (ascii_append (ascii_str _) (key _ (by decide))) h1
      | cons k l =>
        simp only [Json.items]
        exact ascii_append (ascii_append (ascii_append (ascii_append (ascii_str _) (key _ (by decide))) h1) (key _ (by decide)))
          (ih' (fun j h => hd j (List.mem_cons_of_mem _ h)) (fun j h => ih j (List.mem_cons_of_mem _ h)))

/-! ### Configurations -/

theorem asReadList_map (F : FloatText) : ∀ l : List Json, asReadList F l = l.map (asRead F)
  | [] => rfl
  | j :: l => by simp [asReadList, asReadList_map F l]

theorem asReadItems_map (F : FloatText) : ∀ l : List (String × Json), asReadItems F l = l.map fun p => (p.1, asRead F p.2)
  | [] => rfl
  | p :: l => by simp [asReadItems, asReadItems_map F l]

theorem document_exported {t : Int} {d : List (String × Json)} {n : Json} (hd : Document (.dict d)) (hn : Document n) :
    Document (exported t d n) := by
  refine .dict _ (show ["parameter_type", "data", "series_name"].Nodup by decide) ?_
  intro p hp
  simp only [List.mem_cons, List.not_mem_nil, or_false] at hp
  rcases hp with rfl | rfl | rfl
  · exact .int _
  · exact hd
  · exact hn

theorem document_configuration {l : List Json} (h : ∀ j ∈ l, Document j) : Document (configuration l) := by
  refine .dict _ (show ["objects"].Nodup by decide) ?_
  intro p hp
  rw [List.mem_singleton] at hp
  subst hp
  exact .list _ h

theorem asRead_exported (F : FloatText) (t : Int) (d : List (String × Json)) (n : Json) :
    asRead F (exported t d n) = exported t (asReadItems F d) (asRead F n) := by
  simp [exported, asRead, asReadItems]

theorem asRead_configuration (F : FloatText) (l : List Json) :
    asRead F (configuration l) = configuration (l.map (asRead F)) := by
  simp [configuration, asRead, asReadItems, asReadList_map]

theorem load_configuration (c : Conv) {items : List Json} (h : ∀ j ∈ items, ∃ t d n, IsName n ∧ j = exported t d n) :
    configurationLoad c (configuration items) = .ok (configuration items) := by
  refine ((C68_load c _).1 _).2 (.inr ⟨_, items, items, rfl, by simp, rfl, ?_, rfl⟩)
  induction items with
  | nil => exact .nil
  | cons j items ih =>
    obtain ⟨t, d, n, hn, rfl⟩ := h j List.mem_cons_self
    exact .cons ⟨_, _, _, accepted_exported c t d n hn, rfl⟩ (ih fun j h' => h j (List.mem_cons_of_mem _ h'))

/-- C96. A configuration written with `dumps` is accepted by `loads`, which returns its types, data and names. -/
theorem C96_configuration {F : FloatText} (hF : FloatTextOk F) (c : Conv) (os : List UtilitarianConfigurationObject)
    (h : ∀ o ∈ os, Document (.dict o.data)) :
    ∃ t, configurationDumps F c (os.map .object) = .ok t ∧ Printable t ∧
      configurationLoads F c t = .ok (configuration (os.map fun o =>
        exported o.parameterType (asReadItems F o.data) (match o.seriesName with | some s => .str s | none => .none))) := by
  have hd : Document (configuration (os.map fun o => exported o.parameterType o.data
      (match o.seriesName with | some s => .str s | none => .none))) := by
    refine document_configuration ?_
    intro j hj
    obtain ⟨o, ho, rfl⟩ := List.mem_map.1 hj
    refine document_exported (h o ho) ?_
    cases o.seriesName
    · exact .none
    · exact .str _
  have he : asRead F (configuration (os.map fun o => exported o.parameterType o.data
      (match o.seriesName with | some s => .str s | none => .none))) = configuration (os.map fun o =>
        exported o.parameterType (asReadItems F o.data) (match o.seriesName with | some s => .str s | none => .none)) := by
    rw [asRead_configuration, List.map_map]
    congr 1
    refine List.map_congr_left fun o _ => ?_
    simp only [Function.comp_apply, asRead_exported]
    cases o.seriesName <;> simp [asRead]
  refine ⟨_, by unfold configurationDumps; rw [C68_dump, bind_ok]; rfl, C96_ascii hF hd, ?_⟩
  unfold configurationLoads
  rw [C96_text hF hd, bind_ok, he]
  refine load_configuration c ?_
  intro j hj
  obtain ⟨o, _, rfl⟩ := List.mem_map.1 hj
  refine ⟨_, _, _, ?_, rfl⟩
  cases o.seriesName <;> trivial

/-! ### Restoring objects -/

/-- What is known of the floats of a parsed object. -/
def FloatOk (x : PyFloat) : Prop := x.bits64 < 2 ^ 64 ∧ (finite64 x.bits64 = true ↔ x.isFinite = true)

/-- The float as it is read from a number. -/
def floatRead (x : PyFloat) : PyFloat := .double (if nan64 x.bits64 then 0x7FF8000000000000 else x.bits64)

/-- The value restored. -/
def convText (k : FieldKind) : Val → Val
  | .bool b => if k = .integer then .int b.toNat else .bool b
  | .float x => .float (floatRead x)
  | .gas l => .gas (l.map fun p => (p.1, floatRead p.2))
  | v => v

theorem sameFloat_read (x : PyFloat) : SameFloat x (floatRead x) := by
  unfold SameFloat floatRead
  by_cases h : nan64 x.bits64 = true
  · exact .inr ⟨h, by rw [if_pos h]; decide⟩
  · exact .inl (by rw [if_neg h]; rfl)

theorem each_map {α β : Type} {R : α → β → Prop} {f : α → β} {l : List α} (h : ∀ a, R a (f a)) : Each R l (l.map f) := by
  induction l with
  | nil => exact .nil
  | cons a l ih => exact .cons (h a) ih

theorem sameVal_conv (k : FieldKind) (v : Val) : SameVal v (convText k v) := by
  cases v with
  | bool b => exact .same _ _ (pyEq_conv k (.bool b))
  | float x => exact .float _ _ (sameFloat_read x)
  | gas l => exact .gas _ _ (each_map fun p => ⟨rfl, sameFloat_read p.2⟩)
  | _ => exact .same _ _ (by simp [convText, pyEq])

theorem finite_notNan {b : Nat} (h : finite64 b = true) : nan64 b = false := by simp [nan64, h]

theorem floatRead_finite {x : PyFloat} : finite64 (floatRead x).bits64 = finite64 x.bits64 := by
  unfold floatRead
  by_cases h : nan64 x.bits64 = true
  · rw [if_pos h]
    have : finite64 x.bits64 = false := by
      cases hf : finite64 x.bits64 with
      | false => rfl
      | true => rw [finite_notNan hf] at h; cases h
    rw [this]; decide
  · rw [if_neg h]; rfl

/-- A float from its number. -/
theorem load_num (F : FloatText) {x : PyFloat} : loadFloat F (asRead F (.num x)) = some (floatRead x) := by
  simp only [asRead, loadFloat, floatRead]

/-- A finite float from its text; other texts are not accepted. -/
theorem load_numText {F : FloatText} (hF : FloatTextOk F) {x : PyFloat} (hx : FloatOk x) :
    ∃ y, loadFloat F (asRead F (.numText x)) = some y ∧ finite64 y.bits64 = finite64 x.bits64 ∧
      (finite64 x.bits64 = true → y = floatRead x) := by
  simp only [asRead, loadFloat]
  unfold FloatText.str
  by_cases h : finite64 x.bits64 = true
  · rw [if_pos h, hF.back _ hx.1 h]
    exact ⟨_, rfl, rfl, fun _ => by unfold floatRead; rw [finite_notNan h]; rfl⟩
  · rw [if_neg h]
    have h' : finite64 x.bits64 = false := by simpa using h
    split
    · obtain ⟨b, h1, h2⟩ := hF.nan
      rw [h1]
      refine ⟨_, rfl, ?_, fun e => absurd e h⟩
      rw [h']
      show finite64 b = false
      cases hb : finite64 b with
      | false => rfl
      | true => rw [finite_notNan hb] at h2; cases h2
    · split
      · rw [hF.negInf]
        exact ⟨_, rfl, by rw [h']; decide, fun e => absurd e h⟩
      · rw [hF.inf]
        exact ⟨_, rfl, by rw [h']; decide, fun e => absurd e h⟩

theorem load_finite {F : FloatText} (hF : FloatTextOk F) {x : PyFloat} (hx : FloatOk x) :
    ((loadFloat F (asRead F (.numText x))).bind fun y => if finite64 y.bits64 then some (Val.float y) else none) =
      (if x.isFinite then some (.float (floatRead x)) else none) ∧
    ((loadFloat F (asRead F (.num x))).bind fun y => if finite64 y.bits64 then some (Val.float y) else none) =
      (if x.isFinite then some (.float (floatRead x)) else none) := by
  constructor
  · obtain ⟨y, h1, h2, h3⟩ := load_numText hF hx
    rw [h1, Option.bind_some, h2]
    by_cases h : finite64 x.bits64 = true
    · rw [if_pos h, if_pos (hx.2.1 h), h3 h]
    · rw [if_neg h, if_neg (fun e => h (hx.2.2 e))]
  · rw [load_num, Option.bind_some, floatRead_finite]
    by_cases h : finite64 x.bits64 = true
    · rw [if_pos h, if_pos (hx.2.1 h)]
    · rw [if_neg h, if_neg (fun e => h (hx.2.2 e))]

theorem gas_nodup : gasFields.Nodup := by decide

theorem mapM_strs (l : List PyStr) :
    (l.map Json.str).mapM loadStr = some l := by
  induction l with
  | nil => rfl
  | cons s l ih =>
    rw [List.map_cons, List.mapM_cons, ih]
    rfl

theorem gas_lookup {l : List (GasAttr × Json)} (hn : (l.map (·.1)).Nodup) {p : GasAttr × Json} (hp : p ∈ l) :
    (l.map fun p => (p.1.key, p.2)).lookup p.1.key = some p.2 := by
  refine lookup_of_mem ?_ (List.mem_map.2 ⟨p, hp, rfl⟩)
  rw [List.map_map]
  have : ((fun x : String × Json => x.1) ∘ fun p : GasAttr × Json => (p.1.key, p.2)) = GasAttr.key ∘ (·.1) := rfl
  rw [this, ← List.map_map]
  exact hn.map _ (fun a b h e => h (GasAttr.key_inj e))

theorem load_gas {F : FloatText} (hF : FloatTextOk F) (an : Bool) {l : List (GasAttr × PyFloat)}
    (hl : l.map (·.1) = gasFields) (hx : ∀ p ∈ l, FloatOk p.2) :
    FieldKind.loadJson F an .gas (asRead F (Dumped.gas l).toJson) =
      if l.all fun p => p.2.isFinite then some (.gas (l.map fun p => (p.1, floatRead p.2))) else none := by
  have e : asRead F (Dumped.gas l).toJson = .dict ((l.map fun p => (p.1, asRead F (.numText p.2))).map fun p => (p.1.key, p.2)) := by
    simp only [Dumped.toJson, asRead, asReadItems_map, List.map_map]
    congr 1
  have hn : ((l.map fun p => (p.1, asRead F (.numText p.2))).map (·.1)).Nodup := by
    rw [List.map_map]
    have : ((fun x : GasAttr × Json => x.1) ∘ fun p : GasAttr × PyFloat => (p.1, asRead F (.numText p.2))) = (·.1) := rfl
    rw [this, hl]
    exact gas_nodup
  rw [e]
  have hk : (((l.map fun p => (p.1, asRead F (.numText p.2))).map fun p => (p.1.key, p.2)).any fun p =>
      !(gasFields.map GasAttr.key).contains p.1) = false := by
    rw [List.any_eq_false]
    intro q hq
    obtain ⟨p', hp', rfl⟩ := List.mem_map.1 hq
    obtain ⟨p, hp, rfl⟩ := List.mem_map.1 hp'
    have : (gasFields.map GasAttr.key).contains p.1.key = true := by
      rw [List.contains_iff_mem]
      refine List.mem_map_of_mem ?_
      rw [← hl]
      exact List.mem_map_of_mem (f := (·.1)) hp
    simp only [this]
    decide
  simp only [FieldKind.loadJson, hk, if_false, Bool.false_eq_true]
  generalize hd : ((l.map fun p => (p.1, asRead F (.numText p.2))).map fun p => (p.1.key, p.2)) = d
  have hlook : ∀ p ∈ l, d.lookup p.1.key = some (asRead F (.numText p.2)) := by
    intro p hp
    rw [← hd]
    exact gas_lookup hn (p := (p.1, asRead F (.numText p.2))) (List.mem_map.2 ⟨p, hp, rfl⟩)
  rw [← hl]
  clear hd hk e hn hl
  have key : (l.map (·.1)).mapM (fun (a : GasAttr) => (do
        let j ← d.lookup a.key
        let x ← loadFloat F j
        if finite64 x.bits64 then return (a, x) else none : Option (GasAttr × PyFloat))) =
      if l.all fun p => p.2.isFinite then some (l.map fun p => (p.1, floatRead p.2)) else none := by
    induction l with
    | nil => rfl
    | cons p l ih =>
      rw [List.map_cons, List.mapM_cons, ih (fun q hq => hx q (List.mem_cons_of_mem _ hq))
        (fun q hq => hlook q (List.mem_cons_of_mem _ hq)), hlook p List.mem_cons_self]
      obtain ⟨y, h1, h2, h3⟩ := load_numText hF (hx p List.mem_cons_self)
      simp only [Option.bind_eq_bind, Option.bind_some, h1, h2]
      rw [List.all_cons]
      by_cases h : finite64 p.2.bits64 = true
      · rw [if_pos h, h3 h, (hx p List.mem_cons_self).2.1 h]
        simp only [Option.pure_def, Option.bind_some, Bool.true_and]
        cases (l.all fun p => p.2.isFinite) <;> rfl
      · have : p.2.isFinite = false := by
          cases hf : p.2.isFinite with
          | false => rfl
          | true => exact absurd ((hx p List.mem_cons_self).2.2 hf) h
        rw [if_neg h, this]
        rfl
  rw [key]
  split <;> rfl

/-- What is known of the values of a parsed object. -/
def ValOk (v : Val) : Prop := (∀ x ∈ floatsOf v, FloatOk x) ∧ ∀ l, v = .gas l → l.map (·.1) = gasFields

/-- A value that was dumped is read from the text and loaded like the value itself. -/
theorem load_json {F : FloatText} (hF : FloatTextOk F) {k : FieldKind} {v : Val} {d : Dumped} (hd : k.dump v = .ok d)
    (hv : ValOk v) (an : Bool) :
    FieldKind.loadJson F an k (asRead F d.toJson) = if okVal k an v then some (convText k v) else none := by
  cases v with
  | none =>
    have : d = .none := by cases k <;> cases hd <;> rfl
    subst this
    cases k <;> cases an <;> simp [Dumped.toJson, asRead, FieldKind.loadJson, okVal, convText]
  | int n =>
    cases k <;> cases hd
    simp [Dumped.toJson, asRead, FieldKind.loadJson, okVal, convText, floatsOf]
  | bool b =>
    cases k <;> cases hd <;>
    simp [Dumped.toJson, asRead, FieldKind.loadJson, okVal, convText, floatsOf]
  | str s =>
    cases k <;> cases hd
    simp [Dumped.toJson, asRead, FieldKind.loadJson, okVal, convText, floatsOf]
  | float x =>
    have hx := hv.1 x (by simp [floatsOf])
    obtain ⟨h1, h2⟩ := load_finite hF hx
    cases k <;> cases hd
    · have : ∀ j, j = asRead F (.numText x) → FieldKind.loadJson F an .floatStr j =
          (loadFloat F j).bind fun y => if finite64 y.bits64 then some (Val.float y) else none := by
        intro j hj
        cases j <;> first | rfl | (simp only [asRead] at hj; cases hj)
      simp only [Dumped.toJson]
      rw [this _ rfl, h1]
      simp [okVal, floatsOf, convText]
    · have : ∀ j, j = asRead F (.num x) → FieldKind.loadJson F an .float j =
          (loadFloat F j).bind fun y => if finite64 y.bits64 then some (Val.float y) else none := by
        intro j hj
        cases j <;> first | rfl | (simp only [asRead] at hj; cases hj)
      simp only [Dumped.toJson]
      rw [this _ rfl, h2]
      simp [okVal, floatsOf, convText]
    · have : ∀ j, j = asRead F (.num x) → FieldKind.loadJson F an .number j = (loadFloat F j).map .float := by
        intro j hj
        cases j <;> first | rfl | (simp only [asRead] at hj; cases hj)
      simp only [Dumped.toJson]
      rw [this _ rfl, load_num]
      simp [okVal, floatsOf, convText]
  | strs l =>
    cases k <;> cases hd
    simp only [Dumped.toJson, asRead, asReadList_map, List.map_map]
    have : (asRead F ∘ Json.str) = Json.str := by funext s; simp [asRead]
    rw [this]
    simp only [FieldKind.loadJson]
    rw [mapM_strs]
    simp [okVal, convText, floatsOf]
  | gas l =>
    cases k <;> cases hd
    rw [load_gas hF an (hv.2 l rfl) (fun p hp => hv.1 p.2 (by simp only [floatsOf]; exact List.mem_map_of_mem (f := (·.2)) hp))]
    simp only [okVal, floatsOf, convText, List.all_map, decide_false, Bool.false_or, reduceCtorEq]
    rfl

theorem attr_lookup (fs : List (Attr × FieldKind × Bool)) (hn : (fs.map (·.1)).Nodup)
    (g : Attr × FieldKind × Bool → Json) {f : Attr × FieldKind × Bool} (hf : f ∈ fs) :
    (fs.map fun f => (f.1.key, g f)).lookup f.1.key = some (g f) := by
  refine lookup_of_mem ?_ (List.mem_map.2 ⟨f, hf, rfl⟩)
  rw [List.map_map]
  have : ((fun x : String × Json => x.1) ∘ fun f : Attr × FieldKind × Bool => (f.1.key, g f)) = Attr.key ∘ (·.1) := rfl
  rw [this, ← List.map_map]
  exact hn.map _ (fun a b h e => h (Attr.key_inj e))

theorem loadJson_eq (F : FloatText) (s : SchemaDef) (hn : (s.fields.map (·.1)).Nodup)
    (g : Attr × FieldKind × Bool → Json) (ok : Attr × FieldKind × Bool → Bool)
    (w : Attr × FieldKind × Bool → Val)
    (h : ∀ f ∈ s.fields, FieldKind.loadJson F f.2.2 f.2.1 (g f) = if ok f then some (w f) else none) :
    s.loadJson F classOf (.dict (s.fields.map fun f => (f.1.key, g f))) =
      if s.fields.all ok then
        match s.postLoad with
        | none => .ok (.dict (s.fields.map fun f => (f.1, w f)))
        | some c => match classOf c with
          | some k => construct k (s.fields.map fun f => (f.1, w f)) >>= fun o => .ok (.object o)
          | none => .error .name
      else .error .validation := by
  unfold SchemaDef.loadJson
  have h0 : ((s.fields.map fun f => (f.1.key, g f)).any fun p => !(s.fields.map (·.1.key)).contains p.1) = false := by
    rw [List.any_eq_false]
    intro p hp
    obtain ⟨f, hf, rfl⟩ := List.mem_map.1 hp
    have : (s.fields.map (·.1.key)).contains f.1.key = true := by
      rw [List.contains_iff_mem]; exact List.mem_map_of_mem (f := (·.1.key)) hf
    simp only [this]
    decide
  have key : ∀ fs : List (Attr × FieldKind × Bool), (∀ f ∈ fs, f ∈ s.fields) →
      fs.mapM (fun (f : Attr × FieldKind × Bool) => do
        let j ← (s.fields.map fun f => (f.1.key, g f)).lookup f.1.key
        let v ← FieldKind.loadJson F f.2.2 f.2.1 j
        return (f.1, v)) =
      if fs.all ok then some (fs.map fun f => (f.1, w f)) else none := by
    intro fs
    induction fs with
    | nil => intro _; rfl
    | cons f fs ih =>
      intro hs
      rw [List.mapM_cons, ih (fun x hx => hs x (by simp [hx])), attr_lookup s.fields hn g (hs f (by simp))]
      have h1 := h f (hs f (by simp))
      simp only [Option.bind_eq_bind, Option.bind_some]
      rw [h1, List.all_cons]
      cases ok f with
      | false => rfl
      | true => cases fs.all ok <;> rfl
  dsimp only
  rw [h0, if_neg (by decide), key s.fields (fun _ h => h)]
  cases s.fields.all ok with
  | false => rfl
  | true => cases s.postLoad with
    | none => rfl
    | some c =>
      simp only [if_true]
      cases classOf c <;> rfl

theorem bits64_lt (x : PyFloat) (hd : ∀ b, x = .double b → b < 2 ^ 64) (hr : ∀ b d, x = .rounded b d → d ≤ 300) :
    x.bits64 < 2 ^ 64 := by
  have inf : ∀ b, finite32 b = false → (PyFloat.single b).bits64 < 2 ^ 64 := by
    intro b hb
    show widen b < _
    unfold widen withSign
    rw [hb]
    simp only [Bool.false_eq_true, if_false]
    split <;> omega
  cases x with
  | single b =>
    cases h : finite32 b with
    | true => exact (C93_single b h).1
    | false => exact inf b h
  | double b => exact hd b rfl
  | rounded b d =>
    cases h : finite32 b with
    | true =>
      obtain ⟨k, _, h2, _⟩ := C93_rounded b d h (hr b d rfl)
      exact h2.1
    | false => rw [(C93_not_finite b d h).1]; exact inf b h

/-- The floats of a parsed object. -/
theorem parsed_floatOk {t : ObjType} (ht : Parsable t) {d : Bytes} {o : PObj} (h : parameterFromBytes t d = .ok o)
    {a : Attr} {v : Val} (hv : (a, v) ∈ o.attrs) : ∀ x ∈ floatsOf v, FloatOk x := by
  intro x hx
  have hr : ∀ b d, x = .rounded b d → d ≤ 300 := by
    rintro b k rfl
    rcases C93_parsed t ht d o h a v hv _ hx with ⟨_, e⟩ | ⟨_, e⟩ | ⟨_, _, e⟩
    · cases e
    · cases e
    · cases e; decide
  have hd : ∀ b, x = .double b → b < 2 ^ 64 := by
    rintro b rfl
    rcases C93_parsed t ht d o h a v hv _ hx with ⟨_, e⟩ | ⟨off, e⟩ | ⟨_, _, e⟩
    · cases e
    · cases e; exact leAt_lt d off 8
    · cases e
  exact ⟨bits64_lt x hd hr, (C93_finite x hr).trans (isFinite_iff x).symm⟩

theorem read_gas {l : Loc} {size : Nat} {d : Bytes} : ∀ g, l.read size d = .gas g → g.map (·.1) = gasFields := by
  induction l with
  | gas off =>
    intro g hg
    simp only [Loc.read, Val.gas.injEq] at hg
    subst hg
    rfl
  | optional l ih =>
    intro g hg
    simp only [Loc.read] at hg
    split at hg
    · cases hg
    · exact ih g hg
  | _ => intro g hg; simp only [Loc.read, reduceCtorEq] at hg

theorem document_dump {k : FieldKind} {v : Val} {d : Dumped} (hd : k.dump v = .ok d) (hv : ValOk v) : Document d.toJson := by
  cases v with
  | none =>
    have : d = .none := by cases k <;> cases hd <;> rfl
    subst this
    exact .none
  | int n => cases k <;> cases hd; exact .int _
  | bool b =>
    cases k <;> cases hd
    · exact .int _
    · exact .bool _
  | str s => cases k <;> cases hd; exact .str _
  | float x =>
    have hx := (hv.1 x (by simp [floatsOf])).1
    cases k <;> cases hd
    · exact .numText _ hx
    · exact .num _ hx
    · exact .num _ hx
  | strs l =>
    cases k <;> cases hd
    refine .list _ ?_
    intro j hj
    obtain ⟨s, _, rfl⟩ := List.mem_map.1 hj
    exact .str _
  | gas l =>
    cases k <;> cases hd
    refine .dict _ ?_ ?_
    · rw [List.map_map]
      have : ((fun x : String × Json => x.1) ∘ fun p : GasAttr × PyFloat => (p.1.key, Json.numText p.2)) =
        GasAttr.key ∘ (·.1) := rfl
      rw [this, ← List.map_map, hv.2 l rfl]
      exact gas_nodup.map _ (fun a b h e => h (GasAttr.key_inj e))
    · intro p hp
      obtain ⟨q, hq, rfl⟩ := List.mem_map.1 hp
      exact .numText _ (hv.1 q.2 (by simp only [floatsOf]; exact List.mem_map_of_mem (f := (·.2)) hq)).1

/-- The restored attributes. -/
def restoredText (s : SchemaDef) (L : Layout) (d : Bytes) : List (Attr × Val) :=
  s.fields.map fun f => (f.1, convText f.2.1 (valueAt L d f.1))

/-- What the text of a dump is restored to. -/
theorem text_load_raw {F : FloatText} (hF : FloatTextOk F) {t : ObjType} (ht : Parsable t) {d : Bytes} {L : Layout}
    {o : PObj} (hL : layout (classFor t) d = some L) (h : parameterFromBytes t d = .ok o) :
    ∃ s x, schemaMap t = some s ∧ schemaFits t s L = true ∧ s.dump o = .ok x ∧ Document (.dict (dumpedItems x)) ∧
      s.loadJson F classOf (.dict (asReadItems F (dumpedItems x))) =
        if s.fields.all fun f => okVal f.2.1 f.2.2 (valueAt L d f.1) then
          (if Unhooked t then .ok (.dict (restoredText s L d))
          else .ok (.object ⟨classFor t, restoredText s L d⟩))
        else .error .validation := by
  obtain ⟨s, hs, hfit⟩ := schema_fits ht hL
  obtain ⟨hcls, hattrs⟩ := C59_values t ht d L o hL h
  have hfit' := hfit
  simp only [schemaFits, Bool.and_eq_true, decide_eq_true_eq] at hfit'
  obtain ⟨⟨⟨hnames, hz⟩, hpost⟩, hc⟩ := hfit'
  have hndL := layout_nodup hL
  have hnd : (s.fields.map (·.1)).Nodup := by rw [hnames]; exact hndL
  have hloc : ∀ f ∈ s.fields, ∃ l, L.fields.lookup f.1 = some l ∧ typeOk f.2.1 l = true := by
    intro f hf
    obtain ⟨l, hl⟩ := zip_left s.fields L.fields hnames f hf
    have h1 := List.all_eq_true.1 hz _ hl
    simp only [fieldFits, Bool.and_eq_true] at h1
    exact ⟨l, lookup_of_mem hndL (List.of_mem_zip hl).2, h1.1.1.1⟩
  have hval : ∀ f ∈ s.fields, ValOk (valueAt L d f.1) := by
    intro f hf
    obtain ⟨l, hl, _⟩ := hloc f hf
    have hv : valueAt L d f.1 = l.read L.size d := by simp [valueAt, hl]
    have hm : (f.1, l) ∈ L.fields := by
      obtain ⟨l1, l2, h1, _⟩ := List.lookup_eq_some_iff.1 hl
      rw [h1]; simp
    rw [hv]
    refine ⟨parsed_floatOk ht h (a := f.1) ?_, read_gas⟩
    rw [hattrs]
    exact List.mem_map.2 ⟨_, hm, rfl⟩
  let g : Attr × FieldKind × Bool → Dumped := fun f =>
    match f.2.1.dump (valueAt L d f.1) with
    | .ok x => x
    | .error _ => .none
  have hg : ∀ f ∈ s.fields, f.2.1.dump (valueAt L d f.1) = .ok (g f) := by
    intro f hf
    obtain ⟨l, hl, htype⟩ := hloc f hf
    obtain ⟨x, h1, h2⟩ := dump_load htype f.2.2 L.size d
    have hv : valueAt L d f.1 = l.read L.size d := by simp [valueAt, hl]
    have hgx : g f = x := by simp only [g, hv, h1]
    rw [hgx, hv]
    exact h1
  have hdump := dump_eq s o (valueAt L d) g (by
    intro f hf
    obtain ⟨l, hl, _⟩ := hloc f hf
    rw [hattrs]
    have := lookup_map_snd (fun l => Loc.read L.size d l) L.fields f.1
    rw [this, hl]
    simp [valueAt, hl]) hg
  have hitems : dumpedItems (s.fields.map fun f => (f.1, g f)) = s.fields.map fun f => (f.1.key, (g f).toJson) := by
    simp only [dumpedItems, List.map_map]; rfl
  refine ⟨s, _, hs, hfit, hdump, ?_, ?_⟩
  · rw [hitems]
    refine .dict _ ?_ ?_
    · rw [List.map_map]
      have : ((fun x : String × Json => x.1) ∘ fun f : Attr × FieldKind × Bool => (f.1.key, (g f).toJson)) =
        Attr.key ∘ (·.1) := rfl
      rw [this, ← List.map_map]
      exact hnd.map _ (fun a b h e => h (Attr.key_inj e))
    · intro p hp
      obtain ⟨f, hf, rfl⟩ := List.mem_map.1 hp
      exact document_dump (hg f hf) (hval f hf)
  · have e : asReadItems F (dumpedItems (s.fields.map fun f => (f.1, g f))) =
        s.fields.map fun f => (f.1.key, asRead F (g f).toJson) := by
      rw [hitems, asReadItems_map, List.map_map]; rfl
    rw [e, loadJson_eq F s hnd (fun f => asRead F (g f).toJson) (fun f => okVal f.2.1 f.2.2 (valueAt L d f.1))
      (fun f => convText f.2.1 (valueAt L d f.1)) (fun f hf => load_json hF (hg f hf) (hval f hf) f.2.2)]
    by_cases hall : (s.fields.all fun f => okVal f.2.1 f.2.2 (valueAt L d f.1)) = true
    · rw [if_pos hall, if_pos hall, hpost]
      by_cases hu : Unhooked t
      · rw [if_pos hu, if_pos hu]; rfl
      · rw [if_neg hu, if_neg hu]
        dsimp only
        cases hk : classOf (classFor t) with
        | none => rw [hk] at hc; cases hc
        | some c =>
          rw [hk] at hc
          simp only [Bool.and_eq_true, decide_eq_true_eq] at hc
          dsimp only
          have := construct_eq c (restoredText s L d) (by rw [hc.2]; simp [restoredText, List.map_map, Function.comp_def])
            (by rw [hc.2]; exact hnd)
          rw [hc.1] at this
          unfold restoredText at this
          rw [this]
          rfl
    · rw [if_neg hall, if_neg hall]

theorem text_object {F : FloatText} (hF : FloatTextOk F) (c : Conv) {o : PObj} {t : ObjType} {d : Bytes}
    (h : parameterFromBytes t d = .ok o) :
    ∃ x, exportObject c o = .ok (exported t.value (dumpedItems x) .none) ∧ Document (.dict (dumpedItems x)) ∧
      SurvivesText F o (exported t.value (asReadItems F (dumpedItems x)) .none) := by
  have ht := parsable_of_ok h
  obtain ⟨L, hL, _⟩ := C60_outcome t ht d
  obtain ⟨s, x, hs, hfit, hd, hdoc, hload⟩ := text_load_raw hF ht hL h
  have hiff := all_okVal_iff ht hL h hfit
  obtain ⟨hcls, hattrs⟩ := C59_values t ht d L o hL h
  have hfit' := hfit
  simp only [schemaFits, Bool.and_eq_true, decide_eq_true_eq] at hfit'
  obtain ⟨⟨⟨hnames, hz⟩, hpost⟩, hc⟩ := hfit'
  have hndL := layout_nodup hL
  have hnd : (s.fields.map (·.1)).Nodup := by rw [hnames]; exact hndL
  have hsid : schemaById t = .ok s := by simp [schemaById, hs]
  have hsame : SameValues o ⟨classFor t, restoredText s L d⟩ := by
    refine ⟨hcls, ?_, ?_⟩
    · show _ = (restoredText s L d).map (·.1)
      have : (restoredText s L d).map (·.1) = s.fields.map (·.1) := by simp [restoredText, List.map_map, Function.comp_def]
      rw [this, hnames, hattrs, List.map_map]; rfl
    · intro a v v' h1 h2
      rw [hattrs] at h1
      have := lookup_map_snd (fun l => Loc.read L.size d l) L.fields a
      rw [this] at h1
      cases hl : L.fields.lookup a with
      | none => rw [hl] at h1; cases h1
      | some l =>
        rw [hl] at h1
        injection h1 with h1
        have hm : (a, l) ∈ L.fields := by
          obtain ⟨l1, l2, h1, _⟩ := List.lookup_eq_some_iff.1 hl
          rw [h1]; simp
        obtain ⟨k, hk⟩ := zip_right s.fields L.fields hnames _ hm
        have h3 := lookup_graph s.fields hnd (fun f => convText f.2.1 (valueAt L d f.1)) _ (List.of_mem_zip hk).1
        dsimp only at h2 h3
        unfold restoredText at h2
        rw [h3] at h2
        injection h2 with h2
        have hv : valueAt L d a = v := by simp [valueAt, hl, h1]
        rw [← h2, hv]
        exact sameVal_conv _ _
  refine ⟨x, ?_, hdoc, t, _, s, objectType_of_ok h, rfl, hsid, ?_, ?_, ?_⟩
  · unfold exportObject
    rw [objectType_of_ok h, bind_ok, hsid, bind_ok, hd, bind_ok, dump_object]
  · intro hr
    rw [hload, if_neg (fun hh => hr (hiff.1 hh))]
  · intro hr hu
    rw [hload, if_pos (hiff.2 hr), if_neg hu]
    exact ⟨_, rfl, hsame⟩
  · intro hr hu
    rw [hload, if_pos (hiff.2 hr), if_pos hu]
    rw [hcls]
    exact ⟨_, rfl, hsame⟩

/-- C96. From the device through the text of a configuration and back: the objects parsed from any parameter list can be
exported as text, printable ASCII; `loads` accepts the text; and each entry restores its object, in order. -/
theorem C96_restore {F : FloatText} (hF : FloatTextOk F) (c : Conv) (w : Bytes) (objs : List PObj)
    (h : parseParameters none (some w) = .ok objs) :
    ∃ t items, exportText F c objs = .ok t ∧ Printable t ∧ configurationLoads F c t = .ok (configuration items) ∧
      Each (SurvivesText F) objs items := by
  have hobjs : ∀ o ∈ objs, ∃ t d, parameterFromBytes t d = .ok o := by
    unfold parseParameters at h
    dsimp only at h
    split at h
    · cases h
    · exact parseLoop_objects w objs h
  have key : ∃ items, objs.mapM (exportObject c) = .ok items ∧ Each (SurvivesText F) objs (items.map (asRead F)) ∧
      (∀ j ∈ items, ∃ t d, j = exported t d .none) ∧ ∀ j ∈ items, Document j := by
    clear h
    induction objs with
    | nil => exact ⟨[], rfl, .nil, (fun j hj => by cases hj), (fun j hj => by cases hj)⟩
    | cons o objs ih =>
      obtain ⟨items, h1, h2, h3, h4⟩ := ih (fun o ho => hobjs o (by simp [ho]))
      obtain ⟨t, d, ho⟩ := hobjs o (by simp)
      obtain ⟨x, h5, h6, h7⟩ := text_object hF c ho
      refine ⟨exported t.value (dumpedItems x) .none :: items, ?_, .cons ?_ h2, ?_, ?_⟩
      · rw [List.mapM_cons, h5, bind_ok, h1]; rfl
      · rw [asRead_exported]
        simpa only [asRead] using h7
      · intro j hj
        rcases List.mem_cons.1 hj with rfl | hj
        · exact ⟨_, _, rfl⟩
        · exact h3 j hj
      · intro j hj
        rcases List.mem_cons.1 hj with rfl | hj
        · exact document_exported h6 .none
        · exact h4 j hj
  obtain ⟨items, h1, h2, h3, h4⟩ := key
  have hd := document_configuration h4
  have hx : exportConfiguration c objs = .ok (configuration items) := by
    unfold exportConfiguration
    rw [h1, bind_ok]
    unfold configurationDump
    rw [List.mapM_map, mapM_ok (g := id)]
    · simp [configuration, bind_ok, pure_res]
    · intro j hj
      obtain ⟨t, d, rfl⟩ := h3 j hj
      exact dump_exported c _ _ _ trivial
  refine ⟨_, items.map (asRead F), by unfold exportText; rw [hx, bind_ok]; rfl, C96_ascii hF hd, ?_, h2⟩
  unfold configurationLoads
  rw [C96_text hF hd, bind_ok, asRead_configuration]
  refine load_configuration c ?_
  intro j hj
  obtain ⟨j', hj', rfl⟩ := List.mem_map.1 hj
  obtain ⟨t, d, rfl⟩ := h3 j' hj'
  rw [asRead_exported]
  exact ⟨_, _, _, by simp only [asRead]; trivial, rfl⟩

/-- C96. Loading any text gives a configuration, or raises `ValueError` (`JSONDecodeError`: no JSON) or `ValidationError`. -/
theorem C96_errors (F : FloatText) (c : Conv) (s : PyStr) (x : PyErr) (h : configurationLoads F c s = .error x) :
    x = .value ∨ x = .validation := by
  unfold configurationLoads at h
  rw [bind_eq_error] at h
  rcases h with h | ⟨j, _, h⟩
  · unfold jsonLoads at h
    repeat' split at h
    all_goals first | (cases h; exact .inl rfl) | cases h
  · exact .inr ((C68_load c j).2 x h)

/-! ### Examples -/

/-- A way to write floats that meets the requirements: the bits in decimal, with a fraction. -/
def exFloatText : FloatText where
  text b := Nat.toDigits 10 b ++ ".0".toList
  read s :=
    if s = "inf".toList then some (2047 * 2 ^ 52)
    else if s = "-inf".toList then some (2 ^ 63 + 2047 * 2 ^ 52)
    else if s = "nan".toList then some (2047 * 2 ^ 52 + 1)
    else some (digitsValue (s.takeWhile Char.isDigit))

theorem exFloatText_ok : FloatTextOk exFloatText where
  decimal b _ _ := ⟨[], Nat.toDigits 10 b, ".0".toList, [], by simp [exFloatText], .inl rfl, digits_head b,
    .inr ⟨['0'], ⟨by simp, by decide⟩, rfl⟩, .inl rfl, .inl (by decide)⟩
  back b _ _ := by
    have hd : ∀ c ∈ Nat.toDigits 10 b, c.isDigit = true :=
      fun c h => Nat.isDigit_of_mem_toDigits (by omega) (by omega) h
    have hw := (takeWhile_app (r := ".0".toList) hd (by decide)).1
    obtain ⟨c, l, e⟩ : ∃ c l, Nat.toDigits 10 b = c :: l := by
      cases h : Nat.toDigits 10 b with
      | nil => exact absurd h Nat.toDigits_ne_nil
      | cons c l => exact ⟨c, l, rfl⟩
    have hc := hd c (by rw [e]; exact List.mem_cons_self)
    have n1 : ∀ (k : Char) (w : PyStr), k.isDigit = false → Nat.toDigits 10 b ++ ".0".toList ≠ k :: w := by
      intro k w hk h
      rw [e] at h
      have := (List.cons.inj h).1
      rw [this, hk] at hc
      cases hc
    simp only [exFloatText]
    have m1 : Nat.toDigits 10 b ++ ".0".toList ≠ "inf".toList := n1 'i' "nf".toList (by decide)
    have m2 : Nat.toDigits 10 b ++ ".0".toList ≠ "-inf".toList := n1 '-' "inf".toList (by decide)
    have m3 : Nat.toDigits 10 b ++ ".0".toList ≠ "nan".toList := n1 'n' "an".toList (by decide)
    rw [if_neg m1, if_neg m2, if_neg m3, hw, digitsValue,
      Nat.ofDigitChars_ten_toDigits]
  inf := rfl
  negInf := rfl
  nan := ⟨2047 * 2 ^ 52 + 1, rfl, by decide⟩

/-- A document with a character outside ASCII and one outside the basic plane, escapes, a negative number and floats. -/
def exDocument : Json :=
  .dict [("a\"b", .list [.int (-50), .none, .bool true, .str ['é', '😀', '\n']]), ("x", .num (.double 7)),
    ("y", .num (.double (2 ^ 63 + 2047 * 2 ^ 52))), ("z", .numText (.double 7)), ("e", .dict []), ("l", .list [])]

theorem exDocument_ok : Document exDocument := by
  refine .dict _ (by decide) ?_
  intro p hp
  simp only [List.mem_cons, List.not_mem_nil, or_false] at hp
  rcases hp with rfl | rfl | rfl | rfl | rfl | rfl
  · refine .list _ ?_
    intro j hj
    simp only [List.mem_cons, List.not_mem_nil, or_false] at hj
    rcases hj with rfl | rfl | rfl | rfl
    · exact .int _
    · exact .none
    · exact .bool _
    · exact .str _
  · exact .num _ (by decide)
  · exact .num _ (by decide)
  · exact .numText _ (by decide)
  · exact .dict _ (by decide) (by simp)
  · exact .list _ (by simp)

example : exDocument.text exFloatText =
    "{\"a\\\"b\": [-50, null, true, \"\\u00e9\\ud83d\\ude00\\n\"], \"x\": 7.0, \"y\": -Infinity, \"z\": \"7.0\", \"e\": {}, \"l\": []}".toList := by
  decide +kernel

example : jsonLoads exFloatText (exDocument.text exFloatText) = .ok (asRead exFloatText exDocument) ∧
    Printable (exDocument.text exFloatText) :=
  ⟨C96_text exFloatText_ok exDocument_ok, C96_ascii exFloatText_ok exDocument_ok⟩

-- white space, the last of two equal keys, upper case escapes, numbers with exponent (shown as they are written again)
example : (jsonLoads exFloatText " { \"a\" : 1 , \"b\":[ 2,3 ],\"a\": \"\\u00E9\\/\" } ".toList).map (Json.text exFloatText) =
    .ok "{\"a\": \"\\u00e9/\", \"b\": [2, 3]}".toList := by decide +kernel
example : (jsonLoads exFloatText "7E+2".toList).map (Json.text exFloatText) = .ok "7.0".toList := by decide +kernel
-- not JSON: a comma too much, a leading zero, a bare word, an open string, a control character, rubbish behind the value
example : (["[1,]", "01", "nul", "\"a", "\"a\nb\"", "1 2", "", "{1: 2}", "\"\\ud83d\"", "1.", "-"].map fun s =>
    (jsonLoads exFloatText s.toList).toOption.isNone) = List.replicate 11 true := by decide +kernel

example : ∃ t, configurationDumps exFloatText exConv ([⟨31, [("number", .int 5)], some ['a']⟩].map .object) = .ok t ∧
    Printable t ∧ configurationLoads exFloatText exConv t =
      .ok (configuration [exported 31 [("number", .int 5)] (.str ['a'])]) := by
  refine C96_configuration exFloatText_ok exConv [⟨31, [("number", .int 5)], some ['a']⟩] ?_
  intro o ho
  rw [List.mem_singleton] at ho
  subst ho
  refine .dict _ (by decide) ?_
  intro p hp
  rw [List.mem_singleton] at hp
  subst hp
  exact .int _

-- the way of a binary channel and a time window through the text
example : ∃ objs t items, parseParameters none (some (exRecords.flatMap record)) = .ok objs ∧ objs.length = 2 ∧
    exportText exFloatText exConv objs = .ok t ∧ configurationLoads exFloatText exConv t = .ok (configuration items) ∧
    Each (SurvivesText exFloatText) objs items := by
  have h : parseParameters none (some (exRecords.flatMap record)) =
      .ok [⟨.Binary, binaryLayout.values exBinary⟩, ⟨.TimeWindow, (timeWindowLayout 2).values exTimeWindow⟩] := by
    rw [C56_split exRecords (by decide) (by decide +kernel)]
    decide +kernel
  obtain ⟨t, items, h1, _, h2, h3⟩ := C96_restore exFloatText_ok exConv _ _ h
  exact ⟨_, t, items, h, rfl, h1, h2, h3⟩

end Elgas
