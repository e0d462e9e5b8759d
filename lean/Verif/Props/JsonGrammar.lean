import Verif.Lemmas.JsonGrammar
import Verif.Props.JsonText
/-!
C116: which texts are read, and how.
-/
namespace Elgas
open Spec

/-- C116. `json.loads` reads exactly the texts of the grammar of JSON (with Python's `NaN` and infinities), to what they
mean. -/
theorem C116_grammar (F : FloatText) (s : PyStr) (j : Json) : jsonLoads F s = .ok j ↔ JsonText F s j := by
  constructor
  · intro h
    unfold jsonLoads at h
    cases hv : readValue F (2 * s.length + 2) (skipSpace s) with
    | none => rw [hv] at h; cases h
    | some x =>
      obtain ⟨j', r⟩ := x
      rw [hv] at h
      dsimp only at h
      split at h
      · rename_i hr
        cases h
        obtain ⟨a, e, ha⟩ := skipSpace_split s
        obtain ⟨t, e', ht⟩ := (read_sound F _).1 _ _ _ hv
        obtain ⟨b, e'', hb⟩ := skipSpace_split r
        rw [hr, List.append_nil] at e''
        subst e''
        exact ⟨a, t, _, by rw [List.append_assoc, ← e', ← e], ha, hb, ht⟩
      · cases h
  · rintro ⟨a, t, b, rfl, ha, hb, ht⟩
    have := readValue_means ht (2 * (a ++ t ++ b).length + 2) b
      (by have := blank_noMore hb (r := []) (by intro c hc; cases hc); rwa [List.append_nil] at this)
      (by simp only [List.length_append]; omega)
    unfold jsonLoads
    rw [show a ++ t ++ b = a ++ (t ++ b) from List.append_assoc .., skipSpace_blank ha, skipSpace_starts ((means_starts ht).append b)]
    rw [List.append_assoc] at this
    rw [this]
    dsimp only
    rw [if_pos (skipSpace_all hb)]

/-- C116. A text has one meaning. -/
theorem C116_one_meaning (F : FloatText) (s : PyStr) (j j' : Json) (h : JsonText F s j) (h' : JsonText F s j') : j = j' := by
  rw [← C116_grammar] at h h'
  rw [h] at h'
  exact Except.ok.inj h'

/-- C116. Every other text raises `ValueError` (`JSONDecodeError`). -/
theorem C116_other (F : FloatText) (s : PyStr) (x : PyErr) :
    jsonLoads F s = .error x ↔ x = .value ∧ ∀ j, ¬ JsonText F s j := by
  constructor
  · intro h
    refine ⟨?_, fun j hj => ?_⟩
    · unfold jsonLoads at h
      repeat' split at h
      all_goals first | (cases h; rfl) | cases h
    · rw [← C116_grammar, h] at hj; cases hj
  · rintro ⟨rfl, h⟩
    cases hs : jsonLoads F s with
    | ok j => exact absurd ((C116_grammar F s j).1 hs) (h j)
    | error y =>
      unfold jsonLoads at hs
      repeat' split at hs
      all_goals first | (cases hs; rfl) | cases hs

/-- C116. What `json.dumps` writes is in the grammar. -/
theorem C116_dumps {F : FloatText} (hF : FloatTextOk F) {j : Json} (h : Document j) :
    JsonText F (j.text F) (asRead F j) := (C116_grammar F _ _).1 (C96_text hF h)

/-- C116. `UtilitarianConfigurationSchema().loads` of any text: it returns `x` exactly if the text is JSON for a document
that the schema loads to `x`. -/
theorem C116_configuration (F : FloatText) (c : Conv) (s : PyStr) (x : Json) :
    configurationLoads F c s = .ok x ↔ ∃ d, JsonText F s d ∧ configurationLoad c d = .ok x := by
  unfold configurationLoads
  rw [bind_eq_ok]
  constructor
  · rintro ⟨d, h, hx⟩; exact ⟨d, (C116_grammar F s d).1 h, hx⟩
  · rintro ⟨d, h, hx⟩; exact ⟨d, (C116_grammar F s d).2 h, hx⟩

/-- C116. The layout does not matter: texts that mean the same are loaded the same. In particular a configuration that
was written with `dumps` and then laid out anew (white space, escapes, spelling of numbers, items given twice) is loaded
like the original. -/
theorem C116_layout (F : FloatText) (c : Conv) (s s' : PyStr) (d : Json) (h : JsonText F s d) (h' : JsonText F s' d) :
    configurationLoads F c s = configurationLoads F c s' := by
  unfold configurationLoads
  rw [(C116_grammar F s d).2 h, (C116_grammar F s' d).2 h']

/-- C116. An exported configuration, laid out anew: it is loaded to the types, data and names that were exported. -/
theorem C116_relaid {F : FloatText} (hF : FloatTextOk F) (c : Conv) (os : List UtilitarianConfigurationObject)
    (h : ∀ o ∈ os, Document (.dict o.data)) :
    ∃ t, configurationDumps F c (os.map .object) = .ok t ∧
      ∀ d, JsonText F t d → ∀ s, JsonText F s d →
        configurationLoads F c s = .ok (configuration (os.map fun o =>
          exported o.parameterType (asReadItems F o.data) (match o.seriesName with | some s => .str s | none => .none))) := by
  obtain ⟨t, h1, _, h2⟩ := C96_configuration hF c os h
  refine ⟨t, h1, fun d hd s hs => ?_⟩
  rw [C116_layout F c s t d hs hd]; exact h2

/-! ### Concrete cases -/

/-- A configuration as an editor lays it out: indented, with a raw character, with an escaped one and with a key twice. -/
def exLaidOut : PyStr := "{\n  \"name\" : \"é\\u00E9\",\n\t\"n\": [ ],\r\n \"n\": [ 1, -2 ]\n}\n".toList

theorem exLaidOut_means : JsonText exFloatText exLaidOut
    (.dict [("name", .str ['é', 'é']), ("n", .list [.int 1, .int (-2)])]) := by
  have blank : ∀ s : PyStr, (∀ c ∈ s, c = ' ' ∨ c = '\t' ∨ c = '\n' ∨ c = '\r') → WhiteSpace s := fun _ h => h
  have digits : ∀ s : PyStr, s ≠ [] → (∀ c ∈ s, c.isDigit = true) → s.head? ≠ some '0' → Whole s :=
    fun s a b c => .inr ⟨⟨a, b⟩, c⟩
  have hs : StrText "é\\u00E9".toList ['é', 'é'] := by
    refine .cons ['é'] 'é' "\\u00E9".toList ['é'] (.plain 'é' (by decide) (by decide) (by decide)) ?_
    refine .cons "\\u00E9".toList 'é' [] [] (.unicode "00E9".toList 0xE9 'é' ?_ (by decide)) .nil
    exact ⟨'0', '0', 'E', '9', 0, 0, 14, 9, rfl, .inl rfl, .inl rfl, .inr rfl, .inl rfl, rfl⟩
  have plain : ∀ s : PyStr, (∀ c ∈ s, c ≠ '"' ∧ c ≠ '\\' ∧ 0x20 ≤ c.toNat) → StrText s s := by
    intro s
    induction s with
    | nil => intro _; exact .nil
    | cons c s ih =>
      intro h
      obtain ⟨a, b, d⟩ := h c List.mem_cons_self
      exact .cons [c] c s s (.plain c a b d) (ih fun x hx => h x (List.mem_cons_of_mem _ hx))
  have h1 : JsonMeans exFloatText "[ ]".toList (.list []) := .empty [' '] (blank _ (by decide))
  have h2 : JsonMeans exFloatText "[ 1, -2 ]".toList (.list [.int 1, .int (-2)]) := by
    refine JsonMeans.list (F := exFloatText) [⟨[' '], ['1'], [], .int 1⟩, ⟨[' '], ['-', '2'], [' '], .int (-2)⟩] (by simp) ?_ ?_
    · intro x hx
      simp only [List.mem_cons, List.not_mem_nil, or_false] at hx
      rcases hx with rfl | rfl <;> exact ⟨blank _ (by decide), blank _ (by decide)⟩
    · intro x hx
      simp only [List.mem_cons, List.not_mem_nil, or_false] at hx
      rcases hx with rfl | rfl
      · exact .int ['1'] (digits _ (by decide) (by decide) (by decide))
      · exact .negative ['2'] (digits _ (by decide) (by decide) (by decide))
  refine ⟨[], exLaidOut.dropLast, ['\n'], by decide +kernel, blank _ (by decide), blank _ (by decide), ?_⟩
  have := JsonMeans.dict (F := exFloatText)
    [{ first := "\n  ".toList, spelling := "name".toList, key := "name".toList, between := [' '], before := [' '],
       text := "\"é\\u00E9\"".toList, after := [], value := .str ['é', 'é'] },
     { first := "\n\t".toList, spelling := ['n'], key := ['n'], between := [], before := [' '],
       text := "[ ]".toList, after := [], value := .list [] },
     { first := "\r\n ".toList, spelling := ['n'], key := ['n'], between := [], before := [' '],
       text := "[ 1, -2 ]".toList, after := ['\n'], value := .list [.int 1, .int (-2)] }]
    [("name", .str ['é', 'é']), ("n", .list [.int 1, .int (-2)])] (by simp) ?_ ?_ ?_ ?_
  · exact this
  · intro x hx
    simp only [List.mem_cons, List.not_mem_nil, or_false] at hx
    rcases hx with rfl | rfl | rfl <;>
      exact ⟨blank _ (by decide), blank _ (by decide), blank _ (by decide), blank _ (by decide)⟩
  · intro x hx
    simp only [List.mem_cons, List.not_mem_nil, or_false] at hx
    rcases hx with rfl | rfl | rfl <;> exact plain _ (by decide)
  · intro x hx
    simp only [List.mem_cons, List.not_mem_nil, or_false] at hx
    rcases hx with rfl | rfl | rfl
    · exact .str _ _ hs
    · exact h1
    · exact h2
  · exact ⟨by decide, fun k => by
      simp only [List.map_cons, List.map_nil, List.reverse_cons, List.reverse_nil, List.nil_append, List.cons_append,
        String.ofList_toList, show String.ofList ['n'] = "n" from rfl, List.lookup_cons]
      by_cases h : k = "name"
      · subst h; rfl
      · have : (k == "name") = false := by simpa using h
        rw [this]
        cases k == "n" <;> rfl⟩

-- it is read to that
example : jsonLoads exFloatText exLaidOut = .ok (.dict [("name", .str ['é', 'é']), ("n", .list [.int 1, .int (-2)])]) :=
  (C116_grammar _ _ _).2 exLaidOut_means
-- a document in the form of `dumps`
example : JsonText exFloatText (exDocument.text exFloatText) (asRead exFloatText exDocument) :=
  C116_dumps exFloatText_ok exDocument_ok
-- no JSON
example : ∀ j, ¬ JsonText exFloatText "[1,]".toList j :=
  ((C116_other exFloatText "[1,]".toList .value).1 rfl).2

end Elgas
