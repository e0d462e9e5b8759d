import Verif.Lemmas.Escape
/-! Properties C01-C03: escaping and unescaping. -/
namespace Elgas

/-- C01. For every byte string that ends with 0x0D, escaping succeeds and unescaping the result
returns exactly the original bytes. -/
theorem C01_unescape_escape (d : Bytes) (h : d.getLast? = some 0x0D) :
    ∃ e, escapeCharacters d = .ok e ∧ returnCharacters e = .ok d := by
  obtain ⟨d', rfl⟩ := List.getLast?_eq_some_iff.1 h
  refine ⟨_, escapeCharacters_append d', ?_⟩
  exact returnCharacters_escBytes d' [0x0D] [0x0D] (by decide)

example : ([0x1B, 0x0E, 0x0D, 0x8D, 0x41, 0x0D] : Bytes).getLast? = some 0x0D ∧
    escapeCharacters [0x1B, 0x0E, 0x0D, 0x8D, 0x41, 0x0D]
      = .ok [0x1B, 0x1B, 0x0E, 0x1B, 0x0E, 0x1B, 0x0F, 0x41, 0x0D] := by decide +kernel

/-- C02 (shape). The escaped form is the byte-wise wire form of everything but the end character,
followed by one 0x0D: 0x0D occurs exactly once, as last byte, and 0x8D does not occur. -/
theorem C02_escaped_shape (d e : Bytes) (h : escapeCharacters d = .ok e) :
    e = Spec.escBytes d.dropLast ++ [0x0D] ∧ e.count 0x0D = 1 ∧ e.getLast? = some 0x0D ∧
    0x8D ∉ e := by
  obtain ⟨d', rfl, rfl⟩ := escapeCharacters_eq_ok h
  have hn := escBytes_no_end d'
  refine ⟨by simp, ?_, by simp, ?_⟩
  · simp [List.count_append, List.count_eq_zero.2 hn.1]
  · simp [hn.2]

/-- C02 (rejection). `escape_characters` succeeds exactly on data that ends with 0x0D and raises
`ValueError` on everything else. -/
theorem C02_escape_rejects (d : Bytes) (h : d.getLast? ≠ some 0x0D) :
    escapeCharacters d = .error .value := by
  have : endsWith d [0x0D] = false := by
    rw [Bool.eq_false_iff]; intro hd
    obtain ⟨d', rfl⟩ := endsWith_singleton.1 hd
    simp at h
  simp [escapeCharacters, this]

example : escapeCharacters [0x02, 0x1B, 0x0D] = .ok [0x02, 0x1B, 0x1B, 0x0D] ∧
    ([0x02, 0x0D, 0x1B] : Bytes).getLast? ≠ some 0x0D := by decide +kernel

/-- C02 (stream). A receiver that cuts a concatenation of escaped frames after each 0x0D recovers
exactly those frames in order, and unescaping each of them gives back the frames that were sent. -/
theorem C02_stream_of_frames (ds es : List Bytes) (h : ds.mapM escapeCharacters = .ok es) :
    Spec.cutLines [] es.flatten = es ∧ es.mapM returnCharacters = .ok ds := by
  induction ds generalizing es with
  | nil => simp at h; subst h; exact ⟨rfl, rfl⟩
  | cons d ds ih =>
    rw [List.mapM_cons, bind_eq_ok] at h
    obtain ⟨e, he, h⟩ := h
    rw [bind_eq_ok] at h
    obtain ⟨es', hes, h⟩ := h
    simp at h; subst h
    obtain ⟨d', rfl, rfl⟩ := escapeCharacters_eq_ok he
    obtain ⟨ih1, ih2⟩ := ih es' hes
    constructor
    · simp only [List.flatten_cons, List.append_assoc, List.singleton_append]
      rw [cutLines_append _ (escBytes_no_end d').1]
      simp [ih1]
    · rw [List.mapM_cons, returnCharacters_escBytes d' [0x0D] [0x0D] (by decide), ih2]
      rfl

example : [[0x0D, 0x0D], [0x1B, 0x0D]].mapM escapeCharacters
    = .ok [[0x1B, 0x0E, 0x0D], [0x1B, 0x1B, 0x0D]] := by decide +kernel

/-- C03 (exception). Unescaping raises `IndexError` exactly when a left-to-right reading of the data
ends in an escape byte without partner; otherwise it succeeds. -/
theorem C03_unescape_raises_iff (d : Bytes) :
    (Spec.dangling d = true ↔ returnCharacters d = .error .index) ∧
    (Spec.dangling d = false ↔ ∃ out, returnCharacters d = .ok out) := by
  rcases returnCharacters_dangling d with ⟨h1, h2⟩ | ⟨h1, o, h2⟩ <;> simp [h1, h2]

/-- C03 (result). A successful result is the concatenation of the meanings of the units of the data
(in particular bytes that form no escape pair are kept) and is not longer than the data. -/
theorem C03_unescape_units (d out : Bytes) :
    (returnCharacters d = .ok out ↔ Spec.Units d out) ∧
    (returnCharacters d = .ok out → out.length ≤ d.length) :=
  ⟨⟨returnCharacters_units d out, returnCharacters_of_units d out⟩,
   fun h => units_length (returnCharacters_units d out h)⟩

/-- C03 (never raises on a line). On data whose last byte is 0x0D — what the connection hands to
it — unescaping never raises. -/
theorem C03_unescape_line_total (w : Bytes) : ∃ out, returnCharacters (w ++ [0x0D]) = .ok out :=
  (C03_unescape_raises_iff _).2.1 (dangling_append_ne w 0x0D (by decide))

/-- C03 (overhead). Escaping never shrinks and at most doubles the data. -/
theorem C03_escape_length (d e : Bytes) (h : escapeCharacters d = .ok e) :
    d.length ≤ e.length ∧ e.length ≤ 2 * d.length := by
  obtain ⟨d', rfl, rfl⟩ := escapeCharacters_eq_ok h
  have := escBytes_length_le d'
  simp; omega

example : Spec.dangling [0x41, 0x1B] = true ∧ Spec.dangling [0x1B, 0x1B] = false ∧
    Spec.dangling [0x1B, 0x1B, 0x1B] = true := by decide
example : returnCharacters [0x1B, 0x41, 0x1B, 0x0F] = .ok [0x1B, 0x41, 0x8D] := by decide +kernel

end Elgas
