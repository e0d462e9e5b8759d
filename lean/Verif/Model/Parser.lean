import Verif.Model.Parameters
/-!
Model of /repo/elgas/parameters/factory.py (dispatch) and /repo/elgas/parser.py.
-/
namespace Elgas

/-- `ParameterObjectType(value)` (enumerations.py:32-71): `ValueError` for a value without member. -/
def ObjType.ofByte (b : UInt8) : Res ObjType :=
  match ObjType.all.find? fun t => t.value = b.toNat with
  | some t => .ok t
  | none => raise .value

/-- `ParameterFactory.from_bytes` factory.py:124-126: `KeyError` for an unmapped type. -/
def parameterFromBytes (t : ObjType) (data : Bytes) : Res PObj :=
  match objectMap t with
  | none => raise .key
  | some c => c.fromBytes data

/-- `ParameterSchemaFactory.by_parameter_id` factory.py:171-172. -/
def schemaById (t : ObjType) : Res SchemaDef :=
  match schemaMap t with
  | none => raise .key
  | some s => .ok s

theorem popLoop_length {n : Nat} {s a s' : Bytes} (h : popLoop n s = .ok (a, s')) :
    s'.length + n = s.length := by
  induction n generalizing s a s' with
  | zero => cases h; rfl
  | succ n ih =>
    cases s with
    | nil => cases h
    | cons b s =>
      have h' : (popLoop n s >>= fun x => (.ok (b :: x.1, x.2) : Res (Bytes × Bytes))) = .ok (a, s') := h
      cases hr : popLoop n s with
      | error e => rw [hr] at h'; cases h'
      | ok x =>
        rw [hr] at h'
        obtain ⟨x1, x2⟩ := x
        have h2 : (Except.ok (b :: x1, x2) : Res (Bytes × Bytes)) = .ok (a, s') := h'
        injection h2 with h3
        injection h3 with _ h4
        have h5 := ih hr
        rw [← h4, List.length_cons]
        omega

theorem popMany_length {n : Nat} {s a s' : Bytes} (h : popMany n s = .ok (a, s')) :
    s'.length + n = s.length := by
  unfold popMany at h
  split at h
  · cases h
  · exact popLoop_length h

theorem pop0_length {s s' : Bytes} {a : UInt8} (h : pop0 s = .ok (a, s')) :
    s'.length + 1 = s.length := by
  cases s with
  | nil => cases h
  | cons b s => cases h; rfl

/-- One iteration of the `while working_data:` loop of `ScadaParameterParser.parse` parser.py:33-42:
the object read and the remaining data.  `working_data[: length - 3]` and `working_data[length - 3 :]`
are Python slices: for a length below 3 the index is negative and counts from the end. -/
def parseStep (w : Bytes) : Res (PObj × Bytes) := do
  let (lengthBytes, w) ← popMany 2 w
  let (typeByte, w) ← pop0 w
  let length : Nat := fromLE lengthBytes
  let t ← ObjType.ofByte typeByte
  let o ← parameterFromBytes t (sliceTo w ((length : Int) - 3))
  return (o, sliceFrom w ((length : Int) - 3))

theorem parseStep_length {w w' : Bytes} {o : PObj} (h : parseStep w = .ok (o, w')) :
    w'.length + 3 ≤ w.length := by
  unfold parseStep at h
  cases h1 : popMany 2 w with
  | error e => rw [h1] at h; cases h
  | ok x =>
    obtain ⟨lb, w1⟩ := x
    rw [h1] at h
    cases h2 : pop0 w1 with
    | error e =>
      have h' : (pop0 w1 >>= _ : Res (PObj × Bytes)) = .ok (o, w') := h
      rw [h2] at h'; cases h'
    | ok y =>
      obtain ⟨tb, w2⟩ := y
      have h' : (pop0 w1 >>= _ : Res (PObj × Bytes)) = .ok (o, w') := h
      rw [h2] at h'
      have h'' : (ObjType.ofByte tb >>= fun t =>
          parameterFromBytes t (sliceTo w2 ((fromLE lb : Int) - 3)) >>= fun o =>
            (.ok (o, sliceFrom w2 ((fromLE lb : Int) - 3)) : Res (PObj × Bytes))) = .ok (o, w') := h'
      cases h3 : ObjType.ofByte tb with
      | error e => rw [h3] at h''; cases h''
      | ok t =>
        rw [h3] at h''
        have h4 : (parameterFromBytes t (sliceTo w2 ((fromLE lb : Int) - 3)) >>= fun o =>
            (.ok (o, sliceFrom w2 ((fromLE lb : Int) - 3)) : Res (PObj × Bytes))) = .ok (o, w') := h''
        cases h5 : parameterFromBytes t (sliceTo w2 ((fromLE lb : Int) - 3)) with
        | error e => rw [h5] at h4; cases h4
        | ok o' =>
          rw [h5] at h4
          have h6 : (Except.ok (o', sliceFrom w2 ((fromLE lb : Int) - 3)) : Res (PObj × Bytes)) = .ok (o, w') := h4
          injection h6 with h6
          injection h6 with _ h7
          have a := popMany_length h1
          have b := pop0_length h2
          rw [← h7]
          simp only [sliceFrom, List.length_drop]
          omega

/-- The `while working_data:` loop of parser.py:32-44. -/
def parseLoop (w : Bytes) : Res (List PObj) :=
  if w = [] then .ok []
  else
    match _h : parseStep w with
    | .error e => .error e
    | .ok (o, w') =>
      match parseLoop w' with
      | .error e => .error e
      | .ok rest => .ok (o :: rest)
termination_by w.length
decreasing_by
  have := parseStep_length _h
  omega

/-- `ScadaParameterParser(data=selfData).parse(data)` parser.py:24-44.  `self.data or data` takes the
argument when the attribute is falsy; `bytearray(None)` is a `TypeError`. -/
def parseParameters (selfData data : Option Bytes) : Res (List PObj) :=
  let chosen : Option Bytes := match selfData with
    | some d => if d.isEmpty then data else some d
    | none => data
  match chosen with
  | none => raise .type
  | some w => if w.isEmpty then raise .value else parseLoop w

end Elgas
