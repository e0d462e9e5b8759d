import Verif.Model.Edited
import Verif.Spec.Integration
import Verif.Spec.Float
import Verif.Spec.Layouts
/-!
Which values the fields of a schema accept, and for what they are taken.
-/
namespace Spec
open Elgas

/-- The value is a string: one of the document, or the text of a float as `dump` leaves it there. -/
inductive IsText (F : FloatText) : Json → PyStr → Prop
  | str (s : PyStr) : IsText F (.str s) s
  | num (x : PyFloat) : IsText F (.numText x) (F.str x.bits64)

/-- `n` is the whole part of `x`: what is left when the places behind the point are dropped. -/
def WholePart (x : Rat) (n : Int) : Prop := (0 ≤ x → (n : Rat) ≤ x ∧ x < n + 1) ∧ (x < 0 → x ≤ n ∧ (n : Rat) < x + 1)

/-- The value stands for the integer `n`: it is that integer, a finite float with this whole part, or a string from which
Python's `int` reads it. -/
inductive IsInt (F : FloatText) (c : Conv) : Json → Int → Prop
  | int (n : Int) : IsInt F c (.int n) n
  | num (x : PyFloat) (n : Int) (hf : finite64 x.bits64 = true) (h : WholePart (value64 x.bits64) n) : IsInt F c (.num x) n
  | text (j : Json) (s : PyStr) (n : Int) (hs : IsText F j s) (h : c.ofStr s = some n) : IsInt F c j n

/-- The value stands for the float with the bits `b`: it is that float, a string from which Python's `float` reads it, or
an integer in the range of the doubles, and `b` the double next to it. -/
inductive IsFloat (F : FloatText) : Json → Nat → Prop
  | num (x : PyFloat) : IsFloat F (.num x) x.bits64
  | text (j : Json) (s : PyStr) (b : Nat) (hs : IsText F j s) (h : F.read s = some b) : IsFloat F j b
  | int (n : Int) (b : Nat) (hr : n.natAbs < 2 ^ 1024 - 2 ^ 970) (h : NearestDouble n b) (hs : neg64 b = decide (n < 0)) :
      IsFloat F (.int n) b

/-- The strings that mean yes. -/
def yesTexts : List String :=
  ["1", "t", "T", "true", "True", "TRUE", "y", "Y", "yes", "Yes", "YES", "on", "On", "ON"]

/-- The strings that mean no. -/
def noTexts : List String :=
  ["0", "f", "F", "false", "False", "FALSE", "n", "N", "no", "No", "NO", "off", "Off", "OFF"]

/-- The value stands for a boolean: it is one, a number 1 or 0 of any type, or one of the listed strings. -/
inductive IsBool (F : FloatText) : Json → Bool → Prop
  | bool (b : Bool) : IsBool F (.bool b) b
  | int (b : Bool) : IsBool F (.int b.toNat) b
  | num (x : PyFloat) (b : Bool) (hf : finite64 x.bits64 = true) (h : value64 x.bits64 = (b.toNat : Rat)) :
      IsBool F (.num x) b
  | yes (j : Json) (t : String) (hs : IsText F j t.toList) (h : t ∈ yesTexts) : IsBool F j true
  | no (j : Json) (t : String) (hs : IsText F j t.toList) (h : t ∈ noTexts) : IsBool F j false

/-- A field of this kind (that may be null or not) accepts the value, and takes it for the given one. -/
inductive Accepts (F : FloatText) (c : Conv) : FieldKind → Bool → Json → AVal → Prop
  | null (k : FieldKind) : Accepts F c k true .none .none
  | integer (nullable : Bool) (j : Json) (n : Int) (h : IsInt F c j n) : Accepts F c .integer nullable j (.int n)
  | string (nullable : Bool) (j : Json) (s : PyStr) (h : IsText F j s) : Accepts F c .string nullable j (.str s)
  | boolean (nullable : Bool) (j : Json) (b : Bool) (h : IsBool F j b) : Accepts F c .boolean nullable j (.bool b)
  | floatStr (nullable : Bool) (j : Json) (b : Nat) (h : IsFloat F j b) (hf : finite64 b = true) :
      Accepts F c .floatStr nullable j (.float b)
  | float (nullable : Bool) (j : Json) (b : Nat) (h : IsFloat F j b) (hf : finite64 b = true) :
      Accepts F c .float nullable j (.float b)
  | number (nullable : Bool) (j : Json) (b : Nat) (h : IsFloat F j b) : Accepts F c .number nullable j (.float b)
  | strings (nullable : Bool) (l : List Json) (ss : List PyStr) (h : Each (IsText F) l ss) :
      Accepts F c .stringList nullable (.list l) (.strs ss)
  | gas (nullable : Bool) (d : List (String × Json)) (g : List (GasAttr × Nat))
      (hk : ∀ p ∈ d, ∃ a ∈ gasFields, p.1 = a.key)
      (h : Each (fun a x => x.1 = a ∧ ∃ j, d.lookup a.key = some j ∧ IsFloat F j x.2 ∧ finite64 x.2 = true) gasFields g) :
      Accepts F c .gas nullable (.dict d) (.gas g)

/-- The document is a dictionary with exactly the keys of the schema, and every field accepts its value. -/
def AcceptedBy (F : FloatText) (c : Conv) (s : SchemaDef) (j : Json) : Prop :=
  ∃ d, j = .dict d ∧ (∀ p ∈ d, ∃ f ∈ s.fields, p.1 = f.1.key) ∧
    ∀ f ∈ s.fields, ∃ x v, d.lookup f.1.key = some x ∧ Accepts F c f.2.1 f.2.2 x v

/-- The document is accepted, and taken for these attribute values: each the one of its own entry. -/
def TakenFor (F : FloatText) (c : Conv) (s : SchemaDef) (j : Json) (items : List (Attr × AVal)) : Prop :=
  ∃ d, j = .dict d ∧ (∀ p ∈ d, ∃ f ∈ s.fields, p.1 = f.1.key) ∧
    Each (fun (f : Attr × FieldKind × Bool) p =>
      p.1 = f.1 ∧ ∃ x, d.lookup f.1.key = some x ∧ Accepts F c f.2.1 f.2.2 x p.2) s.fields items

/-- The value has the type that a field of this kind is for. -/
inductive Typed : FieldKind → AVal → Prop
  | none (k : FieldKind) : Typed k .none
  | integer (n : Int) : Typed .integer (.int n)
  | string (s : PyStr) : Typed .string (.str s)
  | boolean (b : Bool) : Typed .boolean (.bool b)
  | floatStr (b : Nat) (h : b < 2 ^ 64) : Typed .floatStr (.float b)
  | float (b : Nat) (h : b < 2 ^ 64) : Typed .float (.float b)
  | number (b : Nat) (h : b < 2 ^ 64) : Typed .number (.float b)
  | strings (l : List PyStr) : Typed .stringList (.strs l)
  | gas (g : List (GasAttr × Nat)) (hk : g.map (·.1) = gasFields) (h : ∀ p ∈ g, p.2 < 2 ^ 64) : Typed .gas (.gas g)

/-- The field of this kind takes the value back: null only if it may be, infinities and NaN only as `Number`. -/
def TakenBack (k : FieldKind) (nullable : Bool) : AVal → Prop
  | .none => nullable = true
  | .float b => k = .number ∨ finite64 b = true
  | .gas g => ∀ p ∈ g, finite64 p.2 = true
  | _ => True

/-- An object or dictionary with exactly the attributes of the schema, each of the type of its field. -/
def TypedBy (s : SchemaDef) (x : ALoaded) : Prop :=
  Each (fun (f : Attr × FieldKind × Bool) p => p.1 = f.1 ∧ Typed f.2.1 p.2) s.fields x.items

/-- What the schema of a type makes of attribute values: a dictionary if it has no hook, else an object of the class. -/
def made (t : ObjType) (items : List (Attr × AVal)) : ALoaded :=
  if Unhooked t then .dict items else .object ⟨classFor t, items⟩

/-- The attributes that may be null in a JSON document: those that a device may leave out (the optional tail of the
layout), except the decimals of a flow rate, and the SIM number of the owner of a modem. -/
def Nullable (t : ObjType) (a : Attr) : Prop :=
  (t ≠ .FLOW_RATE ∧ ∃ L l, layout (classFor t) [] = some L ∧ (a, .optional l) ∈ L.fields) ∨
  (t = .MODEM ∧ a = .owner_sim_number)

/-- The dictionary with null as the value of this key. -/
def nulled (d : List (String × Json)) (k : String) : List (String × Json) :=
  d.map fun p => if p.1 = k then (k, .none) else p

end Spec
