import Verif.Model.Integration
import Verif.Spec.Schemas
/-!
What an exported configuration looks like, which JSON documents are accepted as one, and how an object is
restored from it.
-/
namespace Spec
open Elgas

/-- The dictionary of one exported object. -/
def exported (type : Int) (data : List (String × Json)) (name : Json) : Json :=
  .dict [("parameter_type", .int type), ("data", .dict data), ("series_name", name)]

/-- The dictionary of a configuration. -/
def configuration (items : List Json) : Json := .dict [("objects", .list items)]

/-- The value stands for the integer `n`: it is this integer, or a string or float that `int` turns into
it.  Booleans do not count. -/
inductive StandsFor (c : Conv) : Json → Int → Prop
  | int (n : Int) : StandsFor c (.int n) n
  | str (s : PyStr) (n : Int) (h : c.ofStr s = some n) : StandsFor c (.str s) n
  | num (x : PyFloat) (n : Int) (h : c.ofNum x = some n) : StandsFor c (.num x) n

/-- A string or `None`. -/
def IsName : Json → Prop
  | .none => True
  | .str _ => True
  | .numText _ => True
  | _ => False

/-- `j` is accepted as an object of a configuration, and stands for type, data and name. -/
def AcceptedObject (c : Conv) (j : Json) (type : Int) (data : List (String × Json)) (name : Json) : Prop :=
  ∃ l, j = .dict l ∧ (∀ p ∈ l, p.1 = "parameter_type" ∨ p.1 = "data" ∨ p.1 = "series_name") ∧
    (∃ x, l.lookup "parameter_type" = some x ∧ StandsFor c x type) ∧
    l.lookup "data" = some (.dict data) ∧ l.lookup "series_name" = some name ∧ IsName name

/-- The dictionary of a plain configuration object (without name). -/
def exportedPlain (type : Int) (data : List (String × Json)) : Json :=
  .dict [("parameter_type", .int type), ("data", .dict data)]

/-- `j` is accepted as a plain configuration object. -/
def AcceptedPlain (c : Conv) (j : Json) (type : Int) (data : List (String × Json)) : Prop :=
  ∃ l, j = .dict l ∧ (∀ p ∈ l, p.1 = "parameter_type" ∨ p.1 = "data") ∧
    (∃ x, l.lookup "parameter_type" = some x ∧ StandsFor c x type) ∧ l.lookup "data" = some (.dict data)

/-- Element by element. -/
inductive Each {α β : Type} (R : α → β → Prop) : List α → List β → Prop
  | nil : Each R [] []
  | cons {a : α} {b : β} {as : List α} {bs : List β} (h : R a b) (t : Each R as bs) : Each R (a :: as) (b :: bs)

/-- Restoring an object from its entry in a configuration: the type number selects the schema, which loads
the data.  `y` is the result. -/
def Restores (j : Json) (y : Res Loaded) : Prop :=
  ∃ (t : ObjType) (x : List (Attr × Dumped)) (name : Json) (s : SchemaDef),
    j = exported t.value (dumpedItems x) name ∧ schemaById t = .ok s ∧ s.load classOf x = y

/-- What becomes of the object `o` on its way through its entry `j` of a configuration: it comes back equal (as
a dictionary if its schema has no hook), or is refused if it is not restorable. -/
def Survives (o : PObj) (j : Json) : Prop :=
  ∃ t, o.objectType = .ok t ∧
    (¬ Restorable t o → Restores j (.error .validation)) ∧
    (Restorable t o → ¬ Unhooked t → ∃ o', Restores j (.ok (.object o')) ∧ SameObject o o') ∧
    (Restorable t o → Unhooked t → ∃ l, Restores j (.ok (.dict l)) ∧ SameObject o ⟨o.cls, l⟩)

end Spec
