import Verif.Model.JsonText
import Verif.Spec.Integration
/-!
Specification vocabulary for JSON text.
-/
namespace Spec
open Elgas

/-- At least one decimal digit and nothing else. -/
def Digits (s : PyStr) : Prop := s ≠ [] ∧ ∀ c ∈ s, c.isDigit = true

/-- A decimal number with fraction or exponent, as JSON allows it. -/
def IsDecimal (s : PyStr) : Prop :=
  ∃ sign whole frac exp : PyStr, s = sign ++ whole ++ frac ++ exp ∧
    (sign = [] ∨ sign = ['-']) ∧
    (whole = ['0'] ∨ Digits whole ∧ whole.head? ≠ some '0') ∧
    (frac = [] ∨ ∃ d, Digits d ∧ frac = '.' :: d) ∧
    (exp = [] ∨ ∃ d, Digits d ∧ (exp = 'e' :: d ∨ exp = 'e' :: '+' :: d ∨ exp = 'e' :: '-' :: d)) ∧
    (frac ≠ [] ∨ exp ≠ [])

/-- What Python guarantees of `repr(x)` and `float(s)`: `repr` of a finite float is a decimal number, from which `float`
gives the same float; `float` reads the texts of infinities and NaN. -/
structure FloatTextOk (F : FloatText) : Prop where
  decimal (b : Nat) (h : b < 2 ^ 64) (hf : finite64 b = true) : IsDecimal (F.text b)
  back (b : Nat) (h : b < 2 ^ 64) (hf : finite64 b = true) : F.read (F.text b) = some b
  inf : F.read "inf".toList = some (2047 * 2 ^ 52)
  negInf : F.read "-inf".toList = some (2 ^ 63 + 2047 * 2 ^ 52)
  nan : ∃ b, F.read "nan".toList = some b ∧ nan64 b = true

/-- A JSON document as Python objects can form one: no key twice in a dictionary, floats of 64 bits. -/
inductive Document : Json → Prop
  | none : Document .none
  | bool (b : Bool) : Document (.bool b)
  | int (n : Int) : Document (.int n)
  | str (s : PyStr) : Document (.str s)
  | num (x : PyFloat) (h : x.bits64 < 2 ^ 64) : Document (.num x)
  | numText (x : PyFloat) (h : x.bits64 < 2 ^ 64) : Document (.numText x)
  | list (l : List Json) (h : ∀ j ∈ l, Document j) : Document (.list l)
  | dict (l : List (String × Json)) (hk : (l.map (·.1)).Nodup) (h : ∀ p ∈ l, Document p.2) : Document (.dict l)

mutual
/-- The document that is read from the text of a document: every number that is a float is a double with the same bits
(if not NaN), and the text of a float is a string like any other. -/
def asRead (F : FloatText) : Json → Json
  | .num x => .num (.double (if nan64 x.bits64 then 0x7FF8000000000000 else x.bits64))
  | .numText x => .str (F.str x.bits64)
  | .list l => .list (asReadList F l)
  | .dict l => .dict (asReadItems F l)
  | .none => .none
  | .bool b => .bool b
  | .int n => .int n
  | .str s => .str s
/-- The same for each element. -/
def asReadList (F : FloatText) : List Json → List Json
  | [] => []
  | j :: l => asRead F j :: asReadList F l
/-- The same for each value. -/
def asReadItems (F : FloatText) : List (String × Json) → List (String × Json)
  | [] => []
  | p :: l => (p.1, asRead F p.2) :: asReadItems F l
end

/-- Printable ASCII characters only. -/
def Printable (s : PyStr) : Prop := ∀ c ∈ s, 0x20 ≤ c.toNat ∧ c.toNat ≤ 0x7E

/-- The same float: the same bits, or both NaN. -/
def SameFloat (x y : PyFloat) : Prop := x.bits64 = y.bits64 ∨ nan64 x.bits64 = true ∧ nan64 y.bits64 = true

/-- The same value: as Python compares it (`True == 1`), apart from NaN. -/
inductive SameVal : Val → Val → Prop
  | same (v w : Val) (h : pyEq v w = true) : SameVal v w
  | float (x y : PyFloat) (h : SameFloat x y) : SameVal (.float x) (.float y)
  | gas (l m : List (GasAttr × PyFloat)) (h : Each (fun a b => a.1 = b.1 ∧ SameFloat a.2 b.2) l m) :
      SameVal (.gas l) (.gas m)

/-- The same object: same class, same attributes, same values. -/
def SameValues (o o' : PObj) : Prop :=
  o.cls = o'.cls ∧ o.attrs.map (·.1) = o'.attrs.map (·.1) ∧
  ∀ a v v', o.attrs.lookup a = some v → o'.attrs.lookup a = some v' → SameVal v v'

/-- What becomes of the object `o` on its way through the text of a configuration; `j` is its entry as read from the
text: the type number selects the schema, which loads the data to the same object (a dictionary if it has no hook), or
refuses it if it is not restorable. -/
def SurvivesText (F : FloatText) (o : PObj) (j : Json) : Prop :=
  ∃ (t : ObjType) (data : List (String × Json)) (s : SchemaDef),
    o.objectType = .ok t ∧ j = exported t.value data .none ∧ schemaById t = .ok s ∧
    (¬ Restorable t o → s.loadJson F classOf (.dict data) = .error .validation) ∧
    (Restorable t o → ¬ Unhooked t →
      ∃ o', s.loadJson F classOf (.dict data) = .ok (.object o') ∧ SameValues o o') ∧
    (Restorable t o → Unhooked t →
      ∃ l, s.loadJson F classOf (.dict data) = .ok (.dict l) ∧ SameValues o ⟨o.cls, l⟩)

end Spec
