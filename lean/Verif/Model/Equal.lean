import Verif.Model.JsonText
import Verif.Model.Parser
/-!
`==` on parameter objects.  All classes of elgas/parameters are `@attr.s(auto_attribs=True)` (e.g. binary.py:11), so
their `__eq__` is the generated one: same class, and the attributes are equal one by one, in order.

Simplification: the two objects are distinct ones and share no `float` object (attrs before 23.2 compares tuples of
attributes, which takes an object to be equal to itself; a NaN is not).  Two readings never share a float:
`struct.unpack` makes a new one each time.
-/
namespace Elgas

/-- `x == y` for two floats given by their bits: IEEE 754 equality (CPython `float_richcompare`).
Used by e.g. analog_quantity.py:11. -/
def floatEq (a b : Nat) : Bool :=
  if nan64 a || nan64 b then false
  else if finite64 a && finite64 b then value64 a = value64 b
  else a = b

/-- `n == x` for an int and a float: exact (CPython `float_richcompare`). -/
def intFloatEq (n a : Nat) : Bool := finite64 a && (value64 a = (n : Rat))

/-- Two tuples or lists, element by element. -/
def allEq {α β : Type} (eq : α → β → Bool) : List α → List β → Bool
  | [], [] => true
  | a :: l, b :: r => eq a b && allEq eq l r
  | _, _ => false

/-- `v == w` for the values of attributes: numbers by value (a bool is a number), strings, lists and
`GasComposition`s (gas_composition.py:9-34) element by element; otherwise `False`.  E.g. binary.py:11-31. -/
def Val.eq : Val → Val → Bool
  | .int n, .int m => n = m
  | .int n, .bool c => n = c.toNat
  | .int n, .float y => intFloatEq n y.bits64
  | .bool b, .int m => b.toNat = m
  | .bool b, .bool c => b = c
  | .bool b, .float y => intFloatEq b.toNat y.bits64
  | .float x, .int m => intFloatEq m x.bits64
  | .float x, .bool c => intFloatEq c.toNat x.bits64
  | .float x, .float y => floatEq x.bits64 y.bits64
  | .str s, .str t => s = t
  | .none, .none => true
  | .strs l, .strs r => allEq (fun s t => decide (s = t)) l r
  | .gas l, .gas r => allEq (fun x y => floatEq x.bits64 y.bits64) (l.map (·.2)) (r.map (·.2))
  | _, _ => false

/-- `o == p`: the `__eq__` that attrs generates.  E.g. binary.py:11-31. -/
def PObj.eq (o p : PObj) : Bool :=
  o.cls = p.cls && allEq Val.eq (o.attrs.map (·.2)) (p.attrs.map (·.2))

/-- `l == r` for two lists of objects, as `ScadaParameterParser.parse` returns them parser.py:44. -/
def listEq (l r : List PObj) : Bool := allEq PObj.eq l r

end Elgas
