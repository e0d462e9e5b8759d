import Verif.Py.Float
import Verif.Model.ParamLang
/-!
What the floats of `Model/ParamLang` are: the bits of the Python object (a C `double`).

Python's `round` is CPython's `double_round` (Objects/floatobject.c): the shortest correctly rounded decimal with the
given number of places (`_Py_dg_dtoa` mode 3), read back (`_Py_dg_strtod`).  Both round to nearest, ties to even, and
are exact in between; so they are modelled by exact rational arithmetic.
-/
namespace Elgas

/-- The nearest integer, ties to even. Used by `round` analog_quantity.py:59. -/
def halfEven (x : Rat) : Int :=
  if x - x.floor < 1 / 2 then x.floor
  else if 1 / 2 < x - x.floor then x.floor + 1
  else if x.floor % 2 = 0 then x.floor
  else x.floor + 1

/-- The exponent of the last bit of the double next to `y > 0`: `2 ^ 52 ≤ y / 2 ^ e < 2 ^ 53`. analog_quantity.py:59. -/
def exponentOf (y : Rat) : Int :=
  let t : Int := (y.num.toNat.log2 : Int) - (y.den.log2 : Int)
  if y < (2 : Rat) ^ t then t - 53 else t - 52

/-- The bits of the double nearest to `y > 0`, ties to even (a mantissa of `2 ^ 53` carries over into the exponent).
Simplification: `y` has to be in the range of the normal doubles.  analog_quantity.py:59. -/
def nearest64 (y : Rat) : Nat :=
  ((exponentOf y + 1074) * 2 ^ 52 + halfEven (y / (2 : Rat) ^ exponentOf y)).toNat

/-- The bits of a double from sign and magnitude. -/
def withSign (neg : Bool) (mag : Nat) : Nat := if neg then 2 ^ 63 + mag else mag

/-- `struct.unpack("<f", ...)[0]`: a C `float`, converted to `double`.  E.g. analog_quantity.py:60.
Simplification: the payload of a NaN is kept. -/
def widen (b : Nat) : Nat :=
  withSign (neg32 b)
    (if finite32 b then (if mag32 b = 0 then 0 else nearest64 (mag32 b)) else 2047 * 2 ^ 52 + b % 2 ^ 23 * 2 ^ 29)

/-- `round(x, digits)` for a float with the bits `b`: numbers that are not finite are returned as they are.
analog_quantity.py:59, 61-63, statistics.py:49. -/
def roundFloat (b digits : Nat) : Nat :=
  if finite64 b then
    withSign (neg64 b)
      (let k := halfEven (mag64 b * 10 ^ digits)
       if k = 0 then 0 else nearest64 (k / 10 ^ digits))
  else b

/-- The bits of the Python object. E.g. analog_quantity.py:59-60, counter.py:59. -/
def PyFloat.bits64 : PyFloat → Nat
  | .single b => widen b
  | .double b => b
  | .rounded b digits => roundFloat (widen b) digits

end Elgas
