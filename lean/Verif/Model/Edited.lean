import Verif.Model.JsonText
/-!
`schema.load` and `schema.dump` of the parameter schemas for any JSON document, e.g. a configuration that a user has
written or edited: the `_deserialize` and `_serialize` of the marshmallow 3 fields with all their conversions, which
`Model/ParamLang` and `Model/JsonText` leave out.

`float(s)`, `str(x)` of a float and `int(s)` are parameters (`FloatText`, `Conv.ofStr`).
-/
namespace Elgas

/-- Values of attributes as `schema.load` makes them: as `Val`, but integers can be negative, and a float is its 64 bits.
E.g. binary.py:88-108. -/
inductive AVal
  | none
  | int (n : Int)
  | bool (b : Bool)
  | str (s : PyStr)
  | float (bits : Nat)
  | strs (l : List PyStr)
  | gas (l : List (GasAttr × Nat))
  deriving DecidableEq

/-- An object made by a `post_load` hook, or by a user with the constructor of the class. E.g. binary.py:11-31, 106-108. -/
structure AObj where
  cls : Cls
  attrs : List (Attr × AVal)
  deriving DecidableEq

/-- What `schema.load` returns: an object, or a dictionary when there is no `post_load` hook. E.g. binary.py:106-108. -/
inductive ALoaded
  | object (o : AObj)
  | dict (l : List (Attr × AVal))
  deriving DecidableEq

/-- The attributes, or the items. E.g. binary.py:106-108. -/
def ALoaded.items : ALoaded → List (Attr × AVal)
  | .object o => o.attrs
  | .dict l => l

/-! ### Conversions -/

/-- The integer part, towards zero: `int(x)` of a finite float. `fields.Integer`, e.g. binary.py:88. -/
def truncate (x : Rat) : Int := if x < 0 then - (-x).floor else x.floor

/-- A Python `str`: a string of the document, or the text of a float. `fields.String`, e.g. binary.py:98. -/
def textOf (F : FloatText) : Json → Option PyStr
  | .str s => some s
  | .numText x => some (F.str x.bits64)
  | _ => none

/-- `Integer._deserialize` of a value other than `None`: booleans are refused, else `int(value)`; `none` where that
raises `TypeError`, `ValueError` or `OverflowError`. E.g. binary.py:88. -/
def intOf (F : FloatText) (c : Conv) : Json → Option Int
  | .int n => some n
  | .num x => if finite64 x.bits64 then some (truncate (value64 x.bits64)) else none
  | .str s => c.ofStr s
  | .numText x => c.ofStr (F.str x.bits64)
  | _ => none

/-- `float(n)` of an integer: the nearest double, `OverflowError` (`none`) if there is none. `fields.Float`,
e.g. analog_quantity.py:121-124. -/
def floatOfInt (n : Int) : Option Nat :=
  if n = 0 then some 0
  else if n.natAbs < 2 ^ 1024 - 2 ^ 970 then some (withSign (n < 0) (nearest64 n.natAbs))
  else none

/-- `Number._deserialize` of a value other than `None`: booleans are refused, else `float(value)`.
E.g. analog_quantity.py:121-124. -/
def floatOf (F : FloatText) : Json → Option Nat
  | .int n => floatOfInt n
  | .num x => some x.bits64
  | .str s => F.read s
  | .numText x => F.read (F.str x.bits64)
  | _ => none

/-- The strings among `marshmallow.fields.Boolean.truthy`. E.g. binary.py:95-97. -/
def truthyTexts : List String :=
  ["t", "T", "true", "True", "TRUE", "on", "On", "ON", "y", "Y", "yes", "Yes", "YES", "1"]

/-- The strings among `marshmallow.fields.Boolean.falsy`. E.g. binary.py:95-97. -/
def falsyTexts : List String :=
  ["f", "F", "false", "False", "FALSE", "off", "Off", "OFF", "n", "N", "no", "No", "NO", "0"]

/-- `value in truthy`, `value in falsy` for a string. E.g. binary.py:95-97. -/
def boolOfText (s : PyStr) : Option Bool :=
  if truthyTexts.contains (String.ofList s) then some true
  else if falsyTexts.contains (String.ofList s) then some false
  else none

/-- `Boolean._deserialize` of a value other than `None`: `value in truthy` (strings and 1), `value in falsy` (strings
and 0), where numbers of any type count; lists and dictionaries are unhashable, which is an error too.
E.g. binary.py:95-97. -/
def boolOf (F : FloatText) : Json → Option Bool
  | .bool b => some b
  | .int n => if n = 1 then some true else if n = 0 then some false else none
  | .num x =>
    if finite64 x.bits64 && value64 x.bits64 = 1 then some true
    else if finite64 x.bits64 && value64 x.bits64 = 0 then some false
    else none
  | .str s => boolOfText s
  | .numText x => boolOfText (F.str x.bits64)
  | _ => none

/-- `Float._deserialize` with `allow_nan=False` (the default). E.g. gas_composition.py:69-91. -/
def finiteOf (F : FloatText) (j : Json) : Option Nat :=
  (floatOf F j).bind fun b => if finite64 b then some b else none

/-! ### load -/

/-- `GasCompositionSchema().load(value)` inside `Nested`. gas_composition.py:67-95. -/
def gasLoadAny (F : FloatText) : Json → Option (List (GasAttr × Nat))
  | .dict l =>
    if l.any fun p => !(gasFields.map GasAttr.key).contains p.1 then none
    else gasFields.mapM fun (a : GasAttr) => do
      let j ← l.lookup a.key
      let b ← finiteOf F j
      return (a, b)
  | _ => none

/-- `List(String)._deserialize`: lists only, each element through `String`. time_window.py:90. -/
def stringsLoadAny (F : FloatText) : Json → Option (List PyStr)
  | .list l => l.mapM (textOf F)
  | _ => none

/-- `Field.deserialize` of a value that is present: `none` marks an error entry for the field. E.g. binary.py:88-104. -/
def FieldKind.loadAny (F : FloatText) (c : Conv) (allowNone : Bool) (k : FieldKind) (j : Json) : Option AVal :=
  match j with
  | .none => if allowNone then some .none else none
  | j => match k with
    | .integer => (intOf F c j).map .int
    | .string => (textOf F j).map .str
    | .boolean => (boolOf F j).map .bool
    | .floatStr => (finiteOf F j).map .float
    | .float => (finiteOf F j).map .float
    | .number => (floatOf F j).map .float
    | .stringList => (stringsLoadAny F j).map .strs
    | .gas => (gasLoadAny F j).map .gas

/-- `cls(**kw)` as `construct`: `TypeError` for an unknown or a missing argument. E.g. binary.py:106-108. -/
def constructAny (c : ParamClass) (kw : List (Attr × AVal)) : Res AObj :=
  if kw.any fun p => !c.fields.contains p.1 then raise .type
  else do
    let attrs ← c.fields.mapM (kwArg kw)
    return ⟨c.cls, attrs⟩

/-- `schema.load(j)`: `ValidationError` unless `j` is a dictionary without unknown keys that has all fields (every one is
`required`) with values the fields accept; then the `post_load` hook. E.g. binary.py:86-108. -/
def SchemaDef.loadAny (F : FloatText) (c : Conv) (s : SchemaDef) : Json → Res ALoaded
  | .dict d =>
    if d.any fun p => !(s.fields.map (·.1.key)).contains p.1 then raise .validation
    else match s.fields.mapM (fun (f : Attr × FieldKind × Bool) => do
        let j ← d.lookup f.1.key
        let v ← FieldKind.loadAny F c f.2.2 f.2.1 j
        return (f.1, v)) with
      | none => raise .validation
      | some kw => match s.postLoad with
        | none => .ok (.dict kw)
        | some cls => match classOf cls with
          | some k => do
            let o ← constructAny k kw
            return .object o
          | none => raise .name
  | _ => raise .validation

/-! ### dump -/

/-- `Field.serialize` of a value that is present.  Simplification: values of another type than the field's are rendered as
an error, except booleans for `Integer` (`int(True) == 1`), which parsed flow rates and timers have. E.g. binary.py:88-104. -/
def FieldKind.dumpAny (F : FloatText) : FieldKind → AVal → Res Json
  | _, .none => .ok .none
  | .integer, .int n => .ok (.int n)
  | .integer, .bool b => .ok (.int b.toNat)
  | .string, .str s => .ok (.str s)
  | .boolean, .bool b => .ok (.bool b)
  | .floatStr, .float b => .ok (.str (F.str b))
  | .float, .float b => .ok (.num (.double b))
  | .number, .float b => .ok (.num (.double b))
  | .stringList, .strs l => .ok (.list (l.map .str))
  | .gas, .gas l => .ok (.dict (l.map fun p => (p.1.key, .str (F.str p.2))))
  | _, _ => raise .type

/-- `schema.dump(x)` of an object or a dictionary: attributes it does not have are left out. E.g. binary.py:86-104. -/
def SchemaDef.dumpAny (F : FloatText) (s : SchemaDef) (x : ALoaded) : Res Json := do
  let l ← s.fields.foldrM (fun (f : Attr × FieldKind × Bool) acc =>
    match x.items.lookup f.1 with
    | some v => do
      let j ← f.2.1.dumpAny F v
      return (f.1.key, j) :: acc
    | none => return acc) []
  return .dict l

/-! ### The values of parsed objects -/

/-- A value of a parsed object, seen as a value of any object. E.g. binary.py:66-83. -/
def Val.any : Val → AVal
  | .none => .none
  | .int n => .int n
  | .bool b => .bool b
  | .str s => .str s
  | .float x => .float x.bits64
  | .strs l => .strs l
  | .gas l => .gas (l.map fun p => (p.1, p.2.bits64))

/-- The same for all attributes. E.g. binary.py:66-83. -/
def anyItems (l : List (Attr × Val)) : List (Attr × AVal) := l.map fun p => (p.1, p.2.any)

/-- The same for what `load` returns. E.g. binary.py:106-108. -/
def Loaded.any : Loaded → ALoaded
  | .object o => .object ⟨o.cls, anyItems o.attrs⟩
  | .dict l => .dict (anyItems l)

end Elgas
