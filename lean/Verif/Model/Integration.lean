import Verif.Model.Parser
import Verif.Model.AttrNames
/-!
Model of /repo/elgas/integration.py: the container in which a whole configuration (the parameter objects
of a device, dumped by their schemas) is exported and loaded.

The marshmallow field types used there (`Integer`, `Dict`, `String`, `List`, `Nested`) are modelled from
marshmallow 3: `_serialize` and `_deserialize` of the field, `required`, `allow_none`, unknown keys raise.
-/
namespace Elgas

/-- Python values as they occur in JSON documents.  `numText x` is the string `str(x)` of a float, kept
symbolically.  A dictionary is its list of items. The values handled by integration.py:14-42. -/
inductive Json
  | none
  | bool (b : Bool)
  | int (n : Int)
  | str (s : PyStr)
  | num (x : PyFloat)
  | numText (x : PyFloat)
  | list (l : List Json)
  | dict (l : List (String × Json))

/-- The dictionary that `Schema.dump` of a parameter schema returns, as JSON.
What goes into `data`, integration.py:11, 17, 35. -/
def Dumped.toJson : Dumped → Json
  | .int n => .int n
  | .bool b => .bool b
  | .str s => .str s
  | .num x => .num x
  | .numText x => .numText x
  | .none => .none
  | .strs l => .list (l.map .str)
  | .gas l => .dict (l.map fun p => (p.1.key, .numText p.2))

/-- The items of the dictionary that `Schema.dump` of a parameter schema returns.
What goes into `data`, integration.py:11, 17, 35. -/
def dumpedItems (x : List (Attr × Dumped)) : List (String × Json) := x.map fun p => (p.1.key, p.2.toJson)

/-- Conversions of Python that are not modelled further: `int(s)` of a string, `int(x)` of a float (`none`
when they raise) and `str(v)`. Used by `Integer` and `String`, integration.py:16, 34, 36. -/
structure Conv where
  ofStr : PyStr → Option Int
  ofNum : PyFloat → Option Int
  text : Json → PyStr

/-- `ConfigurationObject` integration.py:7-11. -/
structure ConfigurationObject where
  parameterType : Int
  data : List (String × Json)

/-- `UtilitarianConfigurationObject` integration.py:20-24. -/
structure UtilitarianConfigurationObject where
  parameterType : Int
  data : List (String × Json)
  seriesName : Option PyStr := none

/-- An element of `UtilitarianConfiguration.objects` (integration.py:27-29): an object, or a value as in
tests/test_schema.py:681-694 (there a dictionary). -/
inductive ConfigItem
  | object (o : UtilitarianConfigurationObject)
  | value (j : Json)

/-! ### dump -/

/-- `Integer._serialize`: `None`, or `int(value)`. integration.py:16, 34. -/
def dumpInteger (c : Conv) : Json → Res Json
  | .none => .ok .none
  | .int n => .ok (.int n)
  | .bool b => .ok (.int b.toNat)
  | .str s => match c.ofStr s with | some n => .ok (.int n) | none => raise .value
  | .num x => match c.ofNum x with | some n => .ok (.int n) | none => raise .value
  | .numText _ => raise .value
  | _ => raise .type

/-- `Dict._serialize`: `None`, or `dict(value)`.  Simplification: `dict()` of a non-empty list (of pairs)
is rendered as the `ValueError` it raises for most lists. integration.py:17, 35. -/
def dumpDict : Json → Res Json
  | .none => .ok .none
  | .dict l => .ok (.dict l)
  | .list [] => .ok (.dict [])
  | .str [] => .ok (.dict [])
  | .list _ => raise .value
  | .str _ => raise .value
  | .numText _ => raise .value
  | _ => raise .type

/-- `String._serialize`: `None`, or `str(value)`. integration.py:36. -/
def dumpString (c : Conv) : Json → Res Json
  | .none => .ok .none
  | .str s => .ok (.str s)
  | .numText x => .ok (.numText x)
  | v => .ok (.str (c.text v))

/-- `Schema.dump` of a dictionary: the fields that it has, each through its field's `_serialize`.
integration.py:14-17, 32-36. -/
def dumpFields (fields : List (String × (Json → Res Json))) (l : List (String × Json)) : Res (List (String × Json)) :=
  fields.foldrM (fun f acc =>
    match l.lookup f.1 with
    | some v => do
      let x ← f.2 v
      return (f.1, x) :: acc
    | none => return acc) []

/-- `ConfigurationObjectSchema` integration.py:14-17, for `dump`. -/
def configurationObjectDumpFields (c : Conv) : List (String × (Json → Res Json)) :=
  [("parameter_type", dumpInteger c), ("data", dumpDict)]

/-- `UtilitarianConfigurationObjectSchema` integration.py:32-36, for `dump`. -/
def utilitarianObjectDumpFields (c : Conv) : List (String × (Json → Res Json)) :=
  [("parameter_type", dumpInteger c), ("data", dumpDict), ("series_name", dumpString c)]

/-- `ConfigurationObjectSchema().dump(o)`. integration.py:14-17. -/
def ConfigurationObject.dump (c : Conv) (o : ConfigurationObject) : Res Json := do
  let l ← dumpFields (configurationObjectDumpFields c) [("parameter_type", .int o.parameterType), ("data", .dict o.data)]
  return .dict l

/-- `UtilitarianConfigurationObjectSchema().dump(x)` inside `Nested`: attributes of an object, items of a
dictionary; `None` stays `None`, and other values have none of the fields. integration.py:32-36, 40-42. -/
def ConfigItem.dump (c : Conv) : ConfigItem → Res Json
  | .object o => do
    let l ← dumpFields (utilitarianObjectDumpFields c) [("parameter_type", .int o.parameterType), ("data", .dict o.data),
        ("series_name", match o.seriesName with | some s => .str s | none => .none)]
    return .dict l
  | .value .none => .ok .none
  | .value (.dict l) => do
    let l ← dumpFields (utilitarianObjectDumpFields c) l
    return .dict l
  | .value _ => .ok (.dict [])

/-- `UtilitarianConfigurationSchema().dump(UtilitarianConfiguration(objects=xs))` integration.py:39-42. -/
def configurationDump (c : Conv) (xs : List ConfigItem) : Res Json := do
  let l ← xs.mapM (ConfigItem.dump c)
  return .dict [("objects", .list l)]

/-! ### load -/

/-- `Integer._deserialize`: booleans are refused, else `int(value)`; `None` is refused (`allow_none` is
false). `none` marks an error entry for the field. integration.py:16, 34. -/
def loadInteger (c : Conv) : Json → Option Json
  | .int n => some (.int n)
  | .str s => (c.ofStr s).map .int
  | .num x => (c.ofNum x).map .int
  | _ => none

/-- `Dict._deserialize`: mappings only. integration.py:17, 35. -/
def loadDict : Json → Option Json
  | .dict l => some (.dict l)
  | _ => none

/-- `String._deserialize` with `allow_none`: strings and `None`. integration.py:36. -/
def loadString : Json → Option Json
  | .none => some .none
  | .str s => some (.str s)
  | .numText x => some (.numText x)
  | _ => none

/-- `Schema.load` with the given required fields: `ValidationError` unless the value is a mapping without
unknown keys in which every field is present and accepted; the result is a dictionary (there is no
`post_load` hook). integration.py:14-17, 32-36. -/
def loadFields (fields : List (String × (Json → Option Json))) : Json → Res Json
  | .dict l =>
    if l.any fun p => !(fields.map (·.1)).contains p.1 then raise .validation
    else match fields.mapM (fun f => do
        let x ← l.lookup f.1
        let v ← f.2 x
        return (f.1, v)) with
      | some r => .ok (.dict r)
      | none => raise .validation
  | _ => raise .validation

/-- `ConfigurationObjectSchema().load(j)` integration.py:14-17. -/
def configurationObjectLoad (c : Conv) (j : Json) : Res Json :=
  loadFields [("parameter_type", loadInteger c), ("data", loadDict)] j

/-- `UtilitarianConfigurationObjectSchema().load(j)` integration.py:32-36. -/
def utilitarianObjectLoad (c : Conv) (j : Json) : Res Json :=
  loadFields [("parameter_type", loadInteger c), ("data", loadDict), ("series_name", loadString)] j

/-- `UtilitarianConfigurationSchema().load(j)` integration.py:39-42: `objects` is not required, must be a
list (`None` is refused), and every element is loaded by the nested schema. -/
def configurationLoad (c : Conv) : Json → Res Json
  | .dict l =>
    if l.any fun p => p.1 != "objects" then raise .validation
    else match l.lookup "objects" with
      | none => .ok (.dict [])
      | some (.list js) => do
        let rs ← js.mapM (utilitarianObjectLoad c)
        return .dict [("objects", .list rs)]
      | some _ => raise .validation
  | _ => raise .validation

/-! ### Export as in tests/test_schema.py:681-695 -/

/-- `param.object_type` (class attribute of every parameter class). E.g. binary.py:13. -/
def PObj.objectType (o : PObj) : Res ObjType :=
  match classOf o.cls with
  | some k => .ok k.objectType
  | none => raise .attribute

/-- One turn of the loop tests/test_schema.py:682-692. -/
def exportObject (c : Conv) (o : PObj) : Res Json := do
  let t ← o.objectType
  let s ← schemaById t
  let x ← s.dump o
  ConfigItem.dump c (.object { parameterType := t.value, data := dumpedItems x })

/-- tests/test_schema.py:681-695: the whole export, up to the JSON text. -/
def exportConfiguration (c : Conv) (os : List PObj) : Res Json := do
  let items ← os.mapM (exportObject c)
  configurationDump c (items.map .value)

end Elgas
