import Verif.Model.Utils
import Verif.Model.ParamNames
/-!
The statement forms that occur in the `from_bytes` methods and marshmallow schemas of
/repo/elgas/parameters/*.py, and their meaning.  `Verif.Model.Parameters` lists, class by class, the
statements the repository contains; this module says what each of them does.

Floats are kept symbolically as the bit pattern they were unpacked from: no float arithmetic occurs in
the code except `round`, which is kept as a constructor.
-/
namespace Elgas

/-- A Python `float` produced by `struct.unpack("<f"/"<d", ...)[0]` or `round(..., digits)`.
Simplification: symbolic, by bit pattern. E.g. analog_quantity.py:59-60. -/
inductive PyFloat
  | single (bits : Nat)
  | double (bits : Nat)
  | rounded (bits digits : Nat)
  deriving DecidableEq, Repr

/-- `math.isfinite`: the IEEE 754 exponent field is not all ones.  `round` of a finite single is
finite and of a non-finite one the number itself (CPython `float___round___impl`).
Used by marshmallow fields, e.g. analog_quantity.py:121-124. -/
def PyFloat.isFinite : PyFloat → Bool
  | .single b => b / 2 ^ 23 % 2 ^ 8 ≠ 2 ^ 8 - 1
  | .double b => b / 2 ^ 52 % 2 ^ 11 ≠ 2 ^ 11 - 1
  | .rounded b _ => b / 2 ^ 23 % 2 ^ 8 ≠ 2 ^ 8 - 1

/-- The Python values that parameter attributes hold. E.g. binary.py:15-31. -/
inductive Val
  | int (n : Nat)
  | bool (b : Bool)
  | str (s : PyStr)
  | float (x : PyFloat)
  | none
  | strs (l : List PyStr)
  | gas (l : List (GasAttr × PyFloat))     -- a `GasComposition`, attributes in order
  deriving DecidableEq, Repr

/-- Assignments in `from_bytes` bodies (each form with one example of its occurrence). Sources: parameters/*.py. -/
inductive Simple
  | popByte (x : Attr)                       -- `x = data.pop(0)`                        binary.py:42
  | popInt (x : Attr) (n : Nat)              -- `int.from_bytes(pop_many(data, n), "little")` binary.py:37
  | popText (x : Attr) (n : Nat)             -- `pretty_text(pop_many(data, n))`         binary.py:46
  | popHex (x : Attr) (n : Nat)              -- `pop_many(data, n).hex()`                modem.py:58
  | popIp (x : Attr) (n : Nat)               -- `parse_ip_address(pop_many(data, n))`    modem.py:51
  | popF32 (x : Attr)                        -- `struct.unpack("<f", pop_many(data, 4))[0]` analog_quantity.py:60
  | popF64 (x : Attr)                        -- `struct.unpack("<d", pop_many(data, 8))[0]` counter.py:59
  | popF32Round (x : Attr) (digits : Nat)    -- `round(struct.unpack("<f", ...)[0], digits)` analog_quantity.py:59
  | flag (x src : Attr) (mask : Nat)         -- `bool(src & mask)`                       binary.py:43
  | bits (x src : Attr) (mask shift : Nat)   -- `int((src & mask) >> shift)`             system_parameters.py:103
  | popGas (x : Attr) (n : Nat)              -- `GasComposition.from_bytes(pop_many(data, n))` system_parameters.py:110
  | skip (n : Nat)                           -- `_ = pop_many(data, n)`                  system_parameters.py:140
  | setNone (x : Attr)                       -- `x = None`                               binary.py:60
  deriving DecidableEq, Repr

/-- Statements of `from_bytes` bodies. Sources: parameters/*.py. -/
inductive Stmt
  | simple (s : Simple)
  | ifData (yes no : List Simple)            -- `if data: ... else: ...`                 binary.py:55-62
  | assertEmpty                              -- `assert not data`                        binary.py:64
  | popRows (x count : Attr) (n : Nat)       -- `x = list(); for _ in range(0, count): x.append(pop_many(data, n).hex())` time_window.py:45-47
  deriving DecidableEq, Repr

/-- One class of elgas/parameters: its attributes (positional order of the attrs constructor), the
statements of `from_bytes` (`none` when the class has no such method) and the keyword arguments
`attribute=local` of the final `return cls(...)`. E.g. binary.py:11-83. -/
structure ParamClass where
  cls : Cls
  objectType : ObjType
  fields : List Attr
  body : Option (List Stmt)
  kwargs : List (Attr × Attr)
  deriving DecidableEq, Repr

/-- A constructed parameter object; two are equal iff class and attributes are (attrs `__eq__`).
E.g. binary.py:11-31. -/
structure PObj where
  cls : Cls
  attrs : List (Attr × Val)
  deriving DecidableEq, Repr

/-- Local variables (latest binding first). Locals of `from_bytes`, e.g. binary.py:35-62. -/
abbrev Env := List (Attr × Val)

/-- Read a local variable: `UnboundLocalError` when it was never assigned. E.g. binary.py:66-83. -/
def Env.get (env : Env) (x : Attr) : Res Val :=
  match env.lookup x with
  | some v => .ok v
  | none => raise .name

/-- The value an attrs-generated `__init__` (no defaults) stores for attribute `f` given the keyword
arguments `kw`: `TypeError` when it is missing. E.g. binary.py:11, 66-83. -/
def kwArg {α β : Type} [BEq α] (kw : List (α × β)) (f : α) : Res (α × β) :=
  match kw.lookup f with
  | some v => .ok (f, v)
  | none => raise .type

/-- The `struct.unpack("<f", pop_many(data, 4))[0]` keyword arguments of
`GasComposition.from_bytes` gas_composition.py:37-64, evaluated left to right. -/
def popGasAll : List GasAttr → P (List (GasAttr × PyFloat))
  | [] => pure []
  | a :: rest => do
    let b ← popMany 4
    let r ← popGasAll rest
    return (a, .single (fromLE b)) :: r

/-- `GasComposition.from_bytes` gas_composition.py:36-64 (surplus bytes are ignored); the object holds
the attributes in the order of gas_composition.py:12-34. -/
def gasFromBytes (data : Bytes) : Res (List (GasAttr × PyFloat)) := do
  let kw ← P.run (popGasAll gasOrder) data
  gasFields.mapM (kwArg kw)

/-- One assignment. E.g. binary.py:36-46. -/
def Simple.exec (env : Env) : Simple → P Env
  | .popByte x => do
    let b ← pop0
    return (x, .int b.toNat) :: env
  | .popInt x n => do
    let b ← popMany n
    return (x, .int (fromLE b)) :: env
  | .popText x n => do
    let b ← popMany n
    return (x, .str (prettyText b)) :: env
  | .popHex x n => do
    let b ← popMany n
    return (x, .str (toHex b)) :: env
  | .popIp x n => do
    let b ← popMany n
    let s ← parseIpAddress b
    return (x, .str s) :: env
  | .popF32 x => do
    let b ← popMany 4
    return (x, .float (.single (fromLE b))) :: env
  | .popF64 x => do
    let b ← popMany 8
    return (x, .float (.double (fromLE b))) :: env
  | .popF32Round x digits => do
    let b ← popMany 4
    return (x, .float (.rounded (fromLE b) digits)) :: env
  | .flag x src mask => do
    let v ← env.get src
    match v with
    | .int n => return (x, .bool (n &&& mask ≠ 0)) :: env
    | _ => raise .type
  | .bits x src mask shift => do
    let v ← env.get src
    match v with
    | .int n => return (x, .int ((n &&& mask) >>> shift)) :: env
    | _ => raise .type
  | .popGas x n => do
    let b ← popMany n
    let g ← gasFromBytes b
    return (x, .gas g) :: env
  | .skip n => do
    let _ ← popMany n
    return env
  | .setNone x => pure ((x, .none) :: env)

/-- Consecutive assignments. E.g. binary.py:56-58. -/
def execSimples (env : Env) : List Simple → P Env
  | [] => pure env
  | s :: rest => do
    let env ← s.exec env
    execSimples env rest

/-- The loop of time_window.py:45-47. -/
def popHexRows (n : Nat) : Nat → P (List PyStr)
  | 0 => pure []
  | k + 1 => do
    let b ← popMany n
    let r ← popHexRows n k
    return toHex b :: r

/-- One statement. E.g. binary.py:55-64. -/
def Stmt.exec (env : Env) : Stmt → P Env
  | .simple s => s.exec env
  | .ifData yes no => do
    if ← more then execSimples env yes else execSimples env no
  | .assertEmpty => do
    Elgas.assertEmpty
    return env
  | .popRows x count n => do
    let v ← env.get count
    match v with
    | .int k =>
      let rows ← popHexRows n k
      return (x, .strs rows) :: env
    | _ => raise .type

/-- Consecutive statements. E.g. binary.py:35-64. -/
def execStmts (env : Env) : List Stmt → P Env
  | [] => pure env
  | s :: rest => do
    let env ← s.exec env
    execStmts env rest

/-- `cls(**kw)` for an attrs class without defaults (`@attr.s(auto_attribs=True)`): `TypeError` for an
unknown or a missing argument. E.g. binary.py:66-83. -/
def construct (c : ParamClass) (kw : List (Attr × Val)) : Res PObj :=
  if kw.any fun p => !c.fields.contains p.1 then raise .type
  else do
    let attrs ← c.fields.mapM (kwArg kw)
    return ⟨c.cls, attrs⟩

/-- `klass.from_bytes(in_data)`: run the statements on `bytearray(in_data)`, evaluate the keyword
arguments, call the constructor; `AttributeError` when the class has no `from_bytes`. E.g. binary.py:33-83. -/
def ParamClass.fromBytes (c : ParamClass) (data : Bytes) : Res PObj :=
  match c.body with
  | none => raise .attribute
  | some stmts => do
    let env ← P.run (execStmts [] stmts) data
    let kw ← c.kwargs.mapM fun p => do
      let v ← env.get p.2
      return (p.1, v)
    construct c kw

/-! ### marshmallow schemas

Modelled from marshmallow 3 (not part of the repository): `Schema.dump` calls each field's
`_serialize`, `Schema.load` each field's `deserialize` (required, `allow_none`, type), collects errors
into one `ValidationError`, then runs `post_load`. -/

/-- Field types used by the schemas. E.g. binary.py:88-104. -/
inductive FieldKind
  | integer      -- `fields.Integer`
  | string       -- `fields.String`
  | boolean      -- `fields.Boolean`
  | floatStr     -- `fields.Float(as_string=True)`
  | float        -- `fields.Float`
  | number       -- `fields.Number`
  | stringList   -- `fields.List(fields.String)`
  | gas          -- `fields.Nested(GasCompositionSchema)`
  deriving DecidableEq, Repr

/-- One schema: fields with kind and `allow_none` (all are `required=True`), and the class built by the
`post_load` hook, if there is one. E.g. binary.py:86-108. -/
structure SchemaDef where
  fields : List (Attr × FieldKind × Bool)
  postLoad : Option Cls
  deriving DecidableEq, Repr

/-- JSON-able values in a dumped dictionary.  `numText x` is the string `str(x)` of a float
(simplification: kept symbolically; `float(str(x)) == x` for finite `x` is Python's guarantee).
E.g. binary.py:88-104. -/
inductive Dumped
  | int (n : Nat)
  | bool (b : Bool)
  | str (s : PyStr)
  | num (x : PyFloat)
  | numText (x : PyFloat)
  | none
  | strs (l : List PyStr)
  | gas (l : List (GasAttr × PyFloat))     -- nested dict; every value is a `numText`
  deriving DecidableEq, Repr

/-- `Field.serialize` of a value that is present.  Simplification: conversions between Python types
that no parsed object needs (`int` of a string, `str` of an int, `float` of an int, ...) are all
rendered as the `TypeError`/`ValueError` branch; `int` of a bool is needed (flow_rate.py:89-92,
timer.py) and gives 0 or 1. -/
def FieldKind.dump : FieldKind → Val → Res Dumped
  | _, .none => .ok .none
  | .integer, .int n => .ok (.int n)
  | .integer, .bool b => .ok (.int b.toNat)
  | .string, .str s => .ok (.str s)
  | .boolean, .bool b => .ok (.bool b)
  | .floatStr, .float x => .ok (.numText x)
  | .float, .float x => .ok (.num x)
  | .number, .float x => .ok (.num x)
  | .stringList, .strs l => .ok (.strs l)
  | .gas, .gas l => .ok (.gas l)
  | _, _ => raise .value

/-- `Field.deserialize` of a value that is present: `none` marks an error entry for the field.
E.g. binary.py:88-104. -/
def FieldKind.load (allowNone : Bool) : FieldKind → Dumped → Option Val
  | _, .none => if allowNone then some .none else Option.none
  | .integer, .int n => some (.int n)
  | .string, .str s => some (.str s)
  | .boolean, .bool b => some (.bool b)
  | .floatStr, .numText x => if x.isFinite then some (.float x) else Option.none
  | .floatStr, .num x => if x.isFinite then some (.float x) else Option.none
  | .float, .num x => if x.isFinite then some (.float x) else Option.none
  | .float, .numText x => if x.isFinite then some (.float x) else Option.none
  | .number, .num x => some (.float x)
  | .number, .numText x => some (.float x)
  | .stringList, .strs l => some (.strs l)
  | .gas, .gas l => if l.all fun p => p.2.isFinite then some (.gas l) else Option.none
  | _, _ => Option.none

/-- `schema.dump(obj)`: attributes the object does not have are left out. E.g. binary.py:86-104. -/
def SchemaDef.dump (s : SchemaDef) (obj : PObj) : Res (List (Attr × Dumped)) :=
  s.fields.foldrM (fun (f : Attr × FieldKind × Bool) acc =>
    match obj.attrs.lookup f.1 with
    | some v => do
      let x ← f.2.1.dump v
      return (f.1, x) :: acc
    | none => return acc) []

/-- What `schema.load` returns: an object, or a dictionary when there is no `post_load` hook.
E.g. binary.py:106-108; without a hook: modem.py, setpoint.py, error_standard_counter.py. -/
inductive Loaded
  | object (o : PObj)
  | dict (l : List (Attr × Val))
  deriving DecidableEq, Repr

/-- `schema.load(d)`: `ValidationError` for unknown keys, missing keys or invalid values; then the
`post_load` hook `Klass(**data)`; `classOf` finds the class by name. E.g. binary.py:86-108. -/
def SchemaDef.load (classOf : Cls → Option ParamClass) (s : SchemaDef) (d : List (Attr × Dumped)) : Res Loaded :=
  if d.any fun p => !(s.fields.map (·.1)).contains p.1 then raise .validation
  else match s.fields.mapM (fun (f : Attr × FieldKind × Bool) => do
      let x ← d.lookup f.1
      let v ← FieldKind.load f.2.2 f.2.1 x
      return (f.1, v)) with
    | none => raise .validation
    | some kw => match s.postLoad with
      | none => .ok (.dict kw)
      | some c => match classOf c with
        | some k => do
          let o ← construct k kw
          return .object o
        | none => raise .name

end Elgas
