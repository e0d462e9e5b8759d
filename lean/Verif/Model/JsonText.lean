import Verif.Model.Integration
import Verif.Model.Float
/-!
JSON text: `Schema().dumps(x)`, which is `json.dumps(Schema().dump(x))`, and `Schema().loads(s)`, which is
`Schema().load(json.loads(s))` (marshmallow), as in tests/test_schema.py:695-698.  The two functions of the `json` module
are modelled with their default arguments; documents whose strings have lone surrogates are not modelled (read as an
error).

`float.__repr__` and `float(s)` are parameters (`FloatText`): what they have to satisfy is in Spec/JsonText.
-/
namespace Elgas

/-- `repr(x)` of a finite float with the given bits, and `float(s)`: the bits, or `none` where it raises `ValueError`.
Used by `Float(as_string=True)`, e.g. binary.py, and by `dumps`, tests/test_schema.py:695. -/
structure FloatText where
  text : Nat → PyStr
  read : PyStr → Option Nat

/-- A NaN: exponent all ones and a fraction. -/
def nan64 (b : Nat) : Bool := !finite64 b && b % 2 ^ 52 ≠ 0

/-- `str(x)` of a float. `Float(as_string=True)`, e.g. analog_quantity.py:120. -/
def FloatText.str (F : FloatText) (b : Nat) : PyStr :=
  if finite64 b then F.text b
  else if nan64 b then "nan".toList
  else if neg64 b then "-inf".toList else "inf".toList

/-- `json.encoder.floatstr`. tests/test_schema.py:695. -/
def FloatText.json (F : FloatText) (b : Nat) : PyStr :=
  if finite64 b then F.text b
  else if nan64 b then "NaN".toList
  else if neg64 b then "-Infinity".toList else "Infinity".toList

/-! ### dumps -/

/-- Four hexadecimal digits, `'{0:04x}'.format(n)`. tests/test_schema.py:695. -/
def hex4 (n : Nat) : PyStr :=
  [Nat.digitChar (n / 4096 % 16), Nat.digitChar (n / 256 % 16), Nat.digitChar (n / 16 % 16), Nat.digitChar (n % 16)]

/-- One character inside a JSON string (`ensure_ascii`). tests/test_schema.py:695. -/
def jsonChar (c : Char) : PyStr :=
  if c = '"' then ['\\', '"']
  else if c = '\\' then ['\\', '\\']
  else if c = '\n' then ['\\', 'n']
  else if c = '\r' then ['\\', 'r']
  else if c = '\t' then ['\\', 't']
  else if c.toNat = 0x0C then ['\\', 'f']
  else if c.toNat = 0x08 then ['\\', 'b']
  else if 0x20 ≤ c.toNat ∧ c.toNat ≤ 0x7E then [c]
  else if c.toNat < 0x10000 then ['\\', 'u'] ++ hex4 c.toNat
  else ['\\', 'u'] ++ hex4 (0xD800 + (c.toNat - 0x10000) / 0x400) ++ ['\\', 'u'] ++ hex4 (0xDC00 + (c.toNat - 0x10000) % 0x400)

/-- A JSON string. tests/test_schema.py:695. -/
def jsonStr (s : PyStr) : PyStr := ['"'] ++ s.flatMap jsonChar ++ ['"']

mutual
/-- `json.dumps(j)`. tests/test_schema.py:695. -/
def Json.text (F : FloatText) : Json → PyStr
  | .none => "null".toList
  | .bool b => if b then "true".toList else "false".toList
  | .int n => pyStrInt n
  | .str s => jsonStr s
  | .num x => F.json x.bits64
  | .numText x => jsonStr (F.str x.bits64)
  | .list l => ['['] ++ Json.elements F l ++ [']']
  | .dict l => ['{'] ++ Json.items F l ++ ['}']
/-- The elements of a list, separated by `", "`. tests/test_schema.py:695. -/
def Json.elements (F : FloatText) : List Json → PyStr
  | [] => []
  | [j] => j.text F
  | j :: k :: l => j.text F ++ [',', ' '] ++ Json.elements F (k :: l)
/-- The items of a dictionary, separated by `", "`. tests/test_schema.py:695. -/
def Json.items (F : FloatText) : List (String × Json) → PyStr
  | [] => []
  | [p] => jsonStr p.1.toList ++ [':', ' '] ++ p.2.text F
  | p :: q :: l => jsonStr p.1.toList ++ [':', ' '] ++ p.2.text F ++ [',', ' '] ++ Json.items F (q :: l)
end

/-! ### loads -/

/-- White space is skipped. tests/test_schema.py:698. -/
def skipSpace (s : PyStr) : PyStr := s.dropWhile fun c => c = ' ' ∨ c = '\t' ∨ c = '\n' ∨ c = '\r'

/-- Four hexadecimal digits. tests/test_schema.py:698. -/
def readHex4 : PyStr → Option (Nat × PyStr)
  | a :: b :: c :: d :: s =>
    match hexVal a, hexVal b, hexVal c, hexVal d with
    | some a, some b, some c, some d => some (4096 * a + 256 * b + 16 * c + d, s)
    | _, _, _, _ => none
  | _ => none

/-- What follows `\u` in a JSON string; two surrogates make one character. tests/test_schema.py:698. -/
def readEscape (s : PyStr) : Option (Char × PyStr) :=
  match readHex4 s with
  | none => none
  | some (n, s) =>
    if 0xD800 ≤ n ∧ n < 0xDC00 then
      match s with
      | '\\' :: 'u' :: s =>
        match readHex4 s with
        | some (m, s) =>
          if 0xDC00 ≤ m ∧ m < 0xE000 then some (Char.ofNat (0x10000 + (n - 0xD800) * 0x400 + (m - 0xDC00)), s) else none
        | none => none
      | _ => none
    else if 0xDC00 ≤ n ∧ n < 0xE000 then none
    else some (Char.ofNat n, s)

/-- One character of a JSON string. tests/test_schema.py:698. -/
def readJsonChar : PyStr → Option (Char × PyStr)
  | [] => none
  | c :: s =>
    if c = '\\' then
      match s with
      | [] => none
      | k :: s =>
        if k = '"' ∨ k = '\\' ∨ k = '/' then some (k, s)
        else if k = 'b' then some (Char.ofNat 0x08, s)
        else if k = 'f' then some (Char.ofNat 0x0C, s)
        else if k = 'n' then some ('\n', s)
        else if k = 'r' then some ('\r', s)
        else if k = 't' then some ('\t', s)
        else if k = 'u' then readEscape s
        else none
    else if c.toNat < 0x20 then none
    else some (c, s)

/-- The rest of a JSON string after the opening quote (`n`: at most so many characters). tests/test_schema.py:698. -/
def readJsonStr : Nat → PyStr → Option (PyStr × PyStr)
  | _, [] => none
  | 0, c :: s => if c = '"' then some ([], s) else none
  | n + 1, c :: s =>
    if c = '"' then some ([], s) else
    match readJsonChar (c :: s) with
    | none => none
    | some (x, s) => (readJsonStr n s).map fun y => (x :: y.1, y.2)

/-- Digits at the beginning, at least one. tests/test_schema.py:698. -/
def someDigits (s : PyStr) : Option (PyStr × PyStr) :=
  if s.takeWhile Char.isDigit = [] then none else some (s.takeWhile Char.isDigit, s.dropWhile Char.isDigit)

/-- The fraction of a number, if there is one. tests/test_schema.py:698. -/
def fractionOf : PyStr → PyStr × PyStr
  | '.' :: s =>
    match someDigits s with
    | some (d, s) => ('.' :: d, s)
    | none => ([], '.' :: s)
  | s => ([], s)

/-- The exponent of a number, if there is one. tests/test_schema.py:698. -/
def powerOf : PyStr → PyStr × PyStr
  | c :: s =>
    if c = 'e' ∨ c = 'E' then
      match s with
      | [] => ([], c :: s)
      | g :: s' =>
        if g = '+' ∨ g = '-' then
          match someDigits s' with
          | some (d, s'') => (c :: g :: d, s'')
          | none => ([], c :: s)
        else
          match someDigits s with
          | some (d, s'') => (c :: d, s'')
          | none => ([], c :: s)
    else ([], c :: s)
  | [] => ([], [])

/-- The integer part of a number without sign. tests/test_schema.py:698. -/
def wholeOf : PyStr → Option (PyStr × PyStr)
  | '0' :: s => some (['0'], s)
  | s => someDigits s

/-- The value of decimal digits. tests/test_schema.py:698. -/
def digitsValue (s : PyStr) : Nat := Nat.ofDigitChars 10 s 0

/-- A number: an `int`, or with fraction or exponent a `float`. tests/test_schema.py:698. -/
def readNumber (F : FloatText) (s : PyStr) : Option (Json × PyStr) :=
  let neg := s.head? = some '-'
  match wholeOf (if neg then s.tail else s) with
  | none => none
  | some (whole, s) =>
    let (frac, s) := fractionOf s
    let (exp, s) := powerOf s
    if frac = [] ∧ exp = [] then some (.int (if neg then -(digitsValue whole : Int) else digitsValue whole), s)
    else (F.read ((if neg then ['-'] else []) ++ whole ++ frac ++ exp)).map fun b => (.num (.double b), s)

/-- The rest after a literal. tests/test_schema.py:698. -/
def afterWord (word : String) (s : PyStr) : Option PyStr :=
  if s.take word.length = word.toList then some (s.drop word.length) else none

/-- `dict(pairs)`: the last value of each key. tests/test_schema.py:698. -/
def dictOf : List (String × Json) → List (String × Json)
  | [] => []
  | p :: l =>
    match (dictOf l).lookup p.1 with
    | none => p :: dictOf l
    | some v => (p.1, v) :: (dictOf l).filter fun q => q.1 ≠ p.1

/-- The values that are neither strings, lists nor dictionaries. tests/test_schema.py:698. -/
def readAtom (F : FloatText) (s : PyStr) : Option (Json × PyStr) :=
  match afterWord "null" s with
  | some s => some (.none, s)
  | none => match afterWord "true" s with
  | some s => some (.bool true, s)
  | none => match afterWord "false" s with
  | some s => some (.bool false, s)
  | none => match readNumber F s with
  | some x => some x
  | none => match afterWord "NaN" s with
  | some s => some (.num (.double (2047 * 2 ^ 52 + 2 ^ 51)), s)
  | none => match afterWord "Infinity" s with
  | some s => some (.num (.double (2047 * 2 ^ 52)), s)
  | none => match afterWord "-Infinity" s with
  | some s => some (.num (.double (2 ^ 63 + 2047 * 2 ^ 52)), s)
  | none => none

mutual
/-- A value at the beginning of a text (`n`: recursion at most so deep). tests/test_schema.py:698. -/
def readValue (F : FloatText) : Nat → PyStr → Option (Json × PyStr)
  | 0, _ => none
  | n + 1, s =>
    match s with
    | '"' :: s => (readJsonStr s.length s).map fun x => (.str x.1, x.2)
    | '[' :: s =>
      match skipSpace s with
      | ']' :: s => some (.list [], s)
      | s => (readElements F n s).map fun x => (.list x.1, x.2)
    | '{' :: s =>
      match skipSpace s with
      | '}' :: s => some (.dict [], s)
      | s => (readItems F n s).map fun x => (.dict (dictOf x.1), x.2)
    | s => readAtom F s
/-- The elements of a list and `]`. tests/test_schema.py:698. -/
def readElements (F : FloatText) : Nat → PyStr → Option (List Json × PyStr)
  | 0, _ => none
  | n + 1, s =>
    match readValue F n s with
    | none => none
    | some (j, s) =>
      match skipSpace s with
      | ']' :: s => some ([j], s)
      | ',' :: s => (readElements F n (skipSpace s)).map fun x => (j :: x.1, x.2)
      | _ => none
/-- The items of a dictionary and `}`. tests/test_schema.py:698. -/
def readItems (F : FloatText) : Nat → PyStr → Option (List (String × Json) × PyStr)
  | 0, _ => none
  | n + 1, s =>
    match s with
    | '"' :: s =>
      match readJsonStr s.length s with
      | none => none
      | some (k, s) =>
        match skipSpace s with
        | ':' :: s =>
          match readValue F n (skipSpace s) with
          | none => none
          | some (j, s) =>
            match skipSpace s with
            | '}' :: s => some ([(String.ofList k, j)], s)
            | ',' :: s => (readItems F n (skipSpace s)).map fun x => ((String.ofList k, j) :: x.1, x.2)
            | _ => none
        | _ => none
    | _ => none
end

/-- `json.loads(s)`: `JSONDecodeError` (a `ValueError`) unless the text is one value. tests/test_schema.py:698. -/
def jsonLoads (F : FloatText) (s : PyStr) : Res Json :=
  match readValue F (2 * s.length + 2) (skipSpace s) with
  | some (j, s) => if skipSpace s = [] then .ok j else raise .value
  | none => raise .value

/-! ### The schemas -/

/-- `UtilitarianConfigurationSchema().dumps(config)` integration.py:39-42, tests/test_schema.py:695. -/
def configurationDumps (F : FloatText) (c : Conv) (xs : List ConfigItem) : Res PyStr := do
  let j ← configurationDump c xs
  return j.text F

/-- `UtilitarianConfigurationSchema().loads(s)` integration.py:39-42. -/
def configurationLoads (F : FloatText) (c : Conv) (s : PyStr) : Res Json := do
  let j ← jsonLoads F s
  configurationLoad c j

/-- A float from a JSON value: `float(value)`. Simplification: `float` of a bool or an int is rendered as the error branch
(no dumped document needs it). `Float`, `Number`, e.g. analog_quantity.py:119-124. -/
def loadFloat (F : FloatText) : Json → Option PyFloat
  | .num x => some x
  | .str s => (F.read s).map .double
  | _ => none

/-- `String._deserialize`. E.g. time_window.py. -/
def loadStr : Json → Option PyStr
  | .str s => some s
  | _ => none

/-- `Field.deserialize` of a JSON value that is present: `none` marks an error entry for the field.
Simplification: as in `FieldKind.load`, conversions that no dumped document needs (numbers from strings for `Integer`,
negative numbers, strings for `Boolean`, ...) are rendered as the error branch. E.g. binary.py:88-104. -/
def FieldKind.loadJson (F : FloatText) (allowNone : Bool) : FieldKind → Json → Option Val
  | _, .none => if allowNone then some .none else none
  | .integer, .int n => if 0 ≤ n then some (.int n.toNat) else none
  | .string, .str s => some (.str s)
  | .boolean, .bool b => some (.bool b)
  | .floatStr, j => (loadFloat F j).bind fun x => if finite64 x.bits64 then some (.float x) else none
  | .float, j => (loadFloat F j).bind fun x => if finite64 x.bits64 then some (.float x) else none
  | .number, j => (loadFloat F j).map .float
  | .stringList, .list l => (l.mapM loadStr).map .strs
  | .gas, .dict l =>
    if l.any fun p => !(gasFields.map GasAttr.key).contains p.1 then none
    else (gasFields.mapM fun (a : GasAttr) => do
        let j ← l.lookup a.key
        let x ← loadFloat F j
        if finite64 x.bits64 then return (a, x) else none).map .gas
  | _, _ => none

/-- `schema.load(j)` of a value read from JSON: as `SchemaDef.load`. E.g. binary.py:86-108. -/
def SchemaDef.loadJson (F : FloatText) (classOf : Cls → Option ParamClass) (s : SchemaDef) : Json → Res Loaded
  | .dict d =>
    if d.any fun p => !(s.fields.map (·.1.key)).contains p.1 then raise .validation
    else match s.fields.mapM (fun (f : Attr × FieldKind × Bool) => do
        let j ← d.lookup f.1.key
        let v ← FieldKind.loadJson F f.2.2 f.2.1 j
        return (f.1, v)) with
      | none => raise .validation
      | some kw => match s.postLoad with
        | none => .ok (.dict kw)
        | some c => match classOf c with
          | some k => do
            let o ← construct k kw
            return .object o
          | none => raise .name
  | _ => raise .validation

/-- The export of tests/test_schema.py:681-695, with the JSON text. -/
def exportText (F : FloatText) (c : Conv) (os : List PObj) : Res PyStr := do
  let j ← exportConfiguration c os
  return j.text F

end Elgas
