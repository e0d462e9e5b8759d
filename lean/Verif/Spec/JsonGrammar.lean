import Verif.Spec.JsonText
/-!
The grammar of JSON (RFC 8259), with the three words that Python adds for floats, and what a text means.
-/
namespace Spec
open Elgas

/-- White space. -/
def WhiteSpace (s : PyStr) : Prop := ∀ c ∈ s, c = ' ' ∨ c = '\t' ∨ c = '\n' ∨ c = '\r'

/-- A hexadecimal digit, in lower or upper case. -/
def HexDigit (c : Char) (v : Nat) : Prop :=
  "0123456789abcdef".toList[v]? = some c ∨ "0123456789ABCDEF".toList[v]? = some c

/-- Four hexadecimal digits. -/
def Hex4 (s : PyStr) (n : Nat) : Prop :=
  ∃ a b c d va vb vc vd, s = [a, b, c, d] ∧ HexDigit a va ∧ HexDigit b vb ∧ HexDigit c vc ∧ HexDigit d vd ∧
    n = ((va * 16 + vb) * 16 + vc) * 16 + vd

/-- A spelling of a character inside a string. -/
inductive CharText : PyStr → Char → Prop
  | plain (c : Char) (hq : c ≠ '"') (hb : c ≠ '\\') (h : 0x20 ≤ c.toNat) : CharText [c] c
  | quote : CharText ['\\', '"'] '"'
  | backslash : CharText ['\\', '\\'] '\\'
  | slash : CharText ['\\', '/'] '/'
  | backspace (c : Char) (h : c.toNat = 8) : CharText ['\\', 'b'] c
  | formFeed (c : Char) (h : c.toNat = 12) : CharText ['\\', 'f'] c
  | newline : CharText ['\\', 'n'] '\n'
  | return : CharText ['\\', 'r'] '\r'
  | tab : CharText ['\\', 't'] '\t'
  | unicode (d : PyStr) (n : Nat) (c : Char) (hd : Hex4 d n) (h : c.toNat = n) : CharText ('\\' :: 'u' :: d) c
  /-- A character beyond the first 65536, as two surrogates. -/
  | pair (d d' : PyStr) (n m : Nat) (c : Char) (hd : Hex4 d n) (hd' : Hex4 d' m) (hn : 0xD800 ≤ n ∧ n < 0xDC00)
      (hm : 0xDC00 ≤ m ∧ m < 0xE000) (h : c.toNat = 0x10000 + (n - 0xD800) * 0x400 + (m - 0xDC00)) :
      CharText ('\\' :: 'u' :: d ++ ('\\' :: 'u' :: d')) c

/-- A spelling of the characters of a string. -/
inductive StrText : PyStr → PyStr → Prop
  | nil : StrText [] []
  | cons (t : PyStr) (c : Char) (ts s : PyStr) (h : CharText t c) (hs : StrText ts s) : StrText (t ++ ts) (c :: s)

/-- The whole part of a number. -/
def Whole (s : PyStr) : Prop := s = ['0'] ∨ Digits s ∧ s.head? ≠ some '0'

/-- The fraction of a number, or nothing. -/
def Fraction (s : PyStr) : Prop := s = [] ∨ ∃ d, Digits d ∧ s = '.' :: d

/-- The exponent of a number, or nothing. -/
def Exponent (s : PyStr) : Prop :=
  s = [] ∨ ∃ c sign d, (c = 'e' ∨ c = 'E') ∧ (sign = [] ∨ sign = ['+'] ∨ sign = ['-']) ∧ Digits d ∧ s = c :: (sign ++ d)

/-- `d` is the dictionary of these items: the keys in the order in which they occur first, each with the value it has
where it occurs last. -/
def DictOf (items d : List (String × Json)) : Prop :=
  d.map (·.1) = (items.map (·.1)).eraseDups ∧ ∀ k, d.lookup k = items.reverse.lookup k

/-- Texts, separated by commas. -/
def commas : List PyStr → PyStr
  | [] => []
  | [s] => s
  | s :: t :: l => s ++ ',' :: commas (t :: l)

/-- An element of a list: its text, the white space around it, and its value. -/
structure Cell where
  before : PyStr
  text : PyStr
  after : PyStr
  value : Json

/-- The characters of an element. -/
def Cell.all (x : Cell) : PyStr := x.before ++ x.text ++ x.after

/-- An item of a dictionary: its key, with its spelling, and its value. -/
structure Entry extends Cell where
  first : PyStr
  spelling : PyStr
  key : PyStr
  between : PyStr

/-- The characters of an item. -/
def Entry.all (x : Entry) : PyStr :=
  x.first ++ '"' :: (x.spelling ++ '"' :: (x.between ++ ':' :: x.toCell.all))

/-- The text is a JSON value, and this is what it means. -/
inductive JsonMeans (F : FloatText) : PyStr → Json → Prop
  | null : JsonMeans F "null".toList .none
  | true : JsonMeans F "true".toList (.bool true)
  | false : JsonMeans F "false".toList (.bool false)
  | int (whole : PyStr) (h : Whole whole) : JsonMeans F whole (.int (Nat.ofDigitChars 10 whole 0 : Nat))
  | negative (whole : PyStr) (h : Whole whole) : JsonMeans F ('-' :: whole) (.int (-(Nat.ofDigitChars 10 whole 0 : Nat)))
  | float (sign whole frac exp : PyStr) (b : Nat) (hs : sign = [] ∨ sign = ['-']) (hw : Whole whole) (hf : Fraction frac)
      (he : Exponent exp) (hx : frac ≠ [] ∨ exp ≠ []) (hb : F.read (sign ++ whole ++ frac ++ exp) = some b) :
      JsonMeans F (sign ++ whole ++ frac ++ exp) (.num (.double b))
  | nan : JsonMeans F "NaN".toList (.num (.double 0x7FF8000000000000))
  | infinity : JsonMeans F "Infinity".toList (.num (.double 0x7FF0000000000000))
  | minusInfinity : JsonMeans F "-Infinity".toList (.num (.double 0xFFF0000000000000))
  | str (t s : PyStr) (h : StrText t s) : JsonMeans F ('"' :: (t ++ ['"'])) (.str s)
  | empty (sp : PyStr) (h : WhiteSpace sp) : JsonMeans F ('[' :: (sp ++ [']'])) (.list [])
  | list (l : List Cell) (hl : l ≠ []) (hb : ∀ x ∈ l, WhiteSpace x.before ∧ WhiteSpace x.after)
      (h : ∀ x ∈ l, JsonMeans F x.text x.value) : JsonMeans F ('[' :: (commas (l.map Cell.all) ++ [']'])) (.list (l.map Cell.value))
  | emptyDict (sp : PyStr) (h : WhiteSpace sp) : JsonMeans F ('{' :: (sp ++ ['}'])) (.dict [])
  | dict (l : List Entry) (d : List (String × Json)) (hl : l ≠ [])
      (hb : ∀ x ∈ l, WhiteSpace x.first ∧ WhiteSpace x.between ∧ WhiteSpace x.before ∧ WhiteSpace x.after)
      (hk : ∀ x ∈ l, StrText x.spelling x.key) (h : ∀ x ∈ l, JsonMeans F x.text x.value)
      (hd : DictOf (l.map fun x => (String.ofList x.key, x.value)) d) :
      JsonMeans F ('{' :: (commas (l.map Entry.all) ++ ['}'])) (.dict d)

/-- The text is a JSON document, and this is what it means. -/
def JsonText (F : FloatText) (s : PyStr) (j : Json) : Prop :=
  ∃ before t after, s = before ++ t ++ after ∧ WhiteSpace before ∧ WhiteSpace after ∧ JsonMeans F t j

end Spec
