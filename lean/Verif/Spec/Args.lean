import Verif.Model.Args
import Verif.Spec.Program
/-!
Specification vocabulary for arguments of any type.
-/
namespace Spec
open Elgas

/-- The number an argument is: `True` is 1 and `False` is 0, a string of digits or a float is none. -/
inductive Number : Arg → Int → Prop
  | int (n : Int) : Number (.int n) n
  | true : Number (.bool true) 1
  | false : Number (.bool false) 0

/-- The time an argument is: that of a `datetime`, whatever its offset from UTC. -/
inductive Clocked : Arg → DateTime → Prop
  | datetime (t : DateTime) (offset : Option Int) : Clocked (.datetime t offset) t

/-- A call of the client with any arguments. -/
inductive ArgCall
  | readInstantaneousValues
  | readTime
  | writeTime (deviceTime cryout : Arg)
  | readParameters (readFrom : Arg)
  | readArchive (archive amount oldestRecordId : Arg)
  | readArchiveByTime (archive amount oldestTimestamp : Arg)
  deriving DecidableEq, Repr

/-- Perform such a call. -/
def acall (C : BlockCipher) (d : ArgClient) : ArgCall → Outcome3 Value × ArgClient
  | .readInstantaneousValues =>
    ((d.exchange C .readInstantaneousValues).1.andThen (.returned ∘ .event), (d.exchange C .readInstantaneousValues).2)
  | .readTime => ((d.readTime C).1.andThen (.returned ∘ .time), (d.readTime C).2)
  | .writeTime t b => ((d.writeTime C t b).1.andThen fun _ => .returned .nothing, (d.writeTime C t b).2)
  | .readParameters n => ((d.readParameters C n).1.andThen (.returned ∘ .objects), (d.readParameters C n).2)
  | .readArchive a n i =>
    ((d.exchange C (.readArchive a n i)).1.andThen (.returned ∘ .event), (d.exchange C (.readArchive a n i)).2)
  | .readArchiveByTime a n t =>
    ((d.exchange C (.readArchiveByTime a n t)).1.andThen (.returned ∘ .event),
      (d.exchange C (.readArchiveByTime a n t)).2)

/-- A call says the same as a call with arguments of the declared types. -/
inductive SaysCall : ArgCall → Call → Prop
  | readInstantaneousValues : SaysCall .readInstantaneousValues .readInstantaneousValues
  | readTime : SaysCall .readTime .readTime
  | writeTime (x y t b) : Clocked x t → SaysCall (.writeTime x y) (.writeTime t b)
  | readParameters (x n) : Number x n → SaysCall (.readParameters x) (.readParameters n)
  | readArchive (x y z a n i) : Number x a → Number y n → Number z i → SaysCall (.readArchive x y z) (.readArchive a n i)
  | readArchiveByTime (x y z a n t) : Number x a → Number y n → Clocked z t →
      SaysCall (.readArchiveByTime x y z) (.readArchiveByTime a n t)

/-- The call is a `write_time` with something that has no `isoformat`: neither a date nor a time of day nor both. -/
def NoTime : ArgCall → Prop
  | .writeTime (.date _ _ _) _ => False
  | .writeTime (.time _ _ _ _) _ => False
  | .writeTime (.datetime _ _) _ => False
  | .writeTime _ _ => True
  | _ => False

/-- One argument as it goes into a request: as one byte, as a number of `w` bytes, or as a time. -/
inductive Field
  | byte (x : Arg)
  | number (w : Nat) (x : Arg)
  | time (x : Arg)

/-- The arguments of a call in the order in which its (first) request has them. -/
def fields : ArgCall → List Field
  | .readInstantaneousValues => []
  | .readTime => []
  | .writeTime t _ => [.time t]
  | .readParameters n => [.number 2 n]
  | .readArchive archive amount oldestRecordId => [.byte archive, .number 4 oldestRecordId, .number 2 amount]
  | .readArchiveByTime archive amount oldestTimestamp => [.byte archive, .number 2 amount, .time oldestTimestamp]

/-- An argument that cannot go into a request, and the exception. -/
inductive Unwritable : Field → PyErr → Prop
  | noByte (x) : (∀ n, ¬ Number x n) → Unwritable (.byte x) .type
  | byte (x n) : Number x n → ¬ (0 ≤ n ∧ n < 256) → Unwritable (.byte x) .value
  | noNumber (w x) : (∀ n, ¬ Number x n) → Unwritable (.number w x) .attribute
  | number (w x n) : Number x n → ¬ (0 ≤ n ∧ n < 256 ^ w) → Unwritable (.number w x) .overflow
  | noTime (x) : (∀ t, ¬ Clocked x t) → Unwritable (.time x) .attribute
  | time (x t) : Clocked x t → t.year < 2000 → Unwritable (.time x) .value

/-- The first argument of the call that cannot go into a request raises this exception. -/
def Fault (k : ArgCall) (e : PyErr) : Prop :=
  ∃ before f after, fields k = before ++ f :: after ∧ (∀ g ∈ before, ∀ x, ¬ Unwritable g x) ∧ Unwritable f e

/-- The client waits for the answer to a request that it has not written: nothing else is different. -/
def Hung (d d' : ArgClient) : Prop :=
  ∃ s, s ≠ .idle ∧ d' = { d with world := { d.world with conn := { d.world.conn with state := s }
                                                         draws := d.world.draws + 1 } }

/-- The key a client uses that is made with this argument as its key. -/
inductive KeyOf : Arg → Option Bytes → Prop
  | none : KeyOf .none none
  | false : KeyOf (.bool false) none
  | zero : KeyOf (.int 0) none
  | zeroFloat (b : Nat) : b % 2 ^ 63 = 0 → KeyOf (.float b) none
  | noText : KeyOf (.str []) none
  | noBytes : KeyOf (.bytes []) none
  | noInts : KeyOf (.ints []) none
  | bytes (b : Bytes) : b ≠ [] → KeyOf (.bytes b) (some b)
  | zeros (n : Nat) : 0 < n → n < 2 ^ 63 → KeyOf (.int n) (some (List.replicate n 0))
  | true : KeyOf (.bool true) (some [0])
  | ints (b : Bytes) : b ≠ [] → KeyOf (.ints (b.map fun x => (x.toNat : Int))) (some b)

/-- The text of an argument, taken as a password: `None` is the text "None", and bytes are not decoded but printed. -/
inductive TextOf (F : FloatText) : Arg → PyStr → Prop
  | str (s : PyStr) : TextOf F (.str s) s
  | none : TextOf F .none "None".toList
  | true : TextOf F (.bool true) "True".toList
  | false : TextOf F (.bool false) "False".toList
  | int (n : Int) : TextOf F (.int n) (pyStrInt n)
  | float (b : Nat) : TextOf F (.float b) (F.str b)
  | bytes (b : Bytes) : (∀ x ∈ b, 0x20 ≤ x.toNat ∧ x.toNat < 0x7F ∧ x ≠ 0x27 ∧ x ≠ 0x22 ∧ x ≠ 0x5C) →
      TextOf F (.bytes b) ("b'".toList ++ decodeLatin1 b ++ ['\''])
  | ints (l : List Int) : TextOf F (.ints l) (['['] ++ (", ".toList).intercalate (l.map pyStrInt) ++ [']'])
  | object (t : PyStr) : TextOf F (.object t) t

/-- An argument whose text is longer than a password can be. -/
inductive TooLong : Arg → Prop
  | str (s : PyStr) : 6 < s.length → TooLong (.str s)
  | bytes (b : Bytes) : 3 < b.length → TooLong (.bytes b)
  | date (y m d) : TooLong (.date y m d)
  | time (h m s us) : TooLong (.time h m s us)
  | datetime (t o) : TooLong (.datetime t o)

/-- The key id a client uses that is made with this argument as its key id. -/
inductive KeyIdOf : Arg → Option Int → Prop
  | none : KeyIdOf .none none
  | number (x n) : Number x n → KeyIdOf x (some n)

/-- A password id the client accepts: a number from 801 to 849, a float included. -/
inductive PasswordId : Arg → Prop
  | number (x n) : Number x n → 801 ≤ n → n ≤ 849 → PasswordId x
  | float (b : Nat) : finite64 b → 801 ≤ value64 b → value64 b ≤ 849 → PasswordId (.float b)

/-- What a program can do with such a client. -/
inductive ArgAction
  | connect
  | disconnect
  | call (k : ArgCall)

/-- Perform an action. -/
def aact (C : BlockCipher) (d : ArgClient) : ArgAction → Outcome3 Value × ArgClient
  | .connect => ((act C d.world .connect).1, { d with world := (act C d.world .connect).2 })
  | .disconnect => ((act C d.world .disconnect).1, { d with world := (act C d.world .disconnect).2 })
  | .call k => acall C d k

/-- Perform actions one after the other. -/
def aacts (C : BlockCipher) (d : ArgClient) : List ArgAction → List (Outcome3 Value) × ArgClient
  | [] => ([], d)
  | a :: as => ((aact C d a).1 :: (aacts C (aact C d a).2 as).1, (aacts C (aact C d a).2 as).2)

/-- An action says the same as one with arguments of the declared types. -/
inductive SaysAction : ArgAction → Action → Prop
  | connect : SaysAction .connect .connect
  | disconnect : SaysAction .disconnect .disconnect
  | call (k k') : SaysCall k k' → SaysAction (.call k) (.call k')

end Spec
