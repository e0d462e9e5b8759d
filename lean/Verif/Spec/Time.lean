import Verif.Model.Utils
import Verif.Spec.Bcd
/-!
Specification of device timestamps.  `DateTime` stands for Python's `datetime`.
-/
namespace Elgas
open Spec

/-- The date and time that six device bytes stand for (second, minute, hour with two flag bits, day,
month, two-digit year). -/
def Denotes (d : Bytes) (t : DateTime) (isDst supportsDst : Bool) : Prop :=
  ∃ s mi h da mo y : UInt8, d = [s, mi, h, da, mo, y] ∧
    IsBcd s ∧ IsBcd mi ∧ IsBcd (h &&& 0x3F) ∧ IsBcd da ∧ IsBcd mo ∧ IsBcd y ∧
    t = { year := 2000 + bcdByte y, month := bcdByte mo, day := bcdByte da,
          hour := bcdByte (h &&& 0x3F), minute := bcdByte mi, second := bcdByte s,
          microsecond := 0 } ∧
    t.Valid ∧ isDst = h.toNat.testBit 7 ∧ supportsDst = h.toNat.testBit 6

end Elgas
