import Verif.Spec.Program
/-!
Specification vocabulary for the passing of time.
-/
namespace Spec
open Elgas

/-- Two courses of events that differ only in when things happen: the calls of the operating system have the same
outcomes, every handle has the same bytes and exceptions to read in the same order, and the same random numbers are
drawn; the clock and the segments in which the bytes come (empty reads among them) may differ. -/
structure SameButTiming (env env' : OsEnv) : Prop where
  opens : env.opens = env'.opens
  shutdowns : env.shutdowns = env'.shutdowns
  closes : env.closes = env'.closes
  writes : env.writes = env'.writes
  inbox : ∀ h, content (env.inbox h) = content (env'.inbox h)
  rands : env.rands = env'.rands

/-- The clock does not run backwards. -/
def Monotonic (c : Clock) : Prop := ∀ i j, i ≤ j → c.readings i ≤ c.readings j

/-- The `i`-th reading of the clock after the one at which the call began is before the timeout has passed. -/
def WithinTime (c : Clock) (d : Int) (i : Nat) : Prop := c.readings (c.next + i) < c.readings c.next + d

end Spec
