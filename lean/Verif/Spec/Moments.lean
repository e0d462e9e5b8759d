import Verif.Spec.Program
/-!
Specification vocabulary for devices that go on by themselves: their clock runs, their values change, records are added,
between any two requests.
-/
namespace Spec
open Elgas

/-- Requests and answers with a device that is something else each time: for every request line the device as it is when
it gets it and as it is when it has answered. What it is when the next one comes is anybody's guess. -/
inductive Meets (C : BlockCipher) : List (Device × Device) → List Bytes → List Bytes → Prop
  | nil : Meets C [] [] []
  | request (D D1 ms w ws line lines) : Replies C D w D1 line → Meets C ms ws lines →
      Meets C ((D, D1) :: ms) (w :: ws) (line :: lines)

/-- What comes together from object `first` on when every page is of the device as it is then: some next objects each
time, until there are no more. -/
inductive Gathers : Nat → List (Device × Device) → Bytes → Prop
  | last (D first) : Gathers first [(D, D)] (D.objects.drop first).flatten
  | page (D first k ms rest) : first + k < D.objects.length → Gathers (first + k) ms rest →
      Gathers first ((D, D) :: ms) (((D.objects.drop first).take k).flatten ++ rest)

/-- What a call should give back that meets the device at the given moments: one for each page, and one only for every
other call. -/
inductive Glimpses : List (Device × Device) → Call → Outcome3 Value → Prop
  | once (D D1 k r) : (∀ n, k ≠ .readParameters n) → Ideal D k r D1 → Glimpses [(D, D1)] k r
  | pages (ms n bytes os) : Gathers n.toNat ms bytes → parseParameters none (some bytes) = .ok os →
      Glimpses ms (.readParameters n) (.returned (.objects os))
  | unparsable (ms n bytes x) : Gathers n.toNat ms bytes → parseParameters none (some bytes) = .error x →
      Glimpses ms (.readParameters n) (.raised x)

/-- The same for calls one after the other: the moments follow each other as the calls do. -/
inductive GlimpsesAll : List (Device × Device) → List Call → List (Outcome3 Value) → Prop
  | nil : GlimpsesAll [] [] []
  | call (ms ms' k ks r rs) : Glimpses ms k r → GlimpsesAll ms' ks rs → GlimpsesAll (ms ++ ms') (k :: ks) (r :: rs)

end Spec
