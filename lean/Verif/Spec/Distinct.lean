import Verif.Model.Application
import Verif.Model.Connection
import Verif.Spec.Protocol
/-!
When two requests are the same for the device.
-/
namespace Spec
open Elgas

/-- The same second. -/
def SameSecond (t u : DateTime) : Prop :=
  (t.year, t.month, t.day, t.hour, t.minute, t.second) = (u.year, u.month, u.day, u.hour, u.minute, u.second)

/-- The same kind of request with the same arguments, fractions of seconds and the `cryout` flag of
"write time" aside. -/
def SameRequest : Event → Event → Prop
  | .readInstantaneousValuesRequest q, .readInstantaneousValuesRequest q' => q.password = q'.password
  | .readTimeRequest _, .readTimeRequest _ => True
  | .writeTimeRequest q, .writeTimeRequest q' => q.password = q'.password ∧ SameSecond q.deviceTime q'.deviceTime
  | .readDeviceParametersRequest q, .readDeviceParametersRequest q' => q = q'
  | .readArchiveRequest q, .readArchiveRequest q' => q = q'
  | .readArchiveByTimeRequest q, .readArchiveByTimeRequest q' =>
    q.password = q'.password ∧ q.archive = q'.archive ∧ q.amount = q'.amount ∧
      SameSecond q.oldestTimestamp q'.oldestTimestamp
  | _, _ => False

/-- The time in the request, if there is one, is one that `datetime` objects can hold. -/
def ValidTime : Event → Prop
  | .writeTimeRequest q => q.deviceTime.Valid
  | .readArchiveByTimeRequest q => q.oldestTimestamp.Valid
  | _ => True

end Spec
