import Verif.Spec.Client
import Verif.Spec.Log
/-!
# Specification for C78 and C91: the records of `read_parameters` about its pages
-/
namespace Spec
open Elgas

/-- The records about the pages. -/
def pageRecords (l : List Record) : List Record :=
  l.filter fun r => r.event = "Requesting device parameters" ∨ r.event = "Received device parameters" ∨
    r.event = "More parameters available"

/-- What should be logged about the pages from object `n` on: for each request the object it asks from, for each answer
the number of objects in it, and where it goes on, if it does. `ask s n` is what the call gets for the page from
object `n` on, if the state is `s` then. -/
inductive PageLog {σ : Type} (ask : σ → Int → Outcome3 Event × σ) : σ → Int → List Record → Prop
  | unanswered (s : σ) (n : Int) (h : ∀ r, (ask s n).1 ≠ .returned (.readDeviceParametersResponse r)) :
      PageLog ask s n [info "Requesting device parameters" [("object_count", .int n)]]
  | last (s s' : σ) (n : Int) (r : ReadDeviceParametersResponse)
      (h : ask s n = (.returned (.readDeviceParametersResponse r), s')) (hr : r.isEnd = true) :
      PageLog ask s n [info "Requesting device parameters" [("object_count", .int n)],
        info "Received device parameters" [("object_amount", .int r.objectAmount)]]
  | more (s s' : σ) (n : Int) (r : ReadDeviceParametersResponse) (l : List Record)
      (h : ask s n = (.returned (.readDeviceParametersResponse r), s')) (hr : r.isEnd = false)
      (hl : PageLog ask s' (n + r.objectAmount) l) :
      PageLog ask s n (info "Requesting device parameters" [("object_count", .int n)] ::
        info "Received device parameters" [("object_amount", .int r.objectAmount)] ::
        info "More parameters available" [("next_object_count", .int (n + r.objectAmount))] :: l)

end Spec
