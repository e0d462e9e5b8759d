import Verif.Model.Threads
import Verif.Model.Work
/-!
Threads that share one client and make every call under one lock of their own (`with lock: client.read_time()` and the
like).  The package has no lock itself: client.py:16-38.
-/
namespace Elgas

/-- All threads, and the one that holds the lock. client.py:16-38 with a `threading.Lock` next to it. -/
structure Locked where
  threads : Threads
  holder : Option Nat := none

/-- The thread `tid` makes a step. While another one holds the lock it waits in `acquire`; otherwise it goes on as without
a lock (client.py:46-59) and holds the lock as long as it is waiting for an answer, and, when it has got one, as long as it
wants (`keep`: given everything that has ended so far). (The lock is taken together with the first step and given back
together with the last: it is of no interest to anyone in between.) -/
def Locked.step (C : BlockCipher) (plan : Nat → List (Nat × Event × Outcome3 Event) → Option Event)
    (keep : Nat → List (Nat × Event × Outcome3 Event) → Bool) (l : Locked) (tid : Nat) : Locked :=
  if l.holder = none ∨ l.holder = some tid then
    { threads := l.threads.step C plan tid
      holder :=
        if ((l.threads.step C plan tid).flights tid).isSome || keep tid (l.threads.step C plan tid).history then some tid
        else none }
  else l

/-- The threads run in the order of a schedule. client.py:46-59 for all threads. -/
def Locked.run (C : BlockCipher) (plan : Nat → List (Nat × Event × Outcome3 Event) → Option Event)
    (keep : Nat → List (Nat × Event × Outcome3 Event) → Bool) (l : Locked) (schedule : List Nat) : Locked :=
  schedule.foldl (Locked.step C plan keep) l

/-- Keep the lock until the method returns or raises: only `read_parameters` goes on after an answer, as long as there are
more pages (client.py:86-107). -/
def keepOf (calls : Nat → List Spec.Call) (tid : Nat) (hist : List (Nat × Event × Outcome3 Event)) : Bool :=
  ((works (fun j => { todo := calls j }) hist).1 tid).pages.isSome

end Elgas
