import Verif.Model.Heap
import Verif.Spec.Device
/-!
Programs that make and use several connections and clients: what such a program does, and which of its results belong
to which object.
-/
namespace Spec
open Elgas

/-- One statement of a program.  Objects are referred to by number: the `n`-th state object, connection, transport or
client made (counting from 0); the state object and the connection that a constructor makes by itself count. -/
inductive HOp
  | newState (s : PState)
  /-- a transport whose calls will lead to this -/
  | newTransport (sends : List (Res Unit)) (recvs : List (Res Bytes))
  /-- `ElgasConnection(...)`, with or without the arguments `elgas_state` and `cipher_context` -/
  | newConn (a : ConnArgs) (state : Option Nat) (context : Option (Option CipherContext))
  /-- `ElgasClient(transport, ...)`, with or without the argument `elgas_connection` -/
  | newClient (a : ClientArgs) (transport : Nat) (conn : Option Nat)
  /-- a call on a connection -/
  | conn (k : Nat) (op : Op)
  /-- a call on a client, with the random draws it will see -/
  | client (j : Nat) (call : Call) (rands : Nat → Rand)

/-- The result of a statement. -/
inductive HOut
  | made (x : Res Nat)
  | conn (o : Outcome)
  | client (o : Outcome3 Value)
  /-- the statement refers to an object that does not exist -/
  | noSuchObject

/-- Perform a statement. -/
def hstep (C : BlockCipher) (h : Heap) : HOp → Heap × HOut
  | .newState s => ((h.newState s).2, .made (.ok (h.newState s).1))
  | .newTransport ss rs =>
    ({ h with transports := h.transports ++ [{ sends := ss, recvs := rs }] }, .made (.ok h.transports.length))
  | .newConn a st cx =>
    if (∀ s, st = some s → s < h.states.length) then ((h.newConn a st cx).2, .made (h.newConn a st cx).1)
    else (h, .noSuchObject)
  | .newClient a t k =>
    if t < h.transports.length ∧ (∀ i, k = some i → i < h.conns.length) then
      ((h.newClient a t k).2, .made (h.newClient a t k).1)
    else (h, .noSuchObject)
  | .conn k (.send e r) =>
    match h.send C k e r with
    | some (x, h') => (h', .conn (.sent e x))
    | none => (h, .noSuchObject)
  | .conn k (.receive d) =>
    match h.receiveData k d with
    | some h' => (h', .conn .received)
    | none => (h, .noSuchObject)
  | .conn k .poll =>
    match h.nextEvent C k with
    | some (x, h') => (h', .conn (.polled x))
    | none => (h, .noSuchObject)
  | .client j k rands =>
    match h.onClient j rands (callV C · k) with
    | some (x, h') => (h', .client x)
    | none => (h, .noSuchObject)

/-- Perform a program: every statement with its result. -/
def hrun (C : BlockCipher) (h : Heap) : List HOp → Heap × List (HOp × HOut)
  | [] => (h, [])
  | op :: ops => ((hrun C (hstep C h op).1 ops).1, (op, (hstep C h op).2) :: (hrun C (hstep C h op).1 ops).2)

/-- The calls on connection `k`. -/
def callsOn (k : Nat) (ops : List HOp) : List Op :=
  ops.filterMap fun | .conn k' op => if k' = k then some op else none | _ => none

/-- The results of the calls on the connections `ks`. -/
def resultsOn (ks : Nat → Prop) [DecidablePred ks] (tr : List (HOp × HOut)) : List Outcome :=
  tr.filterMap fun | (.conn k _, .conn o) => if ks k then some o else none | _ => none

/-- The calls on client `j`, with their random draws. -/
def callsBy (j : Nat) (ops : List HOp) : List (Call × (Nat → Rand)) :=
  ops.filterMap fun | .client j' k r => if j' = j then some (k, r) else none | _ => none

/-- The results of the calls on client `j`. -/
def resultsBy (j : Nat) (tr : List (HOp × HOut)) : List (Outcome3 Value) :=
  tr.filterMap fun | (.client j' _ _, .client o) => if j' = j then some o else none | _ => none

/-- The number of the state object of connection `k`. -/
def stateOf (h : Heap) (k : Nat) : Option Nat := (h.conns[k]?).map (·.state)

/-- The calls on connection `k` with their results. -/
def traceOn (k : Nat) (tr : List (HOp × HOut)) : List (Op × Outcome) :=
  tr.filterMap fun | (.conn k' op, .conn o) => if k' = k then some (op, o) else none | _ => none

/-- Calls on a client that is the only one in the program. -/
def aloneV (C : BlockCipher) (s : Sys) : List (Call × (Nat → Rand)) → List (Outcome3 Value) × Sys
  | [] => ([], s)
  | (k, rands) :: ks =>
    let r := callV C { s with rands, draws := 0 } k
    (r.1 :: (aloneV C r.2 ks).1, (aloneV C r.2 ks).2)

/-- All calls of the clients of a program with their results, in the order they were made. -/
def clientTrace (tr : List (HOp × HOut)) : List (Call × Outcome3 Value) :=
  tr.filterMap fun | (.client _ k _, .client o) => some (k, o) | _ => none

/-- A statement that makes a client of the device `D` on the first transport (with a connection of its own, or that of
another client), or uses one; the draws for the padding of the password are of its alphabet. -/
def UsesLine (D : Device) : HOp → Prop
  | .newClient a t _ => t = 0 ∧ SharesKey a D ∧ KnowsPassword a D
  | .client _ k rands => k.InRange ∧ ∀ i, (rands i).pw.1 ∈ possibleChars ∧ (rands i).pw.2 ∈ possibleChars
  | _ => False

end Spec
