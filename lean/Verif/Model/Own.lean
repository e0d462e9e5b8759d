import Verif.Model.Client
/-!
The constructor arguments that the rest of the model leaves at their defaults: `elgas_state` and `cipher_context` of
`ElgasConnection`, and `elgas_connection` of `ElgasClient`.
-/
namespace Elgas

/-- `ElgasConnection(..., elgas_state=state, cipher_context=context)` connection.py:80-106.  `none`: the argument is
left out.  `cipher_context=None` is `some none`.  The state object is not shared with another connection. -/
def mkConnWith (a : ConnArgs) (state : Option PState) (context : Option (Option CipherContext)) : Res Conn := do
  let c ← mkConn a
  return { c with
    state := match state with
      | none => c.state
      | some s => s
    cipherContext := match context with
      | none => c.cipherContext
      | some x => x }

/-- `ElgasClient(transport, password, password_id, encryption_key, encryption_key_id, elgas_connection=c)`
client.py:13-38, in a given environment: the default is not evaluated, so nothing is validated. -/
def mkClientWith (a : ClientArgs) (c : Conn) (sends : List (Res Unit)) (recvs : List (Res Bytes))
    (rands : Nat → Rand) : Sys :=
  { password := toSecretStr a.password, conn := c, sends, recvs, rands }

end Elgas
