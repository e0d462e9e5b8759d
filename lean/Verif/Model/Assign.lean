import Verif.Model.Program
import Verif.Model.Repr
/-!
Assignments to the attributes of a client and of its connection, from outside the library.

The classes are made with `attr.s`, which runs validators and converters only in the constructor: an assignment
stores the value as it is.  The value assigned is of the declared type of the attribute.  `World` (Model/Program) has
the attributes that the methods use; a `ClientObject` has all of them.
-/
namespace Elgas

/-- A client object with all its attributes.  client.py:16-38; the password is `world.password`, the connection
`world.conn`, the transport `world.transport`.  The Booleans say whether the password and the key of the client
(client.py:17, 19-21), of the connection (connection.py:93, 98) and the key of the cipher context (connection.py:104-106)
are still the objects of utils.py:7-48 that the client made. -/
structure ClientObject where
  world : World
  passwordId : Int
  encryptionKey : Option Bytes
  encryptionKeyId : Option Int
  secretPassword : Bool := true
  secretKey : Bool := true
  secretConnPassword : Bool := true
  secretConnKey : Bool := true
  secretContext : Bool := true

/-- `ElgasClient(transport, ...)` client.py:13-38 with a new transport. -/
def mkObject (kind : Kind) (timeout : Option Int) (a : ClientArgs) (env : OsEnv) : Res ClientObject := do
  let w ← mkWorld kind timeout a env
  return { world := w, passwordId := a.passwordId, encryptionKey := toSecretByte a.encryptionKey,
           encryptionKeyId := a.encryptionKeyId }

/-- `client = ElgasClient(client.transport, ...)`: a new client on the transport of the old one. client.py:13-38. -/
def ClientObject.renew (o : ClientObject) (a : ClientArgs) : Res ClientObject := do
  let conn ← clientConn a
  return { world := { o.world with password := toSecretStr a.password, conn }, passwordId := a.passwordId,
           encryptionKey := toSecretByte a.encryptionKey, encryptionKeyId := a.encryptionKeyId }

/-- An assignment to an attribute of a client (client.py:16-38), of its connection (connection.py:80-106), of the state
object of that (state.py:80) or of its transport (transport.py:77, 185). -/
inductive Setting
  | password (s : PyStr)                        -- client.password = s
  | passwordId (n : Int)                        -- client.password_id = n
  | encryptionKey (k : Option Bytes)            -- client.encryption_key = k
  | encryptionKeyId (n : Option Int)            -- client.encryption_key_id = n
  | connection (a : ConnArgs)                   -- client.elgas_connection = ElgasConnection(...)
  | timeout (t : Option Int)                    -- client.transport.timeout = t
  | sourceAddress1 (n : Int)                    -- client.elgas_connection.source_address_1 = n
  | sourceAddress2 (n : Int)
  | destinationAddress1 (n : Int)
  | destinationAddress2 (n : Int)
  | connPassword (s : PyStr)
  | connPasswordId (n : Int)
  | connEncryptionKey (k : Option Bytes)
  | connEncryptionKeyId (n : Option Int)
  | buffer (b : Bytes)                          -- client.elgas_connection.buffer = bytearray(b)
  | state (s : PState)                          -- client.elgas_connection.elgas_state.current_state = s
  | cipherContext (x : Option CipherContext)    -- client.elgas_connection.cipher_context = x

/-- The object with another connection. client.py:25-38. -/
def ClientObject.withConn (o : ClientObject) (c : Conn) : ClientObject := { o with world := { o.world with conn := c } }

/-- The object whose connection has other arguments. connection.py:80-99. -/
def ClientObject.withArgs (o : ClientObject) (a : ConnArgs) : ClientObject :=
  o.withConn { o.world.conn with args := a }

/-- Perform an assignment.  Only the construction of a connection can raise (connection.py:80-96); then nothing is
assigned. client.py:16-38, connection.py:80-106, state.py:80, transport.py:77, 185. -/
def ClientObject.set (o : ClientObject) : Setting → Res ClientObject
  | .password s => .ok { o with world := { o.world with password := s }, secretPassword := false }
  | .passwordId n => .ok { o with passwordId := n }
  | .encryptionKey k => .ok { o with encryptionKey := k, secretKey := false }
  | .encryptionKeyId n => .ok { o with encryptionKeyId := n }
  | .connection a => do
    let c ← mkConn a
    return { o.withConn c with secretConnPassword := false, secretConnKey := false, secretContext := false }
  | .timeout t => .ok { o with world := { o.world with transport := { o.world.transport with timeout := t } } }
  | .sourceAddress1 n => .ok (o.withArgs { o.world.conn.args with sourceAddress1 := n })
  | .sourceAddress2 n => .ok (o.withArgs { o.world.conn.args with sourceAddress2 := n })
  | .destinationAddress1 n => .ok (o.withArgs { o.world.conn.args with destinationAddress1 := n })
  | .destinationAddress2 n => .ok (o.withArgs { o.world.conn.args with destinationAddress2 := n })
  | .connPassword s => .ok { o.withArgs { o.world.conn.args with password := s } with secretConnPassword := false }
  | .connPasswordId n => .ok (o.withArgs { o.world.conn.args with passwordId := n })
  | .connEncryptionKey k =>
    .ok { o.withArgs { o.world.conn.args with encryptionKey := k } with secretConnKey := false }
  | .connEncryptionKeyId n => .ok (o.withArgs { o.world.conn.args with encryptionKeyId := n })
  | .buffer b => .ok (o.withConn { o.world.conn with buffer := b })
  | .state s => .ok (o.withConn { o.world.conn with state := s })
  | .cipherContext x => .ok { o.withConn { o.world.conn with cipherContext := x } with secretContext := false }

/-- The client as `repr` shows it: as `clientVal` and `connVal` of Model/Repr, but with the objects that were assigned.
client.py:16-38, connection.py:80-106. -/
def ClientObject.val (o : ClientObject) (transport : PyVal) : PyVal :=
  let c := o.world.conn
  .obj "ElgasClient" (.of [("transport", transport), ("password", passwordVal o.secretPassword o.world.password),
    ("password_id", .int o.passwordId), ("encryption_key", optVal (keyVal o.secretKey) o.encryptionKey),
    ("encryption_key_id", optVal .int o.encryptionKeyId),
    ("elgas_connection", .obj "ElgasConnection" (.of [
      ("source_address_1", .int c.args.sourceAddress1), ("source_address_2", .int c.args.sourceAddress2),
      ("destination_address_1", .int c.args.destinationAddress1),
      ("destination_address_2", .int c.args.destinationAddress2),
      ("password", passwordVal o.secretConnPassword c.args.password), ("password_id", .int c.args.passwordId),
      ("encryption_key", optVal (keyVal o.secretConnKey) c.args.encryptionKey),
      ("encryption_key_id", optVal .int c.args.encryptionKeyId),
      ("buffer", .bytearray c.buffer),
      ("elgas_state", .obj "ElgasState" (.of [("current_state", .sentinel c.state.name)])),
      ("cipher_context", optVal (contextVal o.secretContext) c.cipherContext)]))])

end Elgas
