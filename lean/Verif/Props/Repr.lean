import Verif.Spec.Log
import Verif.Props.Distinct
/-! Property C75: `repr` does not reveal secrets (utils.py:7-57, client.py:13-38). -/
namespace Elgas
open Spec

/-! ### Censoring -/

theorem secretRepr_inside {stack : List String} (h : "__repr__" ∈ stack) (plain : String) :
    (secretRepr stack plain).toList = "<SECRET>".toList := by
  rw [(C62_censored stack plain).1 h]

mutual
theorem repr_censored (p : Printing) (stack : List String) (h : "__repr__" ∈ stack) :
    ∀ v : PyVal, v.repr p stack = (censored v).repr p stack
  | .none => rfl
  | .bool _ => rfl
  | .int _ => rfl
  | .str _ => rfl
  | .bytes _ => rfl
  | .bytearray _ => rfl
  | .datetime _ => rfl
  | .member _ _ _ => rfl
  | .sentinel _ => rfl
  | .foreign _ => rfl
  | .secretStr s => by simp only [PyVal.repr, censored]; exact secretRepr_inside h _
  | .secretBytes b => by simp only [PyVal.repr, censored]; exact secretRepr_inside h _
  | .obj cls attrs => by
    simp only [PyVal.repr, censored]
    rw [reprAttrs_censored p ("__repr__" :: stack) (List.mem_cons_self ..) attrs]
theorem reprAttrs_censored (p : Printing) (stack : List String) (h : "__repr__" ∈ stack) :
    ∀ as : Attrs, as.repr p stack = (censoredAttrs as).repr p stack
  | .nil => rfl
  | .cons name v .nil => by simp only [Attrs.repr, censoredAttrs]; rw [repr_censored p stack h v]
  | .cons name v (.cons name' v' rest) => by
    simp only [Attrs.repr, censoredAttrs]
    rw [repr_censored p stack h v]
    have := reprAttrs_censored p stack h (.cons name' v' rest)
    simp only [censoredAttrs] at this
    rw [this]
end

/-- C75. `repr` of any object, called from anywhere, is the `repr` of the object with `<SECRET>` in place of each
secret inside it, at any depth. -/
theorem C75_objects (p : Printing) (stack : List String) (cls : String) (attrs : Attrs) :
    (PyVal.obj cls attrs).repr p stack = (censored (.obj cls attrs)).repr p stack := by
  simp only [PyVal.repr, censored]
  rw [reprAttrs_censored p ("__repr__" :: stack) (List.mem_cons_self ..) attrs]

theorem of_censored (p : Printing) (stack : List String) {v v' : PyVal} (hv : ∃ c a, v = .obj c a)
    (hv' : ∃ c a, v' = .obj c a) (h : censored v = censored v') : v.repr p stack = v'.repr p stack := by
  obtain ⟨c, a, rfl⟩ := hv
  obtain ⟨c', a', rfl⟩ := hv'
  rw [C75_objects, C75_objects p stack c', h]

/-- C75. `repr` of a request with a secret password does not depend on the password. -/
theorem C75_requests (p : Printing) (stack : List String) (e : Event) (pw : PyStr) :
    (eventVal p true (withPassword e pw)).repr p stack = (eventVal p true e).repr p stack := by
  cases e <;> first | rfl | exact of_censored p stack ⟨_, _, rfl⟩ ⟨_, _, rfl⟩ rfl

/-- C75. `repr` of a client does not depend on its password and key: two clients that have the same transport,
password id and key id, both with or both without a key, and whose connections, whatever was done with them, are in
the same state with the same buffer, have the same `repr`. -/
theorem C75_client (C C' : BlockCipher) (p : Printing) (stack : List String) (tr : PyVal) (a a' : ClientArgs)
    (hp : SamePublic a a') (c0 c0' : Conn) (h0 : clientConn a = .ok c0) (h0' : clientConn a' = .ok c0')
    (ops ops' : List Op) (hs : (run C c0 ops).1.state = (run C' c0' ops').1.state)
    (hb : (run C c0 ops).1.buffer = (run C' c0' ops').1.buffer) :
    (clientVal a tr (run C c0 ops).1).repr p stack = (clientVal a' tr (run C' c0' ops').1).repr p stack := by
  obtain ⟨h1, h2⟩ := run_frame C c0 ops
  obtain ⟨h1', h2'⟩ := run_frame C' c0' ops'
  obtain ⟨-, hc⟩ := mkConn_ok h0
  obtain ⟨-, hc'⟩ := mkConn_ok h0'
  obtain ⟨hid, hkid, hkey⟩ := hp
  have hk : (toSecretByte a.encryptionKey = none ∧ toSecretByte a'.encryptionKey = none) ∨
      (∃ k k', toSecretByte a.encryptionKey = some k ∧ toSecretByte a'.encryptionKey = some k') := by
    have key (a : ClientArgs) : (HasKey a ∧ ∃ k, toSecretByte a.encryptionKey = some k) ∨
        (¬ HasKey a ∧ toSecretByte a.encryptionKey = none) := by
      unfold HasKey
      cases hk : a.encryptionKey with
      | none => right; exact ⟨by (rintro ⟨k, h, _⟩; cases h), rfl⟩
      | some k =>
        cases k with
        | nil => right; exact ⟨by (rintro ⟨k, h, hne⟩; injection h with h; exact hne h.symm), rfl⟩
        | cons b k => left; exact ⟨⟨_, rfl, by simp⟩, _, rfl⟩
    rcases key a with ⟨x, k, hk⟩ | ⟨x, hk⟩ <;> rcases key a' with ⟨x', k', hk'⟩ | ⟨x', hk'⟩
    · exact .inr ⟨k, k', hk, hk'⟩
    · exact absurd (hkey.1 x) x'
    · exact absurd (hkey.2 x') x
    · exact .inl ⟨hk, hk'⟩
  have hcc : (c0.cipherContext = none ∧ c0'.cipherContext = none) ∨
      (∃ i k k', c0.cipherContext = some ⟨i, k⟩ ∧ c0'.cipherContext = some ⟨i, k'⟩) := by
    rw [hc, hc']
    simp only [createCipherContext]
    rw [hkid]
    rcases hk with ⟨h, h'⟩ | ⟨k, k', h, h'⟩ <;> rw [h, h']
    · left; exact ⟨rfl, rfl⟩
    · cases a'.encryptionKeyId with
      | none => left; exact ⟨rfl, rfl⟩
      | some i => right; exact ⟨i, k, k', rfl, rfl⟩
  refine of_censored p stack ⟨_, _, rfl⟩ ⟨_, _, rfl⟩ ?_
  have e1 : c0.args = _ := congrArg Conn.args hc
  have e1' : c0'.args = _ := congrArg Conn.args hc'
  have hconn : censored (connVal true (run C c0 ops).1) = censored (connVal true (run C' c0' ops').1) := by
    unfold connVal
    rw [h1, h1', h2, h2', hs, hb, e1, e1', hid, hkid]
    dsimp only
    rcases hk with ⟨h, h'⟩ | ⟨k, k', h, h'⟩ <;> rw [h, h'] <;>
      rcases hcc with ⟨g, g'⟩ | ⟨i, j, j', g, g'⟩ <;> rw [g, g'] <;> rfl
  unfold clientVal
  simp only [Attrs.of, censored, censoredAttrs]
  rw [hconn, hid, hkid]
  rcases hk with ⟨h, h'⟩ | ⟨k, k', h, h'⟩ <;> rw [h, h'] <;> rfl

/-! ### Secrets that are not typed as such -/

theorem infix_mid {α : Type} (a b c : List α) : b <:+: a ++ b ++ c := ⟨a, c, rfl⟩

theorem infix_left {α : Type} {b c : List α} (a : List α) (h : b <:+: c) : b <:+: a ++ c := by
  obtain ⟨x, y, rfl⟩ := h
  exact ⟨a ++ x, y, by simp⟩

theorem infix_right {α : Type} {b c : List α} (a : List α) (h : b <:+: c) : b <:+: c ++ a := by
  obtain ⟨x, y, rfl⟩ := h
  exact ⟨x, y ++ a, by simp⟩

/-- One attribute of an object is in its `repr`. -/
theorem attr_infix (p : Printing) (stack : List String) (as : List (String × PyVal)) (n : String) (v : PyVal)
    (h : (n, v) ∈ as) : n.toList ++ ['='] ++ v.repr p stack <:+: (Attrs.of as).repr p stack := by
  induction as with
  | nil => cases h
  | cons x as ih =>
    obtain ⟨n', v'⟩ := x
    rcases List.mem_cons.1 h with h | h
    · injection h with h1 h2
      subst h1 h2
      cases as with
      | nil => simp only [Attrs.of, Attrs.repr]; exact List.infix_rfl
      | cons y as =>
        obtain ⟨n'', v''⟩ := y
        simp only [Attrs.of, Attrs.repr]
        exact infix_right _ (infix_right _ List.infix_rfl)
    · cases as with
      | nil => cases h
      | cons y as =>
        obtain ⟨n'', v''⟩ := y
        simp only [Attrs.of, Attrs.repr] at ih ⊢
        exact infix_left _ (ih h)

theorem obj_infix (p : Printing) (stack : List String) (cls : String) (as : List (String × PyVal)) (n : String)
    (v : PyVal) (h : (n, v) ∈ as) :
    n.toList ++ ['='] ++ v.repr p ("__repr__" :: stack) <:+: (PyVal.obj cls (.of as)).repr p stack := by
  simp only [PyVal.repr]
  exact infix_right _ (infix_left _ (attr_infix p _ as n v h))

/-- C75 (the limit). `ElgasConnection` does not make its secrets secret: the `repr` of a connection created directly
shows the password and the key. -/
theorem C75_plain_connection (p : Printing) (stack : List String) (c : Conn) :
    "password=".toList ++ strRepr p c.args.password <:+: (connVal false c).repr p stack ∧
    (∀ k, c.args.encryptionKey = some k →
      "encryption_key=".toList ++ bytesRepr k <:+: (connVal false c).repr p stack) := by
  constructor
  · exact obj_infix p stack _ _ "password" (passwordVal false c.args.password) (by simp)
  · intro k hk
    have := obj_infix p stack "ElgasConnection" _ "encryption_key" (optVal (keyVal false) c.args.encryptionKey)
      (show _ ∈ [("source_address_1", PyVal.int c.args.sourceAddress1), ("source_address_2", .int c.args.sourceAddress2),
    ("destination_address_1", .int c.args.destinationAddress1),
    ("destination_address_2", .int c.args.destinationAddress2),
    ("password", passwordVal false c.args.password), ("password_id", .int c.args.passwordId),
    ("encryption_key", optVal (keyVal false) c.args.encryptionKey),
    ("encryption_key_id", optVal .int c.args.encryptionKeyId),
    ("buffer", .bytearray c.buffer),
    ("elgas_state", .obj "ElgasState" (.of [("current_state", .sentinel c.state.name)])),
    ("cipher_context", optVal (contextVal false) c.cipherContext)] by simp)
    rw [hk] at this
    rw [show optVal (keyVal false) (some k) = .bytes k from rfl] at this
    unfold connVal
    rw [hk]
    exact this

/-! Examples -/

/-- A printing environment: all non-ASCII characters are printable, archives print as numbers. -/
def exPrint : Printing := { printable := fun _ => true, archive := fun n => pyStrInt n }

/-- A client with password and key. -/
def exSecretClient : ClientArgs :=
  { password := "abc123".toList, passwordId := 801,
    encryptionKey := some (List.replicate 16 0x41), encryptionKeyId := some 5 }

-- `repr` of a client: the four places with a secret
example : (clientConn exSecretClient).map (fun c => (clientVal exSecretClient (.foreign "T".toList) c).repr exPrint []) =
    .ok ("ElgasClient(transport=T, password=<SECRET>, password_id=801, encryption_key=<SECRET>, encryption_key_id=5, " ++
      "elgas_connection=ElgasConnection(source_address_1=0, source_address_2=0, destination_address_1=0, " ++
      "destination_address_2=0, password=<SECRET>, password_id=801, encryption_key=<SECRET>, encryption_key_id=5, " ++
      "buffer=bytearray(b''), elgas_state=ElgasState(current_state=IDLE), " ++
      "cipher_context=CipherContext(key_id=5, key=<SECRET>)))").toList := by decide +kernel

-- the hypotheses of `C75_client` for another password and key
example : SamePublic exSecretClient { exSecretClient with password := "zzz".toList, encryptionKey := some [1] } ∧
    (clientConn exSecretClient).isOk = true ∧
    (clientConn { exSecretClient with password := "zzz".toList, encryptionKey := some [1] }).isOk = true :=
  ⟨⟨rfl, rfl, ⟨fun _ => ⟨[1], rfl, by decide⟩, fun _ => ⟨_, rfl, by decide⟩⟩⟩, by decide +kernel, by decide +kernel⟩

-- `repr` of a connection created directly shows the password
example : (mkConn ⟨0, 0, 0, 0, "abc123".toList, 801, none, none⟩).map (fun c => (connVal false c).repr exPrint []) =
    .ok ("ElgasConnection(source_address_1=0, source_address_2=0, destination_address_1=0, " ++
      "destination_address_2=0, password='abc123', password_id=801, encryption_key=None, encryption_key_id=None, " ++
      "buffer=bytearray(b''), elgas_state=ElgasState(current_state=IDLE), cipher_context=None)").toList := by
  decide +kernel

end Elgas
