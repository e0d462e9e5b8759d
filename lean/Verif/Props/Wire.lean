import Verif.Props.Client
/-!
Property C65: everything a client hands to its transport, over any history of calls.
-/
namespace Elgas
open Spec

theorem run_append (C : BlockCipher) (c : Conn) (as bs : List Op) :
    (run C c (as ++ bs)).1 = (run C (run C c as).1 bs).1 := by
  induction as generalizing c with
  | nil => rfl
  | cons a as ih => simp only [List.cons_append, run]; exact ih _

theorem reachable_step {C : BlockCipher} {a : ConnArgs} {c : Conn} (h : Reachable C a c) (op : Op) :
    Reachable C a (step C c op).1 := by
  obtain ⟨c0, ops, h0, rfl⟩ := h
  exact ⟨c0, ops ++ [op], h0, by rw [run_append]; rfl⟩

theorem reachable_send {C : BlockCipher} {a : ConnArgs} {c : Conn} (h : Reachable C a c) (e : Event) (r : Rand) :
    Reachable C a (c.send C e r).1 := reachable_step h (.send e r)
theorem reachable_receive {C : BlockCipher} {a : ConnArgs} {c : Conn} (h : Reachable C a c) (d : Bytes) :
    Reachable C a (c.receiveData d) := reachable_step h (.receive d)
theorem reachable_poll {C : BlockCipher} {a : ConnArgs} {c : Conn} (h : Reachable C a c) :
    Reachable C a (c.nextEvent C).1 := reachable_step h .poll

theorem reachable_loop {C : BlockCipher} {a : ConnArgs} (rs : List (Res Bytes)) : ∀ {c : Conn},
    Reachable C a c → Reachable C a (nextEventLoop C c rs).2.1 := by
  induction rs with
  | nil =>
    intro c h
    have hp := reachable_poll h
    unfold nextEventLoop
    split <;> rename_i heq <;> rw [heq] at hp <;> exact hp
  | cons x rs ih =>
    intro c h
    have hp := reachable_poll h
    unfold nextEventLoop
    split <;> rename_i heq <;> rw [heq] at hp
    · exact hp
    · exact hp
    · cases x with
      | error e => exact hp
      | ok d => exact ih (reachable_receive hp d)

/-- What an exchange changes: at most one frame more has been handed to the transport, and it is the
one `send` made. -/
theorem exchange_effect {C : BlockCipher} {a : ConnArgs} {s : Sys} (hs : Reachable C a s.conn) (e : Event) :
    (s.exchange C e).2.password = s.password ∧ Reachable C a (s.exchange C e).2.conn ∧
    ∃ ws, (s.exchange C e).2.handed = s.handed ++ ws ∧ ws.length ≤ 1 ∧
      ∀ w ∈ ws, (s.conn.send C e (s.rands s.draws)).2 = .ok w := by
  have hr := reachable_send hs e (s.rands s.draws)
  unfold Sys.exchange Sys.send
  cases hc : s.conn.send C e (s.rands s.draws) with | mk c o =>
  rw [hc] at hr
  cases o with
  | error x => exact ⟨rfl, hr, [], by simp, by simp, by simp⟩
  | ok w =>
    have hw : ∀ w' ∈ [w], (Except.ok w : Res Bytes) = .ok w' := by simp
    dsimp only
    cases hss : s.sends with
    | nil => exact ⟨rfl, hr, [w], rfl, by simp, hw⟩
    | cons x ss =>
      cases x with
      | error x => exact ⟨rfl, hr, [w], rfl, by simp, hw⟩
      | ok u =>
        dsimp only [Sys.receive]
        cases hrs : s.recvs with
        | nil => exact ⟨rfl, hr, [w], rfl, by simp, hw⟩
        | cons y rs =>
          cases y with
          | error y => exact ⟨rfl, hr, [w], rfl, by simp, hw⟩
          | ok d =>
            refine ⟨rfl, ?_, [w], rfl, by simp, hw⟩
            dsimp only [Sys.nextEvent]
            exact reachable_loop rs (reachable_receive hr d)

theorem exchange_rands (C : BlockCipher) (s : Sys) (e : Event) : (s.exchange C e).2.rands = s.rands := by
  unfold Sys.exchange Sys.send
  cases hc : s.conn.send C e (s.rands s.draws) with | mk c o =>
  cases o with
  | error x => rfl
  | ok w =>
    dsimp only
    cases hss : s.sends with
    | nil => rfl
    | cons x ss =>
      cases x with
      | error x => rfl
      | ok u =>
        dsimp only [Sys.receive]
        cases hrs : s.recvs with
        | nil => rfl
        | cons y rs => cases y <;> rfl

theorem pages_effect {C : BlockCipher} {a : ConnArgs} (P : Bytes → Prop) (s : Sys) (pw : PyStr) (count : Int)
    (total : Bytes) (hs : Reachable C a s.conn) (hpw : s.password = pw)
    (hP : ∀ c j count w, Reachable C a c → (c.send C (pageRequest pw count) (s.rands j)).2 = .ok w → P w) :
    (s.readPages C count total).2.password = pw ∧ Reachable C a (s.readPages C count total).2.conn ∧
    ∃ ws, (s.readPages C count total).2.handed = s.handed ++ ws ∧ ∀ w ∈ ws, P w := by
  generalize hrands : s.rands = rands at hP
  suffices H : ∀ k, ∀ s : Sys, s.recvs.length = k → Reachable C a s.conn → s.password = pw → s.rands = rands →
      ∀ count total,
      (s.readPages C count total).2.password = pw ∧ Reachable C a (s.readPages C count total).2.conn ∧
      ∃ ws, (s.readPages C count total).2.handed = s.handed ++ ws ∧ ∀ w ∈ ws, P w from
    H _ s rfl hs hpw hrands count total
  intro k
  induction k using Nat.strongRecOn with
  | _ k ih =>
    intro s hk hs hpw hrands count total
    obtain ⟨h1, h2, ws, h3, _, h4⟩ := exchange_effect hs (pageRequest s.password count)
    have h5 : ∀ w ∈ ws, P w := fun w hw => hP _ s.draws count w hs (by rw [← hpw, ← hrands]; exact h4 w hw)
    have h1 := h1.trans hpw
    have hrs := (exchange_rands C s (pageRequest s.password count)).trans hrands
    cases he : s.exchange C (pageRequest s.password count) with | mk o s1 =>
    rw [he] at h1 h2 h3 hrs
    cases o with
    | raised e => rw [readPages_raised he]; exact ⟨h1, h2, ws, h3, h5⟩
    | pending => rw [readPages_pending he]; exact ⟨h1, h2, ws, h3, h5⟩
    | returned ev =>
      by_cases hev : ∃ p, ev = .readDeviceParametersResponse p
      · obtain ⟨p, rfl⟩ := hev
        rw [readPages_page he]
        split
        · exact ⟨h1, h2, ws, h3, h5⟩
        · have hlt := exchange_recvs he
          obtain ⟨g1, g2, ws', g3, g4⟩ := ih s1.recvs.length (by omega) s1 rfl h2 h1 hrs
            (count + p.objectAmount) (total ++ p.data)
          refine ⟨g1, g2, ws ++ ws', by rw [g3, h3, List.append_assoc], fun w hw => ?_⟩
          rcases List.mem_append.1 hw with hw | hw
          · exact h5 w hw
          · exact g4 w hw
      · have : s.readPages C count total = (.raised .attribute, s1) := by
          unfold Sys.readPages
          split
          · next h => change s.exchange C (pageRequest s.password count) = _ at h; rw [he] at h; cases h
          · next h => change s.exchange C (pageRequest s.password count) = _ at h; rw [he] at h; cases h
          · next p s2 h => change s.exchange C (pageRequest s.password count) = _ at h; rw [he] at h; injection h with h; injection h with h; exact absurd ⟨p, h⟩ hev
          · next h => change s.exchange C (pageRequest s.password count) = _ at h; rw [he] at h; injection h with _ h; rw [h]
        rw [this]
        exact ⟨h1, h2, ws, h3, h5⟩

theorem pages_rands (C : BlockCipher) : ∀ (n : Nat) (s : Sys) (count : Int) (total : Bytes), s.recvs.length = n →
    (s.readPages C count total).2.rands = s.rands := by
  intro n
  induction n using Nat.strongRecOn with
  | _ n ih =>
    intro s count total hn
    have hrs := exchange_rands C s (pageRequest s.password count)
    rw [Sys.readPages]
    split
    · next h => change s.exchange C (pageRequest s.password count) = _ at h; rw [h] at hrs; exact hrs
    · next h => change s.exchange C (pageRequest s.password count) = _ at h; rw [h] at hrs; exact hrs
    · next p s1 h =>
      have hlt := exchange_recvs h
      change s.exchange C (pageRequest s.password count) = _ at h
      rw [h] at hrs
      split
      · exact hrs
      · rw [ih s1.recvs.length (by omega) s1 _ _ rfl]; exact hrs
    · next h => change s.exchange C (pageRequest s.password count) = _ at h; rw [h] at hrs; exact hrs

theorem call_rands (C : BlockCipher) (s : Sys) (k : Call) : (call C s k).2.rands = s.rands := by
  cases k with
  | readParameters n => exact pages_rands C _ s n [] rfl
  | _ => exact exchange_rands C s _

theorem call_effect {C : BlockCipher} {a : ConnArgs} (P : Event → Bytes → Prop) (s : Sys) (pw : PyStr)
    (hs : Reachable C a s.conn) (hpw : s.password = pw)
    (hP : ∀ c e j w, Reachable C a c → (c.send C e (s.rands j)).2 = .ok w → P e w) (k : Call) :
    (call C s k).2.password = pw ∧ Reachable C a (call C s k).2.conn ∧
    ∃ ws, (call C s k).2.handed = s.handed ++ ws ∧ (∀ w ∈ ws, ∃ e, RequestOf pw k e ∧ P e w) ∧
      (2 ≤ ws.length → ∃ n, k = .readParameters n) := by
  have key : ∀ e, RequestOf pw k e → (s.exchange C e).2.password = pw ∧
      Reachable C a (s.exchange C e).2.conn ∧
      ∃ ws, (s.exchange C e).2.handed = s.handed ++ ws ∧ (∀ w ∈ ws, ∃ e, RequestOf pw k e ∧ P e w) ∧
        (2 ≤ ws.length → ∃ n, k = .readParameters n) := by
    intro e he
    obtain ⟨h1, h2, ws, h3, h4, h5⟩ := exchange_effect hs e
    exact ⟨by rw [h1, hpw], h2, ws, h3, fun w hw => ⟨e, he, hP _ _ _ _ hs (h5 w hw)⟩, fun h => by omega⟩
  subst hpw
  cases k with
  | readInstantaneousValues => exact key _ rfl
  | readTime => exact key _ rfl
  | writeTime t b => exact key _ rfl
  | readArchive x n i => exact key _ rfl
  | readArchiveByTime x n t => exact key _ rfl
  | readParameters n =>
    obtain ⟨h1, h2, ws, h3, h4⟩ := pages_effect (fun w => ∃ e, RequestOf s.password (.readParameters n) e ∧ P e w)
      s s.password n [] hs rfl (fun c r count w hc hw => ⟨_, ⟨count, rfl⟩, hP _ _ _ _ hc hw⟩)
    exact ⟨h1, h2, ws, h3, h4, fun _ => ⟨n, rfl⟩⟩

theorem send_onWire (C : BlockCipher) (a : ClientArgs) (ca : ConnArgs)
    (hca : ca = ⟨0, 0, 0, 0, toSecretStr a.password, a.passwordId, toSecretByte a.encryptionKey,
      a.encryptionKeyId⟩)
    (c : Conn) (e : Event) (r : Rand) (w : Bytes) (hc : Reachable C ca c)
    (hw : (c.send C e r).2 = .ok w) : OnWire C a e w := by
  have hadr : addressBytes ca = [0, 0, 0, 0, 0, 0] := by rw [hca]; simp [addressBytes, be2]
  by_cases hk : ca.encryptionKey = none ∨ ca.encryptionKeyId = none
  · obtain ⟨svc, body, h1, h2, h3⟩ := C32_plaintext C ca c hc e r w hw hk
    rw [hadr] at h3
    refine ⟨r, svc, body, h1, h2, fun _ => h3, fun key keyId g1 g2 g3 => ?_⟩
    rw [hca] at hk
    rcases hk with hk | hk
    · rw [g1] at hk
      cases key with
      | nil => exact absurd rfl g2
      | cons x xs => cases hk
    · rw [g3] at hk; cases hk
  · cases hkey : ca.encryptionKey with
    | none => exact absurd (.inl hkey) hk
    | some key =>
      cases hid : ca.encryptionKeyId with
      | none => exact absurd (.inr hid) hk
      | some keyId =>
        obtain ⟨svc, body, ct, h1, h2, h3, h4⟩ := C32_encrypted C ca c hc e r w hw key keyId hkey hid
        rw [hadr] at h3
        rw [hca] at hkey hid
        have ha : a.encryptionKey = some key ∧ key ≠ [] := by
          dsimp only [toSecretByte] at hkey
          split at hkey
          · cases hkey
          · split at hkey
            · cases hkey
            · next d hd hne => cases hkey; exact ⟨hd, by intro h; rw [h] at hne; exact hne rfl⟩
        refine ⟨r, svc, body, h1, h2, fun hn => absurd ⟨⟨key, ha⟩, keyId, hid⟩ hn, fun key' keyId' g1 g2 g3 => ?_⟩
        rw [ha.1] at g1; cases g1
        dsimp only at hid
        rw [hid] at g3; cases g3
        exact ⟨ct, h3, h4⟩

/-- C65. Whatever calls are made on a new client and whatever the transport does, everything handed to
the transport is, in order, requests of these calls: each call hands over at most one (a
`read_parameters` call any number of) frames; each frame is to and from address 0, and it is encrypted
with the key of the client if and only if the client was given a non-empty key and a key id. -/
theorem C65_on_the_wire (C : BlockCipher) (a : ClientArgs) (sends : List (Res Unit)) (recvs : List (Res Bytes))
    (rands : Nat → Rand) (s : Sys) (hm : mkClient a sends recvs rands = .ok s) (ks : List Call) :
    Written (fun k w => ∃ e, RequestOf a.password k e ∧ OnWire C a e w) ks (calls C s ks).2.handed := by
  unfold mkClient at hm
  rw [bind_eq_ok] at hm
  obtain ⟨conn, hc, hm⟩ := hm
  have hr : Reachable C _ conn := ⟨conn, [], hc, rfl⟩
  replace hm := (Except.ok.inj hm).symm
  suffices H : ∀ s : Sys, s.password = a.password → Reachable C _ s.conn →
      ∃ ws, (calls C s ks).2.handed = s.handed ++ ws ∧
        Written (fun k w => ∃ e, RequestOf a.password k e ∧ OnWire C a e w) ks ws by
    obtain ⟨ws, h1, h2⟩ := H s (by rw [hm]; rfl) (by rw [hm]; exact hr)
    rw [h1, hm]
    exact h2
  clear hm s
  induction ks with
  | nil => intro s _ _; exact ⟨[], by simp [calls], .nil⟩
  | cons k ks ih =>
    intro s hpw hs
    obtain ⟨h1, h2, ws, h3, h4, h5⟩ := call_effect (fun e w => OnWire C a e w) s a.password hs hpw
      (fun c e r w hc hw => send_onWire C a _ rfl c e _ w hc hw) k
    obtain ⟨ws', g1, g2⟩ := ih (call C s k).2 h1 h2
    exact ⟨ws ++ ws', by show (calls C (call C s k).2 ks).2.handed = _; rw [g1, h3, List.append_assoc],
      .call k ks ws ws' h4 h5 g2⟩

/-- C65. So a client with key and key id never puts a plaintext frame on the wire, and a client without
never an encrypted one. -/
theorem C65_no_mixture (C : BlockCipher) (a : ClientArgs) (sends : List (Res Unit)) (recvs : List (Res Bytes))
    (rands : Nat → Rand) (s : Sys) (hm : mkClient a sends recvs rands = .ok s) (ks : List Call) (w : Bytes)
    (hw : w ∈ (calls C s ks).2.handed) :
    ∃ f, returnCharacters w = .ok f ∧ (Encrypting a → f[2]? = some 0x85) ∧
      (¬ Encrypting a → f[2]? = some 0x84) := by
  have h := C65_on_the_wire C a sends recvs rands s hm ks
  generalize (calls C s ks).2.handed = ws at h hw
  clear hm
  induction h with
  | nil => cases hw
  | call k ks ws rest h1 _ _ ih =>
    rcases List.mem_append.1 hw with hw | hw
    · obtain ⟨e, _, r, svc, body, _, _, h3, h4⟩ := h1 w hw
      by_cases he : Encrypting a
      · obtain ⟨⟨key, hk, hne⟩, keyId, hid⟩ := he
        obtain ⟨ct, h5, _⟩ := h4 key keyId hk hne hid
        exact ⟨_, h5, fun _ => rfl, fun h => absurd ⟨⟨key, hk, hne⟩, keyId, hid⟩ h⟩
      · exact ⟨_, h3 he, fun h => absurd h he, fun _ => rfl⟩
    · exact ih hw

/-- A client with a key and one without; the calls below hand one resp. two frames to the transport. -/
def exArgs : ClientArgs := { password := "000000".toList, passwordId := 801 }
def exSecretArgs : ClientArgs :=
  { exArgs with encryptionKey := some (List.replicate 16 7), encryptionKeyId := some 1 }

example : Encrypting exSecretArgs ∧ ¬ Encrypting exArgs :=
  ⟨⟨⟨_, rfl, by decide⟩, _, rfl⟩, fun ⟨⟨_, h, _⟩, _⟩ => by cases h⟩
example : ∃ s, mkClient exArgs [.ok (), .ok ()] (exTimeRecvs.take 4 ++ exTimeRecvs)
      (fun _ => ⟨('a', 'b'), fun _ => 0⟩) = .ok s ∧
    (calls idCipher s [.readTime, .readTime]).1 = [.returned, .returned] ∧
    (calls idCipher s [.readTime, .readTime]).2.handed.length = 2 := ⟨_, rfl, by decide +kernel⟩
example : ∃ s, mkClient exSecretArgs [.ok ()] [] (fun _ => ⟨('a', 'b'), fun _ => 0⟩) = .ok s ∧
    (calls idCipher s [.readInstantaneousValues]).1 = [.pending] ∧
    (calls idCipher s [.readInstantaneousValues]).2.handed.length = 1 := ⟨_, rfl, by decide +kernel⟩

end Elgas
