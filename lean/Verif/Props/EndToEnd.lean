import Verif.Props.Garbled
import Verif.Props.Link
/-!
C82: the client, the transport, and the device together.
-/
namespace Elgas
open Spec

/-! ### Helpers -/

theorem carries_line {C : BlockCipher} {key : Option (UInt8 × Bytes)} {ty code : UInt8} {body line : Bytes}
    (h : Carries C key ty code body line) : ∃ w, line = w ++ [0x0D] ∧ 0x0D ∉ w := by
  obtain ⟨address, data, _, _, h⟩ := h
  cases key with
  | none => exact ⟨_, h.2, no_end _⟩
  | some p => exact ⟨_, h.2, no_end _⟩

/-- The answers of the device, as `recv()` returns them. -/
theorem serves_feeds {C : BlockCipher} {D D' : Device} {ws : List Bytes} {out : Bytes} (hs : Serves C D ws out D')
    (t : Transport) (h : Handle) (ht : t.socket = some h) : ∀ (s : List Delivery) (c : Clock) (n : Nat),
    content s = bytesOnly out → out.length ≤ n →
    ∃ rs, recvs t n s c = rs.map .ok ∧ Feeds C D ws rs D' := by
  induction hs with
  | nil D =>
    intro s c n hs _
    refine ⟨[], ?_, .nil D⟩
    cases n with
    | zero => rfl
    | succ n =>
      have := C48_needs_input t h ht s c (by simpa [bytesOnly] using hs)
      unfold recvs
      rcases hr : t.recv s c with ⟨o, s', c'⟩
      rw [hr] at this
      dsimp only at this
      rw [this]
      rfl
  | request D D1 D' w ws line out hrep _ ih =>
    intro s c n hs hn
    have hrep' := hrep
    obtain ⟨_, _, _, _, _, _, _, hc⟩ := hrep'
    obtain ⟨l, rfl, hl⟩ := carries_line hc
    obtain ⟨init, last, s', c', g1, g2, g3, g4, g5⟩ := line_pieces t h ht l hl (bytesOnly out) s c
      (by rw [hs]; simp [bytesOnly])
    simp only [List.length_append, List.length_cons, List.length_nil] at hn
    obtain ⟨rs, k1, k2⟩ := ih s' c' (n - (init.length + 1)) g3 (by omega)
    refine ⟨init ++ last :: rs, ?_, .request D D1 D' w ws init last rs (by rw [g1]; exact hrep) g2 k2⟩
    have := g5 (n - (init.length + 1))
    rw [show init.length + 1 + (n - (init.length + 1)) = n by omega, k1] at this
    rw [this]
    simp

/-! ### Claims -/

/-- C82. A new client that knows the secrets of a device talks to it over a connected TCP or serial transport, with
any timeout and clock, and the stream the transport reads from is what the device answers to what the client writes,
delivered in any segments with any empty reads. Then every call gives back what the device held at that moment, the
device ends as it should, and the client is ready for more. -/
theorem C82_session (C : BlockCipher) (t : Transport) (h : Handle) (ht : t.socket = some h) (stream : List Delivery)
    (clock : Clock) (a : ClientArgs) (n m : Nat) (rands : Nat → Rand) (s : Sys)
    (hm : mkClient a (List.replicate n (.ok ())) (recvs t m stream clock) rands = .ok s) (hr : ∀ i, PadOk (rands i).pw)
    (D D' : Device) (hd : D.Ok) (hk : SharesKey a D) (hp : KnowsPassword a D) (ks : List Call)
    (hks : ∀ k ∈ ks, k.InRange) (hn : (calls C s ks).2.handed.length ≤ n) (out : Bytes)
    (hs : Serves C D (calls C s ks).2.handed out D') (hstream : content stream = bytesOnly out) (hmm : out.length ≤ m) :
    Ideals D ks (callsV C s ks).1 D' ∧ (calls C s ks).2.recvs = [] ∧ Ready (calls C s ks).2.conn := by
  obtain ⟨rs, h1, h2⟩ := serves_feeds hs t h ht stream clock m hstream hmm
  rw [h1] at hm
  exact C79_session C a n rs rands s hm hr D D' hd hk hp ks hks hn h2

/-- C82. The same with a wrong password: the device stays as it is, the calls up to the first one that needs the
password are answered, this one raises WrongPassword, and all later ones raise LocalElgasProtocolError without writing
anything. -/
theorem C82_wrong_password (C : BlockCipher) (t : Transport) (h : Handle) (ht : t.socket = some h)
    (stream : List Delivery) (clock : Clock) (a : ClientArgs) (n m : Nat) (rands : Nat → Rand) (s : Sys)
    (hm : mkClient a (List.replicate n (.ok ())) (recvs t m stream clock) rands = .ok s) (hr : ∀ i, PadOk (rands i).pw)
    (D D' : Device) (hd : D.Ok) (hk : SharesKey a D) (hl : IsLatin1 a.password) (h6 : a.password.length = 6)
    (hp : latin1 a.password ≠ D.password) (j : Nat) (k : Call) (later : List Call) (hkr : k.InRange)
    (hkt : k ≠ .readTime)
    (hn : (calls C s (List.replicate j .readTime ++ k :: later)).2.handed.length ≤ n) (out : Bytes)
    (hs : Serves C D (calls C s (List.replicate j .readTime ++ k :: later)).2.handed out D')
    (hstream : content stream = bytesOnly out) (hmm : out.length ≤ m) :
    (calls C s (List.replicate j .readTime ++ k :: later)).1 =
      List.replicate j .returned ++ .raised (.elgas .wrongPassword) ::
        List.replicate later.length (.raised (.elgas .localProtocol)) ∧
    (calls C s (List.replicate j .readTime ++ k :: later)).2.handed.length = j + 1 ∧ D' = D := by
  obtain ⟨rs, h1, h2⟩ := serves_feeds hs t h ht stream clock m hstream hmm
  rw [h1] at hm
  exact C79_wrong_password C a n rs rands s hm hr D D' hd hk hl h6 hp j k later hkr hkt hn h2

/-- What a device answers when asked for the time. -/
def exDeviceTime : Bytes :=
  escBytes (frame 0x86 0x6C [0, 0, 0, 0, 0, 0]
    ([0x59, 0x59, 0xE3, 0x29, 0x02, 0x20] ++ [0x0F] ++ [] ++ [0x12, 0x34])).dropLast ++ [0x0D]

/-- A serial line with a timeout of 0, so that every `recv()` returns one byte. -/
def exSerial : Transport := { kind := .serial, timeout := some 0, socket := some 5 }

/-- The answer, in two segments and with an empty read between them. -/
def exStream : List Delivery := [.seg (exDeviceTime.take 7), .seg [], .seg (exDeviceTime.drop 7)]

theorem exTime_denotes : Denotes [0x59, 0x59, 0xE3, 0x29, 0x02, 0x20] ⟨2020, 2, 29, 23, 59, 59, 0⟩ true true :=
  ⟨0x59, 0x59, 0xE3, 0x29, 0x02, 0x20, rfl, by decide, by decide, by decide, by decide, by decide, by decide, by decide,
    by decide, by decide, by decide⟩

example : ∃ s, mkClient exArgs (List.replicate 1 (.ok ())) (recvs exSerial 40 exStream exClock)
      (fun _ => ⟨('a', 'b'), fun _ => 0⟩) = .ok s ∧ (calls idCipher s [.readTime]).2.handed.length ≤ 1 ∧
    Serves idCipher (exDevice none (List.replicate 6 0x30)) (calls idCipher s [.readTime]).2.handed exDeviceTime
      (exDevice none (List.replicate 6 0x30)) ∧ content exStream = bytesOnly exDeviceTime ∧
    exDeviceTime.length ≤ 40 := by
  refine ⟨_, rfl, by decide +kernel, ?_, by decide +kernel, by decide +kernel⟩
  have hh : ∀ s, mkClient exArgs (List.replicate 1 (.ok ())) (recvs exSerial 40 exStream exClock)
      (fun _ => ⟨('a', 'b'), fun _ => 0⟩) = .ok s → (calls idCipher s [.readTime]).2.handed =
      [escBytes (frame 0x84 0x6C [0, 0, 0, 0, 0, 0] []).dropLast ++ [0x0D]] := by
    intro s hs
    rw [← Except.ok.inj hs]
    decide +kernel
  rw [hh _ rfl]
  have := Serves.request (C := idCipher) (exDevice none (List.replicate 6 0x30)) (exDevice none (List.replicate 6 0x30))
    (exDevice none (List.replicate 6 0x30)) (escBytes (frame 0x84 0x6C [0, 0, 0, 0, 0, 0] []).dropLast ++ [0x0D]) []
    exDeviceTime []
    ⟨0x6C, [], .time, _, ⟨[0, 0, 0, 0, 0, 0], [], rfl, by decide, rfl, rfl⟩, .time, .time _ [] exTime_denotes,
      ⟨[0, 0, 0, 0, 0, 0], _, rfl, by decide, rfl, rfl⟩⟩ (.nil _)
  simpa using this

-- and the call returns the time of the device
example : (match mkClient exArgs (List.replicate 1 (.ok ())) (recvs exSerial 40 exStream exClock)
      (fun _ => ⟨('a', 'b'), fun _ => 0⟩) with
    | .ok s => (s.readTime idCipher).1
    | .error _ => .pending) = .returned ⟨2020, 2, 29, 23, 59, 59, 0⟩ := by decide +kernel

end Elgas
