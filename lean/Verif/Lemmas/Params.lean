import Verif.Props.Responses
import Verif.Props.Text
import Verif.Model.Parser
import Verif.Spec.Layouts
/-!
Symbolic execution of the straight-line `from_bytes` bodies: which offset of the input each local
variable comes from, with a soundness proof against the interpreter.
-/
namespace Elgas
open Spec

/-! ### Field readers -/

theorem leAt_eq (b : Bytes) (o w : Nat) : leAt b o w = fromLE ((b.drop o).take w) := fromLE_leAt b o w

theorem isPySpace_blank' (b : UInt8) : isPySpace (if b = 0 then 0x20 else b) = blank b := by
  revert b; apply u8_forall; decide +kernel

theorem lstrip_map (d : Bytes) :
    lstrip (d.map fun b => if b = 0 then 0x20 else b) =
      (d.dropWhile blank).map fun b => if b = 0 then 0x20 else b := by
  unfold lstrip
  induction d with
  | nil => rfl
  | cons b d ih =>
    rw [List.map_cons, List.dropWhile_cons, List.dropWhile_cons, isPySpace_blank', ih]
    by_cases hb : blank b = true <;> simp [hb]

theorem rstrip_map (d : Bytes) :
    rstrip (d.map fun b => if b = 0 then 0x20 else b) =
      ((d.reverse.dropWhile blank).reverse).map fun b => if b = 0 then 0x20 else b := by
  have h := lstrip_map d.reverse
  unfold lstrip at h
  unfold rstrip
  rw [← List.map_reverse, h, List.map_reverse]

theorem untilLastNul_split (p s : Bytes) (h : (0 : UInt8) ∉ s) : untilLastNul (p ++ 0 :: s) = p := by
  unfold untilLastNul
  rw [if_pos (by simp)]
  have : (p ++ 0 :: s).reverse = s.reverse ++ 0 :: p.reverse := by simp
  rw [this, List.dropWhile_append_of_pos]
  · simp
  · intro x hx
    have hx' : x ∈ s := by simpa using hx
    have : x ≠ 0 := fun h0 => h (h0 ▸ hx')
    simpa using this

theorem prettyText_eq (d : Bytes) : prettyText d = fieldText d := by
  have key : ∀ e : Bytes, cleanText e =
      (trim e).map fun b => if b = 0 then ' ' else Char.ofNat b.toNat := by
    intro e
    unfold cleanText
    rw [replaceNul, lstrip_map, rstrip_map, map_decode]
    rfl
  unfold fieldText
  by_cases h : (0 : UInt8) ∈ d
  · obtain ⟨k, _, _, _, hk, _⟩ := C19_shape d
    rcases hk with ⟨h0, _⟩ | ⟨s, hs, rfl⟩
    · exact absurd h h0
    · rw [prettyText_split k s hs, untilLastNul_split k s hs, key]
  · rw [prettyText_none d h, key]
    unfold untilLastNul
    rw [if_neg h]

theorem toHex_eq (d : Bytes) : toHex d = hexText d := by
  unfold toHex hexText
  congr 1
  funext b
  revert b; apply u8_forall; decide +kernel

theorem ip_eq (d : Bytes) (h : d.length = 4) : parseIpAddress d = .ok (dotted d) := by
  match d, h with
  | [a, b, c, e], _ =>
    rw [(C20_dotted_decimal _).1 a b c e rfl]
    unfold dotted
    have hd : (toString ".").toList = ['.'] := by decide
    simp [hd]

/-! ### Lists of named values -/

theorem lookup_map_snd {α β γ : Type} [BEq α] (g : β → γ) (l : List (α × β)) (x : α) :
    (l.map fun p => (p.1, g p.2)).lookup x = (l.lookup x).map g := by
  induction l with
  | nil => rfl
  | cons p l ih =>
    obtain ⟨a, b⟩ := p
    simp only [List.map_cons, List.lookup_cons]
    cases x == a <;> simp [ih]

theorem lookup_append_some {α β : Type} [BEq α] {l l' : List (α × β)} {x : α} {v : β}
    (h : l.lookup x = some v) : (l ++ l').lookup x = some v := by
  rw [List.lookup_append, h]; rfl

/-- Looking up every key of a list without duplicate keys gives the list back. -/
theorem mapM_lookup {α β : Type} [BEq α] [LawfulBEq α] (l : List (α × β))
    (hn : (l.map (·.1)).Nodup) :
    (l.map (·.1)).mapM (kwArg l) = .ok l := by
  have key : ∀ pre post : List (α × β), pre ++ post = l →
      (post.map (·.1)).mapM (kwArg l) = .ok post := by
    intro pre post
    induction post generalizing pre with
    | nil => intro _; rfl
    | cons p post ih =>
      intro h
      have h1 : l.lookup p.1 = some p.2 := by
        rw [← h, List.lookup_append]
        have : pre.lookup p.1 = none := by
          rw [List.lookup_eq_none_iff]
          intro q hq
          rw [← h, List.map_append, List.nodup_append] at hn
          have := hn.2.2 q.1 (List.mem_map_of_mem hq) p.1 (by simp)
          simpa using fun hh : p.1 = q.1 => this hh.symm
        rw [this]
        obtain ⟨a, b⟩ := p
        simp
      have h2 : kwArg l p.1 = .ok p := by unfold kwArg; rw [h1]
      rw [List.map_cons, List.mapM_cons, h2, ih (pre ++ [p]) (by rw [← h]; simp)]
      rfl
  exact key [] l rfl

/-! ### Gas composition -/

theorem popGasAll_apply (as : List GasAttr) (b : Bytes) (k : Nat)
    (h : 4 * (k + as.length) ≤ b.length) :
    popGasAll as (b.drop (4 * k)) =
      .ok ((as.zipIdx k).map fun p => (p.1, PyFloat.single (leAt b (4 * p.2) 4)),
        b.drop (4 * (k + as.length))) := by
  induction as generalizing k with
  | nil => rfl
  | cons a as ih =>
    have hl : (a :: as).length = as.length + 1 := rfl
    rw [hl] at h
    unfold popGasAll
    rw [bind_popMany (by omega) _ b (4 * k) (by omega), pbind_apply]
    have h4 : 4 * k + 4 = 4 * (k + 1) := by omega
    rw [h4, ih (k + 1) (by omega), bind_ok, ppure_apply, hl]
    have h5 : k + 1 + as.length = k + (as.length + 1) := by omega
    rw [h5, List.zipIdx_cons, List.map_cons, leAt_eq]

theorem gas_eq (b : Bytes) (h : b.length = 92) :
    gasFromBytes b = .ok (gasComponents.zipIdx.map fun p => (p.1, .single (leAt b (4 * p.2) 4))) := by
  have h0 : gasOrder = gasComponents := by decide
  have h1 : gasFields = (gasComponents.zipIdx.map fun p => (p.1, PyFloat.single (leAt b (4 * p.2) 4))).map (·.1) := by
    rw [List.map_map]
    have : ((fun x : GasAttr × PyFloat => x.1) ∘ fun p : GasAttr × Nat => (p.1, PyFloat.single (leAt b (4 * p.2) 4))) = (·.1) := rfl
    rw [this]; decide
  unfold gasFromBytes
  have h2 := popGasAll_apply gasComponents b 0 (by rw [h]; decide)
  rw [show 4 * 0 = 0 from rfl, List.drop_zero] at h2
  rw [run_eq, h0, h2, map_ok, bind_ok, h1]
  exact mapM_lookup (gasComponents.zipIdx.map fun p => (p.1, PyFloat.single (leAt b (4 * p.2) 4)))
    (by rw [← h1]; decide)

theorem leAt_bytesAt (d : Bytes) (off w i k : Nat) (h : i + k ≤ w) :
    leAt (bytesAt d off w) i k = leAt d (off + i) k := by
  rw [leAt_eq, leAt_eq]
  unfold bytesAt
  congr 1
  rw [List.drop_take, List.drop_drop, List.take_take, Nat.min_eq_left (by omega)]

theorem gasComponents_idx : ∀ p ∈ gasComponents.zipIdx, p.2 < 23 := by decide

theorem gas_at (d : Bytes) (off : Nat) (h : off + 92 ≤ d.length) :
    gasFromBytes ((d.drop off).take 92) =
      .ok (gasComponents.zipIdx.map fun p => (p.1, .single (leAt d (off + 4 * p.2) 4))) := by
  rw [gas_eq _ (by rw [List.length_take, List.length_drop]; omega)]
  congr 1
  apply List.map_congr_left
  intro p hp
  have := gasComponents_idx p hp
  rw [← leAt_bytesAt d off 92 (4 * p.2) 4 (by omega)]
  rfl

/-! ### Symbolic execution -/

/-- The exponent of a one-bit mask below 256. -/
def maskBit (m : Nat) : Option Nat := (List.range 8).find? fun k => m = 2 ^ k

/-- The number of bits of a mask starting at bit `shift`. -/
def maskBits (m shift : Nat) : Option Nat := (List.range 9).find? fun n => m = (2 ^ n - 1) * 2 ^ shift

abbrev SEnv := List (Attr × Loc)

/-- Where the result of an assignment comes from, and the offset behind it. -/
def symSimple (env : SEnv) (off : Nat) : Simple → Option (SEnv × Nat)
  | .popByte x => some ((x, .uint off 1) :: env, off + 1)
  | .popInt x n => if 2 ≤ n then some ((x, .uint off n) :: env, off + n) else none
  | .popText x n => if 2 ≤ n then some ((x, .text off n) :: env, off + n) else none
  | .popHex x n => if 2 ≤ n then some ((x, .hex off n) :: env, off + n) else none
  | .popIp x n => if n = 4 then some ((x, .ip off) :: env, off + 4) else none
  | .popF32 x => some ((x, .float32 off) :: env, off + 4)
  | .popF64 x => some ((x, .float64 off) :: env, off + 8)
  | .popF32Round x k => some ((x, .float32Rounded off k) :: env, off + 4)
  | .flag x src mask => match env.lookup src, maskBit mask with
    | some (.uint o 1), some k => some ((x, .flag o k) :: env, off)
    | _, _ => none
  | .bits x src mask shift => match env.lookup src, maskBits mask shift with
    | some (.uint o 1), some n => some ((x, .bits o shift n) :: env, off)
    | _, _ => none
  | .popGas x n => if n = 92 then some ((x, .gas off) :: env, off + 92) else none
  | .skip n => if 2 ≤ n then some (env, off + n) else none
  | .setNone _ => none

def symSimples (env : SEnv) (off : Nat) : List Simple → Option (SEnv × Nat)
  | [] => some (env, off)
  | s :: rest => match symSimple env off s with
    | some (env', off') => symSimples env' off' rest
    | none => none

/-- The concrete environment a symbolic one stands for. -/
def rd (size : Nat) (d : Bytes) (env : SEnv) : Env := env.map fun p => (p.1, p.2.read size d)

theorem rd_cons (size : Nat) (d : Bytes) (x : Attr) (l : Loc) (env : SEnv) :
    rd size d ((x, l) :: env) = (x, l.read size d) :: rd size d env := rfl

theorem getD_uint (d : Bytes) (o : Nat) : leAt d o 1 = (d.getD o 0).toNat := (getD_leAt d o).symm

theorem bits_eq (n cnt shift : Nat) :
    (n &&& ((2 ^ cnt - 1) * 2 ^ shift)) >>> shift = n / 2 ^ shift % 2 ^ cnt := by
  rw [Nat.shiftRight_and_distrib, ← Nat.shiftLeft_eq, Nat.shiftLeft_shiftRight,
    Nat.and_two_pow_sub_one_eq_mod, Nat.shiftRight_eq_div_pow]

theorem flag_eq (n k : Nat) : decide (n &&& 2 ^ k ≠ 0) = decide (n / 2 ^ k % 2 = 1) := by
  have h1 : (n &&& 2 ^ k) / 2 ^ k = n / 2 ^ k % 2 := by
    have := bits_eq n 1 k
    simpa [Nat.shiftRight_eq_div_pow] using this
  have h2 : n &&& 2 ^ k = (n &&& 2 ^ k) / 2 ^ k * 2 ^ k := by
    apply Nat.eq_of_testBit_eq
    intro i
    rw [← Nat.shiftRight_eq_div_pow, ← Nat.shiftLeft_eq]
    simp only [Nat.testBit_and, Nat.testBit_two_pow, Nat.testBit_shiftLeft, Nat.testBit_shiftRight]
    by_cases hk : k = i
    · subst hk; simp
    · by_cases hi : k ≤ i
      · have : k + (i - k) = i := by omega
        simp [hk, this]
      · simp [hk, hi]
  rw [h2, h1]
  have hp : 0 < 2 ^ k := Nat.two_pow_pos k
  rcases Nat.mod_two_eq_zero_or_one (n / 2 ^ k) with h | h <;> simp [h]

theorem maskBit_some {m k : Nat} (h : maskBit m = some k) : m = 2 ^ k := by
  have := List.find?_some h
  simpa using this

theorem maskBits_some {m s n : Nat} (h : maskBits m s = some n) : m = (2 ^ n - 1) * 2 ^ s := by
  have := List.find?_some h
  simpa using this

/-- Outcome of reading `n` bytes at `off`: an `IndexError` when the data is too short. -/
theorem popMany_bind_cases {α : Type} {n : Nat} (hn : 2 ≤ n) (f : Bytes → P α) (d : Bytes) (off : Nat)
    (hoff : off ≤ d.length) :
    (off + n ≤ d.length → (popMany n >>= f) (d.drop off) = f ((d.drop off).take n) (d.drop (off + n))) ∧
    (d.length < off + n → (popMany n >>= f) (d.drop off) = .error .index) := by
  refine ⟨fun h => bind_popMany hn f d off h, fun h => ?_⟩
  rw [pbind_apply, popMany_apply hn, if_neg (by rw [List.length_drop]; omega)]
  rfl

theorem symSimple_sound {env env' : SEnv} {off off' : Nat} {s : Simple} (size : Nat) (d : Bytes) (E : Env)
    (h : symSimple env off s = some (env', off')) (hoff : off ≤ d.length) :
    off ≤ off' ∧
    (off' ≤ d.length → s.exec (rd size d env ++ E) (d.drop off) =
      .ok (rd size d env' ++ E, d.drop off')) ∧
    (d.length < off' → s.exec (rd size d env ++ E) (d.drop off) = .error .index) := by
  cases s with
  | popByte x =>
    simp only [symSimple, Option.some.injEq, Prod.mk.injEq] at h
    obtain ⟨rfl, rfl⟩ := h
    refine ⟨by omega, fun hl => ?_, fun hl => ?_⟩
    · unfold Simple.exec
      dsimp only
      rw [bind_pop0 _ d off hl, ppure_apply, rd_cons]
      simp only [Loc.read, getD_uint]
      rfl
    · unfold Simple.exec
      dsimp only
      rw [pbind_apply, pop0_apply, if_neg (by rw [List.length_drop]; omega)]
      rfl
  | popInt x n =>
    simp only [symSimple] at h
    split at h
    · next hn =>
      simp only [Option.some.injEq, Prod.mk.injEq] at h
      obtain ⟨rfl, rfl⟩ := h
      have hc := popMany_bind_cases hn (fun b => pure ((x, Val.int (fromLE b)) :: (rd size d env ++ E))) d off hoff
      refine ⟨by omega, fun hl => ?_, fun hl => hc.2 hl⟩
      refine (hc.1 hl).trans ?_
      rw [ppure_apply, rd_cons]
      simp only [Loc.read, leAt_eq]
      rfl
    · cases h
  | popText x n =>
    simp only [symSimple] at h
    split at h
    · next hn =>
      simp only [Option.some.injEq, Prod.mk.injEq] at h
      obtain ⟨rfl, rfl⟩ := h
      have hc := popMany_bind_cases hn (fun b => pure ((x, Val.str (prettyText b)) :: (rd size d env ++ E))) d off hoff
      refine ⟨by omega, fun hl => ?_, fun hl => hc.2 hl⟩
      refine (hc.1 hl).trans ?_
      rw [ppure_apply, rd_cons]
      simp only [Loc.read, prettyText_eq, bytesAt]
      rfl
    · cases h
  | popHex x n =>
    simp only [symSimple] at h
    split at h
    · next hn =>
      simp only [Option.some.injEq, Prod.mk.injEq] at h
      obtain ⟨rfl, rfl⟩ := h
      have hc := popMany_bind_cases hn (fun b => pure ((x, Val.str (toHex b)) :: (rd size d env ++ E))) d off hoff
      refine ⟨by omega, fun hl => ?_, fun hl => hc.2 hl⟩
      refine (hc.1 hl).trans ?_
      rw [ppure_apply, rd_cons]
      simp only [Loc.read, toHex_eq, bytesAt]
      rfl
    · cases h
  | popIp x n =>
    simp only [symSimple] at h
    split at h
    · next hn =>
      subst hn
      simp only [Option.some.injEq, Prod.mk.injEq] at h
      obtain ⟨rfl, rfl⟩ := h
      have hc := popMany_bind_cases (show 2 ≤ 4 by omega) (fun b => do
        let s ← (liftM (parseIpAddress b) : P PyStr)
        pure ((x, Val.str s) :: (rd size d env ++ E))) d off hoff
      refine ⟨by omega, fun hl => ?_, fun hl => hc.2 hl⟩
      refine (hc.1 hl).trans ?_
      rw [bind_plift, ip_eq _ (by rw [List.length_take, List.length_drop]; omega), bind_ok,
        ppure_apply, rd_cons]
      rfl
    · cases h
  | popF32 x =>
    simp only [symSimple, Option.some.injEq, Prod.mk.injEq] at h
    obtain ⟨rfl, rfl⟩ := h
    have hc := popMany_bind_cases (show 2 ≤ 4 by omega) (fun b => pure ((x, Val.float (.single (fromLE b))) :: (rd size d env ++ E))) d off hoff
    refine ⟨by omega, fun hl => ?_, fun hl => hc.2 hl⟩
    refine (hc.1 hl).trans ?_
    rw [ppure_apply, rd_cons]
    simp only [Loc.read, leAt_eq]
    rfl
  | popF64 x =>
    simp only [symSimple, Option.some.injEq, Prod.mk.injEq] at h
    obtain ⟨rfl, rfl⟩ := h
    have hc := popMany_bind_cases (show 2 ≤ 8 by omega) (fun b => pure ((x, Val.float (.double (fromLE b))) :: (rd size d env ++ E))) d off hoff
    refine ⟨by omega, fun hl => ?_, fun hl => hc.2 hl⟩
    refine (hc.1 hl).trans ?_
    rw [ppure_apply, rd_cons]
    simp only [Loc.read, leAt_eq]
    rfl
  | popF32Round x k =>
    simp only [symSimple, Option.some.injEq, Prod.mk.injEq] at h
    obtain ⟨rfl, rfl⟩ := h
    have hc := popMany_bind_cases (show 2 ≤ 4 by omega) (fun b => pure ((x, Val.float (.rounded (fromLE b) k)) :: (rd size d env ++ E))) d off hoff
    refine ⟨by omega, fun hl => ?_, fun hl => hc.2 hl⟩
    refine (hc.1 hl).trans ?_
    rw [ppure_apply, rd_cons]
    simp only [Loc.read, leAt_eq]
    rfl
  | flag x src mask =>
    simp only [symSimple] at h
    split at h
    · next o k h1 h2 =>
      simp only [Option.some.injEq, Prod.mk.injEq] at h
      obtain ⟨rfl, rfl⟩ := h
      refine ⟨Nat.le_refl _, fun _ => ?_, fun hl => by omega⟩
      have hg : Env.get (rd size d env ++ E) src = .ok (.int ((d.getD o 0).toNat)) := by
        unfold Env.get
        rw [lookup_append_some (v := Val.int ((d.getD o 0).toNat))]
        unfold rd
        rw [lookup_map_snd (fun l => Loc.read size d l), h1]
        simp only [Option.map_some, Loc.read, getD_uint]
      unfold Simple.exec
      dsimp only
      rw [bind_plift, hg, bind_ok]
      dsimp only
      rw [ppure_apply, rd_cons, maskBit_some h2, flag_eq]
      rfl
    · cases h
  | bits x src mask shift =>
    simp only [symSimple] at h
    split at h
    · next o k h1 h2 =>
      simp only [Option.some.injEq, Prod.mk.injEq] at h
      obtain ⟨rfl, rfl⟩ := h
      refine ⟨Nat.le_refl _, fun _ => ?_, fun hl => by omega⟩
      have hg : Env.get (rd size d env ++ E) src = .ok (.int ((d.getD o 0).toNat)) := by
        unfold Env.get
        rw [lookup_append_some (v := Val.int ((d.getD o 0).toNat))]
        unfold rd
        rw [lookup_map_snd (fun l => Loc.read size d l), h1]
        simp only [Option.map_some, Loc.read, getD_uint]
      unfold Simple.exec
      dsimp only
      rw [bind_plift, hg, bind_ok]
      dsimp only
      rw [ppure_apply, rd_cons, maskBits_some h2, bits_eq]
      rfl
    · cases h
  | popGas x n =>
    simp only [symSimple] at h
    split at h
    · next hn =>
      subst hn
      simp only [Option.some.injEq, Prod.mk.injEq] at h
      obtain ⟨rfl, rfl⟩ := h
      have hc := popMany_bind_cases (show 2 ≤ 92 by omega) (fun b => do
        let s ← (liftM (gasFromBytes b) : P (List (GasAttr × PyFloat)))
        pure ((x, Val.gas s) :: (rd size d env ++ E))) d off hoff
      refine ⟨by omega, fun hl => ?_, fun hl => hc.2 hl⟩
      refine (hc.1 hl).trans ?_
      rw [bind_plift, gas_at d off hl, bind_ok, ppure_apply, rd_cons]
      rfl
    · cases h
  | skip n =>
    simp only [symSimple] at h
    split at h
    · next hn =>
      simp only [Option.some.injEq, Prod.mk.injEq] at h
      obtain ⟨rfl, rfl⟩ := h
      have hc := popMany_bind_cases hn (fun _ => pure (rd size d env ++ E)) d off hoff
      refine ⟨by omega, fun hl => ?_, fun hl => hc.2 hl⟩
      exact (hc.1 hl).trans rfl
    · cases h
  | setNone x => simp [symSimple] at h

theorem symSimple_mono {env env' : SEnv} {off off' : Nat} {s : Simple}
    (h : symSimple env off s = some (env', off')) : off ≤ off' :=
  (symSimple_sound off (List.replicate off 0) [] h (by simp)).1

theorem symSimples_mono {env env' : SEnv} {off off' : Nat} {ss : List Simple}
    (h : symSimples env off ss = some (env', off')) : off ≤ off' := by
  induction ss generalizing env off with
  | nil => simp only [symSimples, Option.some.injEq, Prod.mk.injEq] at h; omega
  | cons s ss ih =>
    simp only [symSimples] at h
    split at h
    · next e1 o1 h1 => exact Nat.le_trans (symSimple_mono h1) (ih h)
    · cases h

theorem symSimples_sound {env env' : SEnv} {off off' : Nat} {ss : List Simple} (size : Nat) (d : Bytes)
    (E : Env) (h : symSimples env off ss = some (env', off')) (hoff : off ≤ d.length) :
    off ≤ off' ∧
    (off' ≤ d.length → execSimples (rd size d env ++ E) ss (d.drop off) =
      .ok (rd size d env' ++ E, d.drop off')) ∧
    (d.length < off' → execSimples (rd size d env ++ E) ss (d.drop off) = .error .index) := by
  induction ss generalizing env off with
  | nil =>
    simp only [symSimples, Option.some.injEq, Prod.mk.injEq] at h
    obtain ⟨rfl, rfl⟩ := h
    exact ⟨Nat.le_refl _, fun _ => rfl, fun hl => by omega⟩
  | cons s ss ih =>
    simp only [symSimples] at h
    split at h
    · next e1 o1 h1 =>
      obtain ⟨ha, hb, hc⟩ := symSimple_sound size d E h1 hoff
      unfold execSimples
      by_cases hl : o1 ≤ d.length
      · obtain ⟨ja, jb, jc⟩ := ih h hl
        rw [pbind_apply, hb hl, bind_ok]
        exact ⟨by omega, jb, jc⟩
      · rw [pbind_apply, hc (by omega), bind_error]
        have hle : o1 ≤ off' := symSimples_mono h
        exact ⟨by omega, fun h2 => by omega, fun _ => rfl⟩
    · cases h

/-! ### Whole bodies -/

/-- Result of executing a body symbolically. -/
structure Sym where
  env : SEnv
  size : Nat
  tail : Nat
  strict : Bool

/-- The bindings made by the optional tail, or `none` when the two branches do not match. -/
def symTail (size : Nat) (yes no : List Simple) : Option (SEnv × Nat) :=
  match symSimples [] size yes with
  | some (env, stop) =>
    if size < stop ∧ no = (env.reverse.map fun p => Simple.setNone p.1) then some (env, stop - size) else none
  | none => none

def symStmts (env : SEnv) (off : Nat) : List Stmt → Option Sym
  | [] => some ⟨env, off, 0, false⟩
  | .simple s :: rest => match symSimple env off s with
    | some (env', off') => symStmts env' off' rest
    | none => none
  | [.assertEmpty] => some ⟨env, off, 0, true⟩
  | [.ifData yes no] => match symTail off yes no with
    | some (t, n) => some ⟨(t.map fun p => (p.1, .optional p.2)) ++ env, off, n, false⟩
    | none => none
  | [.ifData yes no, .assertEmpty] => match symTail off yes no with
    | some (t, n) => some ⟨(t.map fun p => (p.1, .optional p.2)) ++ env, off, n, true⟩
    | none => none
  | _ => none

theorem rd_append (size : Nat) (d : Bytes) (a b : SEnv) : rd size d (a ++ b) = rd size d a ++ rd size d b :=
  List.map_append

theorem execSimples_setNone (E : Env) (xs : List Attr) (s : Bytes) :
    execSimples E (xs.map Simple.setNone) s = .ok ((xs.map fun x => (x, Val.none)).reverse ++ E, s) := by
  induction xs generalizing E with
  | nil => rfl
  | cons x xs ih =>
    rw [List.map_cons]
    unfold execSimples
    rw [pbind_apply]
    have : Simple.exec E (.setNone x) s = .ok ((x, Val.none) :: E, s) := rfl
    rw [this, bind_ok, ih]
    simp

theorem more_apply (s : Bytes) : more s = .ok (!s.isEmpty, s) := rfl

/-- `if data: ... else: ...` at the end of the fixed part. -/
theorem symTail_sound {size n : Nat} {yes no : List Simple} {t : SEnv} (d : Bytes) (E : Env)
    (h : symTail size yes no = some (t, n)) (hs : size ≤ d.length) :
    0 < n ∧
    (size < d.length → d.length < size + n → (Stmt.ifData yes no).exec E (d.drop size) = .error .index) ∧
    (d.length = size ∨ size + n ≤ d.length → (Stmt.ifData yes no).exec E (d.drop size) =
      .ok (rd size d (t.map fun p => (p.1, .optional p.2)) ++ E,
        d.drop (if d.length = size then size else size + n))) := by
  unfold symTail at h
  split at h
  · next env stop h1 =>
    split at h
    · next hc =>
      simp only [Option.some.injEq, Prod.mk.injEq] at h
      obtain ⟨rfl, rfl⟩ := h
      obtain ⟨hlt, hno⟩ := hc
      obtain ⟨_, hb, hcc⟩ := symSimples_sound size d E h1 hs
      have hex : (Stmt.ifData yes no).exec E (d.drop size) =
          if d.length = size then execSimples E no (d.drop size) else execSimples E yes (d.drop size) := by
        unfold Stmt.exec
        dsimp only
        rw [pbind_apply, more_apply, bind_ok]
        dsimp only
        by_cases hl : d.length = size
        · have : d.drop size = [] := List.drop_eq_nil_of_le (by omega)
          rw [if_pos hl, this]; rfl
        · have : (d.drop size).isEmpty = false := by
            cases hd : d.drop size with
            | nil =>
              have := congrArg List.length hd
              rw [List.length_drop] at this
              simp at this; omega
            | cons => rfl
          rw [if_neg hl, this]; rfl
      rw [hex]
      refine ⟨by omega, fun h2 h3 => ?_, fun h2 => ?_⟩
      · rw [if_neg (by omega)]
        exact hcc (by omega)
      · by_cases hl : d.length = size
        · rw [if_pos hl, if_pos hl, hno]
          have : (env.reverse.map fun p => Simple.setNone p.1) = (env.reverse.map (·.1)).map Simple.setNone := by
            rw [List.map_map]; rfl
          rw [this, execSimples_setNone]
          congr 2
          congr 1
          rw [← List.map_reverse, ← List.map_reverse, List.reverse_reverse, List.map_map, rd, List.map_map]
          apply List.map_congr_left
          intro p _
          simp [Loc.read, hl]
        · rw [if_neg hl, if_neg hl]
          have h3 : stop ≤ d.length := by omega
          have h4 : size + (stop - size) = stop := by omega
          rw [h4]
          refine (hb h3).trans ?_
          congr 2
          congr 1
          rw [rd, rd, List.map_map]
          apply List.map_congr_left
          intro p _
          simp [Loc.read, hl]
    · cases h
  · cases h

def symShort (s : Sym) (d : Bytes) : Prop :=
  d.length < s.size ∨ (s.size < d.length ∧ d.length < s.size + s.tail)
def symLong (s : Sym) (d : Bytes) : Prop := s.strict = true ∧ s.size + s.tail < d.length
instance (s : Sym) (d : Bytes) : Decidable (symShort s d) := by unfold symShort; infer_instance
instance (s : Sym) (d : Bytes) : Decidable (symLong s d) := by unfold symLong; infer_instance

/-- No location in the environment is optional, so the value does not depend on `size`. -/
def plain : Loc → Bool
  | .optional _ => false
  | _ => true

theorem plain_read {l : Loc} (h : plain l = true) (s s' : Nat) (d : Bytes) : l.read s d = l.read s' d := by
  cases l <;> first | rfl | cases h

theorem symSimple_plain {env env' : SEnv} {off off' : Nat} {s : Simple}
    (h : symSimple env off s = some (env', off')) (hp : ∀ p ∈ env, plain p.2 = true) :
    ∀ p ∈ env', plain p.2 = true := by
  cases s <;> simp only [symSimple] at h <;> (try split at h) <;>
    simp only [Option.some.injEq, Prod.mk.injEq, reduceCtorEq] at h <;>
    (obtain ⟨rfl, rfl⟩ := h) <;> intro p hp' <;>
    first
    | exact hp p hp'
    | (rcases List.mem_cons.1 hp' with rfl | h2
       · rfl
       · exact hp p h2)

theorem rd_size {env : SEnv} (hp : ∀ p ∈ env, plain p.2 = true) (s s' : Nat) (d : Bytes) :
    rd s d env = rd s' d env := by
  unfold rd
  apply List.map_congr_left
  intro p h
  rw [plain_read (hp p h) s s' d]

theorem assertEmpty_bind {α : Type} (a : α) (s : Bytes) :
    ((do Elgas.assertEmpty; return a : P α)) s = if s = [] then .ok (a, s) else .error .assertion := by
  cases s <;> rfl

theorem symStmts_size {env : SEnv} {off : Nat} {ss : List Stmt} {r : Sym}
    (h : symStmts env off ss = some r) : off ≤ r.size := by
  induction ss generalizing env off with
  | nil => simp only [symStmts, Option.some.injEq] at h; subst h; exact Nat.le_refl _
  | cons s ss ih =>
    unfold symStmts at h
    split at h
    · cases h; exact Nat.le_refl _
    · next heq =>
      injection heq with h1 h2
      subst h2
      split at h
      · next hh => exact Nat.le_trans (symSimple_mono hh) (ih h)
      · cases h
    · cases h; exact Nat.le_refl _
    · split at h
      · cases h; exact Nat.le_refl _
      · cases h
    · split at h
      · cases h; exact Nat.le_refl _
      · cases h
    · cases h

/-- What executing a body on `d` gives. -/
def symOutcome (r : Sym) (d : Bytes) : Res Env :=
  if symShort r d then .error .index
  else if symLong r d then .error .assertion
  else .ok (rd r.size d r.env)

theorem symOutcome_short {r : Sym} {d : Bytes} (h : symShort r d) : symOutcome r d = .error .index := by
  unfold symOutcome; rw [if_pos h]

theorem symOutcome_long {r : Sym} {d : Bytes} (h : ¬ symShort r d) (h' : symLong r d) :
    symOutcome r d = .error .assertion := by
  unfold symOutcome; rw [if_neg h, if_pos h']

theorem symOutcome_ok {r : Sym} {d : Bytes} (h : ¬ symShort r d) (h' : ¬ symLong r d) :
    symOutcome r d = .ok (rd r.size d r.env) := by
  unfold symOutcome; rw [if_neg h, if_neg h']

theorem symStmts_sound {env : SEnv} {off : Nat} {ss : List Stmt} {r : Sym} (d : Bytes)
    (h : symStmts env off ss = some r) (hp : ∀ p ∈ env, plain p.2 = true) (hoff : off ≤ d.length) :
    (execStmts (rd r.size d env) ss (d.drop off)).map (·.1) = symOutcome r d := by
  induction ss generalizing env off with
  | nil =>
    simp only [symStmts, Option.some.injEq] at h
    subst h
    rw [symOutcome_ok (by simp only [symShort]; omega) (by simp [symLong])]
    rfl
  | cons s ss ih =>
    have hsz := symStmts_size h
    unfold symStmts at h
    split at h
    · next heq => cases heq
    · next s' rest heq =>
      injection heq with h1 h2
      subst h1 h2
      split at h
      · next env1 off1 hh =>
        have hex := symSimple_sound r.size d [] hh hoff
        simp only [List.append_nil] at hex
        have hm := symStmts_size h
        unfold execStmts
        rw [pbind_apply]
        show Except.map _ ((Simple.exec (rd r.size d env) s' (d.drop off)) >>= _) = _
        by_cases hl : off1 ≤ d.length
        · rw [hex.2.1 hl, bind_ok]
          exact ih h (symSimple_plain hh hp) hl
        · rw [hex.2.2 (by omega), bind_error, symOutcome_short (Or.inl (by omega))]
          rfl
      · cases h
    · -- assertEmpty
      next heq =>
      injection heq with h1 h2
      subst h1 h2
      injection h with h
      subst h
      unfold execStmts
      rw [pbind_apply]
      show Except.map _ ((do Elgas.assertEmpty; return (rd off d env) : P Env) (d.drop off) >>= _) = _
      rw [assertEmpty_bind]
      have hns : ¬ symShort ⟨env, off, 0, true⟩ d := by simp only [symShort]; omega
      by_cases hl : off < d.length
      · rw [if_neg (by rw [List.drop_eq_nil_iff]; omega), symOutcome_long hns ⟨rfl, by simpa using hl⟩]
        rfl
      · rw [if_pos (List.drop_eq_nil_of_le (by omega)), symOutcome_ok hns (by simp only [symLong]; omega)]
        rfl
    · next yes no heq =>
      injection heq with h1 h2
      subst h1 h2
      split at h
      · next t n ht =>
        injection h with h
        subst h
        obtain ⟨hn, ha, hb⟩ := symTail_sound d (rd off d env) ht hoff
        unfold execStmts
        rw [pbind_apply]
        dsimp only
        by_cases hs : off < d.length ∧ d.length < off + n
        · rw [ha hs.1 hs.2, symOutcome_short (Or.inr hs)]
          rfl
        · rw [hb (by omega), symOutcome_ok (by simp only [symShort]; omega) (by simp [symLong]), bind_ok,
            rd_append]
          rfl
      · cases h
    · next yes no heq =>
      injection heq with h1 h2
      subst h1 h2
      split at h
      · next t n ht =>
        injection h with h
        subst h
        obtain ⟨hn, ha, hb⟩ := symTail_sound d (rd off d env) ht hoff
        unfold execStmts
        rw [pbind_apply]
        dsimp only
        by_cases hs : off < d.length ∧ d.length < off + n
        · rw [ha hs.1 hs.2, symOutcome_short (Or.inr hs)]
          rfl
        · rw [hb (by omega), bind_ok]
          have hns : ¬ symShort ⟨(t.map fun p => (p.1, Loc.optional p.2)) ++ env, off, n, true⟩ d := by
            simp only [symShort]; omega
          unfold execStmts
          rw [pbind_apply]
          dsimp only
          generalize hE : rd off d (t.map fun p => (p.1, Loc.optional p.2)) ++ rd off d env = E'
          show Except.map _ ((do Elgas.assertEmpty; return E' : P Env) _ >>= _) = _
          rw [assertEmpty_bind]
          by_cases hl : off + n < d.length
          · rw [if_neg (by rw [if_neg (by omega), List.drop_eq_nil_iff]; omega),
              symOutcome_long hns ⟨rfl, hl⟩]
            rfl
          · rw [if_pos, symOutcome_ok hns (by simp only [symLong]; omega), bind_ok, rd_append, hE]
            · rfl
            · apply List.drop_eq_nil_of_le
              split <;> omega
      · cases h
    · cases h

/-! ### Whole classes -/

/-- Symbolic keyword arguments of the final `return cls(...)`. -/
def symKwargs (env : SEnv) (kwargs : List (Attr × Attr)) : Option SEnv :=
  kwargs.mapM fun p => (env.lookup p.2).map fun l => (p.1, l)

theorem symKwargs_sound {env kw : SEnv} {kwargs : List (Attr × Attr)} (size : Nat) (d : Bytes)
    (h : symKwargs env kwargs = some kw) :
    (kwargs.mapM fun p => do
      let v ← Env.get (rd size d env) p.2
      return (p.1, v) : Res (List (Attr × Val))) = .ok (rd size d kw) := by
  unfold symKwargs at h
  induction kwargs generalizing kw with
  | nil => simp at h; subst h; rfl
  | cons p ps ih =>
    rw [List.mapM_cons] at h ⊢
    cases hl : env.lookup p.2 with
    | none => rw [hl] at h; simp at h
    | some l =>
      rw [hl] at h
      cases hr : (ps.mapM fun p => (env.lookup p.2).map fun l => (p.1, l)) with
      | none => rw [hr] at h; simp at h
      | some kw' =>
        rw [hr] at h
        simp at h
        subst h
        rw [ih hr]
        have : Env.get (rd size d env) p.2 = .ok (l.read size d) := by
          unfold Env.get rd
          rw [lookup_map_snd (fun l => Loc.read size d l), hl]; rfl
        rw [this]
        rfl

/-- The fields in the order of the constructor. -/
def symFields (kw : SEnv) (fields : List Attr) : Option SEnv :=
  fields.mapM fun f => (kw.lookup f).map fun l => (f, l)

theorem symFields_sound {kw fs : SEnv} {fields : List Attr} (size : Nat) (d : Bytes)
    (h : symFields kw fields = some fs) :
    fields.mapM (kwArg (rd size d kw)) = .ok (rd size d fs) := by
  unfold symFields at h
  induction fields generalizing fs with
  | nil => simp at h; subst h; rfl
  | cons f fields ih =>
    rw [List.mapM_cons] at h ⊢
    cases hl : kw.lookup f with
    | none => rw [hl] at h; simp at h
    | some l =>
      rw [hl] at h
      cases hr : (fields.mapM fun f => (kw.lookup f).map fun l => (f, l)) with
      | none => rw [hr] at h; simp at h
      | some fs' =>
        rw [hr] at h
        simp at h
        subst h
        rw [ih hr]
        have : kwArg (rd size d kw) f = .ok (f, l.read size d) := by
          unfold kwArg rd
          rw [lookup_map_snd (fun l => Loc.read size d l), hl]; rfl
        rw [this]
        rfl

/-- Everything but the constructor call: sizes and symbolic keyword arguments. -/
def symBody (c : ParamClass) : Option Layout :=
  match c.body with
  | none => none
  | some ss => match symStmts [] 0 ss with
    | none => none
    | some r => match symKwargs r.env c.kwargs with
      | none => none
      | some kw => some ⟨r.size, r.tail, r.strict, kw⟩

theorem symBody_sound {c : ParamClass} {L : Layout} (h : symBody c = some L) (d : Bytes) :
    c.fromBytes d = if L.TooShort d then .error .index
      else if L.TooLong d then .error .assertion
      else construct c (L.values d) := by
  unfold symBody at h
  split at h
  · cases h
  · next ss hb =>
    split at h
    · cases h
    · next r hr =>
      split at h
      · cases h
      · next kw hk =>
        injection h with h
        subst h
        have hs := symStmts_sound d hr (by simp) (Nat.zero_le _)
        unfold ParamClass.fromBytes
        rw [hb]
        dsimp only
        have hrun : P.run (execStmts [] ss) d = symOutcome r d := hs
        rw [hrun]
        unfold symOutcome
        have e1 : symShort r d ↔ Layout.TooShort ⟨r.size, r.tail, r.strict, kw⟩ d := Iff.rfl
        have e2 : symLong r d ↔ Layout.TooLong ⟨r.size, r.tail, r.strict, kw⟩ d := Iff.rfl
        by_cases h1 : symShort r d
        · rw [if_pos h1, if_pos (e1.1 h1)]; rfl
        · rw [if_neg h1, if_neg (fun h => h1 (e1.2 h))]
          by_cases h2 : symLong r d
          · rw [if_pos h2, if_pos (e2.1 h2)]; rfl
          · rw [if_neg h2, if_neg (fun h => h2 (e2.2 h)), bind_ok, symKwargs_sound r.size d hk, bind_ok]
            rfl

/-- A class whose constructor gets every argument. -/
def symClass (c : ParamClass) : Option Layout :=
  match symBody c with
  | none => none
  | some L => if L.fields.any (fun p => !c.fields.contains p.1) then none
    else match symFields L.fields c.fields with
      | none => none
      | some fs => some ⟨L.size, L.tail, L.strict, fs⟩

theorem any_rd (size : Nat) (d : Bytes) (kw : SEnv) (q : Attr → Bool) :
    (rd size d kw).any (fun p => q p.1) = kw.any fun p => q p.1 := by
  unfold rd
  rw [List.any_map]
  rfl

theorem symClass_sound {c : ParamClass} {L : Layout} (h : symClass c = some L) (d : Bytes) :
    c.fromBytes d = if L.TooShort d then .error .index
      else if L.TooLong d then .error .assertion
      else .ok ⟨c.cls, L.values d⟩ := by
  unfold symClass at h
  split at h
  · cases h
  · next L' hL =>
    split at h
    · cases h
    · next ha =>
      split at h
      · cases h
      · next fs hf =>
        injection h with h
        subst h
        rw [symBody_sound hL d]
        have e1 : L'.TooShort d ↔ Layout.TooShort ⟨L'.size, L'.tail, L'.strict, fs⟩ d := Iff.rfl
        have e2 : L'.TooLong d ↔ Layout.TooLong ⟨L'.size, L'.tail, L'.strict, fs⟩ d := Iff.rfl
        by_cases h1 : L'.TooShort d
        · rw [if_pos h1, if_pos (e1.1 h1)]
        · rw [if_neg h1, if_neg (fun h => h1 (e1.2 h))]
          by_cases h2 : L'.TooLong d
          · rw [if_pos h2, if_pos (e2.1 h2)]
          · rw [if_neg h2, if_neg (fun h => h2 (e2.2 h))]
            unfold construct
            have hv : L'.values d = rd L'.size d L'.fields := rfl
            rw [hv, any_rd L'.size d L'.fields (fun a => !c.fields.contains a), if_neg ha,
              symFields_sound L'.size d hf]
            rfl

/-- A class whose constructor misses an argument. -/
theorem construct_missing {c : ParamClass} {kw : List (Attr × Val)} {f : Attr} (hf : f ∈ c.fields)
    (h : kw.lookup f = none) : construct c kw = .error .type := by
  unfold construct
  split
  · rfl
  · have : ∀ fields : List Attr, f ∈ fields →
        fields.mapM (kwArg kw) = .error .type := by
      intro fields
      induction fields with
      | nil => simp
      | cons g gs ih =>
        intro hm
        rw [List.mapM_cons]
        cases hg : kw.lookup g with
        | none =>
          have hk : kwArg kw g = .error .type := by unfold kwArg; rw [hg]; rfl
          rw [hk]; rfl
        | some v =>
          have hk : kwArg kw g = .ok (g, v) := by unfold kwArg; rw [hg]
          rw [hk]
          have : f ∈ gs := by
            rcases List.mem_cons.1 hm with rfl | h2
            · rw [h] at hg; cases hg
            · exact h2
          rw [ih this]; rfl
    rw [this c.fields hf]; rfl

end Elgas
