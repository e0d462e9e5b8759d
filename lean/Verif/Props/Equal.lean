import Verif.Lemmas.Equal
import Verif.Props.Schemas
import Verif.Props.Responses
namespace Elgas
open Spec

theorem allEq_map {α β γ : Type} (eq : α → β → Bool) (f : γ → α) (g : γ → β) (l : List γ) :
    allEq eq (l.map f) (l.map g) = true ↔ ∀ x ∈ l, eq (f x) (g x) = true := by
  induction l with
  | nil => simp [allEq]
  | cons a l ih => simp [allEq, ih]

theorem allEq_iff {α β : Type} (eq : α → β → Bool) (l : List α) (r : List β) :
    allEq eq l r = true ↔ l.length = r.length ∧ ∀ (i : Nat) (a : α) (b : β), l[i]? = some a → r[i]? = some b → eq a b = true := by
  induction l generalizing r with
  | nil => cases r <;> simp [allEq]
  | cons a l ih =>
    cases r with
    | nil => simp [allEq]
    | cons b r =>
      simp only [allEq, Bool.and_eq_true, ih, List.length_cons, Nat.add_right_cancel_iff]
      constructor
      · rintro ⟨h1, h2, h3⟩
        refine ⟨h2, fun i x y hx hy => ?_⟩
        cases i with
        | zero => simp at hx hy; subst hx hy; exact h1
        | succ i => simp at hx hy; exact h3 i x y hx hy
      · rintro ⟨h2, h3⟩
        exact ⟨h3 0 a b rfl rfl, h2, fun i x y hx hy => h3 (i + 1) x y (by simpa using hx) (by simpa using hy)⟩

theorem bytesAt_length {d : Bytes} {off w : Nat} (h : off + w ≤ d.length) : (bytesAt d off w).length = w := by
  unfold bytesAt; simp; omega

theorem leAt_iff {d d' : Bytes} {off w : Nat} (h : off + w ≤ d.length) (h' : off + w ≤ d'.length) :
    leAt d off w = leAt d' off w ↔ bytesAt d off w = bytesAt d' off w := by
  rw [leAt_eq, leAt_eq]
  constructor
  · intro hh
    exact fromLE_inj ((bytesAt_length h).trans (bytesAt_length h').symm) hh
  · intro hh
    exact congrArg fromLE hh

theorem hexDigit_inj : ∀ a b : UInt8, ["0123456789abcdef".toList.getD (a.toNat / 16) '?', "0123456789abcdef".toList.getD (a.toNat % 16) '?'] =
    ["0123456789abcdef".toList.getD (b.toNat / 16) '?', "0123456789abcdef".toList.getD (b.toNat % 16) '?'] → a = b := by
  have key : ∀ i j : Fin 16, "0123456789abcdef".toList.getD i.1 '?' = "0123456789abcdef".toList.getD j.1 '?' → i = j := by
    decide +kernel
  intro a b h
  have ha := a.toNat_lt
  have hb := b.toNat_lt
  injection h with h1 h2
  injection h2 with h2 _
  have e1 := key ⟨a.toNat / 16, by omega⟩ ⟨b.toNat / 16, by omega⟩ h1
  have e2 := key ⟨a.toNat % 16, by omega⟩ ⟨b.toNat % 16, by omega⟩ h2
  have e1' : a.toNat / 16 = b.toNat / 16 := congrArg Fin.val e1
  have e2' : a.toNat % 16 = b.toNat % 16 := congrArg Fin.val e2
  exact UInt8.toNat_inj.1 (by omega)

theorem hexText_inj {a b : Bytes} (h : hexText a = hexText b) : a = b := by
  induction a generalizing b with
  | nil =>
    cases b with
    | nil => rfl
    | cons x b => exact absurd h (by unfold hexText; simp)
  | cons x a ih =>
    cases b with
    | nil => exact absurd h (by unfold hexText; simp)
    | cons y b =>
      unfold hexText at h
      rw [List.flatMap_cons, List.flatMap_cons] at h
      obtain ⟨h1, h2⟩ := List.append_inj h rfl
      rw [hexDigit_inj x y h1, ih h2]

theorem dotted_inj {a b : Bytes} (ha : a.length = 4) (hb : b.length = 4) (h : dotted a = dotted b) : a = b :=
  C20_injective a b _ (ip_eq a ha) (by rw [ip_eq b hb, h])

/-- The location ends before `n`. -/
def before (n : Nat) : Loc → Bool
  | .uint off w | .hex off w | .text off w => off + w ≤ n
  | .ip off | .float32 off => off + 4 ≤ n
  | .float32Rounded off k => off + 4 ≤ n && k = 7
  | .float64 off => off + 8 ≤ n
  | .gas off => off + 92 ≤ n
  | .hexRows off k w => off + w * k ≤ n
  | .flag off _ | .bits off _ _ => off < n
  | .optional _ => false

def within (size tail : Nat) : Loc → Bool
  | .optional l => before (size + tail) l
  | l => before size l

theorem layout_within {t : ObjType} {d : Bytes} {L : Layout} (hL : layout (classFor t) d = some L) :
    ∀ p ∈ L.fields, within L.size L.tail p.2 = true := by
  by_cases hw : t = .TIME_WINDOW
  · subst hw
    have : timeWindowLayout (d.getD 34 0).toNat = L := by injection hL
    subst this
    generalize (d.getD 34 0).toNat = n
    intro p hp
    simp only [timeWindowLayout, List.mem_cons, List.not_mem_nil, or_false] at hp
    rcases hp with rfl | rfl | rfl | rfl | rfl | rfl | rfl | rfl | rfl | rfl | rfl | rfl | rfl | rfl <;>
      (simp [within, before, timeWindowLayout] <;> first | omega | exact decide_eq_true (by omega))
  · rw [layout_eq t hw d] at hL
    have key : ∀ t ∈ ObjType.all, (match layoutOf (classFor t) with
        | some L => L.fields.all fun p => within L.size L.tail p.2
        | none => true) = true := by decide +kernel
    have := key t (objType_mem_all t)
    rw [hL] at this
    exact List.all_eq_true.1 this

theorem bit_iff (n k : Nat) : (n / 2 ^ k % 2 = 1) ↔ n.testBit k = true := by
  rw [Nat.testBit_eq_decide_div_mod_eq]; simp

theorem bits_iff (n m low k : Nat) : n / 2 ^ low % 2 ^ k = m / 2 ^ low % 2 ^ k ↔
    ∀ i, i < k → n.testBit (low + i) = m.testBit (low + i) := by
  constructor
  · intro h i hi
    have := congrArg (fun x => x.testBit i) h
    simp only [Nat.testBit_mod_two_pow, hi, decide_true, Bool.true_and, Nat.testBit_div_two_pow] at this
    rwa [Nat.add_comm i low] at this
  · intro h
    apply Nat.eq_of_testBit_eq
    intro i
    simp only [Nat.testBit_mod_two_pow, Nat.testBit_div_two_pow]
    by_cases hi : i < k
    · rw [Nat.add_comm i low, h i hi]
    · simp [hi]

theorem leAt4 (d : Bytes) (off : Nat) : leAt d off 4 < 2 ^ 32 := leAt_lt d off 4
theorem leAt8 (d : Bytes) (off : Nat) : leAt d off 8 < 2 ^ 64 := leAt_lt d off 8

/-- At a location inside both bodies `==` of the values is agreement of the bodies. -/
theorem read_before {n size : Nat} {d d' : Bytes} (hd : n ≤ d.length) (hd' : n ≤ d'.length) {l : Loc} (h : before n l = true) :
    Val.eq (l.read size d) (l.read size d') = true ↔ Agree size d d' l := by
  cases l with
  | uint off w =>
    simp only [before, decide_eq_true_eq] at h
    simp only [Loc.read, Val.eq, Agree, decide_eq_true_eq]
    exact leAt_iff (by omega) (by omega)
  | flag off k =>
    simp only [Loc.read, Val.eq, Agree, decide_eq_true_eq]
    have a := bit_iff (d.getD off 0).toNat k
    have b := bit_iff (d'.getD off 0).toNat k
    rw [Nat.testBit_eq_decide_div_mod_eq, Nat.testBit_eq_decide_div_mod_eq]
  | bits off low k =>
    simp only [Loc.read, Val.eq, Agree, decide_eq_true_eq]
    exact bits_iff _ _ _ _
  | text off w => simp only [Loc.read, Val.eq, Agree, decide_eq_true_eq]
  | hex off w =>
    simp only [Loc.read, Val.eq, Agree, decide_eq_true_eq]
    exact ⟨hexText_inj, fun h => by rw [h]⟩
  | ip off =>
    simp only [before, decide_eq_true_eq] at h
    simp only [Loc.read, Val.eq, Agree, decide_eq_true_eq]
    exact ⟨dotted_inj (bytesAt_length (by omega)) (bytesAt_length (by omega)), fun h => by rw [h]⟩
  | float32 off => exact floatEq_single (leAt4 _ _) (leAt4 _ _)
  | float64 off => exact floatEq_iff (leAt8 _ _) (leAt8 _ _)
  | float32Rounded off k =>
    simp only [before, Bool.and_eq_true, decide_eq_true_eq] at h
    obtain ⟨_, rfl⟩ := h
    exact floatEq_rounded (leAt4 _ _) (leAt4 _ _)
  | gas off =>
    simp only [Loc.read, Val.eq, List.map_map]
    rw [allEq_map]
    simp only [Function.comp_def, Agree]
    have key : ∀ o : Nat, floatEq (PyFloat.single (leAt d o 4)).bits64 (PyFloat.single (leAt d' o 4)).bits64 = true ↔
        Same32 (leAt d o 4) (leAt d' o 4) := fun o => floatEq_single (leAt4 _ _) (leAt4 _ _)
    simp only [key]
    have len : gasComponents.length = 23 := rfl
    constructor
    · intro hh i hi
      have hi' : i < gasComponents.length := by rw [len]; exact hi
      exact hh (gasComponents[i], i) (List.mem_zipIdx_iff_getElem?.2 (List.getElem?_eq_getElem hi'))
    · rintro hh ⟨c, i⟩ hm
      have hg := List.mem_zipIdx_iff_getElem?.1 hm
      have hi := (List.getElem?_eq_some_iff.1 hg).1
      rw [len] at hi
      exact hh i hi
  | hexRows off k w =>
    simp only [Loc.read, Val.eq]
    rw [allEq_map]
    simp only [List.mem_range, decide_eq_true_eq, Agree]
    exact ⟨fun hh i hi => hexText_inj (hh i hi), fun hh i hi => by rw [hh i hi]⟩
  | optional l => cases h

theorem read_none {l : Loc} {n size : Nat} {d : Bytes} (h : before n l = true) :
    Val.eq .none (l.read size d) = false ∧ Val.eq (l.read size d) .none = false := by
  cases l with
  | optional l => cases h
  | _ => exact ⟨rfl, rfl⟩

theorem read_within {L : Layout} {d d' : Bytes} (hs : ¬ L.TooShort d) (hs' : ¬ L.TooShort d') {l : Loc}
    (h : within L.size L.tail l = true) :
    Val.eq (l.read L.size d) (l.read L.size d') = true ↔ Agree L.size d d' l := by
  unfold Layout.TooShort at hs hs'
  cases l with
  | optional l =>
    simp only [within] at h
    simp only [Loc.read, Agree]
    by_cases e : d.length = L.size <;> by_cases e' : d'.length = L.size
    · simp [e, e', Val.eq]
    · rw [if_pos e, if_neg e', (read_none h).1]
      simp [e, e']
    · rw [if_neg e, if_pos e', (read_none h).2]
      simp [e, e']
    · rw [if_neg e, if_neg e', read_before (n := L.size + L.tail) (by omega) (by omega) h]
      simp [e, e']
  | _ => exact read_before (n := L.size) (by omega) (by omega) h

theorem not_short {t : ObjType} (ht : Parsable t) {d : Bytes} {L : Layout} {o : PObj}
    (hL : layout (classFor t) d = some L) (h : parameterFromBytes t d = .ok o) : ¬ L.TooShort d := by
  rw [outcome_of_layout ht hL] at h
  split at h
  · cases h
  · assumption

/-- C101. Two objects of the same type are equal exactly when the bodies they were read from say the same. -/
theorem C101_same_type (t : ObjType) (ht : Parsable t) (d d' : Bytes) (o o' : PObj)
    (h : parameterFromBytes t d = .ok o) (h' : parameterFromBytes t d' = .ok o') :
    o.eq o' = true ↔ SaysSame t d d' := by
  obtain ⟨L, hL, _⟩ := C60_outcome t ht d
  obtain ⟨L', hL', _⟩ := C60_outcome t ht d'
  obtain ⟨c1, c2⟩ := C59_values t ht d L o hL h
  obtain ⟨c1', c2'⟩ := C59_values t ht d' L' o' hL' h'
  have s := not_short ht hL h
  have s' := not_short ht hL' h'
  have main : L' = L → (o.eq o' = true ↔ SaysSame t d d') := by
    rintro rfl
    unfold PObj.eq
    rw [c1, c1', c2, c2', List.map_map, List.map_map]
    simp only [decide_true, Bool.true_and]
    rw [allEq_map]
    constructor
    · intro hh
      exact ⟨L', hL, hL', fun p hp => (read_within s s' (layout_within hL p hp)).1 (hh p hp)⟩
    · rintro ⟨M, hM, _, hh⟩ p hp
      rw [hL] at hM; cases hM
      exact (read_within s s' (layout_within hL p hp)).2 (hh p hp)
  by_cases hw : t = .TIME_WINDOW
  · subst hw
    by_cases e : L' = L
    · exact main e
    · have e1 : timeWindowLayout (d.getD 34 0).toNat = L := by injection hL
      have e1' : timeWindowLayout (d'.getD 34 0).toNat = L' := by injection hL'
      have hne : ¬ SaysSame .TIME_WINDOW d d' := by
        rintro ⟨M, hM, hM', _⟩
        rw [hL] at hM; rw [hL'] at hM'
        injection hM with a; injection hM' with b
        exact e (b.trans a.symm)
      refine ⟨fun hh => absurd ?_ e, fun hh => absurd hh hne⟩
      -- the number of rows is an attribute
      unfold PObj.eq at hh
      rw [c2, c2', ← e1, ← e1'] at hh
      have hh' := (Bool.and_eq_true_iff.1 hh).2
      have hx := ((allEq_iff _ _ _).1 hh').2 9 (.int (leAt d 34 1)) (.int (leAt d' 34 1)) rfl rfl
      simp only [Val.eq, decide_eq_true_eq] at hx
      have one : ∀ d : Bytes, leAt d 34 1 = (d.getD 34 0).toNat := by
        intro d
        unfold leAt
        rw [List.getD_eq_getElem?_getD]
        cases hd : d.drop 34 with
        | nil =>
          have : d.length ≤ 34 := by simpa using hd
          rw [List.getElem?_eq_none this]; rfl
        | cons x r =>
          have : d[34]? = some x := by
            have := List.getElem?_drop (xs := d) (i := 34) (j := 0)
            rw [hd] at this
            simpa using this.symm
          rw [this]
          simp
      rw [one, one] at hx
      rw [← e1, ← e1', hx]
  · rw [layout_eq t hw] at hL hL'
    rw [hL] at hL'
    exact main (by injection hL' with e; exact e.symm)

theorem classFor_inj : ∀ t ∈ ObjType.all, ∀ t' ∈ ObjType.all, classFor t = classFor t' → t = t' := by decide +kernel

/-- C101. Objects of different types are never equal. -/
theorem C101_types (t t' : ObjType) (ht : Parsable t) (ht' : Parsable t') (d d' : Bytes) (o o' : PObj)
    (h : parameterFromBytes t d = .ok o) (h' : parameterFromBytes t' d' = .ok o') (he : o.eq o' = true) : t = t' := by
  obtain ⟨L, hL, _⟩ := C60_outcome t ht d
  obtain ⟨L', hL', _⟩ := C60_outcome t' ht' d'
  have c1 := (C59_values t ht d L o hL h).1
  have c1' := (C59_values t' ht' d' L' o' hL' h').1
  unfold PObj.eq at he
  have := of_decide_eq_true (Bool.and_eq_true_iff.1 he).1
  rw [c1, c1'] at this
  exact classFor_inj t (objType_mem_all t) t' (objType_mem_all t') this

/-! ### NaN -/

theorem floatEq_self (b : Nat) : floatEq b b = true ↔ nan64 b = false := by
  unfold floatEq
  cases h : nan64 b <;> simp

theorem isNaN_iff (x : PyFloat) (hd : ∀ b d, x = .rounded b d → d ≤ 300) : nan64 x.bits64 = true ↔ IsNaN x := by
  have single : ∀ b, nan64 (widen b) = true ↔ 0x7F800000 < b % 2 ^ 31 := by
    intro b
    have fin := finite32_iff b
    cases hf : finite32 b with
    | true =>
      have r := fin.2 hf
      unfold nan64
      rw [show finite64 (widen b) = true from (C93_single b hf).2.1]
      simp; omega
    | false =>
      have r : ¬ b % 2 ^ 31 < 0x7F800000 := fun hh => by rw [fin.1 hh] at hf; cases hf
      obtain ⟨_, w2, _, w4⟩ := widen_infinite hf
      unfold nan64
      rw [w2]
      simp only [Bool.not_false, Bool.true_and, decide_eq_true_eq, ne_eq, w4]
      omega
  cases x with
  | single b => exact single b
  | double b => exact nan64_iff b
  | rounded b d =>
    show _ ↔ 0x7F800000 < b % 2 ^ 31
    cases hf : finite32 b with
    | true =>
      obtain ⟨k, _, h2, _⟩ := C93_rounded b d hf (hd b d rfl)
      have r := (finite32_iff b).2 hf
      unfold nan64
      rw [h2.2.1]
      simp; omega
    | false =>
      rw [(C93_not_finite b d hf).1]
      exact single b

theorem eq_self_iff (v : Val) : Val.eq v v = true ↔ ∀ x ∈ floatsOf v, nan64 x.bits64 = false := by
  cases v with
  | float x => simp [Val.eq, floatsOf, floatEq_self]
  | strs l => simp only [Val.eq, floatsOf]; rw [← List.map_id l, allEq_map]; simp
  | gas l =>
    simp only [Val.eq, floatsOf]
    rw [allEq_map]
    simp only [floatEq_self, List.mem_map]
    exact ⟨fun h x ⟨p, hp, e⟩ => e ▸ h p hp, fun h p hp => h p.2 ⟨p, hp, rfl⟩⟩
  | _ => simp [Val.eq, floatsOf]

theorem parsed_digits {t : ObjType} (ht : Parsable t) {d : Bytes} {o : PObj} (h : parameterFromBytes t d = .ok o)
    {p : Attr × Val} (hp : p ∈ o.attrs) {x : PyFloat} (hx : x ∈ floatsOf p.2) : ∀ b k, x = .rounded b k → k ≤ 300 := by
  rintro b k rfl
  rcases C93_parsed t ht d o h p.1 p.2 hp _ hx with ⟨_, h⟩ | ⟨_, h⟩ | ⟨_, _, h⟩
  · cases h
  · cases h
  · injection h with _ h; omega

/-- No number of the object is a NaN, by the float objects. -/
theorem hasNaN_iff {t : ObjType} (ht : Parsable t) {d : Bytes} {o : PObj} (h : parameterFromBytes t d = .ok o) :
    ¬ HasNaN o ↔ ∀ p ∈ o.attrs, ∀ x ∈ floatsOf p.2, nan64 x.bits64 = false := by
  constructor
  · intro hh p hp x hx
    cases hn : nan64 x.bits64 with
    | false => rfl
    | true => exact absurd ⟨p, hp, x, hx, (isNaN_iff x (parsed_digits ht h hp hx)).1 hn⟩ hh
  · rintro hh ⟨p, hp, x, hx, hn⟩
    rw [← isNaN_iff x (parsed_digits ht h hp hx), hh p hp x hx] at hn
    cases hn

theorem PObj.eq_self_iff (o : PObj) : o.eq o = true ↔ ∀ p ∈ o.attrs, ∀ x ∈ floatsOf p.2, nan64 x.bits64 = false := by
  unfold PObj.eq
  simp only [decide_true, Bool.true_and]
  rw [allEq_map]
  simp only [Elgas.eq_self_iff]

/-- C101. Reading the same record again gives an equal object, unless some number in it is a NaN: then every reading differs
from every other. -/
theorem C101_again (t : ObjType) (ht : Parsable t) (d : Bytes) (o o' : PObj)
    (h : parameterFromBytes t d = .ok o) (h' : parameterFromBytes t d = .ok o') :
    o.eq o' = true ↔ ¬ HasNaN o := by
  rw [h] at h'
  injection h' with h'
  subst h'
  rw [PObj.eq_self_iff, hasNaN_iff ht h]

/-! ### An equivalence, NaN aside -/

/-- The number a value is. -/
def numKey : Val → Option (Sum Rat Nat)
  | .int n => some (.inl n)
  | .bool b => some (.inl b.toNat)
  | .float x => if nan64 x.bits64 then none else some (if finite64 x.bits64 then .inl (value64 x.bits64) else .inr x.bits64)
  | _ => none

def isNum : Val → Bool
  | .int _ | .bool _ | .float _ => true
  | _ => false

theorem finite_not_nan {b : Nat} (h : finite64 b = true) : nan64 b = false := by unfold nan64; rw [h]; rfl

theorem intFloat_key (n a : Nat) : intFloatEq n a = true ↔
    (if nan64 a then none else some (if finite64 a then Sum.inl (value64 a) else Sum.inr a)) = some (Sum.inl (n : Rat)) := by
  unfold intFloatEq
  cases hf : finite64 a with
  | true => rw [finite_not_nan hf]; simp
  | false => simp

theorem num_eq {v w : Val} (hv : isNum v = true) (hw : isNum w = true) :
    Val.eq v w = true ↔ numKey v ≠ none ∧ numKey v = numKey w := by
  cases v <;> cases hv <;> cases w <;> cases hw <;> simp only [Val.eq, numKey]
  · simp
  · simp
  · rw [intFloat_key, eq_comm]; simp
  · simp
  · rename_i b c; cases b <;> cases c <;> decide
  · rw [intFloat_key, eq_comm]; simp
  · rw [intFloat_key]
    constructor
    · intro h; rw [h]; simp
    · exact fun h => h.2
  · rw [intFloat_key]
    constructor
    · intro h; rw [h]; simp
    · exact fun h => h.2
  · rename_i x y
    unfold floatEq
    generalize x.bits64 = a
    generalize y.bits64 = b
    cases na : nan64 a <;> cases nb : nan64 b <;> cases fa : finite64 a <;> cases fb : finite64 b <;> simp
    · intro h; rw [h, fb] at fa; cases fa
    · intro h; rw [h, fb] at fa; cases fa

theorem num_other {v w : Val} (hv : isNum v = true) (hw : isNum w = false) : Val.eq v w = false ∧ Val.eq w v = false := by
  cases v <;> cases hv <;> cases w <;> first | cases hw; done | exact ⟨rfl, rfl⟩

theorem allEq_symm {α : Type} {eq : α → α → Bool} (hs : ∀ a b, eq a b = eq b a) (l r : List α) : allEq eq l r = allEq eq r l := by
  induction l generalizing r with
  | nil => cases r <;> rfl
  | cons a l ih =>
    cases r with
    | nil => rfl
    | cons b r => simp only [allEq]; rw [hs a b, ih r]

theorem allEq_trans {α : Type} {eq : α → α → Bool} (ht : ∀ a b c, eq a b = true → eq b c = true → eq a c = true)
    (l m r : List α) (h1 : allEq eq l m = true) (h2 : allEq eq m r = true) : allEq eq l r = true := by
  induction l generalizing m r with
  | nil =>
    cases m with
    | nil => exact h2
    | cons => cases h1
  | cons a l ih =>
    cases m with
    | nil => cases h1
    | cons b m =>
      cases r with
      | nil => cases h2
      | cons c r =>
        simp only [allEq, Bool.and_eq_true] at h1 h2 ⊢
        exact ⟨ht a b c h1.1 h2.1, ih m r h1.2 h2.2⟩

theorem bool_eq_of_iff {a b : Bool} (h : a = true ↔ b = true) : a = b := by cases a <;> cases b <;> simp_all

theorem float_symm (x y : PyFloat) : floatEq x.bits64 y.bits64 = floatEq y.bits64 x.bits64 := by
  have h1 := num_eq (v := .float x) (w := .float y) rfl rfl
  have h2 := num_eq (v := .float y) (w := .float x) rfl rfl
  refine bool_eq_of_iff (h1.trans (Iff.trans ?_ h2.symm))
  exact ⟨fun h => ⟨h.2 ▸ h.1, h.2.symm⟩, fun h => ⟨h.2 ▸ h.1, h.2.symm⟩⟩

theorem float_trans (x y z : PyFloat) (a : floatEq x.bits64 y.bits64 = true) (b : floatEq y.bits64 z.bits64 = true) :
    floatEq x.bits64 z.bits64 = true := by
  have h1 := (num_eq (v := .float x) (w := .float y) rfl rfl).1 a
  have h2 := (num_eq (v := .float y) (w := .float z) rfl rfl).1 b
  exact (num_eq (v := .float x) (w := .float z) rfl rfl).2 ⟨h1.1, h1.2.trans h2.2⟩

theorem Val.eq_symm (v w : Val) : v.eq w = w.eq v := by
  cases hv : isNum v <;> cases hw : isNum w
  · cases v <;> cases hv <;> cases w <;> cases hw <;> first
      | rfl
      | (simp only [Val.eq]; exact decide_eq_decide.2 eq_comm)
      | (simp only [Val.eq]; exact allEq_symm (fun a b => decide_eq_decide.2 eq_comm) _ _)
      | (simp only [Val.eq]; exact allEq_symm float_symm _ _)
  · rw [(num_other hw hv).1, (num_other hw hv).2]
  · rw [(num_other hv hw).1, (num_other hv hw).2]
  · refine bool_eq_of_iff ((num_eq hv hw).trans (Iff.trans ?_ (num_eq hw hv).symm))
    exact ⟨fun h => ⟨h.2 ▸ h.1, h.2.symm⟩, fun h => ⟨h.2 ▸ h.1, h.2.symm⟩⟩

theorem Val.eq_trans (u v w : Val) (h1 : u.eq v = true) (h2 : v.eq w = true) : u.eq w = true := by
  cases hu : isNum u <;> cases hv : isNum v <;> cases hw : isNum w
  · cases u <;> cases hu <;> cases v <;> cases hv <;> cases w <;> cases hw <;> first
      | cases h1; done
      | cases h2; done
      | rfl
      | (simp only [Val.eq, decide_eq_true_eq] at h1 h2 ⊢; exact h1.trans h2)
      | (simp only [Val.eq] at h1 h2 ⊢
         exact allEq_trans (fun a b c h k => decide_eq_true ((of_decide_eq_true h).trans (of_decide_eq_true k))) _ _ _ h1 h2)
      | (simp only [Val.eq] at h1 h2 ⊢; exact allEq_trans float_trans _ _ _ h1 h2)
  · rw [(num_other hw hv).2] at h2; cases h2
  · rw [(num_other hv hu).2] at h1; cases h1
  · rw [(num_other hv hu).2] at h1; cases h1
  · rw [(num_other hu hv).1] at h1; cases h1
  · rw [(num_other hu hv).1] at h1; cases h1
  · rw [(num_other hv hw).1] at h2; cases h2
  · have a := (num_eq hu hv).1 h1
    have b := (num_eq hv hw).1 h2
    exact (num_eq hu hw).2 ⟨a.1, a.2.trans b.2⟩

/-- C101. `==` does not depend on the order of the operands, … -/
theorem C101_symmetric (o p : PObj) : o.eq p = p.eq o := by
  unfold PObj.eq
  rw [allEq_symm Val.eq_symm]
  congr 1
  exact decide_eq_decide.2 eq_comm

/-- … and two objects equal to a third are equal. -/
theorem C101_transitive (o p q : PObj) (h1 : o.eq p = true) (h2 : p.eq q = true) : o.eq q = true := by
  unfold PObj.eq at *
  simp only [Bool.and_eq_true, decide_eq_true_eq] at *
  exact ⟨h1.1.trans h2.1, allEq_trans Val.eq_trans _ _ _ h1.2 h2.2⟩

/-! ### Lists of parameters -/

theorem parsed_parsable {t : ObjType} {d : Bytes} {o : PObj} (h : parameterFromBytes t d = .ok o) : Parsable t := by
  refine ⟨?_, ?_, ?_, ?_⟩ <;> rintro rfl
  · cases h
  · cases h
  · obtain ⟨L, _, e⟩ := C58_missing_arguments .DEVICE_ERROR (.inl rfl) d
    rw [h] at e
    split at e
    · cases e
    · split at e <;> cases e
  · obtain ⟨L, _, e⟩ := C58_missing_arguments .SUM_OF_ALARMS (.inr rfl) d
    rw [h] at e
    split at e
    · cases e
    · split at e <;> cases e

theorem listed_objects {w : Bytes} {r : Res (List PObj)} (h : Listed w r) :
    ∀ os, r = .ok os → ∀ o ∈ os, ∃ t d, parameterFromBytes t d = .ok o := by
  induction h with
  | done => rintro os ⟨⟩ o ho; cases ho
  | cutOff => intro os h; cases h
  | unknown => intro os h; cases h
  | unreadable => intro os h; cases h
  | later => intro os h; cases h
  | object w ty body rest t o os _ _ h1 _ ih =>
    rintro os' h o' ho
    injection h with h
    subst h
    rcases List.mem_cons.1 ho with rfl | ho
    · exact ⟨t, body, h1⟩
    · exact ih os rfl o' ho

/-- C101. Reading the same parameter list again gives an equal list, unless it holds a NaN. -/
theorem C101_list_again (w : Bytes) (os os' : List PObj) (h : parseParameters none (some w) = .ok os)
    (h' : parseParameters none (some w) = .ok os') : listEq os os' = true ↔ ∀ o ∈ os, ¬ HasNaN o := by
  rw [h] at h'
  injection h' with h'
  subst h'
  have hw : w ≠ [] := by rintro rfl; cases h
  have hl := listed_objects ((C57_every_input w hw _).1 h) os rfl
  unfold listEq
  have := allEq_map PObj.eq id id os
  rw [List.map_id] at this
  rw [this]
  constructor
  · intro hh o ho
    obtain ⟨t, d, hd⟩ := hl o ho
    exact (C101_again t (parsed_parsable hd) d o o hd hd).1 (hh o ho)
  · intro hh o ho
    obtain ⟨t, d, hd⟩ := hl o ho
    exact (C101_again t (parsed_parsable hd) d o o hd hd).2 (hh o ho)

theorem mapM_index {α β : Type} {f : α → Res β} {l : List α} {os : List β} (h : l.mapM f = .ok os) :
    os.length = l.length ∧ ∀ (i : Nat) (a : α) (b : β), l[i]? = some a → os[i]? = some b → f a = .ok b := by
  induction l generalizing os with
  | nil => cases h; exact ⟨rfl, fun i a b ha => by simp at ha⟩
  | cons x l ih =>
    rw [List.mapM_cons] at h
    obtain ⟨y, h1, h2⟩ := bind_eq_ok.1 h
    obtain ⟨ys, h3, h4⟩ := bind_eq_ok.1 h2
    cases h4
    obtain ⟨e, g⟩ := ih h3
    refine ⟨by simp [e], fun i a b ha hb => ?_⟩
    cases i with
    | zero => simp at ha hb; subst ha hb; exact h1
    | succ i => simp at ha hb; exact g i a b ha hb

theorem ofByte_value (t : ObjType) : ObjType.ofByte (UInt8.ofNat t.value) = .ok t := by
  have key : ∀ t ∈ ObjType.all, ObjType.ofByte (UInt8.ofNat t.value) = .ok t := by decide +kernel
  exact key t (objType_mem_all t)

/-- C101. Two parameter lists, as the parser returns them, are equal exactly when the device sent the same number of records,
of the same types, that say the same one by one. -/
theorem C101_lists (rs rs' : List (ObjType × Bytes)) (os os' : List PObj)
    (hl : ∀ r ∈ rs, r.2.length + 3 < 65536) (hl' : ∀ r ∈ rs', r.2.length + 3 < 65536)
    (h : parseParameters none (some (rs.flatMap fun r => record (UInt8.ofNat r.1.value, r.2))) = .ok os)
    (h' : parseParameters none (some (rs'.flatMap fun r => record (UInt8.ofNat r.1.value, r.2))) = .ok os') :
    listEq os os' = true ↔ rs.length = rs'.length ∧ ∀ (i : Nat) (t t' : ObjType) (d d' : Bytes),
      rs[i]? = some (t, d) → rs'[i]? = some (t', d') → t = t' ∧ SaysSame t d d' := by
  have split : ∀ (rs : List (ObjType × Bytes)) (os : List PObj), (∀ r ∈ rs, r.2.length + 3 < 65536) →
      parseParameters none (some (rs.flatMap fun r => record (UInt8.ofNat r.1.value, r.2))) = .ok os →
      os.length = rs.length ∧ ∀ (i : Nat) (r : ObjType × Bytes) (o : PObj), rs[i]? = some r → os[i]? = some o →
        parameterFromBytes r.1 r.2 = .ok o := by
    intro rs os hl h
    have hne : rs ≠ [] := by rintro rfl; cases h
    have e : (rs.flatMap fun r => record (UInt8.ofNat r.1.value, r.2)) =
        (rs.map fun r => (UInt8.ofNat r.1.value, r.2)).flatMap record := by
      rw [List.flatMap_map]
    rw [e, C56_split _ (by simpa using hne) (by
      intro r hr
      obtain ⟨q, hq, rfl⟩ := List.mem_map.1 hr
      exact hl q hq)] at h
    obtain ⟨h1, h2⟩ := mapM_index h
    refine ⟨by rw [h1, List.length_map], fun i r o hr ho => ?_⟩
    have := h2 i (UInt8.ofNat r.1.value, r.2) o (by rw [List.getElem?_map, hr]; rfl) ho
    rw [ofByte_value] at this
    exact this
  obtain ⟨n, g⟩ := split rs os hl h
  obtain ⟨n', g'⟩ := split rs' os' hl' h'
  unfold listEq
  rw [allEq_iff, n, n']
  constructor
  · rintro ⟨hn, hh⟩
    refine ⟨hn, fun i t t' d d' hr hr' => ?_⟩
    obtain ⟨lt, _⟩ := List.getElem?_eq_some_iff.1 hr
    have ho := List.getElem?_eq_getElem (l := os) (i := i) (by omega)
    have ho' := List.getElem?_eq_getElem (l := os') (i := i) (by omega)
    have p := g i _ _ hr ho
    have p' := g' i _ _ hr' ho'
    have he := hh i _ _ ho ho'
    have e := C101_types t t' (parsed_parsable p) (parsed_parsable p') d d' _ _ p p' he
    subst e
    exact ⟨rfl, (C101_same_type t (parsed_parsable p) d d' _ _ p p').1 he⟩
  · rintro ⟨hn, hh⟩
    refine ⟨hn, fun i o o' ho ho' => ?_⟩
    obtain ⟨lt, _⟩ := List.getElem?_eq_some_iff.1 ho
    have hr := List.getElem?_eq_getElem (l := rs) (i := i) (by omega)
    have hr' := List.getElem?_eq_getElem (l := rs') (i := i) (by omega)
    have p := g i _ _ hr ho
    have p' := g' i _ _ hr' ho'
    obtain ⟨e, s⟩ := hh i rs[i].1 rs'[i].1 rs[i].2 rs'[i].2 hr hr'
    rw [← e] at p'
    exact (C101_same_type _ (parsed_parsable p) _ _ _ _ p p').2 s

/-! ### Through a schema -/

theorem eq_of_pyEq {v w : Val} (h : pyEq v w = true) : Val.eq v w = true ↔ ∀ x ∈ floatsOf v, nan64 x.bits64 = false := by
  have same : v = w → (Val.eq v w = true ↔ ∀ x ∈ floatsOf v, nan64 x.bits64 = false) := by
    rintro rfl; exact eq_self_iff v
  unfold pyEq at h
  split at h
  · simp only [decide_eq_true_eq] at h
    simp [Val.eq, floatsOf, h]
  · simp only [decide_eq_true_eq] at h
    simp [Val.eq, floatsOf, h]
  · exact same (of_decide_eq_true h)

theorem sameObject_eq {o o' : PObj} (hn : (o.attrs.map (·.1)).Nodup) (h : SameObject o o') :
    o.eq o' = true ↔ ∀ p ∈ o.attrs, ∀ x ∈ floatsOf p.2, nan64 x.bits64 = false := by
  obtain ⟨h1, h2, h3⟩ := h
  have hn' : (o'.attrs.map (·.1)).Nodup := h2 ▸ hn
  have len : o.attrs.length = o'.attrs.length := by
    have := congrArg List.length h2; simpa using this
  have pair : ∀ (i : Nat) (p p' : Attr × Val), o.attrs[i]? = some p → o'.attrs[i]? = some p' → pyEq p.2 p'.2 = true := by
    intro i p p' hp hp'
    have e : p.1 = p'.1 := by
      have := congrArg (fun l => l[i]?) h2
      simp only [List.getElem?_map, hp, hp', Option.map_some] at this
      injection this
    obtain ⟨a, v⟩ := p
    obtain ⟨a', v'⟩ := p'
    dsimp only at e
    subst e
    exact h3 a v v' (lookup_of_mem hn (List.mem_of_getElem? hp)) (lookup_of_mem hn' (List.mem_of_getElem? hp'))
  unfold PObj.eq
  rw [h1]
  simp only [decide_true, Bool.true_and]
  rw [allEq_iff]
  simp only [List.length_map, len, true_and, List.getElem?_map]
  constructor
  · intro hh p hp x hx
    obtain ⟨i, hi⟩ := List.mem_iff_getElem?.1 hp
    obtain ⟨lt, _⟩ := List.getElem?_eq_some_iff.1 hi
    have hi' := List.getElem?_eq_getElem (l := o'.attrs) (i := i) (by omega)
    exact (eq_of_pyEq (pair i _ _ hi hi')).1 (hh i p.2 _ (by rw [hi]; rfl) (by rw [hi']; rfl)) x hx
  · intro hh i v v' hv hv'
    cases hi : o.attrs[i]? with
    | none => rw [hi] at hv; cases hv
    | some p =>
      cases hi' : o'.attrs[i]? with
      | none => rw [hi'] at hv'; cases hv'
      | some p' =>
        rw [hi] at hv; rw [hi'] at hv'
        injection hv with hv; injection hv' with hv'
        rw [← hv, ← hv']
        exact (eq_of_pyEq (pair i _ _ hi hi')).2 (hh p (List.mem_of_getElem? hi))

/-- C101. What a schema restores from its own dump compares equal to the original, flags that come back as 0 and 1 included,
unless it holds a NaN. -/
theorem C101_restored (t : ObjType) (ht : Parsable t) (hu : ¬ Unhooked t) (d : Bytes) (o : PObj)
    (h : parameterFromBytes t d = .ok o) (hr : Restorable t o) :
    ∃ s x o', schemaById t = .ok s ∧ s.dump o = .ok x ∧ s.load classOf x = .ok (.object o') ∧
      (o.eq o' = true ↔ ¬ HasNaN o) := by
  obtain ⟨s, x, h1, h2, _, h3, _⟩ := C61_roundtrip t ht d o h
  obtain ⟨o', h4, h5⟩ := h3 hr hu
  refine ⟨s, x, o', h1, h2, h4, ?_⟩
  obtain ⟨L, hL, _⟩ := C60_outcome t ht d
  have hn : (o.attrs.map (·.1)).Nodup := by
    rw [(C59_values t ht d L o hL h).2, List.map_map]
    exact layout_nodup hL
  rw [sameObject_eq hn h5, hasNaN_iff ht h]

/-! ### Examples -/

/-- A NaN in `digit`: the object is read, and differs from a second reading of the same bytes. -/
def exNaN : Bytes := List.replicate 40 0 ++ [0, 0, 0xC0, 0x7F] ++ List.replicate 27 0

example : ((parameterFromBytes .ANALOG_MEASURAND exNaN).toOption.map fun o => o.eq o) = some false := by decide +kernel

example : ∃ o, parameterFromBytes .ANALOG_MEASURAND exNaN = .ok o ∧ HasNaN o := by
  refine ⟨⟨classFor .ANALOG_MEASURAND, analogQuantityLayout.values exNaN⟩, ?_, (.digit, .float (.rounded 0x7FC00000 7)), ?_, .rounded 0x7FC00000 7, ?_, ?_⟩
  · decide +kernel
  · decide +kernel
  · decide
  · show 0x7F800000 < 0x7FC00000 % 2 ^ 31
    decide

/-- -0.0 and 0.0 in `offset`, and 0.1 or the next single above it in `digit`: equal objects from different bytes. -/
def exZero : Bytes := List.replicate 40 0 ++ [0xCD, 0xCC, 0xCC, 0x3D, 0, 0, 0, 0] ++ List.replicate 23 0
def exMinusZero : Bytes := List.replicate 40 0 ++ [0xCE, 0xCC, 0xCC, 0x3D, 0, 0, 0, 0x80] ++ List.replicate 23 0

example : exZero ≠ exMinusZero ∧ ((do
    let o ← parameterFromBytes .ANALOG_MEASURAND exZero
    let o' ← parameterFromBytes .ANALOG_MEASURAND exMinusZero
    return o.eq o' : Res Bool)).toOption = some true := by decide +kernel

/-- With and without the optional tail, and a different name: not equal. -/
example : ((do
    let o ← parameterFromBytes .BINARY exBinary
    let o' ← parameterFromBytes .BINARY exBinaryLong
    let p ← parameterFromBytes .BINARY (exBinary.set 11 0x4D)
    let q ← parameterFromBytes .BINARY (exBinary.set 20 0x20)
    return [o.eq o, o.eq o', o.eq p, o.eq q] : Res (List Bool))).toOption = some [true, false, false, true] := by decide +kernel

/-- A list of two records. -/
example : (parseParameters none (some ([(ObjType.BINARY, exBinary), (.TIME_WINDOW, exTimeWindow)].flatMap
    fun r => record (UInt8.ofNat r.1.value, r.2)))).toOption.map (fun os => (os.length, listEq os os)) = some (2, true) := by
  decide +kernel

end Elgas
