import Verif.Model.StringViews
import Verif.Props.StringMoments
import Mathlib.Data.List.Forall2
import Mathlib.Tactic.FinCases
/-
C162: a string argument that another task changes during the call.
-/
namespace Verif
open Spec

/-- `n` units that were read one after the other, each of them when the variable was in one of the states `moments`. -/
def UnitsFrom (moments : List Nat → Prop) (n : Nat) (l : List Nat) : Prop :=
  l.length = n ∧ ∀ (i u : Nat), l[i]? = some u → ∃ m, moments m ∧ m[i]? = some u

/-- What a call of `decode` may find in a variable that is always in one of the states `moments`: the search stops at a zero; what it passes is not zero; the units in front of it are read again
twice. -/
structure Seen (moments : List Nat → Prop) (v : View) : Prop where
  terminator : ∃ m, moments m ∧ m[v.scanned.length]? = some 0
  nonzero : ∀ u ∈ v.scanned, u ≠ 0
  scanned : UnitsFrom moments v.scanned.length v.scanned
  checked : UnitsFrom moments v.scanned.length v.checked
  read : UnitsFrom moments v.scanned.length v.read

/-- A call of LEFT, RIGHT, MID, INSERT, DELETE or REPLACE with what its decodings find in the first and in the second argument. -/
inductive ViewedCall where
  | left (a b : View) (L : Int)
  | right (a b : View) (L : Int)
  | mid (a b : View) (L P : Int)
  | insert (a b c d : View) (P : Int)
  | delete (a b c : View) (L P : Int)
  | replace (a b c d : View) (L P : Int)

namespace ViewedCall

/-- The destination after the call. -/
def run (p : Profile) (ty : StrTy) (dest : Ptr) : ViewedCall → Res (List Nat)
  | .left a b L => leftViews (codecOf ty) a b L dest
  | .right a b L => rightViews (codecOf ty) a b L dest
  | .mid a b L P => midViews p (codecOf ty) a b L P dest
  | .insert a b c d P => insertViews (codecOf ty) a b c d P dest
  | .delete a b c L P => deleteViews p (codecOf ty) a b c L P dest
  | .replace a b c d L P => replaceViews p (codecOf ty) a b c d L P dest

/-- The views of the first argument. -/
def firsts : ViewedCall → List View
  | .left a b _ | .right a b _ | .mid a b _ _ => [a, b]
  | .insert a b c _ _ | .delete a b c _ _ | .replace a b c _ _ _ => [a, b, c]

/-- The views of the second argument. -/
def seconds : ViewedCall → List View
  | .insert _ _ _ d _ | .replace _ _ _ d _ _ => [d]
  | _ => []

/-- The same call with the arguments `in1` and `in2`, which nobody changes. -/
def ordinary (in1 in2 : Ptr) : ViewedCall → StringCall
  | .left _ _ L => .left in1 L
  | .right _ _ L => .right in1 L
  | .mid _ _ L P => .mid in1 L P
  | .insert _ _ _ _ P => .insert in1 in2 P
  | .delete _ _ _ L P => .delete in1 L P
  | .replace _ _ _ _ L P => .replace in1 in2 L P

/-- The numbers of the call are DINTs, and those that count characters are not negative. -/
def Counts : ViewedCall → Prop
  | .left _ _ L | .right _ _ L => 0 ≤ L ∧ L < 2 ^ 31
  | .mid _ _ L P | .delete _ _ _ L P | .replace _ _ _ _ L P => 0 ≤ L ∧ L < 2 ^ 31 ∧ - 2 ^ 31 ≤ P ∧ P < 2 ^ 31
  | .insert _ _ _ _ P => - 2 ^ 31 ≤ P ∧ P < 2 ^ 31

end ViewedCall

/-- The call finds its arguments in the states `first` and `second`. -/
def ViewedCall.Sees (first second : List Nat → Prop) (call : ViewedCall) : Prop :=
  (∀ v ∈ call.firsts, Seen first v) ∧ ∀ v ∈ call.seconds, Seen second v

/-- A call whose arguments are changed meanwhile does what it would do with a state of each of them that there was. -/
def SeesOneState (p : Profile) (ty : StrTy) : Prop :=
  ∀ (call : ViewedCall) (first second : List Nat → Prop) (dest : List Nat), call.Counts → call.Sees first second → (∃ m, second m) →
    ∃ in1 in2, first in1 ∧ second in2 ∧ call.run p ty (some dest) = (call.ordinary (some in1) (some in2)).run p ty (some dest)

/-! ### Arguments that nobody changes -/

theorem UnitsFrom.same {mem s l : List Nat} (h : Holds mem s) (hl : UnitsFrom (· = mem) s.length l) : l = s := by
  obtain ⟨hn, rest, rfl⟩ := h
  refine List.ext_getElem? fun i => ?_
  by_cases hi : i < s.length
  · have hi' : i < l.length := by have := hl.1; omega
    obtain ⟨m, rfl, hm⟩ := hl.2 i l[i] (List.getElem?_eq_getElem hi')
    rw [List.getElem?_append_left hi] at hm
    rw [hm, List.getElem?_eq_getElem hi']
  · rw [List.getElem?_eq_none (by have := hl.1; omega), List.getElem?_eq_none (by omega)]

theorem Seen.still {mem : List Nat} {v : View} (h : Seen (· = mem) v) : Holds mem v.scanned ∧ v = ⟨v.scanned, v.scanned, v.scanned⟩ := by
  have hh : Holds mem v.scanned := by
    refine ⟨h.nonzero, mem.drop (v.scanned.length + 1), ?_⟩
    obtain ⟨m, rfl, hz⟩ := h.terminator
    refine List.ext_getElem? fun i => ?_
    rcases Nat.lt_trichotomy i v.scanned.length with hi | hi | hi
    · rw [List.getElem?_append_left hi]
      obtain ⟨m', hm', e⟩ := h.scanned.2 i v.scanned[i] (List.getElem?_eq_getElem hi)
      subst hm'
      rw [e, List.getElem?_eq_getElem hi]
    · subst hi
      rw [hz, List.getElem?_append_right (Nat.le_refl _)]; simp
    · rw [List.getElem?_append_right (by omega)]
      obtain ⟨j, rfl⟩ : ∃ j, i = v.scanned.length + 1 + j := ⟨i - (v.scanned.length + 1), by omega⟩
      rw [show v.scanned.length + 1 + j - v.scanned.length = j + 1 by omega, List.getElem?_cons_succ, List.getElem?_drop]
  refine ⟨hh, ?_⟩
  have h1 := UnitsFrom.same hh h.checked
  have h2 := UnitsFrom.same hh h.read
  obtain ⟨a, b, c⟩ := v
  dsimp only at h1 h2 ⊢
  rw [h1, h2]

private theorem decodeView_same_of (k : Codec) (hk : ∀ s, k.decodeSlice s ≠ .ub) (s : List Nat) : k.decodeView ⟨s, s, s⟩ = k.decodeSlice s := by
  unfold Codec.decodeView
  dsimp only
  cases h : k.decodeSlice s with
  | ok x => rfl
  | panic => rfl
  | ub => exact absurd h (hk s)

private theorem slice_ne_ub (ty : StrTy) (s : List Nat) : (codecOf ty).decodeSlice s ≠ .ub := by
  cases ty
  · show (if from_utf8 s then Res.ok (chars s) else .panic) ≠ .ub
    split <;> intro h <;> cases h
  · intro h; cases h

/-- Units that do not change are decoded as usual. -/
theorem decodeView_same (ty : StrTy) (s : List Nat) : (codecOf ty).decodeView ⟨s, s, s⟩ = (codecOf ty).decodeSlice s := decodeView_same_of _ (slice_ne_ub ty) s

theorem Seen.decode_still (ty : StrTy) {mem : List Nat} {v : View} (h : Seen (· = mem) v) :
    (codecOf ty).decodeView v = (codecOf ty).decode (some mem) := by
  obtain ⟨hh, e⟩ := h.still
  rw [e, decodeView_same ty, Codec.decode, ptr_to_slice_of_holds hh, Res.bind_ok]

/-- **C162**, what holds: arguments that nobody changes.  The call is the ordinary one. -/
theorem C162_unchanged_partial (p : Profile) (ty : StrTy) (call : ViewedCall) (in1 in2 : List Nat) (dest : Ptr) (h : call.Sees (· = in1) (· = in2)) :
    call.run p ty dest = (call.ordinary (some in1) (some in2)).run p ty dest := by
  obtain ⟨h1, h2⟩ := h
  cases call with
  | left a b L =>
    dsimp only [ViewedCall.run, ViewedCall.ordinary, StringCall.run, leftViews, left]
    rw [Seen.decode_still ty (h1 a (by simp [ViewedCall.firsts])), Seen.decode_still ty (h1 b (by simp [ViewedCall.firsts]))]
    cases (codecOf ty).decode (some in1) <;> rfl
  | right a b L =>
    dsimp only [ViewedCall.run, ViewedCall.ordinary, StringCall.run, rightViews, right]
    rw [Seen.decode_still ty (h1 a (by simp [ViewedCall.firsts])), Seen.decode_still ty (h1 b (by simp [ViewedCall.firsts]))]
    cases (codecOf ty).decode (some in1) <;> rfl
  | mid a b L P =>
    dsimp only [ViewedCall.run, ViewedCall.ordinary, StringCall.run, midViews, mid]
    rw [Seen.decode_still ty (h1 a (by simp [ViewedCall.firsts])), Seen.decode_still ty (h1 b (by simp [ViewedCall.firsts]))]
    cases (codecOf ty).decode (some in1) <;> rfl
  | insert a b c d P =>
    dsimp only [ViewedCall.run, ViewedCall.ordinary, StringCall.run, insertViews, insert]
    rw [Seen.decode_still ty (h1 a (by simp [ViewedCall.firsts])), Seen.decode_still ty (h1 b (by simp [ViewedCall.firsts])),
      Seen.decode_still ty (h1 c (by simp [ViewedCall.firsts])), Seen.decode_still ty (h2 d (by simp [ViewedCall.seconds]))]
    cases (codecOf ty).decode (some in1) <;> rfl
  | delete a b c L P =>
    dsimp only [ViewedCall.run, ViewedCall.ordinary, StringCall.run, deleteViews, delete]
    rw [Seen.decode_still ty (h1 a (by simp [ViewedCall.firsts])), Seen.decode_still ty (h1 b (by simp [ViewedCall.firsts])),
      Seen.decode_still ty (h1 c (by simp [ViewedCall.firsts]))]
    cases (codecOf ty).decode (some in1) <;> rfl
  | replace a b c d L P =>
    dsimp only [ViewedCall.run, ViewedCall.ordinary, StringCall.run, replaceViews, replace]
    rw [Seen.decode_still ty (h1 a (by simp [ViewedCall.firsts])), Seen.decode_still ty (h1 b (by simp [ViewedCall.firsts])),
      Seen.decode_still ty (h1 c (by simp [ViewedCall.firsts])), Seen.decode_still ty (h2 d (by simp [ViewedCall.seconds]))]
    cases (codecOf ty).decode (some in1) <;> rfl

private theorem arith_ne_ub (p : Profile) (x : Int) : IntTy.u64.arith p x ≠ .ub := by
  unfold IntTy.arith
  split
  · intro h; cases h
  · cases p <;> intro h <;> cases h

/-- **C162**, what holds: CONCAT with arguments that nobody changes. -/
theorem C162_concat_unchanged_partial (ty : StrTy) (args : List (List Nat)) (vs : List View) (h : List.Forall₂ (fun mem v => Seen (· = mem) v) args vs) (dest : Ptr) :
    concatViews (codecOf ty) dest vs = concat (codecOf ty) dest args.length (some (args.map some)) := by
  have loop : ∀ d, concatLoopViews (codecOf ty) vs d = concatLoop (codecOf ty) args.length (args.map some) d := by
    induction h with
    | nil => intro d; rfl
    | cons hv _ ih =>
      intro d
      rw [concatLoopViews, Seen.decode_still ty hv, List.length_cons, List.map_cons, concatLoop]
      exact congrArg _ (funext fun x => congrArg _ (funext fun d => ih d))
  cases dest with
  | none => rfl
  | some mem =>
    dsimp only [concatViews, concat]
    rw [Int.toNat_natCast, loop]

/-! ### Characters of one unit -/

private theorem unit_of_single (ty : StrTy) {u : Nat} (hu : SingleUnit ty u) : ty.units [Char.ofNat u] = [u] := by
  cases ty with
  | STRING =>
    have : (Char.ofNat u).toNat = u := toNat_ofNat (by dsimp only [SingleUnit] at hu; omega)
    show utf8Char (Char.ofNat u) ++ [] = [u]
    unfold utf8Char
    dsimp only [SingleUnit] at hu ⊢
    rw [this, if_pos hu]; rfl
  | WSTRING =>
    have : (Char.ofNat u).toNat = u := toNat_ofNat (by dsimp only [SingleUnit] at hu; omega)
    show utf16Char (Char.ofNat u) ++ [] = [u]
    unfold utf16Char
    dsimp only [SingleUnit] at hu ⊢
    rw [this, if_pos (by omega)]; rfl

private theorem units_of_single (ty : StrTy) : ∀ (l : List Nat), (∀ u ∈ l, SingleUnit ty u) → ty.units (l.map Char.ofNat) = l
  | [], _ => units_nil ty
  | u :: l, h => by
    rw [List.map_cons, units_cons, unit_of_single ty (h u List.mem_cons_self), units_of_single ty l fun x hx => h x (List.mem_cons_of_mem _ hx)]; rfl

/-- The characters that the units of a list are, one each. -/
private def items (ty : StrTy) (l : List Nat) : List (codecOf ty).Item := (l.map Char.ofNat).map (item ty)

private theorem items_length (ty : StrTy) (l : List Nat) : (items ty l).length = l.length := by simp [items]

private theorem items_take (ty : StrTy) (l : List Nat) (n : Nat) : (items ty l).take n = items ty (l.take n) := by simp [items, List.map_take]

private theorem items_drop (ty : StrTy) (l : List Nat) (n : Nat) : (items ty l).drop n = items ty (l.drop n) := by simp [items, List.map_drop]

private theorem items_append (ty : StrTy) (l r : List Nat) : items ty l ++ items ty r = items ty (l ++ r) := by simp [items]

theorem UnitsFrom.mem_of {moments : List Nat → Prop} {n : Nat} {l : List Nat} (h : UnitsFrom moments n l) {u : Nat} (hu : u ∈ l) : ∃ m, moments m ∧ u ∈ m := by
  obtain ⟨i, hi⟩ := List.mem_iff_getElem?.1 hu
  obtain ⟨m, hm, e⟩ := h.2 i u hi
  exact ⟨m, hm, List.mem_iff_getElem?.2 ⟨i, e⟩⟩

private theorem decode_single (ty : StrTy) {moments : List Nat → Prop} (hs : ∀ m, moments m → ∀ u ∈ m, SingleUnit ty u) {v : View} (h : Seen moments v) :
    (codecOf ty).decodeView v = .ok (items ty v.read) := by
  have key : ∀ l, UnitsFrom moments v.scanned.length l → (codecOf ty).decodeSlice l = .ok (items ty l) := by
    intro l hl
    have : ∀ u ∈ l, SingleUnit ty u := fun u hu => by
      obtain ⟨m, hm, hu⟩ := UnitsFrom.mem_of hl hu
      exact hs m hm u hu
    have e := decodeSlice_text ty (l.map Char.ofNat)
    rwa [units_of_single ty l this] at e
  unfold Codec.decodeView
  rw [key _ h.checked, Res.bind_ok, key _ h.read]

/-- Units that are characters by themselves are decoded one by one. -/
theorem decodeView_single_length (ty : StrTy) (v : View) (hc : ∀ u ∈ v.checked, SingleUnit ty u) (hr : ∀ u ∈ v.read, SingleUnit ty u) :
    ∃ l, (codecOf ty).decodeView v = .ok l ∧ l.length = v.read.length := by
  have key : ∀ l, (∀ u ∈ l, SingleUnit ty u) → (codecOf ty).decodeSlice l = .ok (items ty l) := fun l hl => by
    have e := decodeSlice_text ty (l.map Char.ofNat)
    rwa [units_of_single ty l hl] at e
  refine ⟨items ty v.read, ?_, items_length ty _⟩
  unfold Codec.decodeView
  rw [key _ hc, Res.bind_ok, key _ hr]

private theorem write_single (ty : StrTy) (l dest : List Nat) (h : ∀ u ∈ l, SingleUnit ty u) : (codecOf ty).write (items ty l) (some dest) = store dest l := by
  rw [items, write_text, units_of_single ty l h]

private theorem length_lt {moments : List Nat → Prop} {v : View} {N : Nat} (hN : ∀ m, moments m → m.length ≤ N) (h : Seen moments v) : v.read.length < N := by
  obtain ⟨m, hm, hz⟩ := h.terminator
  have := (List.getElem?_eq_some_iff.1 hz).1
  have := hN m hm
  have := h.read.1
  omega

/-- The call panics, or it leaves a text of at most `n` units in the destination, each of which one of the arguments contained at some time. -/
def Mixes (first second : List Nat → Prop) (n : Nat) (r : Res (List Nat)) : Prop :=
  r = .panic ∨ ∃ final t, r = .ok final ∧ Holds final t ∧ t.length ≤ n ∧ ∀ u ∈ t, ∃ m, (first m ∨ second m) ∧ u ∈ m

private theorem of_takeWhile : ∀ (l : List Nat) (u : Nat), u ∈ l.takeWhile (· ≠ 0) → u ≠ 0
  | [], _, h => absurd h List.not_mem_nil
  | x :: l, u, h => by
    by_cases hx : x = 0
    · subst hx; simp at h
    · rw [List.takeWhile_cons_of_pos (by simpa using hx)] at h
      rcases List.mem_cons.1 h with rfl | h
      · exact hx
      · exact of_takeWhile l u h

private theorem holds_front (l rest : List Nat) : ∃ t, Holds (l ++ 0 :: rest) t ∧ t.Sublist l := by
  refine ⟨l.takeWhile (· ≠ 0), ⟨fun u h => of_takeWhile l u h, ?_⟩, List.takeWhile_sublist _⟩
  induction l with
  | nil => exact ⟨rest, rfl⟩
  | cons x l ih =>
    obtain ⟨r, hr⟩ := ih
    by_cases hx : x = 0
    · subst hx; exact ⟨l ++ 0 :: rest, by simp⟩
    · exact ⟨r, by rw [List.takeWhile_cons_of_pos (by simpa using hx), List.cons_append, List.cons_append, ← hr]⟩

private theorem mixes_store {first second : List Nat → Prop} {n : Nat} {dest l : List Nat} (hl : l.length < dest.length) (hn : l.length ≤ n)
    (hu : ∀ u ∈ l, ∃ m, (first m ∨ second m) ∧ u ∈ m) : Mixes first second n (store dest l) := by
  obtain ⟨t, ht, hsub⟩ := holds_front l (dest.drop (l.length + 1))
  exact .inr ⟨_, t, by rw [store, if_pos hl], ht, Nat.le_trans hsub.length_le hn, fun u h => hu u (hsub.subset h)⟩

/-- The size that the destination must have, if the arguments have the sizes `N` and `M`. -/
def ViewedCall.needs (N M : Nat) : ViewedCall → Nat
  | .insert .. | .replace .. => (N - 1) + (M - 1) + 1
  | _ => N

/-- The length that the result has at most. -/
def ViewedCall.longest (N M : Nat) : ViewedCall → Nat
  | .left _ _ L | .mid _ _ L _ => min L.toNat (N - 1)
  | .insert .. | .replace .. => (N - 1) + (M - 1)
  | _ => N - 1

/-- **C162**, characters of one unit: if the arguments contain only ASCII characters (STRING) or no surrogates (WSTRING) at any time, and the destination is large enough for arguments that fill
their variables, the call panics or leaves a text that is not too long and each unit of which comes from an argument. -/
theorem C162_single_units_partial (p : Profile) (ty : StrTy) (call : ViewedCall) (first second : List Nat → Prop) (N M : Nat) (dest : List Nat)
    (hf : ∀ m, first m → m.length ≤ N ∧ ∀ u ∈ m, SingleUnit ty u) (hs : ∀ m, second m → m.length ≤ M ∧ ∀ u ∈ m, SingleUnit ty u)
    (hc : call.Counts) (h : call.Sees first second) (hroom : call.needs N M ≤ dest.length) :
    Mixes first second (call.longest N M) (call.run p ty (some dest)) := by
  obtain ⟨h1, h2⟩ := h
  have d1 : ∀ v ∈ call.firsts, (codecOf ty).decodeView v = .ok (items ty v.read) := fun v hv => decode_single ty (fun m hm => (hf m hm).2) (h1 v hv)
  have d2 : ∀ v ∈ call.seconds, (codecOf ty).decodeView v = .ok (items ty v.read) := fun v hv => decode_single ty (fun m hm => (hs m hm).2) (h2 v hv)
  have l1 : ∀ v ∈ call.firsts, v.read.length < N := fun v hv => length_lt (fun m hm => (hf m hm).1) (h1 v hv)
  have l2 : ∀ v ∈ call.seconds, v.read.length < M := fun v hv => length_lt (fun m hm => (hs m hm).1) (h2 v hv)
  have u1 : ∀ v ∈ call.firsts, ∀ u ∈ v.read, ∃ m, (first m ∨ second m) ∧ u ∈ m := fun v hv u hu => by
    obtain ⟨m, hm, hu⟩ := UnitsFrom.mem_of (h1 v hv).read hu; exact ⟨m, .inl hm, hu⟩
  have u2 : ∀ v ∈ call.seconds, ∀ u ∈ v.read, ∃ m, (first m ∨ second m) ∧ u ∈ m := fun v hv u hu => by
    obtain ⟨m, hm, hu⟩ := UnitsFrom.mem_of (h2 v hv).read hu; exact ⟨m, .inr hm, hu⟩
  have fin : ∀ l : List Nat, l.length < dest.length → l.length ≤ call.longest N M → (∀ u ∈ l, ∃ m, (first m ∨ second m) ∧ u ∈ m) →
      Mixes first second (call.longest N M) ((codecOf ty).write (items ty l) (some dest)) := by
    intro l hl hn hu
    rw [write_single ty l dest fun u h => by
      obtain ⟨m, hm | hm, hu⟩ := hu u h
      · exact (hf m hm).2 u hu
      · exact (hs m hm).2 u hu]
    exact mixes_store hl hn hu
  cases call with
  | left a b L =>
    simp only [ViewedCall.firsts, List.mem_cons, List.not_mem_nil, or_false, forall_eq_or_imp, forall_eq] at d1 l1 u1
    dsimp only [ViewedCall.run, leftViews, ViewedCall.needs, ViewedCall.Counts, ViewedCall.longest] at *
    rw [d1.1, d1.2]
    simp only [Res.bind_ok, items_take]
    rw [asUsize_nonneg hc.1 (by omega)]
    split
    · exact .inl rfl
    · split
      · exact .inl rfl
      · exact fin _ (by rw [List.length_take]; omega) (by rw [List.length_take]; omega) fun u hu => u1.2 u (List.mem_of_mem_take hu)
  | right a b L =>
    simp only [ViewedCall.firsts, List.mem_cons, List.not_mem_nil, or_false, forall_eq_or_imp, forall_eq] at d1 l1 u1
    dsimp only [ViewedCall.run, rightViews, ViewedCall.needs, ViewedCall.Counts, ViewedCall.longest] at *
    rw [d1.1, d1.2]
    simp only [Res.bind_ok, items_drop]
    split
    · exact .inl rfl
    · split
      · exact .inl rfl
      · exact fin _ (by rw [List.length_drop]; omega) (by rw [List.length_drop]; omega) fun u hu => u1.2 u (List.mem_of_mem_drop hu)
  | mid a b L P =>
    simp only [ViewedCall.firsts, List.mem_cons, List.not_mem_nil, or_false, forall_eq_or_imp, forall_eq] at d1 l1 u1
    dsimp only [ViewedCall.run, midViews, ViewedCall.needs, ViewedCall.Counts, ViewedCall.longest] at *
    rw [d1.1, d1.2]
    simp only [Res.bind_ok, items_drop, items_take]
    rw [asUsize_nonneg hc.1 (by omega)]
    split
    · exact .inl rfl
    · split
      · exact .inl rfl
      · cases hsum : IntTy.u64.arith p _ with
        | panic => exact .inl rfl
        | ub => exact absurd ‹_› (arith_ne_ub p _)
        | ok sum =>
          rw [Res.bind_ok]
          split
          · exact .inl rfl
          · exact fin _ (by rw [List.length_take, List.length_drop]; omega) (by rw [List.length_take, List.length_drop]; omega)
              fun u hu => u1.2 u (List.mem_of_mem_drop (List.mem_of_mem_take hu))
  | insert a b c d P =>
    simp only [ViewedCall.firsts, ViewedCall.seconds, List.mem_cons, List.not_mem_nil, or_false, forall_eq_or_imp, forall_eq] at d1 l1 u1 d2 l2 u2
    dsimp only [ViewedCall.run, insertViews, ViewedCall.needs, ViewedCall.Counts, ViewedCall.longest] at *
    rw [d1.1, d1.2.1, d1.2.2, d2]
    simp only [Res.bind_ok, items_drop, items_take, items_append]
    split
    · exact .inl rfl
    · refine fin _ ?_ ?_ ?_
      · simp only [List.length_append, List.length_take, List.length_drop]; omega
      · simp only [List.length_append, List.length_take, List.length_drop]; omega
      · intro u hu
        rcases List.mem_append.1 hu with hu | hu
        · rcases List.mem_append.1 hu with hu | hu
          · exact u1.2.1 u (List.mem_of_mem_take hu)
          · exact u2 u hu
        · exact u1.2.2 u (List.mem_of_mem_drop hu)
  | delete a b c L P =>
    simp only [ViewedCall.firsts, List.mem_cons, List.not_mem_nil, or_false, forall_eq_or_imp, forall_eq] at d1 l1 u1
    dsimp only [ViewedCall.run, deleteViews, ViewedCall.needs, ViewedCall.Counts, ViewedCall.longest] at *
    rw [d1.1, d1.2.1, d1.2.2]
    simp only [Res.bind_ok, items_drop, items_take, items_append]
    split
    · exact .inl rfl
    · rename_i hP
      have hP1 : 1 ≤ P := by
        by_contra hlt; exact hP (by simp [show P < 1 by omega])
      rw [asUsize_nonneg hc.1 (by omega), asUsize_nonneg (by omega : 0 ≤ P) (by omega), arith_u64 p (by omega) (by omega), Res.bind_ok]
      split
      · exact .inl rfl
      · refine fin _ ?_ ?_ ?_
        · simp only [List.length_append, List.length_take, List.length_drop]; omega
        · simp only [List.length_append, List.length_take, List.length_drop]; omega
        · intro u hu
          rcases List.mem_append.1 hu with hu | hu
          · exact u1.2.1 u (List.mem_of_mem_take hu)
          · exact u1.2.2 u (List.mem_of_mem_drop hu)
  | replace a b c d L P =>
    simp only [ViewedCall.firsts, ViewedCall.seconds, List.mem_cons, List.not_mem_nil, or_false, forall_eq_or_imp, forall_eq] at d1 l1 u1 d2 l2 u2
    dsimp only [ViewedCall.run, replaceViews, ViewedCall.needs, ViewedCall.Counts, ViewedCall.longest] at *
    rw [d1.1, d1.2.1, d1.2.2, d2]
    simp only [Res.bind_ok, items_drop, items_take, items_append]
    split
    · exact .inl rfl
    · rename_i hP
      have hP1 : 1 ≤ P := by
        by_contra hlt; exact hP (by simp [show P < 1 by omega])
      rw [asUsize_nonneg hc.1 (by omega), asUsize_nonneg (by omega : 0 ≤ P - 1) (by omega), arith_u64 p (by omega) (by omega), Res.bind_ok]
      split
      · exact .inl rfl
      · refine fin _ ?_ ?_ ?_
        · simp only [List.length_append, List.length_take, List.length_drop]; omega
        · simp only [List.length_append, List.length_take, List.length_drop]; omega
        · intro u hu
          rcases List.mem_append.1 hu with hu | hu
          · exact u1.2.1 u (List.mem_of_mem_take hu)
          · rcases List.mem_append.1 hu with hu | hu
            · exact u2 u hu
            · exact u1.2.2 u (List.mem_of_mem_drop hu)

private theorem loop_single (ty : StrTy) : ∀ (vs : List View), vs ≠ [] → (∀ v ∈ vs, (codecOf ty).decodeView v = .ok (items ty v.read)) → (∀ v ∈ vs, ∀ u ∈ v.read, SingleUnit ty u) →
    ∀ d : Dest, (vs.map fun v => v.read.length).sum < d.room.length → ∃ rest, concatLoopViews (codecOf ty) vs d = .ok ⟨d.written ++ (vs.map View.read).flatten, 0 :: rest⟩
  | [], h, _, _, _, _ => absurd rfl h
  | v :: vs, _, hd, hu, d, hr => by
    have hv := hd v List.mem_cons_self
    have hl : (codecOf ty).allUnits (items ty v.read) = .ok v.read := by
      have := allUnits_text ty (v.read.map Char.ofNat)
      rwa [units_of_single ty _ (hu v List.mem_cons_self)] at this
    rw [List.map_cons, List.sum_cons] at hr
    rw [concatLoopViews, hv, Res.bind_ok, encode_eq _ _ _ hl, if_pos (by omega), Res.bind_ok]
    by_cases hvs : vs = []
    · subst hvs
      exact ⟨d.room.drop (v.read.length + 1), by rw [concatLoopViews]; simp⟩
    · obtain ⟨rest, e⟩ := loop_single ty vs hvs (fun x hx => hd x (List.mem_cons_of_mem _ hx)) (fun x hx => hu x (List.mem_cons_of_mem _ hx))
        ⟨d.written ++ v.read, 0 :: d.room.drop (v.read.length + 1)⟩ (by simp only [List.length_cons, List.length_drop]; omega)
      exact ⟨rest, by rw [e]; simp⟩

private theorem sum_lt_of (ty : StrTy) {vars : List ((List Nat → Prop) × Nat)} {vs : List View}
    (h : List.Forall₂ (fun x v => (∀ m, x.1 m → m.length ≤ x.2 ∧ ∀ u ∈ m, SingleUnit ty u) ∧ Seen x.1 v) vars vs) :
    (vs.map fun v => v.read.length).sum ≤ (vars.map fun x => x.2 - 1).sum := by
  induction h with
  | nil => exact Nat.le_refl _
  | cons hv _ ih =>
    have := length_lt (fun m hm => (hv.1 m hm).1) hv.2
    simp only [List.map_cons, List.sum_cons]
    omega

/-- **C162**, characters of one unit: CONCAT.  `vars` are the states and the sizes of the arguments. -/
theorem C162_concat_single_units_partial (ty : StrTy) (vars : List ((List Nat → Prop) × Nat)) (vs : List View) (dest : List Nat) (hne : vs ≠ [])
    (h : List.Forall₂ (fun x v => (∀ m, x.1 m → m.length ≤ x.2 ∧ ∀ u ∈ m, SingleUnit ty u) ∧ Seen x.1 v) vars vs)
    (hroom : (vars.map fun x => x.2 - 1).sum < dest.length) :
    ∃ final t, concatViews (codecOf ty) (some dest) vs = .ok final ∧ Holds final t ∧ t.length ≤ (vars.map fun x => x.2 - 1).sum ∧ ∀ u ∈ t, ∃ x ∈ vars, ∃ m, x.1 m ∧ u ∈ m := by
  have hsum := sum_lt_of ty h
  have each : ∀ v ∈ vs, ∃ x ∈ vars, (∀ m, x.1 m → m.length ≤ x.2 ∧ ∀ u ∈ m, SingleUnit ty u) ∧ Seen x.1 v := by
    clear hsum hroom hne
    induction h with
    | nil => intro v hv; cases hv
    | cons hv _ ih =>
      intro w hw
      rcases List.mem_cons.1 hw with rfl | hw
      · exact ⟨_, List.mem_cons_self, hv⟩
      · obtain ⟨x, hx, hx'⟩ := ih w hw
        exact ⟨x, List.mem_cons_of_mem _ hx, hx'⟩
  have hd : ∀ v ∈ vs, (codecOf ty).decodeView v = .ok (items ty v.read) := fun v hv => by
    obtain ⟨x, _, hx, hseen⟩ := each v hv
    exact decode_single ty (fun m hm => (hx m hm).2) hseen
  have hu : ∀ v ∈ vs, ∀ u ∈ v.read, ∃ x ∈ vars, ∃ m, (x.1 m ∧ u ∈ m) ∧ SingleUnit ty u := fun v hv u hu => by
    obtain ⟨x, hxv, hx, hseen⟩ := each v hv
    obtain ⟨m, hm, hum⟩ := UnitsFrom.mem_of hseen.read hu
    exact ⟨x, hxv, m, ⟨hm, hum⟩, (hx m hm).2 u hum⟩
  obtain ⟨rest, e⟩ := loop_single ty vs hne hd (fun v hv u h => by obtain ⟨_, _, _, _, hs⟩ := hu v hv u h; exact hs) ⟨[], dest⟩ (by dsimp only; omega)
  have hlen : ((vs.map View.read).flatten).length = (vs.map fun v => v.read.length).sum := by
    rw [List.length_flatten, List.map_map]; rfl
  obtain ⟨t, ht, hsub⟩ : ∃ t, Holds ((vs.map View.read).flatten ++ 0 :: rest) t ∧ t.Sublist (vs.map View.read).flatten := holds_front _ rest
  refine ⟨_, t, by rw [concatViews, e, Res.bind_ok]; rfl, ht, by have := hsub.length_le; omega, fun u h => ?_⟩
  obtain ⟨l, hl, hul⟩ := List.mem_flatten.1 (hsub.subset h)
  obtain ⟨v, hv, rfl⟩ := List.mem_map.1 hl
  obtain ⟨x, hx, m, hm, _⟩ := hu v hv u hul
  exact ⟨x, hx, m, hm⟩

/-! ### The size of what is written -/

/-- The number of units that are written for the items, as far as they can be written. -/
private def cost (k : Codec) (l : List k.Item) : Nat := (l.map fun c => match k.units c with | .ok a => a.length | _ => 0).sum

private theorem cost_append (k : Codec) (l r : List k.Item) : cost k (l ++ r) = cost k l + cost k r := by simp [cost]

private theorem cost_take (k : Codec) (l : List k.Item) (n : Nat) : cost k (l.take n) ≤ cost k l := by
  conv => rhs; rw [← List.take_append_drop n l, cost_append]
  omega

private theorem cost_drop (k : Codec) (l : List k.Item) (n : Nat) : cost k (l.drop n) ≤ cost k l := by
  conv => rhs; rw [← List.take_append_drop n l, cost_append]
  omega

private theorem items_bound (k : Codec) (hk : ∀ c, k.units c ≠ .ub) : ∀ (l : List k.Item) (d : Dest), cost k l ≤ d.room.length →
    l.foldlM (fun d c => (k.units c) >>= fun slice => slice.foldlM Dest.put d) d = .panic ∨
      ∃ e, l.foldlM (fun d c => (k.units c) >>= fun slice => slice.foldlM Dest.put d) d = .ok e ∧ e.room.length + cost k l = d.room.length
  | [], d, _ => .inr ⟨d, rfl, rfl⟩
  | c :: l, d, h => by
    rw [List.foldlM_cons]
    cases hc : k.units c with
    | panic => exact .inl rfl
    | ub => exact absurd hc (hk c)
    | ok a =>
      have e : cost k (c :: l) = a.length + cost k l := by simp [cost, hc]
      rw [e] at h
      rw [Res.bind_ok, put_all, if_pos (by omega), Res.bind_ok]
      rcases items_bound k hk l ⟨d.written ++ a, d.room.drop a.length⟩ (by simp only [List.length_drop]; omega) with h' | ⟨d', h', hr⟩
      · exact .inl h'
      · exact .inr ⟨d', h', by simp only [List.length_drop] at hr; omega⟩

private theorem encode_bound (k : Codec) (hk : ∀ c, k.units c ≠ .ub) (l : List k.Item) (d : Dest) (h : cost k l < d.room.length) :
    k.encode l d = .panic ∨ ∃ e, k.encode l d = .ok e ∧ e.room.length + cost k l = d.room.length := by
  unfold Codec.encode
  rcases items_bound k hk l d (by omega) with h' | ⟨e, h', hr⟩
  · exact .inl (by rw [h']; rfl)
  · right
    rw [h', Res.bind_ok]
    obtain ⟨w, r⟩ := e
    cases r with
    | nil => simp only [List.length_nil] at hr; omega
    | cons x r => exact ⟨_, rfl, hr⟩

private theorem write_bound (k : Codec) (hk : ∀ c, k.units c ≠ .ub) (l : List k.Item) (dest : List Nat) (h : cost k l < dest.length) : k.write l (some dest) ≠ .ub := by
  unfold Codec.write openDest
  rw [Res.bind_ok]
  rcases encode_bound k hk l ⟨[], dest⟩ h with h' | ⟨e, h', _⟩ <;> rw [h'] <;> intro h <;> cases h

private theorem units_ne_ub (ty : StrTy) (c : (codecOf ty).Item) : (codecOf ty).units c ≠ .ub := by
  cases ty
  · intro h; cases h
  · cases c <;> intro h <;> cases h

/-- What the iterator reads is still text: for a STRING well-formed, for a WSTRING any units. -/
def StillText (ty : StrTy) (v : View) : Prop := ty = .STRING → ∃ t, v.read = utf8 t

private theorem cost_text (ty : StrTy) (t : List Char) : cost (codecOf ty) (t.map (item ty)) = (ty.units t).length := by
  induction t with
  | nil => rw [units_nil]; rfl
  | cons c t ih =>
    rw [units_cons, List.length_append, ← ih]
    simp [cost, units_item]

private theorem cost_wide (s : List Nat) (hs : ∀ u ∈ s, u < 65536) : cost codec16 (decode_utf16 s) ≤ s.length := by
  have one : ∀ c : Char, cost codec16 [some c] = (encode_utf16 c).length := fun c => by simp [cost, codec16]
  have two : ∀ c : Char, cost codec16 [some c] ≤ 2 := fun c => by
    rw [one, encode_utf16_eq]; unfold utf16Char; dsimp only; split <;> simp
  have short : ∀ u, u < 65536 → cost codec16 [some (Char.ofNat u)] ≤ 1 := fun u hu => by
    have : (Char.ofNat u).toNat < 65536 := by
      by_cases hv : u.isValidChar
      · rw [toNat_ofNat (by rcases hv with h | h <;> omega)]; exact hu
      · rw [Char.ofNat, dif_neg hv]; decide
    rw [one, encode_utf16_eq]; unfold utf16Char; dsimp only
    rw [if_pos (by omega)]; simp
  have cons : ∀ (c : Option Char) (l : List (Option Char)) (n : Nat), cost codec16 [c] + cost codec16 l ≤ n → cost codec16 (c :: l) ≤ n :=
    fun c l n h => Nat.le_trans (Nat.le_of_eq (cost_append codec16 [c] l)) h
  have none0 : cost codec16 [none] = 0 := rfl
  fun_induction decode_utf16 s with
  | case1 => exact Nat.le_refl _
  | case2 u l _ ih =>
    have := ih fun x hx => hs x (List.mem_cons_of_mem _ hx)
    have := short u (hs u List.mem_cons_self)
    exact cons _ _ _ (by rw [List.length_cons]; omega)
  | case3 u l _ _ ih =>
    have := ih fun x hx => hs x (List.mem_cons_of_mem _ hx)
    exact cons _ _ _ (by rw [List.length_cons]; omega)
  | case4 u _ _ => exact Nat.le_trans (Nat.le_of_eq none0) (Nat.zero_le _)
  | case5 u _ _ u2 l' _ ih =>
    have := ih fun x hx => hs x (List.mem_cons_of_mem _ hx)
    exact cons _ _ _ (by rw [List.length_cons]; omega)
  | case6 u _ _ u2 l' _ ih =>
    have := ih fun x hx => hs x (List.mem_cons_of_mem _ (List.mem_cons_of_mem _ hx))
    have := two (Char.ofNat ((((u &&& 0x3FF) <<< 10) ||| (u2 &&& 0x3FF)) + 0x10000))
    exact cons _ _ _ (by rw [List.length_cons, List.length_cons]; omega)

private theorem decode_bound (ty : StrTy) {v : View} (hw : StillText ty v) (hu : ∀ u ∈ v.read, u < 65536) :
    (codecOf ty).decodeView v = .panic ∨ ∃ l, (codecOf ty).decodeView v = .ok l ∧ cost (codecOf ty) l ≤ v.read.length := by
  unfold Codec.decodeView
  cases hc : (codecOf ty).decodeSlice v.checked with
  | panic => exact .inl rfl
  | ub => exact absurd hc (slice_ne_ub ty _)
  | ok _ =>
    right
    rw [Res.bind_ok]
    cases ty with
    | STRING =>
      obtain ⟨t, ht⟩ := hw rfl
      have e := decodeSlice_text .STRING t
      have c := cost_text .STRING t
      change _ = (utf8 t).length at c
      change (codecOf .STRING).decodeSlice (utf8 t) = _ at e
      rw [← ht] at e c
      rw [e]
      exact ⟨_, rfl, Nat.le_of_eq c⟩
    | WSTRING => exact ⟨_, rfl, cost_wide _ hu⟩

/-- **C162**, any characters: LEFT, RIGHT and MID write no further than a destination of the size of the argument, unless bytes of a STRING that have been found well-formed no longer are when they are
read. -/
theorem C162_bounds_partial (p : Profile) (ty : StrTy) (moments : List Nat → Prop) (dest : List Nat) (hm : ∀ m, moments m → m.length ≤ dest.length ∧ ∀ u ∈ m, u < 65536)
    (a b : View) (ha : Seen moments a) (hb : Seen moments b) (wa : StillText ty a) (wb : StillText ty b) (L P : Int) :
    leftViews (codecOf ty) a b L (some dest) ≠ .ub ∧ rightViews (codecOf ty) a b L (some dest) ≠ .ub ∧ midViews p (codecOf ty) a b L P (some dest) ≠ .ub := by
  have hr : ∀ v, Seen moments v → (∀ u ∈ v.read, u < 65536) ∧ v.read.length < dest.length := fun v hv => ⟨fun u hu => by
    obtain ⟨m, h, hu⟩ := UnitsFrom.mem_of hv.read hu; exact (hm m h).2 u hu, length_lt (fun m h => (hm m h).1) hv⟩
  have pan : (Res.panic : Res (List Nat)) ≠ .ub := fun h => by cases h
  have hk := units_ne_ub ty
  have fin : ∀ (f : List (codecOf ty).Item → List (codecOf ty).Item), (∀ l, cost (codecOf ty) (f l) ≤ cost (codecOf ty) l) →
      ((codecOf ty).decodeView b >>= fun l => (codecOf ty).write (f l) (some dest)) ≠ .ub := by
    intro f hf
    rcases decode_bound ty wb (hr b hb).1 with h | ⟨l, h, hc⟩
    · rw [h]; exact pan
    · rw [h, Res.bind_ok]
      exact write_bound _ hk _ _ (by have := hf l; have := (hr b hb).2; omega)
  have start : ∀ g : Nat → Res (List Nat), (∀ n, g n ≠ .ub) → ((codecOf ty).decodeView a >>= fun l => g l.length) ≠ .ub := by
    intro g hg
    rcases decode_bound ty wa (hr a ha).1 with h | ⟨l, h, _⟩
    · rw [h]; exact pan
    · rw [h, Res.bind_ok]; exact hg _
  refine ⟨?_, ?_, ?_⟩
  · unfold leftViews
    split
    · exact pan
    · refine start (fun n => if n < asUsize L then .panic else (codecOf ty).decodeView b >>= fun l => (codecOf ty).write (l.take (asUsize L)) (some dest)) fun n => ?_
      split
      · exact pan
      · exact fin _ fun l => cost_take _ _ _
  · unfold rightViews
    split
    · exact pan
    · refine start (fun n => if n < asUsize L then .panic else (codecOf ty).decodeView b >>= fun l => (codecOf ty).write (l.drop (n - asUsize L)) (some dest)) fun n => ?_
      split
      · exact pan
      · exact fin _ fun l => cost_drop _ _ _
  · unfold midViews
    split
    · exact pan
    · refine start (fun n => if asUsize P < 1 || asUsize P > n then .panic else IntTy.u64.arith p (asUsize L + (asUsize P - 1 : Nat)) >>= fun sum =>
        if n < sum then .panic else (codecOf ty).decodeView b >>= fun l => (codecOf ty).write ((l.drop (asUsize P - 1)).take (asUsize L)) (some dest)) fun n => ?_
      split
      · exact pan
      · cases hsum : IntTy.u64.arith p (asUsize L + (asUsize P - 1 : Nat)) with
        | panic => exact pan
        | ub => exact absurd hsum (arith_ne_ub p _)
        | ok sum =>
          rw [Res.bind_ok]
          split
          · exact pan
          · exact fin _ fun l => Nat.le_trans (cost_take _ _ _) (cost_drop _ _ _)

/-- **C162**, any characters: nor does CONCAT write further than a destination with room for arguments that fill their variables. -/
theorem C162_concat_bounds_partial (ty : StrTy) (vars : List ((List Nat → Prop) × Nat)) (vs : List View) (dest : List Nat)
    (h : List.Forall₂ (fun x v => (∀ m, x.1 m → m.length ≤ x.2 ∧ ∀ u ∈ m, u < 65536) ∧ Seen x.1 v ∧ StillText ty v) vars vs)
    (hroom : (vars.map fun x => x.2 - 1).sum < dest.length) : concatViews (codecOf ty) (some dest) vs ≠ .ub := by
  have loop : ∀ d : Dest, (vars.map fun x => x.2 - 1).sum < d.room.length → concatLoopViews (codecOf ty) vs d ≠ .ub := by
    clear hroom
    induction h with
    | nil => intro d _ h; cases h
    | @cons x v _ _ hv _ ih =>
      intro d hd
      rw [List.map_cons, List.sum_cons] at hd
      have hl := length_lt (fun m h => (hv.1 m h).1) hv.2.1
      have hu : ∀ u ∈ v.read, u < 65536 := fun u hu => by
        obtain ⟨m, h, hu⟩ := UnitsFrom.mem_of hv.2.1.read hu; exact (hv.1 m h).2 u hu
      rw [concatLoopViews]
      rcases decode_bound ty hv.2.2 hu with e | ⟨l, e, hc⟩
      · rw [e]; intro h; cases h
      · rw [e, Res.bind_ok]
        rcases encode_bound (codecOf ty) (units_ne_ub ty) l d (by omega) with e | ⟨d', e, hr⟩
        · rw [e]; intro h; cases h
        · rw [e, Res.bind_ok]
          exact ih d' (by omega)
  unfold concatViews
  cases e : concatLoopViews (codecOf ty) vs ⟨[], dest⟩ with
  | ub => exact absurd e (loop ⟨[], dest⟩ hroom)
  | panic => dsimp only; rw [e]; intro h; cases h
  | ok d => dsimp only; rw [e]; intro h; cases h

/-! ### What does not hold -/

/-- The view of a variable that holds the same text all the time. -/
def View.steady (s : List Nat) : View := ⟨s, s, s⟩

theorem seen_steady {moments : List Nat → Prop} {mem s : List Nat} (hm : moments mem) (h : Holds mem s) : Seen moments (.steady s) := by
  obtain ⟨hn, rest, rfl⟩ := h
  have hu : UnitsFrom moments s.length s := ⟨rfl, fun i u hi => ⟨_, hm, by rw [List.getElem?_append_left (List.getElem?_eq_some_iff.1 hi).1]; exact hi⟩⟩
  exact ⟨⟨_, hm, by simp [View.steady]⟩, hn, hu, hu, hu⟩

/-- **C162 is false of the code**: LEFT(s, 2) while another task changes 'ab' to '' leaves '', which LEFT makes of neither (on '' it panics). -/
theorem C162_refuted (p : Profile) (ty : StrTy) : ¬ SeesOneState p ty := by
  intro h
  let states : List Nat → Prop := fun m => m = [97, 98, 0] ∨ m = [0, 98, 0]
  obtain ⟨in1, in2, h1, _, e⟩ := h (.left (.steady [97, 98]) (.steady []) 2) states states [0, 0, 0] ⟨by decide, by decide⟩
    ⟨fun v hv => by
      rcases List.mem_cons.1 hv with rfl | hv
      · exact seen_steady (.inl rfl) ⟨by decide, [], rfl⟩
      · cases List.mem_singleton.1 hv; exact seen_steady (.inr rfl) ⟨by decide, [98, 0], rfl⟩,
     fun v hv => by cases hv⟩ ⟨_, .inl rfl⟩
  rcases h1 with rfl | rfl
  · have : ViewedCall.run p ty (some [0, 0, 0]) (.left (.steady [97, 98]) (.steady []) 2) = .ok [0, 0, 0] := by cases ty <;> cases p <;> decide
    rw [this] at e
    have : (StringCall.left (some [97, 98, 0]) 2).run p ty (some [0, 0, 0]) = .ok [97, 98, 0] := by cases ty <;> cases p <;> decide
    rw [ViewedCall.ordinary, this] at e
    cases e
  · have : ViewedCall.run p ty (some [0, 0, 0]) (.left (.steady [97, 98]) (.steady []) 2) = .ok [0, 0, 0] := by cases ty <;> cases p <;> decide
    rw [this] at e
    have : (StringCall.left (some [0, 98, 0]) 2).run p ty (some [0, 0, 0]) = .panic := by cases ty <;> cases p <;> decide
    rw [ViewedCall.ordinary, this] at e
    cases e

/-- RIGHT(s, 1) leaves more than one character, if another task changes 'a' to 'abc' meanwhile. -/
theorem C162_right (ty : StrTy) : ∃ (a b : View) (states : List Nat → Prop), Seen states a ∧ Seen states b ∧ (∀ m, states m → ∃ s, Holds m s) ∧
    rightViews (codecOf ty) a b 1 (some [0, 0, 0, 0]) = .ok [97, 98, 99, 0] := by
  refine ⟨.steady [97], .steady [97, 98, 99], fun m => m = [97, 0, 99, 0] ∨ m = [97, 98, 99, 0], seen_steady (.inl rfl) ⟨by decide, [99, 0], rfl⟩,
    seen_steady (.inr rfl) ⟨by decide, [], rfl⟩, ?_, by cases ty <;> decide⟩
  rintro m (rfl | rfl)
  · exact ⟨[97], by decide, [99, 0], rfl⟩
  · exact ⟨[97, 98, 99], by decide, [], rfl⟩

/-- A STRING that is well-formed all the time: 'é' is changed to 'ab' between the check and the reading, which then finds the first byte of 'é' and the 'b'.  That is undefined, whatever the
destination. -/
theorem C162_malformed (L : Int) (dest : Ptr) (hL : 0 ≤ L) (hL' : L ≤ 1) : ∃ (a b : View) (states : List Nat → Prop), Seen states a ∧ Seen states b ∧
    (∀ m, states m → ∃ t, Holds m (utf8 t)) ∧ leftViews (codecOf .STRING) a b L dest = .ub := by
  let states : List Nat → Prop := fun m => m = [0xC3, 0xA9, 0] ∨ m = [97, 98, 0]
  have seen : ∀ x, UnitsFrom states 2 x → Seen states ⟨[0xC3, 0xA9], [0xC3, 0xA9], x⟩ := fun x hx => by
    have := seen_steady (moments := states) (mem := [0xC3, 0xA9, 0]) (s := [0xC3, 0xA9]) (.inl rfl) ⟨by decide, [], rfl⟩
    exact ⟨this.terminator, this.nonzero, this.scanned, this.checked, hx⟩
  refine ⟨.steady [0xC3, 0xA9], ⟨[0xC3, 0xA9], [0xC3, 0xA9], [0xC3, 98]⟩, states, seen _ ?_, seen _ ?_, ?_, ?_⟩
  · exact (seen_steady (moments := states) (mem := [0xC3, 0xA9, 0]) (s := [0xC3, 0xA9]) (.inl rfl) ⟨by decide, [], rfl⟩).read
  · refine ⟨rfl, fun i u hi => ?_⟩
    match i, hi with
    | 0, hi => exact ⟨_, .inl rfl, hi⟩
    | 1, hi => exact ⟨_, .inr rfl, hi⟩
  · rintro m (rfl | rfl)
    · exact ⟨['é'], by decide, [], by decide⟩
    · exact ⟨['a', 'b'], by decide, [], by decide⟩
  · obtain rfl | rfl : L = 0 ∨ L = 1 := by omega
    · cases dest <;> rfl
    · cases dest <;> rfl

/-- The first of the two states of the variable in `C162_overrun`: 'ééa' (for WSTRING two characters outside the basic plane and 'a'); the other is 'abcde'. -/
def twoWide : StrTy → List Char
  | .STRING => ['é', 'é', 'a']
  | .WSTRING => ['😀', '😀', 'a']

/-- DELETE(s, 1, 3) writes beyond a destination of the size of the argument, although every state of the argument and everything that is read is well-formed: the part in front of the deleted
character is taken from one state, the part behind it from another one. -/
theorem C162_overrun (p : Profile) (ty : StrTy) : ∃ (a b c : View) (states : List Nat → Prop), (∀ v ∈ [a, b, c], Seen states v ∧ ∃ t, v.read = ty.units t) ∧
    (∀ m, states m → m.length = 6 ∧ ∃ t, Holds m (ty.units t)) ∧ deleteViews p (codecOf ty) a b c 1 3 (some [0, 0, 0, 0, 0, 0]) = .ub := by
  have h1 : Holds (ty.units (twoWide ty) ++ [0]) (ty.units (twoWide ty)) := ⟨by cases ty <;> decide, [], rfl⟩
  have h2 : Holds (ty.units ['a', 'b', 'c', 'd', 'e'] ++ [0]) (ty.units ['a', 'b', 'c', 'd', 'e']) := ⟨by cases ty <;> decide, [], rfl⟩
  refine ⟨.steady (ty.units ['a', 'b', 'c', 'd', 'e']), .steady (ty.units (twoWide ty)), .steady (ty.units ['a', 'b', 'c', 'd', 'e']),
    fun m => m = ty.units (twoWide ty) ++ [0] ∨ m = ty.units ['a', 'b', 'c', 'd', 'e'] ++ [0], ?_, ?_, ?_⟩
  · intro v hv
    rcases List.mem_cons.1 hv with rfl | hv
    · exact ⟨seen_steady (.inr rfl) h2, _, rfl⟩
    · rcases List.mem_cons.1 hv with rfl | hv
      · exact ⟨seen_steady (.inl rfl) h1, _, rfl⟩
      · cases List.mem_singleton.1 hv; exact ⟨seen_steady (.inr rfl) h2, _, rfl⟩
  · rintro m (rfl | rfl)
    · exact ⟨by cases ty <;> decide, _, h1⟩
    · exact ⟨by cases ty <;> decide, _, h2⟩
  · cases ty <;> cases p <;> decide

/-! ### The hypotheses are met -/

/-- `C162_single_units_partial` and `C162_bounds_partial`: the states of 'ab' while LEFT writes 'xyz' over it; MID counts the characters of 'xb' and then reads 'xy'. -/
example (p : Profile) (ty : StrTy) : let states : List Nat → Prop := (· ∈ (StringCall.left (some [120, 121, 122, 0]) 3).moments p ty [97, 98, 0, 0])
    (ViewedCall.mid (.steady [120, 98]) ⟨[120, 121], [120, 121], [120, 121]⟩ 2 1).Sees states (fun _ => False) ∧ (∀ m, states m → m.length ≤ 4 ∧ ∀ u ∈ m, SingleUnit ty u) ∧
    (ViewedCall.mid (.steady [120, 98]) ⟨[120, 121], [120, 121], [120, 121]⟩ 2 1).run p ty (some [0, 0, 0, 0]) = .ok [120, 121, 0, 0] := by
  intro states
  have hm : (StringCall.left (some [120, 121, 122, 0]) 3).moments p ty [97, 98, 0, 0] = [[97, 98, 0, 0], [120, 98, 0, 0], [120, 121, 0, 0], [120, 121, 122, 0], [120, 121, 122, 0]] := by
    cases ty <;> cases p <;> decide
  refine ⟨⟨fun v hv => ?_, fun v hv => by cases hv⟩, ?_, by cases ty <;> cases p <;> decide⟩
  · rcases List.mem_cons.1 hv with rfl | hv
    · exact seen_steady (mem := [120, 98, 0, 0]) (by show _ ∈ _; rw [hm]; decide) ⟨by decide, [0], rfl⟩
    · cases List.mem_singleton.1 hv
      exact seen_steady (mem := [120, 121, 0, 0]) (s := [120, 121]) (by show _ ∈ _; rw [hm]; decide) ⟨by decide, [0], rfl⟩
  · intro m h
    have : m ∈ [[97, 98, 0, 0], [120, 98, 0, 0], [120, 121, 0, 0], [120, 121, 122, 0], [120, 121, 122, 0]] := by rw [← hm]; exact h
    fin_cases this <;> cases ty <;> simp [SingleUnit]

/-- `C162_unchanged_partial`, `C162_concat_unchanged_partial`: nobody changes 'ab'. -/
example (p : Profile) (ty : StrTy) : (ViewedCall.delete (.steady [97, 98]) (.steady [97, 98]) (.steady [97, 98]) 1 1).run p ty (some [0, 0, 0]) = .ok [98, 0, 0] ∧
    concatViews (codecOf ty) (some [1, 1, 1, 1, 1, 1]) [.steady [97, 98], .steady [], .steady [97, 98]] = .ok [97, 98, 97, 98, 0, 1] ∧ Seen (· = [97, 98, 0]) (.steady [97, 98]) := by
  refine ⟨by cases ty <;> cases p <;> decide, by cases ty <;> decide, seen_steady rfl ⟨by decide, [], rfl⟩⟩

end Verif
