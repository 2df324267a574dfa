import Verif.Model.ReadViews
import Verif.Props.StringViews
import Verif.Proofs.Find
/-
C166: comparisons, LEN and FIND, if another task changes their arguments during the call.
-/
namespace Verif
open Spec

/-- What a comparison may find in a variable that is always in one of the states `moments`. -/
structure CmpSeen (moments : List Nat → Prop) (v : CmpView) : Prop where
  terminator : ∃ m, moments m ∧ m[v.scanned.length]? = some 0
  nonzero : ∀ u ∈ v.scanned, u ≠ 0
  scanned : UnitsFrom moments v.scanned.length v.scanned
  current : UnitsFrom moments v.scanned.length v.current
  previous : UnitsFrom moments v.scanned.length v.previous

/-- What FIND may find in two variables that are always in one of the states `first` and `second`. -/
structure FindSeen (first second : List Nat → Prop) (v : FindView) : Prop where
  terminator1 : ∃ m, first m ∧ m[v.haystack.length]? = some 0
  terminator2 : ∃ m, second m ∧ m[v.needle.length]? = some 0
  nonzero1 : ∀ u ∈ v.haystack, u ≠ 0
  nonzero2 : ∀ u ∈ v.needle, u ≠ 0
  haystack : UnitsFrom first v.haystack.length v.haystack
  needle : UnitsFrom second v.needle.length v.needle
  count : v.windows.length = v.haystack.length + 1 - v.needle.length
  windows : ∀ (i : Nat) (w n : List Nat), v.windows[i]? = some (w, n) →
    UnitsFrom (fun m' => ∃ m, first m ∧ m' = m.drop i) v.needle.length w ∧ UnitsFrom second v.needle.length n
  checked : UnitsFrom first v.haystack.length v.checked
  read : UnitsFrom first v.haystack.length v.read

/-- FIND. -/
def findOrdinary (p : Profile) : StrTy → Ptr → Ptr → Res Int
  | .STRING => FIND__STRING p
  | .WSTRING => FIND__WSTRING p

/-- A comparison answers for a state of each argument that there was. -/
def ComparesOneState (test : Ordering → Bool) : Prop :=
  ∀ (vars : List (List Nat → Prop)) (vs : List CmpView), List.Forall₂ CmpSeen vars vs →
    ∃ args : List (List Nat), List.Forall₂ (fun x m => x m) vars args ∧ compareViews test vs = compare args.length (some (args.map some)) test

/-- LEN counts the characters of a state of its argument that there was. -/
def MeasuresOneState (ty : StrTy) : Prop :=
  ∀ (moments : List Nat → Prop) (v : View), Seen moments v → ∃ m, moments m ∧ lenViews (codecOf ty) v = len (codecOf ty) (some m)

/-- FIND answers for a state of each argument that there was. -/
def FindsInOneState (p : Profile) (ty : StrTy) : Prop :=
  ∀ (first second : List Nat → Prop) (v : FindView), FindSeen first second v →
    ∃ in1 in2, first in1 ∧ second in2 ∧ findViews p (codecOf ty) v = findOrdinary p ty (some in1) (some in2)

/-! ### Arguments that nobody changes -/

private theorem cmp_still {mem : List Nat} {v : CmpView} (h : CmpSeen (· = mem) v) : Holds mem v.scanned ∧ v.current = v.scanned ∧ v.previous = v.scanned := by
  obtain ⟨hh, e⟩ := Seen.still (v := ⟨v.scanned, v.current, v.previous⟩) ⟨h.terminator, h.nonzero, h.scanned, h.current, h.previous⟩
  exact ⟨hh, by injection e, by injection e⟩

private theorem compare_still (test : Ordering → Bool) {args : List (List Nat)} {vs : List CmpView} (h : List.Forall₂ (fun mem v => CmpSeen (· = mem) v) args vs) :
    ∀ (a : CmpView) (mem : List Nat), CmpSeen (· = mem) a → compareLoop test args.length a.scanned (args.map some) = .ok (compareLoopViews test a vs) := by
  induction h with
  | nil => intro _ _ _; rfl
  | @cons mem b _ _ hb _ ih =>
    intro a m ha
    obtain ⟨hh, e1, _⟩ := cmp_still hb
    obtain ⟨_, _, e2⟩ := cmp_still ha
    rw [List.length_cons, List.map_cons, compareLoop, ptr_to_slice_of_holds hh, Res.bind_ok, compareLoopViews, e1, e2, ih b mem hb]
    split <;> rfl

/-- **C166**, what holds: a comparison of arguments that nobody changes is the ordinary one. -/
theorem C166_compare_unchanged_partial (test : Ordering → Bool) (args : List (List Nat)) (vs : List CmpView) (h : List.Forall₂ (fun mem v => CmpSeen (· = mem) v) args vs) :
    compareViews test vs = compare args.length (some (args.map some)) test := by
  match args, vs, h with
  | [], [], _ => rfl
  | [_], [_], _ => rfl
  | m :: n :: args, a :: b :: vs, .cons ha hb =>
    obtain ⟨hh, _⟩ := cmp_still ha
    have := compare_still test hb a m ha
    simp only [compareViews, compare, List.length_cons, List.map_cons]
    rw [if_neg (by omega), ptr_to_slice_of_holds hh, Res.bind_ok, ← this]
    congr 1
    simp only [List.length_cons]; omega

/-- **C166**, what holds: so is NE. -/
theorem C166_unequal_unchanged_partial (x y : List Nat) (a b : CmpView) (ha : CmpSeen (· = x) a) (hb : CmpSeen (· = y) b) : neViews a b = NE (some x) (some y) := by
  obtain ⟨h1, _, e1⟩ := cmp_still ha
  obtain ⟨h2, e2, _⟩ := cmp_still hb
  rw [NE, ptr_to_slice_of_holds h1, Res.bind_ok, ptr_to_slice_of_holds h2, Res.bind_ok, neViews, e1, e2]; rfl

/-- **C166**, what holds: so is LEN. -/
theorem C166_len_unchanged_partial (ty : StrTy) (mem : List Nat) (v : View) (h : Seen (· = mem) v) : lenViews (codecOf ty) v = len (codecOf ty) (some mem) := by
  rw [lenViews, len, Seen.decode_still ty h]


/-- **C166**, what holds: so is FIND. -/
theorem C166_find_unchanged_partial (p : Profile) (ty : StrTy) (x y : List Nat) (v : FindView) (h : FindSeen (· = x) (· = y) v) :
    findViews p (codecOf ty) v = findOrdinary p ty (some x) (some y) := by
  obtain ⟨h1, e1⟩ := Seen.still (mem := x) (v := ⟨v.haystack, v.checked, v.read⟩) ⟨h.terminator1, h.nonzero1, h.haystack, h.checked, h.read⟩
  obtain ⟨h2, _⟩ := Seen.still (mem := y) (v := ⟨v.needle, v.needle, v.needle⟩) ⟨h.terminator2, h.nonzero2, h.needle, h.needle, h.needle⟩
  dsimp only at h1 h2
  have ec : v.checked = v.haystack := by injection e1
  have er : v.read = v.haystack := by injection e1
  have hw : ∀ (i : Nat), i < v.windows.length → ∃ w, v.windows[i]? = some (w, v.needle) ∧ w = (v.haystack.drop i).take v.needle.length := by
    intro i hi
    obtain ⟨⟨w, n⟩, hn⟩ : ∃ z, v.windows[i]? = some z := ⟨_, List.getElem?_eq_getElem hi⟩
    obtain ⟨hw, hnn⟩ := h.windows i w n hn
    have e := UnitsFrom.same h2 hnn
    subst e
    refine ⟨w, hn, ?_⟩
    have hlen := h.count
    obtain ⟨_, rest, hx⟩ := h1
    refine List.ext_getElem? fun j => ?_
    by_cases hj : j < v.needle.length
    · have hj' : j < w.length := by have := hw.1; omega
      obtain ⟨m', ⟨m, rfl, rfl⟩, hm⟩ := hw.2 j w[j] (List.getElem?_eq_getElem hj')
      rw [List.getElem?_eq_getElem hj', ← hm, List.getElem?_take_of_lt hj, List.getElem?_drop, List.getElem?_drop, hx, List.getElem?_append_left (by omega)]
    · rw [List.getElem?_eq_none (by have := hw.1; omega), List.getElem?_eq_none (by simp; omega)]
  have key : v.haystack.length ≥ v.needle.length → v.needle ≠ [] → v.windows.findIdx? (fun w => w.1 == w.2) = position v.needle v.haystack := by
    intro hl hne
    have hl1 := h.count
    have at_ : ∀ (i : Nat) z, v.windows[i]? = some z → ((z.1 == z.2) = true ↔ v.needle <+: v.haystack.drop i) := by
      intro i z hz
      obtain ⟨w, hw', e⟩ := hw i (List.getElem?_eq_some_iff.1 hz).1
      rw [hz] at hw'
      cases Option.some.inj hw'
      rw [e, List.prefix_iff_eq_take]
      dsimp only
      rw [beq_iff_eq, eq_comm]
    cases hp : position v.needle v.haystack with
    | none =>
      rw [List.findIdx?_eq_none_iff]
      intro z hz
      obtain ⟨i, hi⟩ := List.mem_iff_getElem?.1 hz
      by_contra hc
      exact position_none hne hp i ((at_ i z hi).1 (by simpa using hc))
    | some i =>
      obtain ⟨g1, g2⟩ := position_some hp
      have hi : i < v.windows.length := by
        have := g1.length_le; rw [List.length_drop] at this
        have : v.needle.length ≠ 0 := fun h => hne (List.length_eq_zero_iff.1 h)
        omega
      rw [List.findIdx?_eq_some_iff_getElem]
      refine ⟨hi, (at_ i _ (List.getElem?_eq_getElem hi)).2 g1, fun j hj => ?_⟩
      intro hc
      exact g2 j hj ((at_ j _ (List.getElem?_eq_getElem (by omega))).1 hc)
  have both : findOrdinary p ty (some x) (some y) = (do
      if v.needle.length > v.haystack.length || v.haystack.isEmpty || v.needle.isEmpty then pure 0
      else match position v.needle v.haystack with
        | some idx => do
          let chars ← (codecOf ty).decodeSlice (v.haystack.take idx)
          IntTy.i32.arith p (asI32 chars.length + 1)
        | none => pure 0) := by
    cases ty
    · rw [findOrdinary, FIND__STRING, ptr_to_slice_of_holds h1, Res.bind_ok, ptr_to_slice_of_holds h2, Res.bind_ok]; rfl
    · rw [findOrdinary, FIND__WSTRING, ptr_to_slice_of_holds h1, Res.bind_ok, ptr_to_slice_of_holds h2, Res.bind_ok]; rfl
  rw [both, findViews, ec, er]
  split
  · rfl
  · rename_i hc
    simp only [Bool.or_eq_true, decide_eq_true_eq, List.isEmpty_iff, not_or] at hc
    rw [key (by omega) hc.2]
    cases position v.needle v.haystack with
    | none => rfl
    | some idx =>
      dsimp only
      rw [decodeView_same]

/-! ### Comparisons -/

/-- The states of a variable whose unit `i` changes from one value other than zero to another; the rest of `mem` stays as it is. -/
def OneChanged (mem : List Nat) (i : Nat) : List Nat → Prop := fun m => ∃ u, u ≠ 0 ∧ m = mem.set i u

/-- All states with the same text up to the place `k`, where they have the unit `x`. -/
def BeginWith (front : List Nat) (x : Nat) : List Nat → Prop := fun m => ∃ rest, m = front ++ x :: rest

private theorem holds_set {mem s : List Nat} (h : Holds mem s) {i : Nat} (hi : i < s.length) {u : Nat} (hu : u ≠ 0) : Holds (mem.set i u) (s.set i u) := by
  obtain ⟨hn, rest, rfl⟩ := h
  refine ⟨fun z hz => ?_, rest, by rw [List.set_append_left _ _ hi]⟩
  rcases List.mem_or_eq_of_mem_set hz with h | rfl
  · exact hn z h
  · exact hu

private theorem one_reading {moments : List Nat → Prop} {mem s : List Nat} (h : Holds mem s) {i : Nat} (hi : i < s.length) (hm : ∀ m, moments m → OneChanged mem i m)
    {l : List Nat} (hl : UnitsFrom moments s.length l) : ∃ m, moments m ∧ Holds m l := by
  have hil : i < l.length := by have := hl.1; omega
  obtain ⟨m, hmm, e⟩ := hl.2 i l[i] (List.getElem?_eq_getElem hil)
  obtain ⟨u, hu, rfl⟩ := hm m hmm
  have hh := holds_set h hi hu
  refine ⟨_, hmm, ?_⟩
  have : l = s.set i u := by
    refine List.ext_getElem? fun j => ?_
    by_cases hj : j < s.length
    · have hjl : j < l.length := by have := hl.1; omega
      by_cases hij : i = j
      · subst hij
        rw [List.getElem?_eq_getElem hjl, ← e, List.getElem?_set_self hi, List.getElem?_set_self (by have := h.2.choose_spec; rw [this]; simp; omega)]
      · obtain ⟨m', hm', e'⟩ := hl.2 j l[j] (List.getElem?_eq_getElem hjl)
        obtain ⟨u', _, rfl⟩ := hm m' hm'
        rw [List.getElem?_set_ne hij] at e'
        obtain ⟨_, rest, rfl⟩ := h
        rw [List.getElem?_append_left hj] at e'
        rw [List.getElem?_eq_getElem hjl, List.getElem?_set_ne hij, e']
    · rw [List.getElem?_eq_none (by have := hl.1; omega), List.getElem?_eq_none (by simp; omega)]
  rw [this]
  exact hh

/-- The search for the terminator stops where all states have it. -/
private theorem scan_length {moments : List Nat → Prop} {v : CmpView} (h : CmpSeen moments v) {front : List Nat} (hn : ∀ u ∈ front, u ≠ 0) {x : Nat}
    (hm : ∀ m, moments m → BeginWith front x m) : front.length ≤ v.scanned.length ∧ (x = 0 → v.scanned.length = front.length) ∧ (x ≠ 0 → front.length < v.scanned.length) := by
  obtain ⟨m, hmm, hz⟩ := h.terminator
  obtain ⟨rest, rfl⟩ := hm m hmm
  have h1 : front.length ≤ v.scanned.length := by
    by_contra hc
    rw [List.getElem?_append_left (by omega)] at hz
    exact hn 0 (List.mem_iff_getElem?.2 ⟨_, hz⟩) rfl
  refine ⟨h1, fun hx => ?_, fun hx => ?_⟩
  · by_contra hc
    have hlt : front.length < v.scanned.length := by omega
    obtain ⟨m', hm', e⟩ := h.scanned.2 front.length v.scanned[front.length] (List.getElem?_eq_getElem hlt)
    obtain ⟨rest', rfl⟩ := hm m' hm'
    rw [List.getElem?_append_right (Nat.le_refl _), Nat.sub_self, List.getElem?_cons_zero] at e
    exact h.nonzero _ (List.getElem_mem hlt) (by rw [← Option.some.inj e, hx])
  · rcases Nat.lt_or_ge front.length v.scanned.length with hlt | hge
    · exact hlt
    · have he : v.scanned.length = front.length := by omega
      rw [he, List.getElem?_append_right (Nat.le_refl _), Nat.sub_self, List.getElem?_cons_zero] at hz
      exact absurd (Option.some.inj hz) hx

private theorem one_length {mem s : List Nat} (h : Holds mem s) {i : Nat} (hi : i < s.length) {moments : List Nat → Prop} (hm : ∀ m, moments m → OneChanged mem i m)
    {v : CmpView} (hv : CmpSeen moments v) : v.scanned.length = s.length := by
  obtain ⟨m, hmm, hz⟩ := hv.terminator
  have end_ : ∀ m, moments m → m[s.length]? = some 0 := fun m hmm => by
    obtain ⟨u, _, rfl⟩ := hm m hmm
    obtain ⟨_, rest, rfl⟩ := h
    rw [List.getElem?_set_ne (by omega), List.getElem?_append_right (Nat.le_refl _), Nat.sub_self]; rfl
  rcases Nat.lt_trichotomy v.scanned.length s.length with hlt | he | hgt
  · obtain ⟨u, hu, rfl⟩ := hm m hmm
    obtain ⟨hn, rest, e⟩ := holds_set h hi hu
    rw [e, List.getElem?_append_left (by simpa using hlt)] at hz
    exact absurd rfl (hn 0 (List.mem_iff_getElem?.2 ⟨_, hz⟩))
  · exact he
  · obtain ⟨m', hm', e⟩ := hv.scanned.2 s.length v.scanned[s.length] (List.getElem?_eq_getElem hgt)
    rw [end_ m' hm'] at e
    exact absurd (Option.some.inj e).symm (hv.nonzero _ (List.getElem_mem hgt))

/-- **C166**, one unit: if only one unit of each argument changes, and not from or to zero, a comparison of two arguments answers for a state of each of them that there was. -/
theorem C166_one_unit_partial (test : Ordering → Bool) (first second : List Nat → Prop) (mem1 mem2 s1 s2 : List Nat) (i j : Nat) (h1 : Holds mem1 s1) (h2 : Holds mem2 s2)
    (hi : i < s1.length) (hj : j < s2.length) (hf : ∀ m, first m → OneChanged mem1 i m) (hs : ∀ m, second m → OneChanged mem2 j m) (a b : CmpView) (ha : CmpSeen first a) (hb : CmpSeen second b) :
    ∃ in1 in2, first in1 ∧ second in2 ∧ compareViews test [a, b] = compare 2 (some [some in1, some in2]) test ∧ neViews a b = NE (some in1) (some in2) := by
  have la := one_length h1 hi hf ha
  have lb := one_length h2 hj hs hb
  obtain ⟨in1, hin1, g1⟩ := one_reading h1 hi hf (l := a.previous) (la ▸ ha.previous)
  obtain ⟨in2, hin2, g2⟩ := one_reading h2 hj hs (l := b.current) (lb ▸ hb.current)
  refine ⟨in1, in2, hin1, hin2, ?_, ?_⟩
  · have e : compare 2 (some [some in1, some in2]) test = compareLoop test 1 a.previous [some in2] := by
      unfold compare
      rw [if_neg (by decide)]
      dsimp only
      rw [ptr_to_slice_of_holds g1]; rfl
    rw [e, compareLoop, ptr_to_slice_of_holds g2, Res.bind_ok, compareViews, compareLoopViews]
    cases test (cmpSlices a.previous b.current) <;> rfl
  · rw [NE, ptr_to_slice_of_holds g1, Res.bind_ok, ptr_to_slice_of_holds g2, Res.bind_ok]; rfl

private theorem cmp_append (front l r : List Nat) : cmpSlices (front ++ l) (front ++ r) = cmpSlices l r := by
  induction front with
  | nil => rfl
  | cons u f ih => rw [List.cons_append, List.cons_append, cmpSlices, if_neg (Nat.lt_irrefl _), if_neg (Nat.lt_irrefl _), ih]

private theorem front_reading {moments : List Nat → Prop} {front : List Nat} {x : Nat} (hm : ∀ m, moments m → BeginWith front x m) {n : Nat} {l : List Nat} (hl : UnitsFrom moments n l)
    (hn : front.length ≤ n) : ∃ rest, l = front ++ rest ∧ (front.length < n → ∃ rest', rest = x :: rest') ∧ (front.length = n → rest = []) := by
  have h1 : l.take front.length = front := by
    refine List.ext_getElem? fun i => ?_
    by_cases hi : i < front.length
    · have hil : i < l.length := by have := hl.1; omega
      obtain ⟨m, hmm, e⟩ := hl.2 i l[i] (List.getElem?_eq_getElem hil)
      obtain ⟨rest, rfl⟩ := hm m hmm
      rw [List.getElem?_append_left hi] at e
      rw [List.getElem?_take_of_lt hi, e, List.getElem?_eq_getElem hil]
    · rw [List.getElem?_eq_none (by simp; omega), List.getElem?_eq_none (by omega)]
  refine ⟨l.drop front.length, ?_, fun hlt => ?_, fun he => ?_⟩
  · conv_lhs => rw [← List.take_append_drop front.length l, h1]
  · have hil : front.length < l.length := by have := hl.1; omega
    obtain ⟨m, hmm, e⟩ := hl.2 front.length l[front.length] (List.getElem?_eq_getElem hil)
    obtain ⟨rest, rfl⟩ := hm m hmm
    rw [List.getElem?_append_right (Nat.le_refl _), Nat.sub_self, List.getElem?_cons_zero] at e
    exact ⟨l.drop (front.length + 1), by rw [List.drop_eq_getElem_cons hil, Option.some.inj e]⟩
  · rw [List.drop_eq_nil_iff]; have := hl.1; omega

/-- **C166**, the front: if neither argument changes up to the first place where they differ (which may be the end of one of them), a comparison of two arguments answers as if nothing changed. -/
theorem C166_front_partial (test : Ordering → Bool) (first second : List Nat → Prop) (front : List Nat) (hn : ∀ u ∈ front, u ≠ 0) (x y : Nat) (hxy : x ≠ y)
    (hf : ∀ m, first m → BeginWith front x m) (hs : ∀ m, second m → BeginWith front y m) (a b : CmpView) (ha : CmpSeen first a) (hb : CmpSeen second b) :
    compareViews test [a, b] = .ok (test (if x < y then .lt else .gt)) ∧ neViews a b = .ok true := by
  obtain ⟨la, la0, la1⟩ := scan_length ha hn hf
  obtain ⟨lb, lb0, lb1⟩ := scan_length hb hn hs
  obtain ⟨ra, ea, ea1, ea2⟩ := front_reading hf ha.previous la
  obtain ⟨rb, eb, eb1, eb2⟩ := front_reading hs hb.current lb
  have key : cmpSlices a.previous b.current = if x < y then .lt else .gt := by
    rw [ea, eb, cmp_append]
    by_cases hx : x = 0
    · have hy : y ≠ 0 := fun h => hxy (by rw [hx, h])
      rw [ea2 (la0 hx).symm]
      obtain ⟨r, rfl⟩ := eb1 (lb1 hy)
      rw [if_pos (by omega)]; rfl
    · obtain ⟨r, rfl⟩ := ea1 (la1 hx)
      by_cases hy : y = 0
      · rw [eb2 (lb0 hy).symm, if_neg (by omega)]; rfl
      · obtain ⟨r', rfl⟩ := eb1 (lb1 hy)
        rw [cmpSlices]
        by_cases h : x < y
        · rw [if_pos h, if_pos h]
        · rw [if_neg h, if_neg h, if_pos (by omega)]
  refine ⟨?_, ?_⟩
  · simp only [compareViews, compareLoopViews, key]
    cases test (if x < y then .lt else .gt) <;> rfl
  · rw [neViews, key]; split <;> rfl

/-! ### LEN and FIND -/

/-- **C166**, LEN of characters of one unit: the place of a zero that there was, hence less than the size of the variable. -/
theorem C166_len_single_units_partial (ty : StrTy) (moments : List Nat → Prop) (N : Nat) (hN : N < 2 ^ 31) (hm : ∀ m, moments m → m.length ≤ N ∧ ∀ u ∈ m, SingleUnit ty u) (v : View)
    (h : Seen moments v) : ∃ n : Nat, lenViews (codecOf ty) v = .ok n ∧ n < N ∧ (∃ m, moments m ∧ m[n]? = some 0) ∧ ∀ i < n, ∃ m u, moments m ∧ m[i]? = some u ∧ u ≠ 0 := by
  have hu : ∀ l, UnitsFrom moments v.scanned.length l → ∀ u ∈ l, SingleUnit ty u := fun l hl u hu => by
    obtain ⟨m, h1, h2⟩ := hl.mem_of hu; exact (hm m h1).2 u h2
  obtain ⟨l, e, hl⟩ := decodeView_single_length ty v (hu _ h.checked) (hu _ h.read)
  obtain ⟨m, hmm, hz⟩ := h.terminator
  have hlt := (List.getElem?_eq_some_iff.1 hz).1
  have := (hm m hmm).1
  have hr := h.read.1
  refine ⟨v.scanned.length, ?_, by omega, ⟨m, hmm, hz⟩, fun i hi => ?_⟩
  · rw [lenViews, e, Res.bind_ok, hl, hr]
    exact congrArg Res.ok (asI32_small (by omega))
  · obtain ⟨m', h1, h2⟩ := h.scanned.2 i v.scanned[i] (List.getElem?_eq_getElem hi)
    exact ⟨m', _, h1, h2, h.nonzero _ (List.getElem_mem hi)⟩

private theorem find_answer (p : Profile) (ty : StrTy) {first second : List Nat → Prop} {N : Nat} (hN : N < 2 ^ 31) (hm : ∀ m, first m → m.length ≤ N ∧ ∀ u ∈ m, SingleUnit ty u)
    {v : FindView} (h : FindSeen first second v) {i : Nat} (hi : v.windows.findIdx? (fun w => w.1 == w.2) = some i) (h0 : v.needle ≠ []) :
    findViews p (codecOf ty) v = .ok ((i : Int) + 1) ∧ i + v.needle.length ≤ v.haystack.length := by
  obtain ⟨hil, hw, _⟩ := List.findIdx?_eq_some_iff_getElem.1 hi
  have hc := h.count
  obtain ⟨m, hmm, hz⟩ := h.terminator1
  have hlt := (List.getElem?_eq_some_iff.1 hz).1
  have := (hm m hmm).1
  have h0' : v.needle.length ≠ 0 := fun e => h0 (List.length_eq_zero_iff.1 e)
  have hu : ∀ l, UnitsFrom first v.haystack.length l → ∀ u ∈ l.take i, SingleUnit ty u := fun l hl u hu => by
    obtain ⟨m, h1, h2⟩ := hl.mem_of (List.mem_of_mem_take hu); exact (hm m h1).2 u h2
  obtain ⟨l, e, hl⟩ := decodeView_single_length ty ⟨v.haystack.take i, v.checked.take i, v.read.take i⟩ (hu _ h.checked) (hu _ h.read)
  refine ⟨?_, by omega⟩
  rw [findViews, if_neg (by simp only [Bool.or_eq_true, decide_eq_true_eq, List.isEmpty_iff, not_or]; exact ⟨⟨by omega, fun e => by rw [e] at hc; simp at hc; omega⟩, h0⟩), hi]
  dsimp only
  have hl' : l.length = i := by rw [hl]; dsimp only; rw [List.length_take, h.read.1]; omega
  rw [e, Res.bind_ok, hl']
  have r1 : asI32 (i : Int) = i := asI32_small (by omega)
  rw [r1]
  unfold IntTy.arith
  rw [if_pos (by constructor <;> simp [IntTy.lo, IntTy.hi, IntTy.i32] <;> omega)]

/-- **C166**, FIND in characters of one unit: it answers, and if it answers with a place, both arguments have had the same units there, at some time each. -/
theorem C166_find_single_units_partial (p : Profile) (ty : StrTy) (first second : List Nat → Prop) (N : Nat) (hN : N < 2 ^ 31) (hm : ∀ m, first m → m.length ≤ N ∧ ∀ u ∈ m, SingleUnit ty u)
    (v : FindView) (h : FindSeen first second v) : ∃ n : Nat, findViews p (codecOf ty) v = .ok n ∧ n < N ∧
      (0 < n → 0 < v.needle.length ∧ ∀ j < v.needle.length, ∃ m m' u, first m ∧ second m' ∧ m[n - 1 + j]? = some u ∧ m'[j]? = some u) := by
  obtain ⟨m, hmm, hz⟩ := h.terminator1
  have hlt := (List.getElem?_eq_some_iff.1 hz).1
  have hmN := (hm m hmm).1
  by_cases h0 : v.needle.length > v.haystack.length || v.haystack.isEmpty || v.needle.isEmpty
  · exact ⟨0, by rw [findViews, if_pos h0]; rfl, by omega, fun h => absurd h (Nat.lt_irrefl _)⟩
  · cases hi : v.windows.findIdx? (fun w => w.1 == w.2) with
    | none => exact ⟨0, by rw [findViews, if_neg h0, hi]; rfl, by omega, fun h => absurd h (Nat.lt_irrefl _)⟩
    | some i =>
      simp only [Bool.or_eq_true, decide_eq_true_eq, List.isEmpty_iff, not_or] at h0
      have hpos : 0 < v.needle.length := List.length_pos_of_ne_nil h0.2
      obtain ⟨e, hle⟩ := find_answer p ty hN hm h hi h0.2
      refine ⟨i + 1, by rw [e]; rfl, by omega, fun _ => ⟨hpos, fun j hj => ?_⟩⟩
      obtain ⟨hil, hw, _⟩ := List.findIdx?_eq_some_iff_getElem.1 hi
      obtain ⟨h1, h2⟩ := h.windows i v.windows[i].1 v.windows[i].2 (List.getElem?_eq_getElem hil)
      rw [beq_iff_eq] at hw
      rw [hw] at h1
      have hjl : j < v.windows[i].2.length := by have := h1.1; omega
      obtain ⟨m', ⟨m, hm1, rfl⟩, e1⟩ := h1.2 j _ (List.getElem?_eq_getElem hjl)
      obtain ⟨m', hm2, e2⟩ := h2.2 j _ (List.getElem?_eq_getElem hjl)
      rw [List.getElem?_drop] at e1
      exact ⟨m, m', _, hm1, hm2, by simpa using e1, e2⟩

/-- **C166**, FIND: what stays where it is will be found, there or in front of it, whatever happens to the rest. -/
theorem C166_find_lasting_partial (p : Profile) (ty : StrTy) (first : List Nat → Prop) (N : Nat) (hN : N < 2 ^ 31) (hm : ∀ m, first m → m.length ≤ N ∧ ∀ u ∈ m, SingleUnit ty u)
    (needle mem2 : List Nat) (hne : needle ≠ []) (h2 : Holds mem2 needle) (i : Nat) (hlast : ∀ m, first m → (∀ u ∈ m.take i, u ≠ 0) ∧ (m.drop i).take needle.length = needle)
    (v : FindView) (h : FindSeen first (· = mem2) v) : ∃ n : Nat, findViews p (codecOf ty) v = .ok n ∧ 1 ≤ n ∧ n ≤ i + 1 := by
  obtain ⟨hh, _⟩ := Seen.still (mem := mem2) (v := ⟨v.needle, v.needle, v.needle⟩) ⟨h.terminator2, h.nonzero2, h.needle, h.needle, h.needle⟩
  dsimp only at hh
  have e2 : v.needle = needle := holds_unique hh h2
  have hpos : 0 < needle.length := List.length_pos_of_ne_nil hne
  -- the terminator of the first argument is behind the place
  have hlen : i + needle.length ≤ v.haystack.length := by
    obtain ⟨m, hmm, hz⟩ := h.terminator1
    obtain ⟨g1, g2⟩ := hlast m hmm
    by_contra hc
    rcases Nat.lt_or_ge v.haystack.length i with hlt | hge
    · exact g1 0 (List.mem_iff_getElem?.2 ⟨_, by rw [List.getElem?_take_of_lt hlt]; exact hz⟩) rfl
    · refine h2.1 0 ?_ rfl
      rw [← g2]
      refine List.mem_iff_getElem?.2 ⟨v.haystack.length - i, ?_⟩
      rw [List.getElem?_take_of_lt (by omega), List.getElem?_drop, show i + (v.haystack.length - i) = v.haystack.length by omega, hz]
  have hc := h.count
  rw [e2] at hc
  have hiw : i < v.windows.length := by omega
  have hit : (v.windows[i].1 == v.windows[i].2) = true := by
    obtain ⟨h3, h4⟩ := h.windows i v.windows[i].1 v.windows[i].2 (List.getElem?_eq_getElem hiw)
    rw [e2] at h3 h4
    rw [beq_iff_eq, UnitsFrom.same h2 h4]
    refine List.ext_getElem? fun j => ?_
    by_cases hj : j < needle.length
    · have hjl : j < v.windows[i].1.length := by have := h3.1; omega
      obtain ⟨m', ⟨m, hm1, rfl⟩, e1⟩ := h3.2 j _ (List.getElem?_eq_getElem hjl)
      rw [List.getElem?_eq_getElem hjl, ← e1]
      conv_rhs => rw [← (hlast m hm1).2, List.getElem?_take_of_lt hj]
    · rw [List.getElem?_eq_none (by have := h3.1; omega), List.getElem?_eq_none (by omega)]
  cases hf : v.windows.findIdx? (fun w => w.1 == w.2) with
  | none =>
    rw [List.findIdx?_eq_none_iff] at hf
    have := hf _ (List.getElem_mem hiw)
    rw [hit] at this; cases this
  | some n =>
    obtain ⟨_, _, hmin⟩ := List.findIdx?_eq_some_iff_getElem.1 hf
    obtain ⟨e, _⟩ := find_answer p ty hN hm h hf (by rw [e2]; exact hne)
    refine ⟨n + 1, by rw [e]; rfl, by omega, ?_⟩
    by_contra hcon
    exact hmin i (by omega) hit

/-! ### What goes wrong -/

/-- The states of a variable with 'ab', when 'cd' is written to it unit by unit. -/
def abToCd : List Nat → Prop := fun m => m = [97, 98, 0] ∨ m = [99, 98, 0] ∨ m = [99, 100, 0]
/-- The variable with 'ad'. -/
def alwaysAd : List Nat → Prop := fun m => m = [97, 100, 0]
/-- What is read of the former: 'a' before, 'd' after the change. -/
def readAd : List Nat := [97, 100]

private theorem readAd_from : UnitsFrom abToCd 2 readAd := by
  refine ⟨rfl, fun i u hi => ?_⟩
  match i, hi with
  | 0, hi => exact ⟨_, .inl rfl, hi⟩
  | 1, hi => exact ⟨_, .inr (.inr rfl), hi⟩

private theorem ab_from : UnitsFrom abToCd 2 [97, 98] := by
  refine ⟨rfl, fun i u hi => ?_⟩
  match i, hi with
  | 0, hi => exact ⟨_, .inl rfl, hi⟩
  | 1, hi => exact ⟨_, .inl rfl, hi⟩

private theorem ad_from : UnitsFrom alwaysAd 2 [97, 100] := by
  refine ⟨rfl, fun i u hi => ?_⟩
  match i, hi with
  | 0, hi => exact ⟨_, rfl, hi⟩
  | 1, hi => exact ⟨_, rfl, hi⟩

/-- **C166 is false of the code**: EQ is TRUE for texts that have never been equal. -/
theorem C166_refuted_equal : ¬ ComparesOneState Ordering.isEq := by
  intro h
  obtain ⟨args, ha, e⟩ := h [abToCd, alwaysAd] [⟨[97, 98], [97, 98], readAd⟩, ⟨[97, 100], [97, 100], [97, 100]⟩]
    (.cons ⟨⟨_, .inl rfl, rfl⟩, by decide, ab_from, ab_from, readAd_from⟩ (.cons ⟨⟨_, rfl, rfl⟩, by decide, ad_from, ad_from, ad_from⟩ .nil))
  match args, ha with
  | [x, y], .cons hx (.cons hy .nil) =>
    cases hy
    rcases hx with rfl | rfl | rfl <;> revert e <;> decide

/-- **C166 is false of the code**: LEN is 2 although the text has never had two characters ('a' is cut to '', then a 'b' is written behind the end). -/
theorem C166_refuted_len (ty : StrTy) : ¬ MeasuresOneState ty := by
  intro h
  let states : List Nat → Prop := fun m => m = [97, 0, 0] ∨ m = [0, 0, 0] ∨ m = [0, 98, 0]
  have hu : UnitsFrom states 2 [97, 98] := by
    refine ⟨rfl, fun i u hi => ?_⟩
    match i, hi with
    | 0, hi => exact ⟨_, .inl rfl, hi⟩
    | 1, hi => exact ⟨_, .inr (.inr rfl), hi⟩
  obtain ⟨m, hm, e⟩ := h states ⟨[97, 98], [97, 98], [97, 98]⟩ ⟨⟨_, .inl rfl, rfl⟩, by decide, hu, hu, hu⟩
  rcases hm with rfl | rfl | rfl <;> revert e <;> cases ty <;> decide

/-- **C166 is false of the code**: FIND(s, 'x') is 0 although there is an 'x' in every state of `s` ('ax' is changed to 'xx' and then to 'xa'). -/
theorem C166_refuted_find (p : Profile) (ty : StrTy) : ¬ FindsInOneState p ty := by
  intro h
  let states : List Nat → Prop := fun m => m = [97, 120, 0] ∨ m = [120, 120, 0] ∨ m = [120, 97, 0]
  have hu : UnitsFrom states 2 [97, 120] := by
    refine ⟨rfl, fun i u hi => ?_⟩
    match i, hi with
    | 0, hi => exact ⟨_, .inl rfl, hi⟩
    | 1, hi => exact ⟨_, .inl rfl, hi⟩
  have hx : UnitsFrom (· = [120, 0]) 1 [120] := by
    refine ⟨rfl, fun i u hi => ?_⟩
    match i, hi with
    | 0, hi => exact ⟨_, rfl, hi⟩
  obtain ⟨m, x, hm, rfl, e⟩ := h states (· = [120, 0]) ⟨[97, 120], [120], [([97], [120]), ([97], [120])], [97, 120], [97, 120]⟩
    ⟨⟨_, .inl rfl, rfl⟩, ⟨_, rfl, rfl⟩, by decide, by decide, hu, hx, rfl, by
      intro i w n hi
      match i, hi with
      | 0, hi =>
        cases hi
        exact ⟨⟨rfl, fun j u hj => match j, hj with | 0, hj => ⟨_, ⟨_, .inl rfl, rfl⟩, hj⟩⟩, hx⟩
      | 1, hi =>
        cases hi
        exact ⟨⟨rfl, fun j u hj => match j, hj with | 0, hj => ⟨_, ⟨_, .inr (.inr rfl), rfl⟩, hj⟩⟩, hx⟩, hu, hu⟩
  rcases hm with rfl | rfl | rfl <;> revert e <;> cases ty <;> cases p <;> decide

/-! ### Cases -/

-- 'b' of 'abc' becomes an 'x' while it is compared with 'abc'
example : ∀ m, (m = [97, 98, 99, 0] ∨ m = [97, 120, 99, 0]) → OneChanged [97, 98, 99, 0] 1 m := by
  rintro m (rfl | rfl)
  · exact ⟨98, by decide, rfl⟩
  · exact ⟨120, by decide, rfl⟩
example : Holds [97, 98, 99, 0] [97, 98, 99] := ⟨by decide, [], rfl⟩
-- 'ab' and a text that always begins with 'ac'
example : compareViews Ordering.isLT [⟨[97, 98], [97, 98], [97, 98]⟩, ⟨[97, 99, 100], [97, 99, 101], [97, 99, 102]⟩] = .ok true := by decide
-- FIND of 'b' in 'ab', which becomes 'bb'
example : findViews .debug codec8 ⟨[97, 98], [98], [([97], [98]), ([98], [98])], [97, 98], [98, 98]⟩ = .ok 2 := by decide

example : FindSeen (fun m => m = [97, 98, 0] ∨ m = [98, 98, 0]) (· = [98, 0]) ⟨[97, 98], [98], [([97], [98]), ([98], [98])], [97, 98], [98, 98]⟩ := by
  have hu : UnitsFrom (fun m => m = [97, 98, 0] ∨ m = [98, 98, 0]) 2 [97, 98] :=
    ⟨rfl, fun i u hi => match i, hi with | 0, hi => ⟨_, .inl rfl, hi⟩ | 1, hi => ⟨_, .inl rfl, hi⟩⟩
  have hr : UnitsFrom (fun m => m = [97, 98, 0] ∨ m = [98, 98, 0]) 2 [98, 98] :=
    ⟨rfl, fun i u hi => match i, hi with | 0, hi => ⟨_, .inr rfl, hi⟩ | 1, hi => ⟨_, .inr rfl, hi⟩⟩
  have hx : UnitsFrom (· = [98, 0]) 1 [98] := ⟨rfl, fun i u hi => match i, hi with | 0, hi => ⟨_, rfl, hi⟩⟩
  refine ⟨⟨_, .inl rfl, rfl⟩, ⟨_, rfl, rfl⟩, by decide, by decide, hu, hx, rfl, ?_, hu, hr⟩
  intro i w n hi
  match i, hi with
  | 0, hi =>
    cases hi
    exact ⟨⟨rfl, fun j u hj => match j, hj with | 0, hj => ⟨_, ⟨_, .inl rfl, rfl⟩, hj⟩⟩, hx⟩
  | 1, hi =>
    cases hi
    exact ⟨⟨rfl, fun j u hj => match j, hj with | 0, hj => ⟨_, ⟨_, .inl rfl, rfl⟩, hj⟩⟩, hx⟩
-- the 'b' at the second place stays
example : ∀ m, (m = [97, 98, 0] ∨ m = [98, 98, 0]) → (∀ u ∈ m.take 1, u ≠ 0) ∧ (m.drop 1).take [98].length = [98] := by
  rintro m (rfl | rfl) <;> decide

end Verif
