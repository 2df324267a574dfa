import Verif.Model.Selectors
import Verif.Proofs.FloatValue
/-
C18-C21: MAX, MIN, LIMIT.
-/
namespace Verif

/-! ### MAX / MIN on integer-represented types -/

private theorem foldl_max_spec (xs : List Int) : ∀ x,
    (xs.foldl (fun x y => if x > y then x else y) x ∈ x :: xs) ∧
    ∀ y ∈ x :: xs, y ≤ xs.foldl (fun x y => if x > y then x else y) x := by
  induction xs with
  | nil => intro x; simp
  | cons a xs ih =>
    intro x
    simp only [List.foldl_cons]
    obtain ⟨h1, h2⟩ := ih (if x > a then x else a)
    constructor
    · rcases List.mem_cons.1 h1 with h | h
      · rw [h]; split <;> simp
      · simp [h]
    · intro y hy
      have hm := h2 (if x > a then x else a) (by simp)
      have hx : x ≤ (if x > a then x else a) := by split <;> omega
      have ha : a ≤ (if x > a then x else a) := by split <;> omega
      rcases List.mem_cons.1 hy with rfl | hy
      · exact Int.le_trans hx hm
      · rcases List.mem_cons.1 hy with rfl | hy
        · exact Int.le_trans ha hm
        · exact h2 y (by simp [hy])

private theorem foldl_min_spec (xs : List Int) : ∀ x,
    (xs.foldl (fun x y => if x > y then y else x) x ∈ x :: xs) ∧
    ∀ y ∈ x :: xs, xs.foldl (fun x y => if x > y then y else x) x ≤ y := by
  induction xs with
  | nil => intro x; simp
  | cons a xs ih =>
    intro x
    simp only [List.foldl_cons]
    obtain ⟨h1, h2⟩ := ih (if x > a then a else x)
    constructor
    · rcases List.mem_cons.1 h1 with h | h
      · rw [h]; split <;> simp
      · simp [h]
    · intro y hy
      have hm := h2 (if x > a then a else x) (by simp)
      have hx : (if x > a then a else x) ≤ x := by split <;> omega
      have ha : (if x > a then a else x) ≤ a := by split <;> omega
      rcases List.mem_cons.1 hy with rfl | hy
      · exact Int.le_trans hm hx
      · rcases List.mem_cons.1 hy with rfl | hy
        · exact Int.le_trans hm ha
        · exact h2 y (by simp [hy])

/-- **C18**, MAX: for a pointer to a non-empty vector `v` and its length, MAX returns an element of
`v` that no element exceeds. Elements behind the vector (`tail`) play no role. -/
theorem C18_max_int (v tail : List Int) (hne : v ≠ []) :
    ∃ m, maxInt v.length (some (v ++ tail)) = .ok m ∧ m ∈ v ∧ ∀ y ∈ v, y ≤ m := by
  cases v with
  | nil => simp at hne
  | cons x xs =>
    obtain ⟨h1, h2⟩ := foldl_max_spec xs x
    exact ⟨_, by simp [maxInt, fromRawParts, iterMax, reduce], h1, h2⟩

/-- **C18**, MIN. -/
theorem C18_min_int (v tail : List Int) (hne : v ≠ []) :
    ∃ m, minInt v.length (some (v ++ tail)) = .ok m ∧ m ∈ v ∧ ∀ y ∈ v, m ≤ y := by
  cases v with
  | nil => simp at hne
  | cons x xs =>
    obtain ⟨h1, h2⟩ := foldl_min_spec xs x
    exact ⟨_, by simp [minInt, fromRawParts, iterMin, reduce], h1, h2⟩

/-- **C18**, rejected arguments: a null pointer or an empty vector panics. -/
theorem C18_rejects (size : Nat) (v : List Int) :
    maxInt size none = .panic ∧ minInt size none = .panic ∧
    maxInt 0 (some v) = .panic ∧ minInt 0 (some v) = .panic := by
  simp [maxInt, minInt, fromRawParts, iterMax, iterMin, reduce]

example : maxInt 3 (some [3, -7, 5, 99]) = .ok 5 ∧ minInt 3 (some [3, -7, 5, -99]) = .ok (-7) := by
  decide

/-! ### LIMIT on integer-represented types -/

/-- **C19**, ordered bounds: the result is in the range, equals IN if IN is in the range, and is the
nearer bound otherwise. -/
theorem C19_limit_clamps (mn x mx : Int) (h : mn ≤ mx) :
    mn ≤ limitInt mn x mx ∧ limitInt mn x mx ≤ mx ∧
    (mn ≤ x ∧ x ≤ mx → limitInt mn x mx = x) ∧
    (x < mn → limitInt mn x mx = mn) ∧ (x > mx → limitInt mn x mx = mx) := by
  unfold limitInt; refine ⟨?_, ?_, ?_, ?_, ?_⟩ <;> (repeat' split) <;> omega

/-- **C19**, the result is the closest point of the range to IN. -/
theorem C19_limit_closest (mn x mx y : Int) (hy : mn ≤ y ∧ y ≤ mx) :
    (limitInt mn x mx - x).natAbs ≤ (y - x).natAbs := by
  unfold limitInt; (repeat' split) <;> omega

/-- **C19**, idempotence and monotonicity in IN. -/
theorem C19_limit_idempotent_monotone (mn x y mx : Int) (h : mn ≤ mx) :
    limitInt mn (limitInt mn x mx) mx = limitInt mn x mx ∧
    (x ≤ y → limitInt mn x mx ≤ limitInt mn y mx) := by
  unfold limitInt; constructor <;> (repeat' split) <;> omega

/-- **C19**, reversed bounds: MN when IN < MN, MX otherwise. -/
theorem C19_limit_reversed (mn x mx : Int) (h : mn > mx) :
    limitInt mn x mx = if x < mn then mn else mx := by
  unfold limitInt; (repeat' split) <;> omega

/-- **C19**, the result is one of the arguments, hence representable in their type. -/
theorem C19_limit_in_type (t : IntTy) (mn x mx : Int) (h1 : t.InRange mn) (h2 : t.InRange x)
    (h3 : t.InRange mx) : t.InRange (limitInt mn x mx) := by
  unfold limitInt; (repeat' split) <;> assumption

example : limitInt (-5) 3 10 = 3 ∧ limitInt (-5) 30 10 = 10 ∧ limitInt (-5) (-30) 10 = -5 := by
  decide

/-! ### MAX / MIN on REAL and LREAL -/

private theorem foldl_fmax_spec (f : FloatFmt) (tie : Nat → Nat → Bool) (xs : List Nat) : ∀ x,
    (xs.foldl (f.fmax tie) x ∈ x :: xs) ∧
    ((∃ y ∈ x :: xs, f.is_nan y = false) → f.is_nan (xs.foldl (f.fmax tie) x) = false) ∧
    ∀ y ∈ x :: xs, f.is_nan y = false → f.val y ≤ f.val (xs.foldl (f.fmax tie) x) := by
  induction xs with
  | nil => intro x; simp
  | cons a xs ih =>
    intro x
    simp only [List.foldl_cons]
    obtain ⟨h1, h2, h3⟩ := ih (f.fmax tie x a)
    have hmem : f.fmax tie x a = x ∨ f.fmax tie x a = a := by
      unfold FloatFmt.fmax; (repeat' split) <;> simp
    have hnan : f.is_nan x = false ∨ f.is_nan a = false → f.is_nan (f.fmax tie x a) = false := by
      intro h
      unfold FloatFmt.fmax; (repeat' split) <;> simp_all
    have hx : f.is_nan x = false → f.val x ≤ f.val (f.fmax tie x a) := by
      intro h
      unfold FloatFmt.fmax
      simp only [h, Bool.false_eq_true, if_false]
      (repeat' split) <;> omega
    have ha : f.is_nan a = false → f.val a ≤ f.val (f.fmax tie x a) := by
      intro h
      unfold FloatFmt.fmax
      simp only [h, Bool.false_eq_true, if_false]
      (repeat' split) <;> omega
    refine ⟨?_, ?_, ?_⟩
    · rcases List.mem_cons.1 h1 with h | h
      · rw [h]; rcases hmem with e | e <;> simp [e]
      · simp [h]
    · rintro ⟨y, hy, hyn⟩
      apply h2
      rcases List.mem_cons.1 hy with rfl | hy
      · exact ⟨_, List.mem_cons_self, hnan (.inl hyn)⟩
      · rcases List.mem_cons.1 hy with rfl | hy
        · exact ⟨_, List.mem_cons_self, hnan (.inr hyn)⟩
        · exact ⟨y, by simp [hy], hyn⟩
    · intro y hy hyn
      rcases List.mem_cons.1 hy with rfl | hy
      · exact Int.le_trans (hx hyn) (h3 _ (by simp) (hnan (.inl hyn)))
      · rcases List.mem_cons.1 hy with rfl | hy
        · exact Int.le_trans (ha hyn) (h3 _ (by simp) (hnan (.inr hyn)))
        · exact h3 y (by simp [hy]) hyn

private theorem foldl_fmin_spec (f : FloatFmt) (tie : Nat → Nat → Bool) (xs : List Nat) : ∀ x,
    (xs.foldl (f.fmin tie) x ∈ x :: xs) ∧
    ((∃ y ∈ x :: xs, f.is_nan y = false) → f.is_nan (xs.foldl (f.fmin tie) x) = false) ∧
    ∀ y ∈ x :: xs, f.is_nan y = false → f.val (xs.foldl (f.fmin tie) x) ≤ f.val y := by
  induction xs with
  | nil => intro x; simp
  | cons a xs ih =>
    intro x
    simp only [List.foldl_cons]
    obtain ⟨h1, h2, h3⟩ := ih (f.fmin tie x a)
    have hmem : f.fmin tie x a = x ∨ f.fmin tie x a = a := by
      unfold FloatFmt.fmin; (repeat' split) <;> simp
    have hnan : f.is_nan x = false ∨ f.is_nan a = false → f.is_nan (f.fmin tie x a) = false := by
      intro h
      unfold FloatFmt.fmin; (repeat' split) <;> simp_all
    have hx : f.is_nan x = false → f.val (f.fmin tie x a) ≤ f.val x := by
      intro h
      unfold FloatFmt.fmin
      simp only [h, Bool.false_eq_true, if_false]
      (repeat' split) <;> omega
    have ha : f.is_nan a = false → f.val (f.fmin tie x a) ≤ f.val a := by
      intro h
      unfold FloatFmt.fmin
      simp only [h, Bool.false_eq_true, if_false]
      (repeat' split) <;> omega
    refine ⟨?_, ?_, ?_⟩
    · rcases List.mem_cons.1 h1 with h | h
      · rw [h]; rcases hmem with e | e <;> simp [e]
      · simp [h]
    · rintro ⟨y, hy, hyn⟩
      apply h2
      rcases List.mem_cons.1 hy with rfl | hy
      · exact ⟨_, List.mem_cons_self, hnan (.inl hyn)⟩
      · rcases List.mem_cons.1 hy with rfl | hy
        · exact ⟨_, List.mem_cons_self, hnan (.inr hyn)⟩
        · exact ⟨y, by simp [hy], hyn⟩
    · intro y hy hyn
      rcases List.mem_cons.1 hy with rfl | hy
      · exact Int.le_trans (h3 _ (by simp) (hnan (.inl hyn))) (hx hyn)
      · rcases List.mem_cons.1 hy with rfl | hy
        · exact Int.le_trans (h3 _ (by simp) (hnan (.inr hyn))) (ha hyn)
        · exact h3 y (by simp [hy]) hyn

/-- **C20**, MAX. `f` is the format (REAL or LREAL), `tie` resolves which of two equal operands
(`+0`, `-0`) the std function returns. -/
theorem C20_max_float (f : FloatFmt) (hf : IsFloatTy f) (tie : Nat → Nat → Bool) (v tail : List Nat) (hne : v ≠ []) :
    ∃ m, maxFloat f tie v.length (some (v ++ tail)) = .ok m ∧ m ∈ v ∧
      ((∃ y ∈ v, ¬ IsNaN f y) → ¬ IsNaN f m ∧
        ∀ y ∈ v, ¬ IsNaN f y → floatValue f y ≤ floatValue f m) := by
  simp only [not_isNaN_iff, ← val_le_iff f (ebits_of hf)]
  cases v with
  | nil => simp at hne
  | cons x xs =>
    obtain ⟨h1, h2, h3⟩ := foldl_fmax_spec f tie xs x
    exact ⟨_, by simp [maxFloat, fromRawParts, reduce], h1, fun h => ⟨h2 h, h3⟩⟩

/-- **C20**, MIN. -/
theorem C20_min_float (f : FloatFmt) (hf : IsFloatTy f) (tie : Nat → Nat → Bool) (v tail : List Nat) (hne : v ≠ []) :
    ∃ m, minFloat f tie v.length (some (v ++ tail)) = .ok m ∧ m ∈ v ∧
      ((∃ y ∈ v, ¬ IsNaN f y) → ¬ IsNaN f m ∧
        ∀ y ∈ v, ¬ IsNaN f y → floatValue f m ≤ floatValue f y) := by
  simp only [not_isNaN_iff, ← val_le_iff f (ebits_of hf)]
  cases v with
  | nil => simp at hne
  | cons x xs =>
    obtain ⟨h1, h2, h3⟩ := foldl_fmin_spec f tie xs x
    exact ⟨_, by simp [minFloat, fromRawParts, reduce], h1, fun h => ⟨h2 h, h3⟩⟩

/-- **C20**, order of the elements: permuting the vector does not change the value of the
result. -/
theorem C20_max_min_permutation (f : FloatFmt) (hf : IsFloatTy f) (tie : Nat → Nat → Bool) (v w : List Nat)
    (hp : v.Perm w) (hne : ∃ y ∈ v, ¬ IsNaN f y) :
    ∃ m m' n n', maxFloat f tie v.length (some v) = .ok m ∧ maxFloat f tie w.length (some w) = .ok m' ∧
      minFloat f tie v.length (some v) = .ok n ∧ minFloat f tie w.length (some w) = .ok n' ∧
      floatValue f m = floatValue f m' ∧ floatValue f n = floatValue f n' := by
  have hv : v ≠ [] := by rintro rfl; simp at hne
  have hw : w ≠ [] := by rintro rfl; exact hv hp.eq_nil
  have hne' : ∃ y ∈ w, ¬ IsNaN f y := by
    obtain ⟨y, hy, h⟩ := hne
    exact ⟨y, hp.mem_iff.1 hy, h⟩
  obtain ⟨m, h1, h2, h3⟩ := C20_max_float f hf tie v [] hv
  obtain ⟨m', h1', h2', h3'⟩ := C20_max_float f hf tie w [] hw
  obtain ⟨n, g1, g2, g3⟩ := C20_min_float f hf tie v [] hv
  obtain ⟨n', g1', g2', g3'⟩ := C20_min_float f hf tie w [] hw
  simp only [List.append_nil] at h1 h1' g1 g1'
  refine ⟨m, m', n, n', h1, h1', g1, g1', ?_, ?_⟩
  · exact le_antisymm ((h3' hne').2 m (hp.mem_iff.1 h2) (h3 hne).1)
      ((h3 hne).2 m' (hp.mem_iff.2 h2') (h3' hne').1)
  · exact le_antisymm ((g3 hne).2 n' (hp.mem_iff.2 g2') (g3' hne').1)
      ((g3' hne').2 n (hp.mem_iff.1 g2) (g3 hne).1)

/-- NaN (0x7FC00000), 1.0 (0x3F800000) and -infinity (0xFF800000) as REAL. -/
example : maxFloat .f32 (fun _ _ => true) 3 (some [0x7FC00000, 0x3F800000, 0xFF800000]) =
    .ok 0x3F800000 ∧
    minFloat .f32 (fun _ _ => true) 3 (some [0x7FC00000, 0x3F800000, 0xFF800000]) =
    .ok 0xFF800000 := by decide

/-! ### LIMIT on REAL and LREAL -/

/-- The claim of C21 for the format `f`. -/
def LimitStaysInBounds (f : FloatFmt) : Prop :=
  ∀ mn x mx, ¬ IsNaN f mn → ¬ IsNaN f mx → floatValue f mn ≤ floatValue f mx →
    ¬ IsNaN f (limitFloat f mn x mx) ∧
    floatValue f mn ≤ floatValue f (limitFloat f mn x mx) ∧ floatValue f (limitFloat f mn x mx) ≤ floatValue f mx

/-- **C21 is false** for REAL and LREAL: a NaN input is returned unchanged. -/
theorem C21_refuted : ¬ LimitStaysInBounds .f32 ∧ ¬ LimitStaysInBounds .f64 := by
  constructor
  · intro H
    have := H 0 0x7FC00000 0x3F800000
    rw [← val_le_iff .f32 (by decide)] at this
    simp only [not_isNaN_iff] at this
    exact absurd (this (by decide) (by decide) (by decide)).1 (by decide)
  · intro H
    have := H 0 0x7FF8000000000000 0x3FF0000000000000
    rw [← val_le_iff .f64 (by decide)] at this
    simp only [not_isNaN_iff] at this
    exact absurd (this (by decide) (by decide) (by decide +kernel)).1 (by decide)

/-- **C21, what holds.** If IN is not NaN the result is within the bounds, and equals IN if IN is
within them; if IN is NaN it is returned unchanged. -/
theorem C21_partial (f : FloatFmt) (hf : IsFloatTy f) (mn x mx : Nat) (h1 : ¬ IsNaN f mn)
    (h2 : ¬ IsNaN f mx) (h : floatValue f mn ≤ floatValue f mx) :
    (¬ IsNaN f x → ¬ IsNaN f (limitFloat f mn x mx) ∧
      floatValue f mn ≤ floatValue f (limitFloat f mn x mx) ∧ floatValue f (limitFloat f mn x mx) ≤ floatValue f mx ∧
      (floatValue f mn ≤ floatValue f x ∧ floatValue f x ≤ floatValue f mx → limitFloat f mn x mx = x)) ∧
    (IsNaN f x → limitFloat f mn x mx = x) := by
  simp only [not_isNaN_iff, ← val_le_iff f (ebits_of hf)] at *
  rw [isNaN_iff]
  constructor
  · intro hx
    simp only [limitFloat, FloatFmt.gt, FloatFmt.lt, hx, h1, h2, Bool.not_false, Bool.true_and,
      decide_eq_true_eq]
    refine ⟨?_, ?_, ?_, ?_⟩ <;> (repeat' split) <;> first | assumption | omega
  · intro hx
    simp [limitFloat, FloatFmt.gt, FloatFmt.lt, hx]

/-- LIMIT(-1.0, 3.0, 2.0) = 2.0. -/
example : FloatFmt.f32.val 0xBF800000 ≤ FloatFmt.f32.val 0x40000000 ∧
    limitFloat .f32 0xBF800000 0x40400000 0x40000000 = 0x40000000 := by decide +kernel

end Verif
