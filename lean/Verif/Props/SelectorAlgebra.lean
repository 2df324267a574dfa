import Verif.Props.Selectors
/-
C120: how calls of MAX, MIN and LIMIT combine.
-/
namespace Verif

/-- `MAX(v1, v2, ...)` on an integer-represented type. -/
def callMax (v : List Int) : Res Int := maxInt v.length (some v)
/-- `MIN(v1, v2, ...)`. -/
def callMin (v : List Int) : Res Int := minInt v.length (some v)

private theorem max_iff (v : List Int) (m : Int) : callMax v = .ok m ↔ m ∈ v ∧ ∀ y ∈ v, y ≤ m := by
  cases v with
  | nil => simp [callMax, C18_rejects 0 []]
  | cons x xs =>
    obtain ⟨k, h1, h2, h3⟩ := C18_max_int (x :: xs) [] (by simp)
    rw [List.append_nil] at h1
    unfold callMax
    rw [h1]
    constructor
    · intro h; rw [← Res.ok.inj h]; exact ⟨h2, h3⟩
    · rintro ⟨a, b⟩
      rw [Int.le_antisymm (h3 m a) (b k h2)]

private theorem min_iff (v : List Int) (m : Int) : callMin v = .ok m ↔ m ∈ v ∧ ∀ y ∈ v, m ≤ y := by
  cases v with
  | nil => simp [callMin, C18_rejects 0 []]
  | cons x xs =>
    obtain ⟨k, h1, h2, h3⟩ := C18_min_int (x :: xs) [] (by simp)
    rw [List.append_nil] at h1
    unfold callMin
    rw [h1]
    constructor
    · intro h; rw [← Res.ok.inj h]; exact ⟨h2, h3⟩
    · rintro ⟨a, b⟩
      rw [Int.le_antisymm (b k h2) (h3 m a)]

private theorem max_two (a b : Int) : callMax [a, b] = .ok (max a b) := by
  rw [max_iff]
  simp only [List.mem_cons, List.not_mem_nil, or_false, forall_eq_or_imp, forall_eq]
  omega

private theorem min_two (a b : Int) : callMin [a, b] = .ok (min a b) := by
  rw [min_iff]
  simp only [List.mem_cons, List.not_mem_nil, or_false, forall_eq_or_imp, forall_eq]
  omega

/-- **C120.** A nested call gives what one call with all the arguments gives: MAX(MAX(v...), MAX(w...)) is MAX(v...,
w...), and the same for MIN. -/
theorem C120_nested (v w : List Int) (a b : Int) :
    (callMax v = .ok a → callMax w = .ok b → callMax [a, b] = callMax (v ++ w)) ∧
    (callMin v = .ok a → callMin w = .ok b → callMin [a, b] = callMin (v ++ w)) := by
  constructor
  · intro ha hb
    rw [max_iff] at ha hb
    rw [max_two]
    refine ((max_iff _ _).2 ⟨?_, ?_⟩).symm
    · rcases (show max a b = a ∨ max a b = b by omega) with h | h <;> rw [h] <;> simp [ha.1, hb.1]
    · intro y hy
      rcases List.mem_append.1 hy with hy | hy
      · have := ha.2 y hy; omega
      · have := hb.2 y hy; omega
  · intro ha hb
    rw [min_iff] at ha hb
    rw [min_two]
    refine ((min_iff _ _).2 ⟨?_, ?_⟩).symm
    · rcases (show min a b = a ∨ min a b = b by omega) with h | h <;> rw [h] <;> simp [ha.1, hb.1]
    · intro y hy
      rcases List.mem_append.1 hy with hy | hy
      · have := ha.2 y hy; omega
      · have := hb.2 y hy; omega

example : callMax [3, 7] = .ok 7 ∧ callMax [-2, 9, 4] = .ok 9 ∧ callMax ([3, 7] ++ [-2, 9, 4]) = .ok 9 := by decide

/-- **C120.** The result depends only on which values occur among the arguments: order and repetition play no role. -/
theorem C120_same_values (v w : List Int) (h : ∀ x, x ∈ v ↔ x ∈ w) (a : Int) :
    (callMax v = .ok a ↔ callMax w = .ok a) ∧ (callMin v = .ok a ↔ callMin w = .ok a) := by
  simp only [max_iff, min_iff, h, and_self]

/-- **C120.** MIN is at most MAX of the same arguments, and they are equal exactly if all arguments are equal. -/
theorem C120_min_le_max (v : List Int) (a b : Int) (ha : callMin v = .ok a) (hb : callMax v = .ok b) :
    a ≤ b ∧ (a = b ↔ ∀ x ∈ v, ∀ y ∈ v, x = y) := by
  rw [min_iff] at ha
  rw [max_iff] at hb
  refine ⟨ha.2 b hb.1, ?_, fun h => h a ha.1 b hb.1⟩
  intro h x hx y hy
  have := ha.2 x hx; have := hb.2 x hx; have := ha.2 y hy; have := hb.2 y hy
  omega

/-- **C120.** Raising arguments raises the result: if each argument of the second call is at least the corresponding
argument of the first, MAX and MIN of the second are at least those of the first. -/
theorem C120_monotone (v w : List Int) (h : List.Forall₂ (· ≤ ·) v w) (a b : Int) :
    (callMax v = .ok a → callMax w = .ok b → a ≤ b) ∧ (callMin v = .ok a → callMin w = .ok b → a ≤ b) := by
  simp only [max_iff, min_iff]
  constructor
  · rintro ⟨ha, -⟩ ⟨-, hb⟩
    obtain ⟨y, hy, hay⟩ : ∃ y ∈ w, a ≤ y := by
      clear hb
      induction h with
      | nil => simp at ha
      | cons hxy _ ih =>
        rcases List.mem_cons.1 ha with rfl | ha
        · exact ⟨_, List.mem_cons_self, hxy⟩
        · obtain ⟨y, hy, h⟩ := ih ha
          exact ⟨y, List.mem_cons_of_mem _ hy, h⟩
    exact Int.le_trans hay (hb y hy)
  · rintro ⟨-, ha⟩ ⟨hb, -⟩
    obtain ⟨x, hx, hxb⟩ : ∃ x ∈ v, x ≤ b := by
      clear ha
      induction h with
      | nil => simp at hb
      | cons hxy _ ih =>
        rcases List.mem_cons.1 hb with rfl | hb
        · exact ⟨_, List.mem_cons_self, hxy⟩
        · obtain ⟨y, hy, h⟩ := ih hb
          exact ⟨y, List.mem_cons_of_mem _ hy, h⟩
    exact Int.le_trans (ha x hx) hxb

example : List.Forall₂ (· ≤ ·) [1, (5 : Int)] [2, 5] ∧ callMax [1, 5] = .ok 5 ∧ callMin [2, 5] = .ok 2 := by
  refine ⟨?_, by decide, by decide⟩
  simp

/-- **C120.** LIMIT(MN, IN, MX) is MIN(MAX(IN, MN), MX) for every IN unless the bounds are reversed and IN is below
MN; with ordered bounds it is MAX(MIN(IN, MX), MN) as well. -/
theorem C120_limit (mn x mx : Int) :
    ∃ a b c d, callMax [x, mn] = .ok a ∧ callMin [a, mx] = .ok b ∧ callMin [x, mx] = .ok c ∧
      callMax [c, mn] = .ok d ∧ (b = limitInt mn x mx ↔ mn ≤ mx ∨ mn ≤ x) ∧
      (mn ≤ mx → d = limitInt mn x mx) := by
  refine ⟨_, _, _, _, max_two _ _, min_two _ _, min_two _ _, max_two _ _, ?_, ?_⟩
  · unfold limitInt; (repeat' split) <;> omega
  · unfold limitInt; (repeat' split) <;> omega

/-- **C120.** One LIMIT after another clamps to the intersection of the ranges if they meet; otherwise the result is the
end of the second range that is closer to the first. -/
theorem C120_limit_limit (a b c d x : Int) (h : a ≤ b) (h' : c ≤ d) :
    (max a c ≤ min b d → limitInt c (limitInt a x b) d = limitInt (max a c) x (min b d)) ∧
    (b < c → limitInt c (limitInt a x b) d = c) ∧ (d < a → limitInt c (limitInt a x b) d = d) := by
  unfold limitInt
  refine ⟨?_, ?_, ?_⟩ <;> (repeat' split) <;> omega

/-- **C120.** Absorption and distributivity: MAX(a, MIN(a, b)) = a, MIN(a, MAX(a, b)) = a,
MAX(a, MIN(b, c)) = MIN(MAX(a, b), MAX(a, c)). -/
theorem C120_lattice (a b c : Int) :
    (∃ m, callMin [a, b] = .ok m ∧ callMax [a, m] = .ok a) ∧
    (∃ m, callMax [a, b] = .ok m ∧ callMin [a, m] = .ok a) ∧
    (∃ m p q r, callMin [b, c] = .ok m ∧ callMax [a, b] = .ok p ∧ callMax [a, c] = .ok q ∧
      callMax [a, m] = .ok r ∧ callMin [p, q] = .ok r) := by
  refine ⟨⟨_, min_two _ _, ?_⟩, ⟨_, max_two _ _, ?_⟩, ⟨_, _, _, _, min_two _ _, max_two _ _, max_two _ _,
    max_two _ _, ?_⟩⟩
  · rw [max_two]; congr 1; omega
  · rw [min_two]; congr 1; omega
  · rw [min_two]; congr 1; omega

/-- **C120**, REAL and LREAL: for ordered bounds that are not NaN, LIMIT and MIN(MAX(IN, MN), MX) have the same value
if IN is not NaN. If IN is NaN they differ: LIMIT gives the NaN, MIN(MAX(IN, MN), MX) the value of MN. -/
theorem C120_limit_float (f : FloatFmt) (hf : IsFloatTy f) (tie : Nat → Nat → Bool) (mn x mx : Nat)
    (h1 : ¬ IsNaN f mn) (h2 : ¬ IsNaN f mx) (h : floatValue f mn ≤ floatValue f mx) :
    ∃ a b, maxFloat f tie 2 (some [x, mn]) = .ok a ∧ minFloat f tie 2 (some [a, mx]) = .ok b ∧ ¬ IsNaN f b ∧
      (¬ IsNaN f x → floatValue f b = floatValue f (limitFloat f mn x mx)) ∧
      (IsNaN f x → limitFloat f mn x mx = x ∧ floatValue f b = floatValue f mn) := by
  obtain ⟨a, ha, ham, has⟩ := C20_max_float f hf tie [x, mn] [] (by simp)
  obtain ⟨b, hb, hbm, hbs⟩ := C20_min_float f hf tie [a, mx] [] (by simp)
  obtain ⟨hl1, hl2⟩ := C21_partial f hf mn x mx h1 h2 h
  obtain ⟨an, has⟩ := has ⟨mn, by simp, h1⟩
  obtain ⟨bn, hbs⟩ := hbs ⟨mx, by simp, h2⟩
  have am := has mn (by simp) h1
  have ba := hbs a (by simp) an
  have bm := hbs mx (by simp) h2
  simp only [List.mem_cons, List.not_mem_nil, or_false] at ham hbm
  refine ⟨a, b, ha, hb, bn, ?_, ?_⟩
  · intro hx
    obtain ⟨-, l1, l2, l3⟩ := hl1 hx
    have ax := has x (by simp) hx
    have hmem : limitFloat f mn x mx = mn ∨ limitFloat f mn x mx = mx ∨ limitFloat f mn x mx = x := by
      unfold limitFloat; (repeat' split) <;> simp
    rcases (show floatValue f x < floatValue f mn ∨ floatValue f mx < floatValue f x ∨
        (floatValue f mn ≤ floatValue f x ∧ floatValue f x ≤ floatValue f mx) by
      rcases lt_or_ge (floatValue f x) (floatValue f mn) with h | h
      · exact .inl h
      · rcases lt_or_ge (floatValue f mx) (floatValue f x) with h' | h'
        · exact .inr (.inl h')
        · exact .inr (.inr ⟨h, h'⟩)) with hc | hc | hc
    · -- below: LIMIT is MN
      have hl : limitFloat f mn x mx = mn := by
        unfold limitFloat FloatFmt.lt
        have e1 : f.is_nan x = false := not_isNaN_iff f x |>.1 hx
        have e2 : f.is_nan mn = false := not_isNaN_iff f mn |>.1 h1
        have e3 : f.val x < f.val mn := by
          rw [← Int.not_le, val_le_iff f (ebits_of hf), not_le]; exact hc
        simp [e1, e2, e3]
      rw [hl]
      have ea : floatValue f a = floatValue f mn := by
        rcases ham with e | e
        · rw [e] at am ⊢; exact absurd am (not_le.2 hc)
        · rw [e]
      rcases hbm with e | e
      · rw [e, ea]
      · rw [e] at ba ⊢
        rw [ea] at ba
        exact le_antisymm ba h
    · -- above: LIMIT is MX
      have hl : floatValue f (limitFloat f mn x mx) = floatValue f mx := by
        unfold limitFloat FloatFmt.gt FloatFmt.lt
        have e1 : f.is_nan x = false := not_isNaN_iff f x |>.1 hx
        have e2 : f.is_nan mx = false := not_isNaN_iff f mx |>.1 h2
        have e3 : f.val mx < f.val x := by
          rw [← Int.not_le, val_le_iff f (ebits_of hf), not_le]; exact hc
        have e4 : ¬ f.val x < f.val mn := by
          rw [Int.not_lt, val_le_iff f (ebits_of hf)]; exact le_trans h hc.le
        simp [e1, e2, e3, e4]
      rw [hl]
      rcases hbm with e | e
      · rw [e] at bm ⊢
        exact le_antisymm bm (le_trans hc.le ax)
      · rw [e]
    · rw [l3 hc]
      have ea : floatValue f a = floatValue f x := by
        rcases ham with e | e
        · rw [e]
        · rw [e] at ax ⊢; exact le_antisymm hc.1 ax
      rcases hbm with e | e
      · rw [e, ea]
      · rw [e] at ba ⊢; rw [ea] at ba; exact le_antisymm ba hc.2
  · intro hx
    refine ⟨hl2 hx, ?_⟩
    have ea : a = mn := by
      rcases ham with e | e
      · rw [e] at an; exact absurd hx an
      · exact e
    subst ea
    rcases hbm with e | e
    · rw [e]
    · rw [e] at ba ⊢; exact le_antisymm ba h

/-! ### REAL and LREAL

The float functions return one of two zeros or of two NaN at will (`tie`), so results are compared by value. -/

/-- Both are NaN, or neither is and they have the same value. -/
def SameFloat (f : FloatFmt) (a b : Nat) : Prop := (IsNaN f a ∧ IsNaN f b) ∨ (¬ IsNaN f a ∧ ¬ IsNaN f b ∧ floatValue f a = floatValue f b)

/-- `MAX(v1, v2, ...)` on REAL or LREAL. -/
def callMaxFloat (f : FloatFmt) (tie : Nat → Nat → Bool) (v : List Nat) : Res Nat := maxFloat f tie v.length (some v)
/-- `MIN(v1, v2, ...)`. -/
def callMinFloat (f : FloatFmt) (tie : Nat → Nat → Bool) (v : List Nat) : Res Nat := minFloat f tie v.length (some v)

/-- `m` is an extreme of `v` with respect to `r`, NaN left aside. -/
private def Best (f : FloatFmt) (r : ℚ → ℚ → Prop) (v : List Nat) (m : Nat) : Prop :=
  m ∈ v ∧ ((∃ y ∈ v, ¬ IsNaN f y) → ¬ IsNaN f m ∧ ∀ y ∈ v, ¬ IsNaN f y → r (floatValue f y) (floatValue f m))

private theorem max_best {f : FloatFmt} (hf : IsFloatTy f) {tie : Nat → Nat → Bool} {v : List Nat} {m : Nat} (h : callMaxFloat f tie v = .ok m) :
    Best f (· ≤ ·) v m := by
  have hv : v ≠ [] := by rintro rfl; simp [callMaxFloat, maxFloat, fromRawParts, reduce] at h
  obtain ⟨k, h1, h2, h3⟩ := C20_max_float f hf tie v [] hv
  rw [List.append_nil] at h1
  rw [callMaxFloat, h1] at h
  rw [← Res.ok.inj h]; exact ⟨h2, h3⟩

private theorem min_best {f : FloatFmt} (hf : IsFloatTy f) {tie : Nat → Nat → Bool} {v : List Nat} {m : Nat} (h : callMinFloat f tie v = .ok m) :
    Best f (· ≥ ·) v m := by
  have hv : v ≠ [] := by rintro rfl; simp [callMinFloat, minFloat, fromRawParts, reduce] at h
  obtain ⟨k, h1, h2, h3⟩ := C20_min_float f hf tie v [] hv
  rw [List.append_nil] at h1
  rw [callMinFloat, h1] at h
  rw [← Res.ok.inj h]; exact ⟨h2, h3⟩

private theorem best_same {f : FloatFmt} {r : ℚ → ℚ → Prop} (hr : ∀ a b, r a b → r b a → a = b) {v w : List Nat} {a b : Nat}
    (h1 : ∀ x ∈ v, ¬ IsNaN f x → ∃ y ∈ w, ¬ IsNaN f y ∧ r (floatValue f x) (floatValue f y))
    (h2 : ∀ x ∈ w, ¬ IsNaN f x → ∃ y ∈ v, ¬ IsNaN f y ∧ r (floatValue f x) (floatValue f y))
    (ht : ∀ a b c, r a b → r b c → r a c) (ha : Best f r v a) (hb : Best f r w b) : SameFloat f a b := by
  by_cases h : ∃ y ∈ v, ¬ IsNaN f y
  · obtain ⟨y, hy, hyn⟩ := h
    obtain ⟨z, hz, hzn, -⟩ := h1 y hy hyn
    obtain ⟨an, ha'⟩ := ha.2 ⟨y, hy, hyn⟩
    obtain ⟨bn, hb'⟩ := hb.2 ⟨z, hz, hzn⟩
    obtain ⟨u, hu, hun, hur⟩ := h1 a ha.1 an
    obtain ⟨t, htm, htn, htr⟩ := h2 b hb.1 bn
    exact .inr ⟨an, bn, hr _ _ (ht _ _ _ hur (hb' u hu hun)) (ht _ _ _ htr (ha' t htm htn))⟩
  · have hw : ¬ ∃ y ∈ w, ¬ IsNaN f y := by
      rintro ⟨y, hy, hyn⟩
      obtain ⟨z, hz, hzn, -⟩ := h2 y hy hyn
      exact h ⟨z, hz, hzn⟩
    exact .inl ⟨not_not.1 fun hn => h ⟨a, ha.1, hn⟩, not_not.1 fun hn => hw ⟨b, hb.1, hn⟩⟩

private theorem best_nested {f : FloatFmt} {r : ℚ → ℚ → Prop} (hr : ∀ a b, r a b → r b a → a = b) (hrr : ∀ a, r a a)
    (ht : ∀ a b c, r a b → r b c → r a c) {v w : List Nat} {a b c d : Nat} (ha : Best f r v a) (hb : Best f r w b)
    (hc : Best f r [a, b] c) (hd : Best f r (v ++ w) d) : SameFloat f c d := by
  refine best_same hr ?_ ?_ ht hc hd
  · intro x hx hxn
    have : x = a ∨ x = b := by simpa using hx
    rcases this with rfl | rfl
    · exact ⟨x, List.mem_append_left _ ha.1, hxn, hrr _⟩
    · exact ⟨x, List.mem_append_right _ hb.1, hxn, hrr _⟩
  · intro x hx hxn
    rcases List.mem_append.1 hx with hx | hx
    · obtain ⟨an, h⟩ := ha.2 ⟨x, hx, hxn⟩
      exact ⟨a, by simp, an, h x hx hxn⟩
    · obtain ⟨bn, h⟩ := hb.2 ⟨x, hx, hxn⟩
      exact ⟨b, by simp, bn, h x hx hxn⟩

/-- **C120**, REAL and LREAL: a nested call has the value of one call with all the arguments, whatever NaN are among them. -/
theorem C120_nested_float (f : FloatFmt) (hf : IsFloatTy f) (tie : Nat → Nat → Bool) (v w : List Nat) (a b c d : Nat) :
    (callMaxFloat f tie v = .ok a → callMaxFloat f tie w = .ok b → callMaxFloat f tie [a, b] = .ok c → callMaxFloat f tie (v ++ w) = .ok d →
      SameFloat f c d) ∧
    (callMinFloat f tie v = .ok a → callMinFloat f tie w = .ok b → callMinFloat f tie [a, b] = .ok c → callMinFloat f tie (v ++ w) = .ok d →
      SameFloat f c d) :=
  ⟨fun ha hb hc hd => best_nested (fun _ _ h h' => le_antisymm h h') (fun _ => le_refl _) (fun _ _ _ h h' => le_trans h h') (max_best hf ha)
      (max_best hf hb) (max_best hf hc) (max_best hf hd),
    fun ha hb hc hd => best_nested (fun _ _ h h' => le_antisymm h' h) (fun _ => le_refl _) (fun _ _ _ h h' => le_trans h' h) (min_best hf ha)
      (min_best hf hb) (min_best hf hc) (min_best hf hd)⟩

/-- **C120**, REAL and LREAL: order and repetition play no role for the value, nor do NaN beside a number. -/
theorem C120_same_values_float (f : FloatFmt) (hf : IsFloatTy f) (tie : Nat → Nat → Bool) (v w : List Nat)
    (h : ∀ x, ¬ IsNaN f x → (x ∈ v ↔ x ∈ w)) (a b : Nat) :
    (callMaxFloat f tie v = .ok a → callMaxFloat f tie w = .ok b → SameFloat f a b) ∧
    (callMinFloat f tie v = .ok a → callMinFloat f tie w = .ok b → SameFloat f a b) :=
  ⟨fun ha hb => best_same (fun _ _ h h' => le_antisymm h h') (fun x hx hn => ⟨x, (h x hn).1 hx, hn, le_refl _⟩)
      (fun x hx hn => ⟨x, (h x hn).2 hx, hn, le_refl _⟩) (fun _ _ _ h h' => le_trans h h') (max_best hf ha) (max_best hf hb),
    fun ha hb => best_same (fun _ _ h h' => le_antisymm h' h) (fun x hx hn => ⟨x, (h x hn).1 hx, hn, le_refl _⟩)
      (fun x hx hn => ⟨x, (h x hn).2 hx, hn, le_refl _⟩) (fun _ _ _ h h' => le_trans h' h) (min_best hf ha) (min_best hf hb)⟩

/-- **C120**, REAL and LREAL: if some argument is a number, MIN and MAX are numbers, MIN is at most MAX, and they have the same value exactly if all
arguments that are numbers have. -/
theorem C120_min_le_max_float (f : FloatFmt) (hf : IsFloatTy f) (tie : Nat → Nat → Bool) (v : List Nat) (a b : Nat)
    (hv : ∃ y ∈ v, ¬ IsNaN f y) (ha : callMinFloat f tie v = .ok a) (hb : callMaxFloat f tie v = .ok b) :
    ¬ IsNaN f a ∧ ¬ IsNaN f b ∧ floatValue f a ≤ floatValue f b ∧
    (floatValue f a = floatValue f b ↔ ∀ x ∈ v, ∀ y ∈ v, ¬ IsNaN f x → ¬ IsNaN f y → floatValue f x = floatValue f y) := by
  have ha := min_best hf ha
  have hb := max_best hf hb
  obtain ⟨an, ha'⟩ := ha.2 hv
  obtain ⟨bn, hb'⟩ := hb.2 hv
  refine ⟨an, bn, ha' b hb.1 bn, ?_, fun h => h a ha.1 b hb.1 an bn⟩
  intro h x hx y hy hxn hyn
  have h1 := ha' x hx hxn; have h2 := hb' x hx hxn; have h3 := ha' y hy hyn; have h4 := hb' y hy hyn
  exact le_antisymm (le_trans h2 (h ▸ h3)) (le_trans h4 (h ▸ h1))

/-- **C120**, REAL and LREAL: raising arguments raises the results, for arguments that are numbers. -/
theorem C120_monotone_float (f : FloatFmt) (hf : IsFloatTy f) (tie : Nat → Nat → Bool) (v w : List Nat)
    (h : List.Forall₂ (fun x y => ¬ IsNaN f x ∧ ¬ IsNaN f y ∧ floatValue f x ≤ floatValue f y) v w) (a b : Nat) :
    (callMaxFloat f tie v = .ok a → callMaxFloat f tie w = .ok b → floatValue f a ≤ floatValue f b) ∧
    (callMinFloat f tie v = .ok a → callMinFloat f tie w = .ok b → floatValue f a ≤ floatValue f b) := by
  have up : ∀ x ∈ v, ∃ y ∈ w, ¬ IsNaN f x ∧ ¬ IsNaN f y ∧ floatValue f x ≤ floatValue f y := by
    intro x hx
    induction h with
    | nil => simp at hx
    | cons hxy _ ih =>
      rcases List.mem_cons.1 hx with rfl | hx
      · exact ⟨_, List.mem_cons_self, hxy⟩
      · obtain ⟨y, hy, h⟩ := ih hx
        exact ⟨y, List.mem_cons_of_mem _ hy, h⟩
  have down : ∀ y ∈ w, ∃ x ∈ v, ¬ IsNaN f x ∧ ¬ IsNaN f y ∧ floatValue f x ≤ floatValue f y := by
    intro y hy
    clear up
    induction h with
    | nil => simp at hy
    | cons hxy _ ih =>
      rcases List.mem_cons.1 hy with rfl | hy
      · exact ⟨_, List.mem_cons_self, hxy⟩
      · obtain ⟨x, hx, h⟩ := ih hy
        exact ⟨x, List.mem_cons_of_mem _ hx, h⟩
  constructor
  · intro ha hb
    have ha := max_best hf ha
    have hb := max_best hf hb
    obtain ⟨y, hy, -, yn, hle⟩ := up a ha.1
    exact le_trans hle ((hb.2 ⟨y, hy, yn⟩).2 y hy yn)
  · intro ha hb
    have ha := min_best hf ha
    have hb := min_best hf hb
    obtain ⟨x, hx, xn, -, hle⟩ := down b hb.1
    exact le_trans ((ha.2 ⟨x, hx, xn⟩).2 x hx xn) hle

private theorem best_two {f : FloatFmt} {r : ℚ → ℚ → Prop} {a b m : Nat} (h : Best f r [a, b] m) (ha : ¬ IsNaN f a) (hb : ¬ IsNaN f b) :
    ¬ IsNaN f m ∧ (m = a ∨ m = b) ∧ r (floatValue f a) (floatValue f m) ∧ r (floatValue f b) (floatValue f m) := by
  obtain ⟨h1, h2⟩ := h.2 ⟨a, by simp, ha⟩
  exact ⟨h1, by simpa using h.1, h2 a (by simp) ha, h2 b (by simp) hb⟩

/-- **C120**, REAL and LREAL: absorption and distributivity, for arguments that are numbers. -/
theorem C120_lattice_float (f : FloatFmt) (hf : IsFloatTy f) (tie : Nat → Nat → Bool) (a b c : Nat) (ha : ¬ IsNaN f a) (hb : ¬ IsNaN f b)
    (hc : ¬ IsNaN f c) (m n p q r s : Nat) :
    (callMinFloat f tie [a, b] = .ok m → callMaxFloat f tie [a, m] = .ok n → floatValue f n = floatValue f a) ∧
    (callMaxFloat f tie [a, b] = .ok m → callMinFloat f tie [a, m] = .ok n → floatValue f n = floatValue f a) ∧
    (callMinFloat f tie [b, c] = .ok m → callMaxFloat f tie [a, b] = .ok p → callMaxFloat f tie [a, c] = .ok q → callMaxFloat f tie [a, m] = .ok r →
      callMinFloat f tie [p, q] = .ok s → floatValue f r = floatValue f s) := by
  refine ⟨?_, ?_, ?_⟩
  · intro h1 h2
    obtain ⟨mn, e1, l1, l2⟩ := best_two (min_best hf h1) ha hb
    obtain ⟨-, e2, l3, l4⟩ := best_two (max_best hf h2) ha mn
    rcases e2 with rfl | rfl
    · rfl
    · exact le_antisymm l1 l3
  · intro h1 h2
    obtain ⟨mn, e1, l1, l2⟩ := best_two (max_best hf h1) ha hb
    obtain ⟨-, e2, l3, l4⟩ := best_two (min_best hf h2) ha mn
    rcases e2 with rfl | rfl
    · rfl
    · exact le_antisymm l3 l1
  · intro h1 h2 h3 h4 h5
    obtain ⟨mn, em, m1, m2⟩ := best_two (min_best hf h1) hb hc
    obtain ⟨pn, ep, p1, p2⟩ := best_two (max_best hf h2) ha hb
    obtain ⟨qn, eq, q1, q2⟩ := best_two (max_best hf h3) ha hc
    obtain ⟨rn, er, r1, r2⟩ := best_two (max_best hf h4) ha mn
    obtain ⟨sn, es, s1, s2⟩ := best_two (min_best hf h5) pn qn
    simp only [ge_iff_le] at *
    apply le_antisymm
    · -- r ≤ p and r ≤ q, and s is one of them
      have rp : floatValue f r ≤ floatValue f p := by
        rcases er with rfl | rfl
        · exact p1
        · exact le_trans m1 p2
      have rq : floatValue f r ≤ floatValue f q := by
        rcases er with rfl | rfl
        · exact q1
        · exact le_trans m2 q2
      rcases es with rfl | rfl <;> assumption
    · -- s ≤ p and s ≤ q
      rcases ep with rfl | rfl
      · exact le_trans s1 r1
      · rcases eq with rfl | rfl
        · exact le_trans s2 r1
        · rcases em with rfl | rfl
          · exact le_trans s1 r2
          · exact le_trans s2 r2

/-- MAX(MAX(NaN, 1.0), -infinity) and MAX(NaN, 1.0, -infinity); two NaN alone. -/
example : callMaxFloat .f32 (fun _ _ => true) [0x7FC00000, 0x3F800000] = .ok 0x3F800000 ∧
    callMaxFloat .f32 (fun _ _ => true) [0x3F800000, 0xFF800000] = .ok 0x3F800000 ∧
    callMaxFloat .f32 (fun _ _ => true) ([0x7FC00000, 0x3F800000] ++ [0xFF800000]) = .ok 0x3F800000 ∧
    callMinFloat .f32 (fun _ _ => true) [0x7FC00000, 0x3F800000] = .ok 0x3F800000 := by decide

/-- LIMIT(0.0, NaN, 1.0) is NaN, MIN(MAX(NaN, 0.0), 1.0) is 0.0. -/
example : limitFloat .f32 0 0x7FC00000 0x3F800000 = 0x7FC00000 ∧
    maxFloat .f32 (fun _ _ => true) 2 (some [0x7FC00000, 0]) = .ok 0 ∧
    minFloat .f32 (fun _ _ => true) 2 (some [0, 0x3F800000]) = .ok 0 := by decide

end Verif
