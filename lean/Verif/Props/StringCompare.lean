import Verif.Proofs.Compare
/-
C52, C53: comparison of strings.  `<` and `≤` on `List Nat` are Lean's lexicographic order.
-/
namespace Verif
open Spec

theorem isGT_iff (a b : List Nat) : (cmpSlices a b).isGT = true ↔ a > b := by
  rw [gt_iff_lt, ← cmp_gt]; cases cmpSlices a b <;> simp [Ordering.isGT]
theorem isLT_iff (a b : List Nat) : (cmpSlices a b).isLT = true ↔ a < b := by
  rw [← cmp_lt]; cases cmpSlices a b <;> simp [Ordering.isLT]
theorem isEq_iff (a b : List Nat) : (cmpSlices a b).isEq = true ↔ a = b := by
  rw [← cmp_eq]; cases cmpSlices a b <;> simp [Ordering.isEq]
theorem isLE_iff (a b : List Nat) : (cmpSlices a b).isLE = true ↔ a ≤ b := by
  rw [show a ≤ b ↔ ¬ b < a from Iff.rfl, ← cmp_gt]
  cases cmpSlices a b <;> simp [Ordering.isLE]
theorem isGE_iff (a b : List Nat) : (cmpSlices a b).isGE = true ↔ b ≤ a := by
  rw [show b ≤ a ↔ ¬ a < b from Iff.rfl, ← cmp_lt]
  cases cmpSlices a b <;> simp [Ordering.isGE]

theorem compare_pairwise (pred : Ordering → Bool) (R : List Nat → List Nat → Prop)
    (hR : ∀ x y, pred (cmpSlices x y) = true ↔ R x y)
    (ht : ∀ x y z, R x y → R y z → R x z) (argv more : List Ptr) (ss : List (List Nat))
    (h : HoldAll argv ss) (h2 : 2 ≤ ss.length) :
    ∃ b, compare ss.length (some (argv ++ more)) pred = .ok b ∧ (b = true ↔ ss.Pairwise R) := by
  obtain ⟨b, hb, hiff⟩ := compare_eq pred argv more ss h h2
  refine ⟨b, hb, ?_⟩
  rw [hiff, ← isChain_pairwise ht]
  simp only [hR]

/-- GT of `n ≥ 2` strings is TRUE iff every string is greater than every later one. -/
theorem C52_gt (argv more : List Ptr) (ss : List (List Nat)) (h : HoldAll argv ss)
    (h2 : 2 ≤ ss.length) :
    ∃ b, GT ss.length (some (argv ++ more)) = .ok b ∧
      (b = true ↔ ss.Pairwise (fun x y => x > y)) :=
  compare_pairwise _ _ isGT_iff (fun _ _ _ h1 h2 => List.lt_trans h2 h1) argv more ss h h2

/-- GE of `n ≥ 2` strings. -/
theorem C52_ge (argv more : List Ptr) (ss : List (List Nat)) (h : HoldAll argv ss)
    (h2 : 2 ≤ ss.length) :
    ∃ b, GE ss.length (some (argv ++ more)) = .ok b ∧
      (b = true ↔ ss.Pairwise (fun x y => y ≤ x)) :=
  compare_pairwise _ _ isGE_iff (fun _ _ _ h1 h2 => List.le_trans h2 h1) argv more ss h h2

/-- EQ of `n ≥ 2` strings. -/
theorem C52_eq (argv more : List Ptr) (ss : List (List Nat)) (h : HoldAll argv ss)
    (h2 : 2 ≤ ss.length) :
    ∃ b, EQ ss.length (some (argv ++ more)) = .ok b ∧
      (b = true ↔ ss.Pairwise (fun x y => x = y)) :=
  compare_pairwise _ _ isEq_iff (fun _ _ _ h1 h2 => h1.trans h2) argv more ss h h2

/-- LE of `n ≥ 2` strings. -/
theorem C52_le (argv more : List Ptr) (ss : List (List Nat)) (h : HoldAll argv ss)
    (h2 : 2 ≤ ss.length) :
    ∃ b, LE ss.length (some (argv ++ more)) = .ok b ∧
      (b = true ↔ ss.Pairwise (fun x y => x ≤ y)) :=
  compare_pairwise _ _ isLE_iff (fun _ _ _ h1 h2 => List.le_trans h1 h2) argv more ss h h2

/-- LT of `n ≥ 2` strings. -/
theorem C52_lt (argv more : List Ptr) (ss : List (List Nat)) (h : HoldAll argv ss)
    (h2 : 2 ≤ ss.length) :
    ∃ b, LT ss.length (some (argv ++ more)) = .ok b ∧
      (b = true ↔ ss.Pairwise (fun x y => x < y)) :=
  compare_pairwise _ _ isLT_iff (fun _ _ _ h1 h2 => List.lt_trans h1 h2) argv more ss h h2

/-- Fewer than two arguments panic. -/
theorem C52_too_few (argc : Int) (argv : Option (List Ptr)) (h : argc < 2) :
    GT argc argv = .panic ∧ GE argc argv = .panic ∧ EQ argc argv = .panic ∧
    LE argc argv = .panic ∧ LT argc argv = .panic := by
  simp [GT, GE, EQ, LE, LT, compare, h]

/-- NE(a, b) iff not EQ(a, b). -/
theorem C52_ne (ma mb a b : List Nat) (ha : Holds ma a) (hb : Holds mb b) :
    ∃ ne eq : Bool, NE (some ma) (some mb) = .ok ne ∧ EQ 2 (some [some ma, some mb]) = .ok eq ∧
      (ne = true ↔ a ≠ b) ∧ ne = !eq := by
  obtain ⟨e, he, hiff⟩ := C52_eq [some ma, some mb] [] [a, b]
    ⟨⟨ma, rfl, ha⟩, ⟨mb, rfl, hb⟩, trivial⟩ (by simp)
  have hne : NE (some ma) (some mb) = .ok (cmpSlices a b).isNe := by
    unfold NE
    rw [ptr_to_slice_of_holds ha, ptr_to_slice_of_holds hb]; rfl
  have h1 : (cmpSlices a b).isNe = true ↔ a ≠ b := by
    rw [ne_eq, ← cmp_eq]; cases cmpSlices a b <;> simp [Ordering.isNe]
  refine ⟨_, e, hne, he, h1, ?_⟩
  simp only [List.pairwise_cons, List.mem_singleton, forall_eq, List.not_mem_nil, false_imp_iff,
    implies_true, List.Pairwise.nil, and_true] at hiff
  cases hb' : (cmpSlices a b).isNe <;> cases he' : e <;> simp_all

/-- For two strings exactly one of LT, EQ and GT is TRUE; LE is LT or EQ, GE is GT or EQ. -/
theorem C52_trichotomy (ma mb a b : List Nat) (ha : Holds ma a) (hb : Holds mb b) :
    ∃ lt eq gt le ge : Bool,
      LT 2 (some [some ma, some mb]) = .ok lt ∧ EQ 2 (some [some ma, some mb]) = .ok eq ∧
      GT 2 (some [some ma, some mb]) = .ok gt ∧ LE 2 (some [some ma, some mb]) = .ok le ∧
      GE 2 (some [some ma, some mb]) = .ok ge ∧
      le = (lt || eq) ∧ ge = (gt || eq) ∧
      ((lt = true ∧ eq = false ∧ gt = false) ∨ (lt = false ∧ eq = true ∧ gt = false) ∨
       (lt = false ∧ eq = false ∧ gt = true)) := by
  have key : ∀ pred : Ordering → Bool, compare 2 (some [some ma, some mb]) pred =
      .ok (pred (cmpSlices a b)) := by
    intro pred
    unfold compare
    rw [if_neg (by omega)]
    simp only
    rw [ptr_to_slice_of_holds ha, Res.bind_ok, show ((2 : Int) - 1).toNat = 1 from rfl,
      compareLoop, ptr_to_slice_of_holds hb, Res.bind_ok]
    cases hp : pred (cmpSlices a b) <;> simp [compareLoop]
  refine ⟨_, _, _, _, _, key _, key _, key _, key _, key _, ?_⟩
  cases cmpSlices a b <;> decide

/-- GT('c', 'b', 'a'), and not GT('c', 'a', 'b'). -/
example : GT 3 (some [some [0x63, 0], some [0x62, 0, 1], some [0x61, 0]]) = .ok true := by decide
example : GT 3 (some [some [0x63, 0], some [0x61, 0, 1], some [0x62, 0]]) = .ok false := by decide
example : HoldAll [some [0x63, 0], some [0x62, 0, 1]] [[0x63], [0x62]] :=
  ⟨⟨_, rfl, by decide, [], rfl⟩, ⟨_, rfl, by decide, [1], rfl⟩, trivial⟩
example : NE (some [0x63, 0, 4]) (some [0x63, 0, 5]) = .ok false := by decide

/-! ### C53: order of texts -/

theorem compare_two (pred : Ordering → Bool) {ma mb a b : List Nat} (ha : Holds ma a)
    (hb : Holds mb b) :
    compare 2 (some [some ma, some mb]) pred = .ok (pred (cmpSlices a b)) := by
  unfold compare
  rw [if_neg (by omega)]
  simp only
  rw [ptr_to_slice_of_holds ha, Res.bind_ok, show ((2 : Int) - 1).toNat = 1 from rfl,
    compareLoop, ptr_to_slice_of_holds hb, Res.bind_ok]
  cases hp : pred (cmpSlices a b) <;> simp [compareLoop]

theorem ok_bool {b : Bool} {P : Prop} (h : b = true ↔ P) : (Res.ok b = .ok true ↔ P) := by
  rw [← h]; exact ⟨fun h => Res.ok.inj h, fun h => by rw [h]⟩

/-- C53 is false for WSTRING: U+E000 comes before U+10000, but LT compares 16-bit units. -/
theorem C53_refuted :
    ¬ (∀ (ma mb : List Nat) (a b : List Char), Holds ma (utf16 a) → Holds mb (utf16 b) →
        (LT 2 (some [some ma, some mb]) = .ok true ↔ a.map Char.toNat < b.map Char.toNat)) := by
  intro h
  have := (h [0xE000, 0] [0xD800, 0xDC00, 0] [Char.ofNat 0xE000] [Char.ofNat 0x10000]
    ⟨by decide, [], by decide⟩ ⟨by decide, [], by decide⟩).2 (by decide)
  revert this; decide

/-- Order of STRINGs (the true half of C53): LT, EQ and GT of two texts are the lexicographic
order of their code points. -/
theorem C53_string_partial (ma mb : List Nat) (a b : List Char) (ha : Holds ma (utf8 a))
    (hb : Holds mb (utf8 b)) :
    (LT 2 (some [some ma, some mb]) = .ok true ↔ a.map Char.toNat < b.map Char.toNat) ∧
    (GT 2 (some [some ma, some mb]) = .ok true ↔ b.map Char.toNat < a.map Char.toNat) ∧
    (EQ 2 (some [some ma, some mb]) = .ok true ↔ a = b) := by
  refine ⟨?_, ?_, ?_⟩
  · unfold LT; rw [compare_two _ ha hb]
    exact ok_bool ((isLT_iff _ _).trans (utf8_lt_iff a b))
  · unfold GT; rw [compare_two _ ha hb]
    exact ok_bool ((isGT_iff _ _).trans (utf8_lt_iff b a))
  · unfold EQ; rw [compare_two _ ha hb]
    exact ok_bool ((isEq_iff _ _).trans ⟨utf8_injective, fun h => by rw [h]⟩)

/-- Order of WSTRINGs, exactly: lexicographic, with the supplementary characters placed
between U+D7FF and U+E000 (see `key16`). -/
theorem C53_wstring_partial (ma mb : List Nat) (a b : List Char) (ha : Holds ma (utf16 a))
    (hb : Holds mb (utf16 b)) :
    (LT 2 (some [some ma, some mb]) = .ok true ↔ a.map key16 < b.map key16) ∧
    (GT 2 (some [some ma, some mb]) = .ok true ↔ b.map key16 < a.map key16) ∧
    (EQ 2 (some [some ma, some mb]) = .ok true ↔ a = b) := by
  refine ⟨?_, ?_, ?_⟩
  · unfold LT; rw [compare_two _ ha hb]
    exact ok_bool ((isLT_iff _ _).trans (utf16_lt_iff a b))
  · unfold GT; rw [compare_two _ ha hb]
    exact ok_bool ((isGT_iff _ _).trans (utf16_lt_iff b a))
  · unfold EQ; rw [compare_two _ ha hb]
    exact ok_bool ((isEq_iff _ _).trans ⟨utf16_injective, fun h => by rw [h]⟩)

theorem map_lt_congr (f g : Char → Nat) (P : Char → Prop)
    (h : ∀ c d, P c → P d → (f c < f d ↔ g c < g d) ∧ (f c = f d ↔ g c = g d))
    (a b : List Char) (ha : ∀ c ∈ a, P c) (hb : ∀ c ∈ b, P c) :
    a.map f < b.map f ↔ a.map g < b.map g := by
  induction a generalizing b with
  | nil => cases b <;> simp
  | cons c a ih =>
    cases b with
    | nil => simp
    | cons d b =>
      simp only [List.map_cons, List.cons_lt_cons_iff]
      have hcd := h c d (ha c (by simp)) (hb d (by simp))
      rw [hcd.1, hcd.2, ih b (fun x hx => ha x (by simp [hx])) (fun x hx => hb x (by simp [hx]))]

/-- For WSTRINGs without characters in U+E000..U+FFFF, or without supplementary characters,
the order is code point order. -/
theorem C53_wstring_codepoint_partial (ma mb : List Nat) (a b : List Char)
    (ha : Holds ma (utf16 a)) (hb : Holds mb (utf16 b))
    (h : (∀ c ∈ a ++ b, c.toNat < 0xE000 ∨ 0x10000 ≤ c.toNat) ∨
      (∀ c ∈ a ++ b, c.toNat < 0x10000)) :
    (LT 2 (some [some ma, some mb]) = .ok true ↔ a.map Char.toNat < b.map Char.toNat) ∧
    (GT 2 (some [some ma, some mb]) = .ok true ↔ b.map Char.toNat < a.map Char.toNat) := by
  obtain ⟨h1, h2, _⟩ := C53_wstring_partial ma mb a b ha hb
  rw [h1, h2]
  have key : ∀ x y : List Char, (∀ c ∈ x, c ∈ a ++ b) → (∀ c ∈ y, c ∈ a ++ b) →
      (x.map key16 < y.map key16 ↔ x.map Char.toNat < y.map Char.toNat) := by
    intro x y hx hy
    rcases h with h | h
    · refine map_lt_congr key16 Char.toNat (fun c => c.toNat < 0xE000 ∨ 0x10000 ≤ c.toNat) ?_ x y
        (fun c hc => h c (hx c hc)) (fun c hc => h c (hy c hc))
      intro c d hc hd
      have bc := char_bounds c
      have bd := char_bounds d
      unfold key16
      generalize c.toNat = n at *
      generalize d.toNat = m at *
      constructor <;> (repeat' split) <;> omega
    · refine map_lt_congr key16 Char.toNat (fun c => c.toNat < 0x10000) ?_ x y
        (fun c hc => h c (hx c hc)) (fun c hc => h c (hy c hc))
      intro c d hc hd
      have bc := char_bounds c
      have bd := char_bounds d
      unfold key16
      generalize c.toNat = n at *
      generalize d.toNat = m at *
      constructor <;> (repeat' split) <;> omega
  exact ⟨key a b (fun c hc => by simp [hc]) (fun c hc => by simp [hc]),
    key b a (fun c hc => by simp [hc]) (fun c hc => by simp [hc])⟩

/-- 'z' < 'é' < '😀' as STRINGs. -/
example : LT 3 (some [some [0x7A, 0], some [0xC3, 0xA9, 0], some [0xF0, 0x9F, 0x98, 0x80, 0]]) =
    .ok true := by decide

end Verif
