import Verif.Props.Selectors
/-
C175: the middle one of three measured values, MAX(MIN(A, B), MIN(MAX(A, B), C)).
-/
namespace Verif
open Spec

/-! ### The programs (user code; they call MAX and MIN) -/

/-- `M := MAX(MIN(A, B), MIN(MAX(A, B), C));` for an integer, date or time type. -/
def medianInt (a b c : Int) : Res Int := do
  let lo ← minInt 2 (some [a, b])
  let hi ← maxInt 2 (some [a, b])
  let h ← minInt 2 (some [hi, c])
  maxInt 2 (some [lo, h])

/-- The same for REAL or LREAL. -/
def medianFloat (f : FloatFmt) (tie : Nat → Nat → Bool) (a b c : Nat) : Res Nat := do
  let lo ← minFloat f tie 2 (some [a, b])
  let hi ← maxFloat f tie 2 (some [a, b])
  let h ← minFloat f tie 2 (some [hi, c])
  maxFloat f tie 2 (some [lo, h])

/-- A filter, called once in each scan: `Y := median(X, P1, P2); P2 := P1; P1 := X;`. The values of Y for the values `xs` of X. -/
def medianFilter {α : Type} (median : α → α → α → Res α) (p2 p1 : α) : List α → Res (List α)
  | [] => .ok []
  | x :: xs => do
    let y ← median x p1 p2
    let ys ← medianFilter median p1 x xs
    .ok (y :: ys)

namespace Spec
/-- At least two of the three values have the property. -/
def TwoOfThree {α : Type} (P : α → Prop) (a b c : α) : Prop := (P a ∧ P b) ∨ (P a ∧ P c) ∨ (P b ∧ P c)

/-- The REAL or LREAL `x` is a number (or an infinity) between `l` and `u`. -/
def FloatBetween (f : FloatFmt) (l u x : Nat) : Prop := ¬ IsNaN f x ∧ floatValue f l ≤ floatValue f x ∧ floatValue f x ≤ floatValue f u
end Spec

/-! ### The proofs, for both kinds of types at once -/

section
variable {α V : Type} [LinearOrder V]

/-- What is used of MIN and MAX of two values: `P` is "not a NaN". -/
private structure Select (mn mx : α → α → Res α) (P : α → Prop) (val : α → V) : Prop where
  min : ∀ a b, ∃ m, mn a b = .ok m ∧ (m = a ∨ m = b) ∧ (P a ∨ P b → P m) ∧ (P a → val m ≤ val a) ∧ (P b → val m ≤ val b)
  max : ∀ a b, ∃ m, mx a b = .ok m ∧ (m = a ∨ m = b) ∧ (P a ∨ P b → P m) ∧ (P a → val a ≤ val m) ∧ (P b → val b ≤ val m)

private def med (mn mx : α → α → Res α) (a b c : α) : Res α := do
  let lo ← mn a b
  let hi ← mx a b
  let h ← mn hi c
  mx lo h

variable {mn mx : α → α → Res α} {P : α → Prop} {val : α → V}

private theorem med_two (H : Select mn mx P val) (l u : V) (a b c : α) (h : TwoOfThree (fun x => P x ∧ l ≤ val x ∧ val x ≤ u) a b c) :
    ∃ m, med mn mx a b c = .ok m ∧ P m ∧ l ≤ val m ∧ val m ≤ u := by
  obtain ⟨lo, e1, o1, p1, q1, r1⟩ := H.min a b
  obtain ⟨hi, e2, o2, p2, q2, r2⟩ := H.max a b
  obtain ⟨k, e3, o3, p3, q3, r3⟩ := H.min hi c
  obtain ⟨m, e4, o4, p4, q4, r4⟩ := H.max lo k
  refine ⟨m, by simp [med, e1, e2, e3, e4], ?_⟩
  rcases h with ⟨⟨ha, la, ua⟩, ⟨hb, lb, ub⟩⟩ | ⟨⟨ha, la, ua⟩, ⟨hc, lc, uc⟩⟩ | ⟨⟨hb, lb, ub⟩, ⟨hc, lc, uc⟩⟩
  · have hlo := p1 (.inl ha)
    have hhi := p2 (.inl ha)
    have l1 : l ≤ val lo := by rcases o1 with rfl | rfl <;> assumption
    have u2 : val hi ≤ u := by rcases o2 with rfl | rfl <;> assumption
    have u3 : val k ≤ u := le_trans (q3 hhi) u2
    refine ⟨p4 (.inl hlo), le_trans l1 (q4 hlo), ?_⟩
    rcases o4 with rfl | rfl
    · exact le_trans (q1 ha) ua
    · exact u3
  · have hlo := p1 (.inl ha)
    have hhi := p2 (.inl ha)
    have hk := p3 (.inl hhi)
    have l3 : l ≤ val k := by
      rcases o3 with rfl | rfl
      · exact le_trans la (q2 ha)
      · exact lc
    refine ⟨p4 (.inl hlo), le_trans l3 (r4 hk), ?_⟩
    rcases o4 with rfl | rfl
    · exact le_trans (q1 ha) ua
    · exact le_trans (r3 hc) uc
  · have hlo := p1 (.inr hb)
    have hhi := p2 (.inr hb)
    have hk := p3 (.inl hhi)
    have l3 : l ≤ val k := by
      rcases o3 with rfl | rfl
      · exact le_trans lb (r2 hb)
      · exact lc
    refine ⟨p4 (.inl hlo), le_trans l3 (r4 hk), ?_⟩
    rcases o4 with rfl | rfl
    · exact le_trans (r1 hb) ub
    · exact le_trans (r3 hc) uc

private theorem med_mem (H : Select mn mx P val) (a b c : α) : ∃ m, med mn mx a b c = .ok m ∧ m ∈ [a, b, c] ∧ (P a ∨ P b ∨ P c → P m) ∧
    (P a → P b → P c → TwoOfThree (fun x => val x ≤ val m) a b c ∧ TwoOfThree (fun x => val m ≤ val x) a b c) := by
  obtain ⟨lo, e1, o1, p1, q1, r1⟩ := H.min a b
  obtain ⟨hi, e2, o2, p2, q2, r2⟩ := H.max a b
  obtain ⟨k, e3, o3, p3, q3, r3⟩ := H.min hi c
  obtain ⟨m, e4, o4, p4, q4, r4⟩ := H.max lo k
  refine ⟨m, by simp [med, e1, e2, e3, e4], ?_, ?_, ?_⟩
  · rcases o4 with rfl | rfl
    · rcases o1 with rfl | rfl <;> simp
    · rcases o3 with rfl | rfl
      · rcases o2 with rfl | rfl <;> simp
      · simp
  · rintro (h | h | h)
    · exact p4 (.inl (p1 (.inl h)))
    · exact p4 (.inl (p1 (.inr h)))
    · exact p4 (.inr (p3 (.inr h)))
  · intro ha hb hc
    have hlo := p1 (.inl ha)
    have hhi := p2 (.inl ha)
    have hk := p3 (.inl hhi)
    constructor
    · rcases o3 with rfl | rfl
      · exact .inl ⟨le_trans (q2 ha) (r4 hk), le_trans (r2 hb) (r4 hk)⟩
      · rcases o1 with rfl | rfl
        · exact .inr (.inl ⟨q4 hlo, r4 hk⟩)
        · exact .inr (.inr ⟨q4 hlo, r4 hk⟩)
    · rcases o4 with rfl | rfl
      · exact .inl ⟨q1 ha, r1 hb⟩
      · rcases o2 with rfl | rfl
        · exact .inr (.inl ⟨q3 hhi, r3 hc⟩)
        · exact .inr (.inr ⟨q3 hhi, r3 hc⟩)

private theorem filter_good {median : α → α → α → Res α} {Q : α → Prop}
    (hm : ∀ a b c, TwoOfThree Q a b c → ∃ m, median a b c = .ok m ∧ Q m) :
    ∀ (xs : List α) (p2 p1 : α), (∀ a b c, [a, b, c] <:+: p2 :: p1 :: xs → TwoOfThree Q a b c) →
      ∃ ys, medianFilter median p2 p1 xs = .ok ys ∧ ys.length = xs.length ∧ ∀ y ∈ ys, Q y
  | [], _, _, _ => ⟨[], rfl, rfl, by simp⟩
  | x :: xs, p2, p1, h => by
    obtain ⟨ys, e, hl, hy⟩ := filter_good hm xs p1 x fun a b c hi => h a b c (List.infix_cons hi)
    have h3 := h p2 p1 x ⟨[], xs, rfl⟩
    obtain ⟨m, e', hq⟩ := hm x p1 p2 (by unfold TwoOfThree at h3 ⊢; tauto)
    refine ⟨m :: ys, by simp [medianFilter, e, e'], by simp [hl], ?_⟩
    intro y hy'
    rcases List.mem_cons.1 hy' with rfl | hy'
    · exact hq
    · exact hy y hy'

omit [LinearOrder V] in
private theorem filter_middle {median : α → α → α → Res α} {R : α → α → Prop}
    (hm : ∀ a b c, R a b → R b c → R a c → ∃ m, median c b a = .ok m ∧ val m = val b) :
    ∀ (xs : List α) (p2 p1 : α), (p2 :: p1 :: xs).Pairwise R →
      ∃ ys, medianFilter median p2 p1 xs = .ok ys ∧ ys.map val = ((p1 :: xs).dropLast).map val
  | [], _, _, _ => ⟨[], rfl, rfl⟩
  | x :: xs, p2, p1, h => by
    obtain ⟨ys, e, hl⟩ := filter_middle hm xs p1 x (List.pairwise_cons.1 h).2
    have h1 := (List.pairwise_cons.1 h).1
    have h2 := (List.pairwise_cons.1 (List.pairwise_cons.1 h).2).1
    obtain ⟨m, e', hq⟩ := hm p2 p1 x (h1 p1 (by simp)) (h2 x (by simp)) (h1 x (by simp))
    refine ⟨m :: ys, by simp [medianFilter, e, e'], ?_⟩
    rw [List.map_cons, hl, hq]
    simp [List.dropLast]

end

private theorem select_int : Select (fun x y => minInt 2 (some [x, y])) (fun x y => maxInt 2 (some [x, y])) (fun _ => True) (fun x : Int => x) where
  min a b := by
    obtain ⟨m, h1, h2, h3⟩ := C18_min_int [a, b] [] (by simp)
    exact ⟨m, h1, by simpa using h2, fun _ => trivial, fun _ => h3 a (by simp), fun _ => h3 b (by simp)⟩
  max a b := by
    obtain ⟨m, h1, h2, h3⟩ := C18_max_int [a, b] [] (by simp)
    exact ⟨m, h1, by simpa using h2, fun _ => trivial, fun _ => h3 a (by simp), fun _ => h3 b (by simp)⟩

private theorem select_float (f : FloatFmt) (hf : IsFloatTy f) (tie : Nat → Nat → Bool) :
    Select (fun x y => minFloat f tie 2 (some [x, y])) (fun x y => maxFloat f tie 2 (some [x, y])) (fun x => ¬ IsNaN f x) (floatValue f) where
  min a b := by
    obtain ⟨m, h1, h2, h3⟩ := C20_min_float f hf tie [a, b] [] (by simp)
    refine ⟨m, h1, by simpa using h2, ?_, ?_, ?_⟩
    · rintro (h | h)
      · exact (h3 ⟨a, by simp, h⟩).1
      · exact (h3 ⟨b, by simp, h⟩).1
    · exact fun h => (h3 ⟨a, by simp, h⟩).2 a (by simp) h
    · exact fun h => (h3 ⟨b, by simp, h⟩).2 b (by simp) h
  max a b := by
    obtain ⟨m, h1, h2, h3⟩ := C20_max_float f hf tie [a, b] [] (by simp)
    refine ⟨m, h1, by simpa using h2, ?_, ?_, ?_⟩
    · rintro (h | h)
      · exact (h3 ⟨a, by simp, h⟩).1
      · exact (h3 ⟨b, by simp, h⟩).1
    · exact fun h => (h3 ⟨a, by simp, h⟩).2 a (by simp) h
    · exact fun h => (h3 ⟨b, by simp, h⟩).2 b (by simp) h

/-! ### The claims -/

/-- **C175**, integers: the result is one of the three values, two of them are not above it and two not below it. If two of the values lie in an interval, so
does the result, whatever the third one is. -/
theorem C175_median_int (a b c : Int) : ∃ m, medianInt a b c = .ok m ∧ m ∈ [a, b, c] ∧ TwoOfThree (· ≤ m) a b c ∧ TwoOfThree (m ≤ ·) a b c ∧
    ∀ l u, TwoOfThree (fun x => l ≤ x ∧ x ≤ u) a b c → l ≤ m ∧ m ≤ u := by
  obtain ⟨m, e, hm, -, h⟩ := med_mem select_int a b c
  refine ⟨m, e, hm, (h trivial trivial trivial).1, (h trivial trivial trivial).2, fun l u h2 => ?_⟩
  obtain ⟨m', e', -, b1, b2⟩ := med_two select_int l u a b c (by unfold TwoOfThree at h2 ⊢; simpa using h2)
  cases e.symm.trans e'
  exact ⟨b1, b2⟩

/-- **C175**, REAL and LREAL without NaN: as for integers. -/
theorem C175_median_float (f : FloatFmt) (hf : IsFloatTy f) (tie : Nat → Nat → Bool) (a b c : Nat) (ha : ¬ IsNaN f a) (hb : ¬ IsNaN f b)
    (hc : ¬ IsNaN f c) :
    ∃ m, medianFloat f tie a b c = .ok m ∧ m ∈ [a, b, c] ∧ TwoOfThree (fun x => floatValue f x ≤ floatValue f m) a b c ∧
      TwoOfThree (fun x => floatValue f m ≤ floatValue f x) a b c := by
  obtain ⟨m, e, hm, -, h⟩ := med_mem (select_float f hf tie) a b c
  exact ⟨m, e, hm, (h ha hb hc).1, (h ha hb hc).2⟩

/-- **C175**, a defective sensor: if two of the three values are numbers between `l` and `u`, so is the result, whatever the third one is, NaN and
infinities included. -/
theorem C175_one_defective (f : FloatFmt) (hf : IsFloatTy f) (tie : Nat → Nat → Bool) (l u a b c : Nat) (h : TwoOfThree (FloatBetween f l u) a b c) :
    ∃ m, medianFloat f tie a b c = .ok m ∧ m ∈ [a, b, c] ∧ FloatBetween f l u m := by
  obtain ⟨m, e, b0, b1, b2⟩ := med_two (select_float f hf tie) (floatValue f l) (floatValue f u) a b c h
  obtain ⟨m', e', hm, -⟩ := med_mem (select_float f hf tie) a b c
  cases e.symm.trans e'
  exact ⟨m, e, hm, b0, b1, b2⟩

/-- **C175**, two defective sensors that deliver NaN: the result is one of the values and a NaN only if all three are. -/
theorem C175_nan (f : FloatFmt) (hf : IsFloatTy f) (tie : Nat → Nat → Bool) (a b c : Nat) :
    ∃ m, medianFloat f tie a b c = .ok m ∧ m ∈ [a, b, c] ∧ (IsNaN f m ↔ IsNaN f a ∧ IsNaN f b ∧ IsNaN f c) := by
  obtain ⟨m, e, hm, h, -⟩ := med_mem (select_float f hf tie) a b c
  refine ⟨m, e, hm, fun hn => ?_, fun ⟨x, y, z⟩ => ?_⟩
  · by_contra hcon
    exact h (by tauto) hn
  · simp only [List.mem_cons, List.not_mem_nil, or_false] at hm
    rcases hm with rfl | rfl | rfl <;> assumption

/-- **C175**, the filter: if of any three successive values of X at least two lie between `l` and `u`, all the values of Y do. -/
theorem C175_filter_int (l u p2 p1 : Int) (xs : List Int)
    (h : ∀ a b c, [a, b, c] <:+: p2 :: p1 :: xs → TwoOfThree (fun x => l ≤ x ∧ x ≤ u) a b c) :
    ∃ ys, medianFilter medianInt p2 p1 xs = .ok ys ∧ ys.length = xs.length ∧ ∀ y ∈ ys, l ≤ y ∧ y ≤ u :=
  filter_good (fun a b c h => by
    obtain ⟨m, e, -, -, -, hm⟩ := C175_median_int a b c
    exact ⟨m, e, hm l u h⟩) xs p2 p1 h

/-- **C175**, the filter for REAL and LREAL; a NaN is a value that does not lie between `l` and `u`. -/
theorem C175_filter_float (f : FloatFmt) (hf : IsFloatTy f) (tie : Nat → Nat → Bool) (l u p2 p1 : Nat) (xs : List Nat)
    (h : ∀ a b c, [a, b, c] <:+: p2 :: p1 :: xs → TwoOfThree (FloatBetween f l u) a b c) :
    ∃ ys, medianFilter (medianFloat f tie) p2 p1 xs = .ok ys ∧ ys.length = xs.length ∧ ∀ y ∈ ys, FloatBetween f l u y :=
  filter_good (fun a b c h => by
    obtain ⟨m, e, -, hm⟩ := C175_one_defective f hf tie l u a b c h
    exact ⟨m, e, hm⟩) xs p2 p1 h

/-- **C175**, the filter does not distort a signal that only rises or only falls: it delays it by one scan. -/
theorem C175_filter_monotone (p2 p1 : Int) (xs : List Int)
    (h : (p2 :: p1 :: xs).Pairwise (· ≤ ·) ∨ (p2 :: p1 :: xs).Pairwise (fun x y => y ≤ x)) :
    medianFilter medianInt p2 p1 xs = .ok (p1 :: xs).dropLast := by
  have key : ∀ R : Int → Int → Prop, (∀ a b c, R a b → R b c → (a ≤ b ∧ b ≤ c) ∨ (c ≤ b ∧ b ≤ a)) → (p2 :: p1 :: xs).Pairwise R →
      medianFilter medianInt p2 p1 xs = .ok (p1 :: xs).dropLast := fun R hR hp => by
    obtain ⟨ys, e, hy⟩ := filter_middle (median := medianInt) (val := fun x : Int => x) (R := R) (fun a b c h1 h2 _ => by
      obtain ⟨m, e, hm, t1, t2, -⟩ := C175_median_int c b a
      refine ⟨m, e, ?_⟩
      simp only [List.mem_cons, List.not_mem_nil, or_false] at hm
      unfold TwoOfThree at t1 t2
      rcases hR a b c h1 h2 with h | h <;> omega) xs p2 p1 hp
    simp only [List.map_id'] at hy
    rw [e, hy]
  rcases h with h | h
  · exact key _ (fun a b c h1 h2 => .inl ⟨h1, h2⟩) h
  · exact key _ (fun a b c h1 h2 => .inr ⟨h2, h1⟩) h

/-- A filter for a signal near 20 with two outliers and a step to 40. -/
example : medianFilter medianInt 20 21 [20, 9999, 22, 21, -7, 20, 40, 41, 40] = .ok [20, 21, 22, 22, 21, 20, 20, 40, 40] := by decide

/-- The hypothesis of the filter theorem is met by values near 20 with one outlier. -/
example : ∀ a b c : Int, [a, b, c] <:+: [20, 21, 9999, 22] → TwoOfThree (fun x => 20 ≤ x ∧ x ≤ 22) a b c := by
  rintro a b c ⟨s, t, h⟩
  unfold TwoOfThree
  match s, h with
  | [], h => simp at h; omega
  | [_], h => simp at h; omega
  | _ :: _ :: s, h => have := congrArg List.length h; simp at this; omega

/-- 1.0, NaN and 3.0 as REAL give 1.0 or 3.0: here 1.0. With NaN, +infinity and 1.0 two values are defective; the result is +infinity. -/
example : medianFloat .f32 (fun _ _ => true) 0x3F800000 0x7FC00000 0x40400000 = .ok 0x3F800000 ∧
    medianFloat .f32 (fun _ _ => true) 0x7FC00000 0x7F800000 0x3F800000 = .ok 0x7F800000 := by decide

end Verif
