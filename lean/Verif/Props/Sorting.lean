import Mathlib.Data.List.Perm.Basic
import Verif.Props.SelectorAlgebra
/-
C138: an array sorted with MIN and MAX.
-/
namespace Verif
open Spec

/-- `lo := MIN(a[i], a[i+1]); hi := MAX(a[i], a[i+1]); a[i] := lo; a[i+1] := hi;` for the given MIN and MAX; an index outside of the array is a
panic. -/
def exchange {α : Type} (mn mx : α → α → Res α) (a : List α) (i : Nat) : Res (List α) :=
  match a[i]?, a[i + 1]? with
  | some x, some y => do
    let lo ← mn x y
    let hi ← mx x y
    pure ((a.set i lo).set (i + 1) hi)
  | _, _ => .panic

/-- `FOR i := 0 TO k - 1 DO (exchange a[i] and a[i+1]) END_FOR`. -/
def sortPass {α : Type} (mn mx : α → α → Res α) (a : List α) (k : Nat) : Res (List α) := (List.range k).foldlM (exchange mn mx) a

/-- `FOR k := n - 1 TO 1 BY -1 DO FOR i := 0 TO k - 1 DO ... END_FOR END_FOR` on an array of `n` elements. -/
def bubbleSort {α : Type} (mn mx : α → α → Res α) (a : List α) : Res (List α) :=
  (List.range a.length).reverse.foldlM (sortPass mn mx) a

/-- Sorting an array of integers (or times, dates) with `MIN__*` and `MAX__*`, src/types.rs:70-90. -/
def sortInt (a : List Int) : Res (List Int) := bubbleSort (fun x y => minInt 2 (some [x, y])) (fun x y => maxInt 2 (some [x, y])) a

/-- Sorting an array of REAL or LREAL with `MIN__REAL` etc., src/types.rs:18-47. -/
def sortFloat (f : FloatFmt) (tie : Nat → Nat → Bool) (a : List Nat) : Res (List Nat) :=
  bubbleSort (fun x y => minFloat f tie 2 (some [x, y])) (fun x y => maxFloat f tie 2 (some [x, y])) a

section
variable {α : Type} (mn mx : α → α → Res α) (P : α → Prop) (val : α → ℚ)

/-- MIN and MAX of two elements. -/
private def Good : Prop := ∀ x y, P x → P y → ∃ lo hi, mn x y = .ok lo ∧ mx x y = .ok hi ∧ P lo ∧ P hi ∧
  val lo = min (val x) (val y) ∧ val hi = max (val x) (val y)

private theorem exchange_at (q s : List α) (m x lo hi : α) (h1 : mn m x = .ok lo) (h2 : mx m x = .ok hi) :
    exchange mn mx (q ++ m :: x :: s) q.length = .ok (q ++ lo :: hi :: s) := by
  unfold exchange
  have e1 : (q ++ m :: x :: s)[q.length]? = some m := by simp
  have e2 : (q ++ m :: x :: s)[q.length + 1]? = some x := by simp
  rw [e1, e2]
  show ((mn m x).bind fun lo => (mx m x).bind fun hi => Res.ok _) = _
  rw [h1, h2]
  show Res.ok _ = _
  congr 1
  rw [List.set_append_right _ _ (le_refl _), List.set_append_right _ _ (by omega)]
  simp

private theorem pass_spec (H : Good mn mx P val) : ∀ (j : Nat) (p : List α) (x : α) (s : List α), p.length = j → (∀ y ∈ p ++ [x], P y) →
    ∃ p' m, sortPass mn mx (p ++ x :: s) j = .ok (p' ++ m :: s) ∧ p'.length = j ∧ (∀ y ∈ p' ++ [m], P y) ∧
      ((p' ++ [m]).map val).Perm ((p ++ [x]).map val) ∧ ∀ y ∈ p', val y ≤ val m := by
  intro j
  induction j with
  | zero =>
    intro p x s hp hP
    have : p = [] := List.length_eq_zero_iff.1 hp
    subst this
    exact ⟨[], x, rfl, rfl, hP, List.Perm.refl _, by simp⟩
  | succ j ih =>
    intro p x s hp hP
    rcases List.eq_nil_or_concat p with rfl | ⟨q, y, rfl⟩
    · simp at hp
    rw [List.concat_eq_append] at hp hP ⊢
    have hq : q.length = j := by simpa using hp
    obtain ⟨q', m, e, l, hP', hperm, hle⟩ := ih q y (x :: s) hq (fun z hz => hP z (by simp at hz ⊢; rcases hz with h | h <;> simp [h]))
    obtain ⟨lo, hi, h1, h2, h3, h4, h5, h6⟩ := H m x (hP' m (by simp)) (hP x (by simp))
    refine ⟨q' ++ [lo], hi, ?_, by simp [l], ?_, ?_, ?_⟩
    · unfold sortPass at e ⊢
      rw [List.range_succ, List.foldlM_append, List.append_assoc, List.singleton_append, e]
      show (exchange mn mx (q' ++ m :: x :: s) j).bind _ = _
      rw [← l, exchange_at mn mx q' s m x lo hi h1 h2]
      show Res.ok _ = _
      simp
    · intro z hz
      simp only [List.append_assoc, List.mem_append, List.mem_cons, List.not_mem_nil, or_false] at hz
      rcases hz with hz | rfl | rfl
      · exact hP' z (by simp [hz])
      · exact h3
      · exact h4
    · simp only [List.map_append, List.map_cons, List.map_nil] at hperm ⊢
      have hlh : [val lo, val hi].Perm [val m, val x] := by
        rw [h5, h6]
        rcases le_total (val m) (val x) with h | h
        · rw [min_eq_left h, max_eq_right h]
        · rw [min_eq_right h, max_eq_left h]; exact List.Perm.swap _ _ _
      calc q'.map val ++ [val lo] ++ [val hi] = q'.map val ++ [val lo, val hi] := by simp
        _ |>.Perm (q'.map val ++ [val m, val x]) := hlh.append_left _
        _ = q'.map val ++ [val m] ++ [val x] := by simp
        _ |>.Perm (q.map val ++ [val y] ++ [val x]) := hperm.append_right _
    · intro z hz
      rw [h6]
      simp only [List.mem_append, List.mem_cons, List.not_mem_nil, or_false] at hz
      rcases hz with hz | rfl
      · exact (hle z hz).trans (le_max_left _ _)
      · rw [h5]; exact min_le_max

private theorem sort_loop (H : Good mn mx P val) : ∀ (k : Nat) (p s : List α), p.length = k → (∀ y ∈ p ++ s, P y) →
    s.Pairwise (fun y z => val y ≤ val z) → (∀ y ∈ p, ∀ z ∈ s, val y ≤ val z) →
    ∃ b, (List.range k).reverse.foldlM (sortPass mn mx) (p ++ s) = .ok b ∧ (b.map val).Perm ((p ++ s).map val) ∧ (∀ y ∈ b, P y) ∧
      b.Pairwise (fun y z => val y ≤ val z) := by
  intro k
  induction k with
  | zero =>
    intro p s hp hP hs _
    have : p = [] := List.length_eq_zero_iff.1 hp
    subst this
    exact ⟨s, rfl, List.Perm.refl _, hP, hs⟩
  | succ k ih =>
    intro p s hp hP hs hps
    rcases List.eq_nil_or_concat p with rfl | ⟨q, x, rfl⟩
    · simp at hp
    rw [List.concat_eq_append] at hp hP hps ⊢
    have hq : q.length = k := by simpa using hp
    obtain ⟨p', m, e, l, hP', hperm, hle⟩ := pass_spec mn mx P val H k q x s hq (fun z hz => hP z (by simp at hz ⊢; rcases hz with h | h <;> simp [h]))
    have hmem : ∀ y ∈ p' ++ [m], ∀ z ∈ s, val y ≤ val z := by
      intro y hy z hz
      have := hperm.mem_iff.1 (List.mem_map_of_mem (f := val) hy)
      obtain ⟨y', hy', e'⟩ := List.mem_map.1 this
      rw [← e']
      exact hps y' hy' z hz
    obtain ⟨b, b1, b2, b3, b4⟩ := ih p' (m :: s) l
      (fun y hy => by
        simp only [List.mem_append, List.mem_cons] at hy
        rcases hy with h | rfl | h
        · exact hP' y (by simp [h])
        · exact hP' y (by simp)
        · exact hP y (by simp [h]))
      (List.pairwise_cons.2 ⟨fun z hz => hmem m (by simp) z hz, hs⟩)
      (fun y hy z hz => by
        rcases List.mem_cons.1 hz with rfl | hz
        · exact hle y hy
        · exact hmem y (by simp [hy]) z hz)
    refine ⟨b, ?_, ?_, b3, b4⟩
    · rw [List.range_succ, List.reverse_append, List.reverse_singleton, List.singleton_append, List.foldlM_cons, List.append_assoc,
        List.singleton_append, e]
      exact b1
    · refine b2.trans ?_
      have e1 : (p' ++ m :: s).map val = (p' ++ [m]).map val ++ s.map val := by simp
      have e2 : (q ++ [x] ++ s).map val = (q ++ [x]).map val ++ s.map val := by simp
      rw [e1, e2]
      exact hperm.append_right _

private theorem sort_spec (H : Good mn mx P val) (a : List α) (hP : ∀ y ∈ a, P y) :
    ∃ b, bubbleSort mn mx a = .ok b ∧ (b.map val).Perm (a.map val) ∧ (∀ y ∈ b, P y) ∧ b.Pairwise (fun y z => val y ≤ val z) := by
  have := sort_loop mn mx P val H a.length a [] rfl (by simpa using hP) (by simp) (by simp)
  simpa [bubbleSort] using this

end

/-- **C138.** The program never aborts and leaves in the array its elements in ascending order. -/
theorem C138_int (a : List Int) : ∃ b, sortInt a = .ok b ∧ b.Perm a ∧ b.Pairwise (· ≤ ·) := by
  have H : Good (fun x y => minInt 2 (some [x, y])) (fun x y => maxInt 2 (some [x, y])) (fun _ => True) (fun x : Int => (x : ℚ)) := by
    intro x y _ _
    obtain ⟨m, h1, h2, h3⟩ := C18_min_int [x, y] [] (by simp)
    obtain ⟨n, g1, g2, g3⟩ := C18_max_int [x, y] [] (by simp)
    simp only [List.mem_cons, List.not_mem_nil, or_false, forall_eq_or_imp, forall_eq] at h2 h3 g2 g3
    have e1 : m = min x y := by rcases h2 with rfl | rfl <;> omega
    have e2 : n = max x y := by rcases g2 with rfl | rfl <;> omega
    exact ⟨m, n, h1, g1, trivial, trivial, by rw [e1]; exact Int.cast_min, by rw [e2]; exact Int.cast_max⟩
  obtain ⟨b, b1, b2, _, b4⟩ := sort_spec _ _ _ _ H a (fun _ _ => trivial)
  refine ⟨b, b1, ?_, b4.imp fun h => by exact_mod_cast h⟩
  exact (List.map_perm_map_iff (fun _ _ h => by exact_mod_cast h)).1 b2

/-- **C138**, REAL and LREAL without NaN: the values are those of the array, in ascending order (of two zeros that differ in sign one may be
replaced by the other). -/
theorem C138_float (f : FloatFmt) (hf : IsFloatTy f) (tie : Nat → Nat → Bool) (a : List Nat) (ha : ∀ x ∈ a, ¬ IsNaN f x) :
    ∃ b, sortFloat f tie a = .ok b ∧ (b.map (floatValue f)).Perm (a.map (floatValue f)) ∧ (b.map (floatValue f)).Pairwise (· ≤ ·) ∧
      (∀ y ∈ b, ¬ IsNaN f y) := by
  have H : Good (fun x y => minFloat f tie 2 (some [x, y])) (fun x y => maxFloat f tie 2 (some [x, y])) (fun x => ¬ IsNaN f x) (floatValue f) := by
    intro x y hx hy
    obtain ⟨m, h1, h2, h3⟩ := C20_min_float f hf tie [x, y] [] (by simp)
    obtain ⟨n, g1, g2, g3⟩ := C20_max_float f hf tie [x, y] [] (by simp)
    obtain ⟨h4, h5⟩ := h3 ⟨x, by simp, hx⟩
    obtain ⟨g4, g5⟩ := g3 ⟨x, by simp, hx⟩
    simp only [List.mem_cons, List.not_mem_nil, or_false, forall_eq_or_imp, forall_eq] at h2 h5 g2 g5
    refine ⟨m, n, h1, g1, h4, g4, ?_, ?_⟩
    · have := h5.1 hx; have := h5.2 hy
      rcases h2 with rfl | rfl
      · exact (min_eq_left (by assumption)).symm
      · exact (min_eq_right (by assumption)).symm
    · have := g5.1 hx; have := g5.2 hy
      rcases g2 with rfl | rfl
      · exact (max_eq_left (by assumption)).symm
      · exact (max_eq_right (by assumption)).symm
  obtain ⟨b, b1, b2, b3, b4⟩ := sort_spec _ _ _ _ H a ha
  exact ⟨b, b1, b2, List.pairwise_map.2 b4, b3⟩

example : sortInt [3, -1, 4, 1, -5, 9, 2, 6] = .ok [-5, -1, 1, 2, 3, 4, 6, 9] ∧ sortInt [] = .ok [] := by decide +kernel

/-- Numbers: 2, minus infinity and -1. -/
example : sortFloat .f64 (fun _ _ => true) [0x4000000000000000, 0xFFF0000000000000, 0xBFF0000000000000] =
    .ok [0xFFF0000000000000, 0xBFF0000000000000, 0x4000000000000000] := by decide +kernel

/-- With a NaN in the array the condition fails and a number is doubled in place of the NaN. -/
example : sortFloat .f64 (fun _ _ => true) [0x4000000000000000, 0x7FF8000000000000, 0xBFF0000000000000] =
    .ok [0xBFF0000000000000, 0x4000000000000000, 0x4000000000000000] := by decide +kernel

end Verif
