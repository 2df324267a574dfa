import Verif.Model.WordSize
import Verif.Props.BuildProfile
/-
C173: the string functions on controllers with 32-bit addresses.
-/
namespace Verif
open Spec

private def bits : WordSize → Nat
  | .w32 => 32
  | .w64 => 64

private theorem wrap_usize (w : WordSize) (x : Int) : w.usize.wrap x = x % 2 ^ bits w := by
  cases w <;> rfl

private theorem usize_nonneg (w : WordSize) {x : Int} (h0 : 0 ≤ x) (h : x < 2 ^ 31) : asUsizeOn w x = x.toNat := by
  rw [asUsizeOn, wrap_usize]
  cases w <;> simp only [bits] <;> omega

private theorem usize_neg (w : WordSize) {x : Int} (h0 : x < 0) (h : -2 ^ 31 ≤ x) : 2 ^ 31 ≤ asUsizeOn w x := by
  rw [asUsizeOn, wrap_usize]
  cases w <;> simp only [bits] <;> omega

/-- The sum of a length and a position, tested against the length `n` of the string: the same for every width. -/
private theorem sum_step {β : Type} (w : WordSize) (p : Profile) (n pos : Nat) (L : Int) (f : Nat → Res β) (hL : IntTy.i32.InRange L)
    (hn : n < 2 ^ 31) (hp : pos < 2 ^ 31) :
    (w.usize.arith p (asUsizeOn w L + pos) >>= fun sum => if sum > n then .panic else f sum.toNat) =
      if 0 ≤ L + pos ∧ L + pos ≤ n ∧ (0 ≤ L ∨ p = .release) then f (L + pos).toNat else .panic := by
  have hb := i32_bounds hL
  have range : ∀ x : Int, w.usize.InRange x ↔ 0 ≤ x ∧ x < 2 ^ bits w := by
    intro x
    cases w <;> simp [WordSize.usize, IntTy.InRange, IntTy.lo, IntTy.hi, IntTy.u32, IntTy.u64, bits] <;> omega
  unfold IntTy.arith
  by_cases h0 : 0 ≤ L
  · rw [usize_nonneg w h0 hb.2, if_pos (by rw [range]; cases w <;> simp only [bits] <;> omega), Res.bind_ok]
    have e : ((L.toNat : Int) + pos) = L + pos := by omega
    rw [e]
    by_cases h : L + pos > n
    · rw [if_pos h, if_neg (by omega)]
    · rw [if_neg h, if_pos ⟨by omega, by omega, .inl h0⟩]
  · have en : (asUsizeOn w L : Int) = L + 2 ^ bits w := by
      rw [asUsizeOn, wrap_usize]
      cases w <;> simp only [bits] <;> omega
    rw [en]
    by_cases hpos : 0 ≤ L + pos
    · rw [if_neg (by rw [range]; cases w <;> simp only [bits] <;> omega)]
      cases p
      · rw [if_neg (by simp; omega)]; rfl
      · dsimp only
        rw [Res.bind_ok, wrap_usize, show (L + 2 ^ bits w + (pos : Int)) % 2 ^ bits w =
          L + pos by cases w <;> simp only [bits] <;> omega]
        by_cases h : L + pos > n
        · rw [if_pos h, if_neg (by omega)]
        · rw [if_neg h, if_pos ⟨hpos, by omega, .inr rfl⟩]
    · rw [if_pos (by rw [range]; cases w <;> simp only [bits] <;> omega), Res.bind_ok, if_pos (by cases w <;> simp only [bits] <;> omega), if_neg (by omega)]

private theorem asI32_le {n : Nat} (h : n < 2 ^ 31) : asI32 n = n := asI32_small h

/-- What a call does depends on the decoded argument only. -/
private theorem decode_congr {β : Type} (ty : StrTy) (m : List Nat) (hm : m.length < 2 ^ 31) (f g : List (codecOf ty).Item → Res β)
    (h : ∀ items : List (codecOf ty).Item, items.length < 2 ^ 31 → f items = g items) :
    ((codecOf ty).decode (some m) >>= f) = ((codecOf ty).decode (some m) >>= g) := by
  cases hd : (codecOf ty).decode (some m) with
  | ok items =>
    have := decode_items_length ty m items hd
    rw [Res.bind_ok, Res.bind_ok]
    exact h items (by omega)
  | panic => rfl
  | ub => rfl

/-- **C173**, LEFT and RIGHT: whatever the memory holds, for every length parameter. -/
theorem C173_left_right (w : WordSize) (ty : StrTy) (m : List Nat) (dest : Ptr) (L : Int) (hL : IntTy.i32.InRange L) :
    leftOn w (codecOf ty) (some m) L dest = left (codecOf ty) (some m) L dest ∧
    rightOn w (codecOf ty) (some m) L dest = right (codecOf ty) (some m) L dest := by
  have hb := i32_bounds hL
  have key : 0 ≤ L → asUsizeOn w L = asUsize L := fun h => by
    rw [usize_nonneg w h hb.2, show asUsize L = asUsizeOn .w64 L from rfl, usize_nonneg .w64 h hb.2]
  unfold leftOn left rightOn right
  by_cases h : L < 0
  · simp only [h, if_true, and_self]
  · simp only [h, if_false, key (by omega), and_self]

/-- **C173**, MID: for every length and position. -/
theorem C173_mid (w : WordSize) (p : Profile) (ty : StrTy) (m : List Nat) (dest : Ptr) (L P : Int) (hm : m.length < 2 ^ 31)
    (hL : IntTy.i32.InRange L) (hP : IntTy.i32.InRange P) :
    midOn w p (codecOf ty) (some m) L P dest = mid p (codecOf ty) (some m) L P dest := by
  have hb := i32_bounds hL
  have hb' := i32_bounds hP
  have key : ∀ w : WordSize, midOn w p (codecOf ty) (some m) L P dest =
      if L < 0 then .panic else (codecOf ty).decode (some m) >>= fun items =>
        if P < 1 ∨ P > items.length ∨ L + (P - 1) > items.length then .panic
        else (codecOf ty).write ((items.drop (P - 1).toNat).take L.toNat) dest := by
    intro w
    unfold midOn
    by_cases h : L < 0
    · rw [if_pos h, if_pos h]
    · rw [if_neg h, if_neg h]
      refine decode_congr ty m hm _ _ fun items hi => ?_
      dsimp only
      by_cases h1 : P < 1
      · rw [if_pos (c := P < 1 ∨ _) (.inl h1), if_pos]
        by_cases h2 : P < 0
        · have := usize_neg w h2 hb'.1
          simp only [Bool.or_eq_true, decide_eq_true_eq]; omega
        · rw [usize_nonneg w (by omega) hb'.2]
          simp only [Bool.or_eq_true, decide_eq_true_eq]; omega
      · rw [usize_nonneg w (by omega) hb'.2]
        by_cases h2 : P > items.length
        · rw [if_pos (by simp only [Bool.or_eq_true, decide_eq_true_eq]; omega), if_pos (.inr (.inl h2))]
        · rw [if_neg (by simp only [Bool.or_eq_true, decide_eq_true_eq]; omega)]
          have s := sum_step w p items.length (P.toNat - 1) L
            (fun _ => (codecOf ty).write ((items.drop (P.toNat - 1)).take (asUsizeOn w L)) dest) hL hi (by omega)
          rw [show (fun sum : Int => if (items.length : Int) < sum then Res.panic else
            (codecOf ty).write ((items.drop (P.toNat - 1)).take (asUsizeOn w L)) dest) = _ from rfl] at *
          refine Eq.trans s ?_
          rw [usize_nonneg w (by omega) hb.2, show (P - 1).toNat = P.toNat - 1 by omega]
          by_cases h3 : L + (P - 1) > items.length
          · rw [if_neg (by omega), if_pos (.inr (.inr h3))]
          · rw [if_pos ⟨by omega, by omega, .inl (by omega)⟩, if_neg (by omega)]
  rw [key w, show mid p (codecOf ty) (some m) L P dest = midOn .w64 p (codecOf ty) (some m) L P dest from rfl, key .w64]

/-- **C173**, INSERT: for every position. -/
theorem C173_insert (w : WordSize) (ty : StrTy) (a b dest : Ptr) (P : Int) (hP : IntTy.i32.InRange P) :
    insertOn w (codecOf ty) a b P dest = insert (codecOf ty) a b P dest := by
  have hb := i32_bounds hP
  unfold insertOn insert
  congr 1
  funext base
  dsimp only
  by_cases h : P < 0
  · rw [if_pos (by simp [h]), if_pos (by simp [h])]
  · rw [usize_nonneg w (by omega) hb.2, show asUsize P = asUsizeOn .w64 P from rfl, usize_nonneg .w64 (by omega) hb.2]

/-- **C173**, DELETE: for every length and position, negative ones included. -/
theorem C173_delete (w : WordSize) (p : Profile) (ty : StrTy) (m : List Nat) (dest : Ptr) (L P : Int) (hm : m.length < 2 ^ 31)
    (hL : IntTy.i32.InRange L) (hP : IntTy.i32.InRange P) :
    deleteOn w p (codecOf ty) (some m) L P dest = delete p (codecOf ty) (some m) L P dest := by
  have hb' := i32_bounds hP
  rw [show delete p (codecOf ty) (some m) L P dest = deleteOn .w64 p (codecOf ty) (some m) L P dest from rfl]
  unfold deleteOn
  refine decode_congr ty m hm _ _ fun items hi => ?_
  dsimp only
  by_cases h : (decide (P < 1) || decide (P > asI32 items.length)) = true
  · rw [if_pos h, if_pos h]
  · rw [if_neg h, if_neg h]
    simp only [Bool.or_eq_true, decide_eq_true_eq, asI32_le hi] at h
    rw [usize_nonneg w (by omega) hb'.2, usize_nonneg .w64 (by omega) hb'.2]
    have s := fun w => sum_step w p items.length (P.toNat - 1) L
      (fun n => (codecOf ty).write (items.take (P.toNat - 1) ++ items.drop n) dest) hL hi (by omega)
    exact (s w).trans (s .w64).symm

/-- **C173**, REPLACE: for every length and position, negative ones included. -/
theorem C173_replace (w : WordSize) (p : Profile) (ty : StrTy) (m : List Nat) (r dest : Ptr) (L P : Int) (hm : m.length < 2 ^ 31)
    (hL : IntTy.i32.InRange L) (hP : IntTy.i32.InRange P) :
    replaceOn w p (codecOf ty) (some m) r L P dest = replace p (codecOf ty) (some m) r L P dest := by
  have hb' := i32_bounds hP
  rw [show replace p (codecOf ty) (some m) r L P dest = replaceOn .w64 p (codecOf ty) (some m) r L P dest from rfl]
  unfold replaceOn
  refine decode_congr ty m hm _ _ fun items hi => ?_
  dsimp only
  by_cases h : (decide (P < 1) || decide (P > asI32 items.length)) = true
  · rw [if_pos h, if_pos h]
  · rw [if_neg h, if_neg h]
    simp only [Bool.or_eq_true, decide_eq_true_eq, asI32_le hi] at h
    rw [usize_nonneg w (x := P - 1) (by omega) (by omega), usize_nonneg .w64 (x := P - 1) (by omega) (by omega)]
    have s := fun w => sum_step w p items.length (P - 1).toNat L
      (fun n => (codecOf ty).decode r >>= fun repl => (codecOf ty).write (items.take (P - 1).toNat ++ (repl ++ items.drop n)) dest) hL hi (by omega)
    exact (s w).trans (s .w64).symm

/-! ### Examples -/

/-- -1 is another `usize` on each machine. -/
example : asUsizeOn .w32 (-1) = 4294967295 ∧ asUsizeOn .w64 (-1) = 18446744073709551615 := by decide
/-- DELETE('abc', -1, 3) in a release build does the same on both: it doubles the 'b' (C47). -/
example : deleteOn .w32 .release codec8 (some [0x61, 0x62, 0x63, 0]) (-1) 3 (some [9, 9, 9, 9, 9]) = .ok [0x61, 0x62, 0x62, 0x63, 0] := by decide
example : deleteOn .w32 .debug codec8 (some [0x61, 0x62, 0x63, 0]) (-1) 3 (some [9, 9, 9, 9, 9]) = .panic := by decide
example : midOn .w32 .debug codec8 (some [0x61, 0x62, 0x63, 0]) 2147483647 3 (some [9, 9, 9, 9, 9]) = .panic ∧
    midOn .w32 .debug codec8 (some [0x61, 0x62, 0x63, 0]) 1 3 (some [9, 9]) = .ok [0x63, 0] := by decide

end Verif
