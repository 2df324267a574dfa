import Mathlib.Data.Nat.Digits.Lemmas
import Mathlib.Data.List.Forall2
import Verif.Spec.Text
import Verif.Model.Text
import Verif.Proofs.Strings
import Verif.Proofs.Timestamps
/-
Numbers as text.
-/
namespace Verif
open Spec Chrono

theorem decimal_step (n : Nat) (h : 10 ≤ n) : decimal n = decimal (n / 10) ++ [48 + n % 10] := by
  unfold decimal
  rw [if_neg (by omega), if_neg (by omega), Nat.digits_def' (by omega) (by omega)]
  simp

theorem decimal_small (n : Nat) (h : n < 10) : decimal n = [48 + n] := by
  unfold decimal
  by_cases h0 : n = 0
  · subst h0; decide
  · rw [if_neg h0, Nat.digits_def' (by omega) (by omega), Nat.div_eq_of_lt h, Nat.mod_eq_of_lt h]
    simp

/-- The model's digits are the decimal notation. -/
theorem fmtNat_eq (n : Nat) : fmtNat n = decimal n := by
  induction n using Nat.strongRecOn with
  | _ n ih =>
    rw [fmtNat]
    split
    · rw [decimal_small n (by assumption)]
    · rw [ih (n / 10) (by omega), ← decimal_step n (by omega)]

theorem fmtInt_eq (x : Int) : fmtInt x = signedDecimal x := by
  unfold fmtInt signedDecimal
  rw [fmtNat_eq]; rfl

theorem fmtZeros_eq (w n : Nat) : fmtZeros w n = padded w n := by
  unfold fmtZeros padded; rw [fmtNat_eq]

theorem decimal_digit (n : Nat) : ∀ b ∈ decimal n, 48 ≤ b ∧ b ≤ 57 := by
  induction n using Nat.strongRecOn with
  | _ n ih =>
    by_cases h : n < 10
    · rw [decimal_small n h]; intro b hb; simp at hb; omega
    · rw [decimal_step n (by omega)]
      intro b hb
      rcases List.mem_append.1 hb with hb | hb
      · exact ih _ (by omega) b hb
      · simp at hb; omega

theorem decimal_ne_nil (n : Nat) : decimal n ≠ [] := by
  by_cases h : n < 10
  · rw [decimal_small n h]; simp
  · rw [decimal_step n (by omega)]; simp

theorem numeral_decimal (n : Nat) : Numeral 10 (decimal n) n := by
  by_cases h : n = 0
  · subst h
    refine ⟨[0], ?_, by simp, rfl⟩
    rw [decimal_small 0 (by omega)]
    exact .cons ⟨by omega, by omega⟩ .nil
  · refine ⟨(Nat.digits 10 n).reverse, ?_, ?_, ?_⟩
    · unfold decimal; rw [if_neg h, List.forall₂_map_left_iff, List.forall₂_same]
      intro d hd
      have := Nat.digits_lt_base (b := 10) (by omega) (List.mem_reverse.1 hd)
      exact ⟨this, .inl ⟨this, rfl⟩⟩
    · simp [Nat.digits_ne_nil_iff_ne_zero.2 h]
    · rw [List.reverse_reverse, Nat.ofDigits_digits]

theorem isDigit_unique {r c d d' : Nat} (hr : r ≤ 16) (h : IsDigit r c d) (h' : IsDigit r c d') : d = d' := by
  unfold IsDigit at *; omega

theorem numeral_unique {r : Nat} (hr : r ≤ 16) {s : List Nat} {n n' : Nat} (h : Numeral r s n)
    (h' : Numeral r s n') : n = n' := by
  obtain ⟨ds, h1, _, rfl⟩ := h
  obtain ⟨ds', h1', _, rfl⟩ := h'
  have : ds = ds' := by
    clear * - hr h1 h1'
    induction h1 generalizing ds' with
    | nil => cases h1'; rfl
    | cons hd _ ih =>
      cases h1' with
      | cons hd' ht' => rw [isDigit_unique hr hd hd', ih _ ht']
  rw [this]

theorem decimal_injective {n n' : Nat} (h : decimal n = decimal n') : n = n' :=
  numeral_unique (by omega) (numeral_decimal n) (h ▸ numeral_decimal n')

theorem decimal_length_le (n k : Nat) (hk : 0 < k) (h : n < 10 ^ k) : (decimal n).length ≤ k := by
  unfold decimal
  split
  · exact hk
  · rw [List.length_map, List.length_reverse]
    rw [Nat.digits_length_le_iff (by omega)]
    exact h

theorem padded_length (w n : Nat) (hw : 0 < w) (h : n < 10 ^ w) : (padded w n).length = w := by
  have := decimal_length_le n w hw h
  unfold padded
  rw [List.length_append, List.length_replicate]; omega

/-! ### Parsing -/

theorem toDigit_iff (radix c d : Nat) (hr : radix ≤ 16) : toDigit radix c = some d ↔ IsDigit radix c d := by
  unfold toDigit IsDigit
  simp only [Option.filter_eq_some_iff, Bool.and_eq_true, decide_eq_true_eq]
  by_cases h1 : 48 ≤ c ∧ c ≤ 57
  · rw [if_pos h1, Option.some.injEq]; omega
  by_cases h2 : 97 ≤ c ∧ c ≤ 122
  · rw [if_neg h1, if_pos h2, Option.some.injEq]; omega
  by_cases h3 : 65 ≤ c ∧ c ≤ 90
  · rw [if_neg h1, if_neg h2, if_pos h3, Option.some.injEq]; omega
  · rw [if_neg h1, if_neg h2, if_neg h3]
    simp only [reduceCtorEq, false_and, false_iff]; omega

/-- Value of digits, most significant first, with an accumulator. -/
def horner (radix : Nat) : List Nat → Nat → Nat
  | [], acc => acc
  | d :: ds, acc => horner radix ds (acc * radix + d)

theorem horner_eq (radix : Nat) (ds : List Nat) (acc : Nat) :
    horner radix ds acc = acc * radix ^ ds.length + Nat.ofDigits radix ds.reverse := by
  induction ds generalizing acc with
  | nil => simp [horner]
  | cons d ds ih =>
    rw [horner, ih, List.reverse_cons, Nat.ofDigits_append, List.length_reverse, List.length_cons,
      pow_succ]
    simp only [Nat.ofDigits_singleton]
    ring

theorem horner_ge (radix : Nat) (hr : 1 ≤ radix) (ds : List Nat) (acc : Nat) :
    acc ≤ horner radix ds acc := by
  induction ds generalizing acc with
  | nil => exact Nat.le_refl _
  | cons d ds ih =>
    refine Nat.le_trans ?_ (ih _)
    calc acc ≤ acc * radix := Nat.le_mul_of_pos_right _ hr
      _ ≤ acc * radix + d := Nat.le_add_right _ _

theorem checked_some {t : IntTy} {x y : Int} (h : t.checked x = some y) : t.InRange x ∧ y = x := by
  unfold IntTy.checked at h
  split at h
  · exact ⟨by assumption, (Option.some.inj h).symm⟩
  · cases h

/-- The checked digit loop: all characters are digits and the final value is in range. -/
theorem parseDigits_iff (t : IntTy) (hlo : t.lo ≤ 0) (hhi : 0 ≤ t.hi) (radix : Nat)
    (hr : 2 ≤ radix) (hr' : radix ≤ 16) (positive : Bool) (s : List Nat) (acc : Nat) (v : Int)
    (hacc : t.InRange (if positive then (acc : Int) else -acc)) :
    parseDigits t radix positive s (if positive then (acc : Int) else -acc) = some v ↔
      ∃ ds, List.Forall₂ (IsDigit radix) s ds ∧
        v = (if positive then (horner radix ds acc : Int) else -(horner radix ds acc)) ∧
        t.InRange v := by
  induction s generalizing acc with
  | nil =>
    rw [parseDigits, Option.some.injEq]
    constructor
    · rintro rfl; exact ⟨[], .nil, rfl, hacc⟩
    · rintro ⟨ds, h, hv, _⟩
      cases h; exact hv.symm
  | cons c cs ih =>
    rw [parseDigits]
    simp only [Option.bind_eq_bind]
    constructor
    · intro h
      obtain ⟨d, hd, h⟩ := Option.bind_eq_some_iff.1 h
      obtain ⟨a, ha, h⟩ := Option.bind_eq_some_iff.1 h
      obtain ⟨b, hb, h⟩ := Option.bind_eq_some_iff.1 h
      obtain ⟨_, ha⟩ := checked_some ha
      obtain ⟨hin, hb⟩ := checked_some hb
      have hb' : b = if positive then ((acc * radix + d : Nat) : Int) else -((acc * radix + d : Nat)) := by
        rw [hb, ha]
        cases positive <;> simp only [Bool.false_eq_true, if_true, if_false] <;> push_cast <;> ring
      rw [← hb] at hin
      rw [hb'] at h hin
      obtain ⟨ds, h1, h2, h3⟩ := (ih _ hin).1 h
      exact ⟨d :: ds, .cons ((toDigit_iff _ _ _ hr').1 hd) h1, h2, h3⟩
    · rintro ⟨ds, h1, h2, h3⟩
      cases h1 with
      | @cons _ d _ ds hd ht =>
        rw [horner] at h2
        have hge := horner_ge radix (by omega) ds (acc * radix + d)
        have hin : t.InRange (if positive then ((acc * radix + d : Nat) : Int)
            else -((acc * radix + d : Nat))) := by
          unfold IntTy.InRange at *
          cases positive <;> simp only [Bool.false_eq_true, if_true, if_false] at * <;> omega
        have hin0 : t.InRange ((if positive then (acc : Int) else -acc) * radix) := by
          have : ((if positive then (acc : Int) else -acc) * radix) =
              if positive then ((acc * radix : Nat) : Int) else -((acc * radix : Nat)) := by
            cases positive <;> simp
          rw [this]
          unfold IntTy.InRange at *
          cases positive <;> simp only [Bool.false_eq_true, if_true, if_false] at * <;> omega
        rw [(toDigit_iff _ _ _ hr').2 hd, Option.bind_some, IntTy.checked, if_pos hin0,
          Option.bind_some]
        have hb' : (if positive then ((if positive then (acc : Int) else -acc) * radix + d)
            else ((if positive then (acc : Int) else -acc) * radix - d)) =
            if positive then ((acc * radix + d : Nat) : Int) else -((acc * radix + d : Nat)) := by
          cases positive <;> simp only [Bool.false_eq_true, if_true, if_false] <;> push_cast <;> ring
        rw [hb', IntTy.checked, if_pos hin, Option.bind_some]
        exact (ih _ hin).2 ⟨ds, ht, h2, h3⟩

end Verif
