import Verif.Props.StStrings
import Verif.Props.TextOrder
import Verif.Props.StringCompare
/-
C134: numbers with leading zeros, made with CONCAT and RIGHT.
-/
namespace Verif
open Spec

/-- `RIGHT(CONCAT(zeros, LINT_TO_STRING(x)), w)`, or the same with WSTRING. -/
def zeroPad (ty : StrTy) (zeros : List Nat) (w : Int) (x : Int) : Res (List Nat) := do
  let number ← match ty with
    | .STRING => St.LINT_TO_STRING x
    | .WSTRING => St.LINT_TO_WSTRING x
  let all ← St.CONCAT (codecOf ty) [some zeros, some number]
  St.RIGHT (codecOf ty) (some all) w

private theorem ascii_units (ty : StrTy) {s : List Nat} (h : Ascii s) : ty.units (s.map Char.ofNat) = s := by
  cases ty
  · exact (ascii_utf8 fun b hb => (h b hb).2).symm
  · exact (ascii_utf16 fun b hb => (h b hb).2).symm

private theorem ascii_zeros (w : Nat) : Ascii (List.replicate w 48) := fun b hb => by rw [List.eq_of_mem_replicate hb]; omega

private theorem lt_pow_decimal (n : Nat) : n < 10 ^ (decimal n).length := by
  unfold decimal
  split
  · next h => subst h; decide
  · rw [List.length_map, List.length_reverse]; exact Nat.lt_base_pow_length_digits (by omega)

/-- The last `w` characters of the zeros followed by the number. -/
private theorem drop_zeros (w n : Nat) (hw : 1 ≤ w) :
    (List.replicate w 48 ++ decimal n).drop (decimal n).length = padded w (n % 10 ^ w) := by
  have h1 : 1 ≤ (decimal n).length := List.length_pos_iff.2 (decimal_ne_nil n)
  have e : List.replicate w 48 ++ decimal n = padded ((decimal n).length + w) n := by
    unfold padded; rw [Nat.add_sub_cancel_left]
  have hn := lt_pow_decimal n
  have hb : n < 10 ^ ((decimal n).length + w) := Nat.lt_of_lt_of_le hn (Nat.pow_le_pow_right (by omega) (by omega))
  have hl : (padded (decimal n).length (n / 10 ^ w)).length = (decimal n).length :=
    padded_length _ _ h1 (Nat.lt_of_le_of_lt (Nat.div_le_self ..) hn)
  rw [e, padded_add _ _ _ h1 hw hb]
  exact List.drop_left' hl

/-- **C134.** For a number that is not negative, the result is the decimal notation of its last `w` digits with leading zeros, in exactly `w`
characters. -/
theorem C134_padded (ty : StrTy) (zeros : List Nat) (w : Nat) (n : Nat) (hn : n < 2 ^ 63) (hw : 1 ≤ w) (hw' : w ≤ 2000)
    (hz : Holds zeros (List.replicate w (Char.toNat '0'))) :
    Returns (zeroPad ty zeros w n) (padded w (n % 10 ^ w)) ∧ (padded w (n % 10 ^ w)).length = w := by
  refine ⟨?_, padded_length w _ hw (Nat.mod_lt _ (Nat.pow_pos (by omega)))⟩
  have hr : IntTy.i64.InRange n := by simp [IntTy.InRange, IntTy.lo, IntTy.hi, IntTy.i64]; omega
  have hs : signedDecimal n = decimal n := by unfold signedDecimal; rw [if_neg (by omega)]; rfl
  have hlen := signedDecimal_le hr
  rw [hs] at hlen
  obtain ⟨_, ⟨ms, e1, _, h1⟩, mw, e2, _, h2⟩ := (C94_signed n).1 hr
  rw [hs] at h1 h2
  have key : ∀ m, Holds m (decimal n) →
      Returns (do let all ← St.CONCAT (codecOf ty) [some zeros, some m]; St.RIGHT (codecOf ty) (some all) w) (padded w (n % 10 ^ w)) := by
    intro m hm
    have az := ascii_zeros w
    have ad := ascii_decimal n
    obtain ⟨mem, c1, c2, c3⟩ := (C95_concat_partial ty [(List.replicate w 48).map Char.ofNat, (decimal n).map Char.ofNat] [some zeros, some m]
      (by simp) ⟨⟨_, rfl, by rw [ascii_units ty az]; exact hz⟩, ⟨_, rfl, by rw [ascii_units ty ad]; exact hm⟩, trivial⟩).1 (by
        simp only [List.flatten_cons, List.flatten_nil, List.append_nil, units_append, ascii_units ty az, ascii_units ty ad]
        simp; omega)
    simp only [List.flatten_cons, List.flatten_nil, List.append_nil] at c3
    rw [c1, Res.bind_ok]
    have hl : (ty.units ((List.replicate w 48).map Char.ofNat ++ (decimal n).map Char.ofNat)).length ≤ 2048 := by
      simp only [units_append, ascii_units ty az, ascii_units ty ad]; simp; omega
    have := (C95_select .debug ty mem _ w 1 c3 hl (by simp; omega) (by omega) (by omega) (by simp; omega) (by simp)).2.1
    rw [← List.map_append, List.length_map, List.length_append, List.length_replicate, Int.toNat_natCast, Nat.add_sub_cancel_left,
      ← List.map_drop, drop_zeros w n hw, ascii_units ty (ascii_padded w _)] at this
    exact this
  cases ty
  · show Returns (St.LINT_TO_STRING n >>= _) _
    rw [e1, Res.bind_ok]; exact key ms h1
  · show Returns (St.LINT_TO_WSTRING n >>= _) _
    rw [e2, Res.bind_ok]; exact key mw h2

/-- **C134.** A number with at most `w` digits is read back by STRING_TO_LINT; so no two of them get the same text. -/
theorem C134_read_back (zeros : List Nat) (w : Nat) (n : Nat) (hn : n < 2 ^ 63) (hw : 1 ≤ w) (hw' : w ≤ 2000) (hnw : n < 10 ^ w)
    (hz : Holds zeros (List.replicate w (Char.toNat '0'))) :
    ∃ mem, zeroPad .STRING zeros w n = .ok mem ∧ STRING_TO_LINT (some mem) = .ok (n : Int) := by
  obtain ⟨⟨mem, e, _, h⟩, _⟩ := C134_padded .STRING zeros w n hn hw hw' hz
  rw [Nat.mod_eq_of_lt hnw] at h
  exact ⟨mem, e, ((C60_value mem _ h n).1).2 ⟨⟨("", 10), by decide, ("", 1), by decide, _, n, rfl, numeral_padded w n, by simp⟩,
    by omega, by omega⟩⟩

/-- **C134.** Texts with leading zeros are in the order of the numbers: the comparison functions for strings, applied to two of them, compare
the numbers. -/
theorem C134_order (ty : StrTy) (zeros zeros' : List Nat) (w n n' : Nat) (hw : 1 ≤ w) (hw' : w ≤ 2000) (h : n < 10 ^ w) (h' : n' < 10 ^ w)
    (hn : n < 2 ^ 63) (hn' : n' < 2 ^ 63) (hz : Holds zeros (List.replicate w (Char.toNat '0')))
    (hz' : Holds zeros' (List.replicate w (Char.toNat '0'))) :
    ∃ m m', zeroPad ty zeros w n = .ok m ∧ zeroPad ty zeros' w n' = .ok m' ∧
      LT 2 (some [some m, some m']) = .ok (decide (n < n')) ∧
      GT 2 (some [some m, some m']) = .ok (decide (n > n')) ∧
      EQ 2 (some [some m, some m']) = .ok (decide (n = n')) := by
  obtain ⟨⟨m, e, _, a⟩, _⟩ := C134_padded ty zeros w n hn hw hw' hz
  obtain ⟨⟨m', e', _, a'⟩, _⟩ := C134_padded ty zeros' w n' hn' hw hw' hz'
  rw [Nat.mod_eq_of_lt h] at a
  rw [Nat.mod_eq_of_lt h'] at a'
  have c := compare_texts (fun t => padded w t.toNat) id (fun t => 0 ≤ t ∧ t < 10 ^ w)
    (fun t t' ht ht' hl => by
      obtain ⟨t, rfl⟩ := Int.eq_ofNat_of_zero_le ht.1
      obtain ⟨t', rfl⟩ := Int.eq_ofNat_of_zero_le ht'.1
      exact padded_lt w hw (by simpa using hl) (by exact_mod_cast ht'.2))
    (fun t t' he => by rw [show t = t' from he]) n n' ⟨by omega, by exact_mod_cast h⟩ ⟨by omega, by exact_mod_cast h'⟩ a a'
  obtain ⟨c1, c2, c3⟩ := c
  refine ⟨m, m', e, e', c1.trans ?_, c3.trans ?_, c2.trans ?_⟩ <;> simp

/-! ### Examples -/

/-- The hypotheses for w = 4: '0000'. -/
example : Holds [48, 48, 48, 48, 0] (List.replicate 4 (Char.toNat '0')) := ⟨by decide, [], by decide⟩
/-- 42 becomes '0042'; of 12345 the last four digits are left. -/
example : padded 4 (42 % 10 ^ 4) = ascii "0042" ∧ padded 4 (12345 % 10 ^ 4) = ascii "2345" := by decide +kernel
/-- A minus sign stays where it is: -5 becomes '00-5', which STRING_TO_LINT does not read. -/
example : (zeroPad .STRING [48, 48, 48, 48, 0] 4 (-5) >>= fun m => pure (m.take 5)) = .ok (ascii "00-5" ++ [0]) ∧
    (zeroPad .STRING [48, 48, 48, 48, 0] 4 (-5) >>= fun m => STRING_TO_LINT (some m)) = .panic := by decide +kernel

end Verif
