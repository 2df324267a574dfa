import Verif.Proofs.Strings
/-
C43-C49: the STRING and WSTRING functions of src/string_functions.rs on texts.

`Holds mem (ty.units t)`: the source pointer points to a terminated string whose units encode
the text `t`, with anything behind the terminator.  `store dest s`: the destination afterwards
is `s`, one terminator, and the old contents; or the buffer is overrun.
-/
namespace Verif
open Spec

/-! ### C43: STRING arguments are accepted iff they are well-formed UTF-8 -/

/-- LEN of a STRING panics iff the bytes before the terminator are no well-formed UTF-8. -/
theorem C43_len_panics_iff (mem s : List Nat) (h : Holds mem s) :
    len codec8 (some mem) = .panic ↔ ¬ ∃ t, s = utf8 t := by
  unfold len Codec.decode
  rw [ptr_to_slice_of_holds h, Res.bind_ok, ← from_utf8_iff]
  by_cases hv : from_utf8 s = true
  · simp [codec8, hv]
  · simp [codec8, hv]

theorem decode8_bad {mem s : List Nat} (h : Holds mem s) (hbad : ¬ ∃ t, s = utf8 t) :
    codec8.decode (some mem) = .panic := by
  unfold Codec.decode
  rw [ptr_to_slice_of_holds h, Res.bind_ok]
  rw [← from_utf8_iff] at hbad
  simp [codec8, hbad]

/-- A well-formed argument is seen as exactly the characters it encodes. -/
theorem decode_utf8 (mem : List Nat) (t : List Char) (h : Holds mem (utf8 t)) :
    codec8.decode (some mem) = .ok t := by
  have := decode_text .STRING (t := t) h
  rw [show t.map (item .STRING) = t from List.map_id t] at this
  exact this

/-- Every STRING function panics on an argument that is not well-formed UTF-8, whatever its
other arguments are. -/
theorem C43_malformed_panics (p : Profile) (mem s : List Nat) (h : Holds mem s)
    (hbad : ¬ ∃ t, s = utf8 t) (L P : Int) (other dest : Ptr) :
    left codec8 (some mem) L dest = .panic ∧
    right codec8 (some mem) L dest = .panic ∧
    mid p codec8 (some mem) L P dest = .panic ∧
    insert codec8 (some mem) other P dest = .panic ∧
    delete p codec8 (some mem) L P dest = .panic ∧
    replace p codec8 (some mem) other L P dest = .panic ∧
    STRING_TO_WSTRING_EXT (some mem) dest = .panic := by
  have hd := decode8_bad h hbad
  refine ⟨?_, ?_, ?_, ?_, ?_, ?_, ?_⟩
  · unfold left; split <;> simp [hd]
  · unfold right; split <;> simp [hd]
  · unfold mid; split <;> simp [hd]
  · unfold insert; simp [hd]
  · unfold delete; simp [hd]
  · unfold replace; simp [hd]
  · unfold STRING_TO_WSTRING_EXT; simp [hd]

/-- The same for the second STRING argument of INSERT and REPLACE (for CONCAT see
`C43_malformed_panics_concat`). -/
theorem C43_malformed_panics_second (p : Profile) (mem s base b : List Nat) (h : Holds mem s)
    (hbad : ¬ ∃ t, s = utf8 t) (hb : Holds base b) (L P : Int) (hL : 0 ≤ L)
    (hLi : IntTy.i32.InRange L) (hPi : IntTy.i32.InRange P) (dest : Ptr) :
    insert codec8 (some base) (some mem) P dest = .panic ∧
    replace p codec8 (some base) (some mem) L P dest = .panic := by
  have hd := decode8_bad h hbad
  have hL32 : L < 2 ^ 31 := by have := hLi.2; simp [IntTy.hi, IntTy.i32] at this; omega
  have hP32 : P < 2 ^ 31 := by have := hPi.2; simp [IntTy.hi, IntTy.i32] at this; omega
  by_cases hbb : ∃ t, b = utf8 t
  · obtain ⟨t, rfl⟩ := hbb
    obtain ⟨items, hdb⟩ : ∃ items, codec8.decode (some base) = .ok items :=
      ⟨_, decode_text .STRING (t := t) hb⟩
    refine ⟨?_, ?_⟩
    · unfold insert
      rw [hdb, Res.bind_ok]; dsimp only
      split
      · rfl
      · simp [hd]
    · unfold replace
      rw [hdb, Res.bind_ok]; dsimp only
      split
      · rfl
      · rename_i hc
        simp only [Bool.or_eq_true, decide_eq_true_eq, not_or] at hc
        rw [asUsize_nonneg (x := P - 1) (by omega) (by omega), asUsize_nonneg hL (by omega),
          arith_u64 p (by omega) (by omega), Res.bind_ok]
        split
        · rfl
        · simp [hd]
  · have hdb := decode8_bad hb hbb
    constructor
    · unfold insert; simp [hdb]
    · unfold replace; simp [hdb]

/-- Bytes `61 C3`: a truncated two-byte sequence. -/
example : len codec8 (some [0x61, 0xC3, 0, 7]) = .panic :=
  (C43_len_panics_iff [0x61, 0xC3, 0, 7] [0x61, 0xC3] ⟨by decide, [7], rfl⟩).2
    (by rw [← from_utf8_iff]; decide)
/-- "aé": accepted. -/
example : len codec8 (some [0x61, 0xC3, 0xA9, 0, 7]) = .ok 2 := by decide

/-! ### C44: LEN -/

/-- LEN of a STRING is the number of characters before the first terminator. -/
theorem C44_len_string (mem : List Nat) (t : List Char) (h : Holds mem (utf8 t))
    (hlen : t.length < 2 ^ 31) : len codec8 (some mem) = .ok t.length := by
  unfold len
  rw [show codec8 = codecOf .STRING from rfl, decode_text .STRING h, Res.bind_ok,
    List.length_map, asI32_small hlen]
  rfl

theorem decode_utf16_length (s : List Nat) (h16 : ∀ u ∈ s, u < 65536) :
    (decode_utf16 s).length + pairs s = s.length := by
  induction hn : s.length using Nat.strongRecOn generalizing s with
  | ind n ih =>
    match s, h16, hn with
    | [], _, hn => simp [decode_utf16, pairs] at hn ⊢; exact hn
    | [u], h16, hn =>
      have hu := h16 u (by simp)
      rw [decode_utf16.eq_def]; dsimp only
      simp only [List.length_singleton] at hn
      subst hn
      split
      · simp [decode_utf16, pairs]
      · split <;> simp [decode_utf16, pairs]
    | u :: v :: l, h16, hn =>
      have hu := h16 u (by simp)
      have h16' : ∀ w ∈ v :: l, w < 65536 := fun w hw => h16 w (by simp at hw ⊢; right; exact hw)
      have i1 := ih (v :: l).length (by simp at hn ⊢; omega) (v :: l) h16' rfl
      have hsur := surrogate_test u hu
      rw [decode_utf16.eq_def]; dsimp only
      simp only [List.length_cons] at hn
      rw [pairs]
      split
      · rename_i hc
        have := hsur.1 hc
        have hno : ¬ (IsHigh u ∧ IsLow v) := by unfold IsHigh; omega
        simp only [hno, if_false, List.length_cons] at i1 ⊢
        omega
      · rename_i hc
        have hs : 0xD800 ≤ u ∧ u ≤ 0xDFFF := by
          refine Classical.byContradiction fun h => hc (hsur.2 h)
        split
        · rename_i hge
          have hno : ¬ (IsHigh u ∧ IsLow v) := by unfold IsHigh; omega
          simp only [hno, if_false, List.length_cons] at i1 ⊢
          omega
        · rename_i hge
          split
          · rename_i hv
            simp only [Bool.or_eq_true, decide_eq_true_eq] at hv
            have hno : ¬ (IsHigh u ∧ IsLow v) := by unfold IsLow; omega
            simp only [hno, if_false, List.length_cons] at i1 ⊢
            omega
          · rename_i hv
            simp only [Bool.or_eq_true, decide_eq_true_eq] at hv
            have hyes : IsHigh u ∧ IsLow v := by unfold IsHigh IsLow; omega
            have i2 := ih l.length (by omega) l
              (fun w hw => h16' w (List.mem_cons_of_mem _ hw)) rfl
            have hp : pairs (v :: l) = pairs l := by
              cases l with
              | nil => rfl
              | cons w l =>
                rw [pairs, if_neg (by unfold IsHigh; have := hyes.2; unfold IsLow at this; omega)]
                omega
            simp only [hyes, and_self, if_true, List.length_cons] at i2 ⊢
            omega

/-- LEN of a WSTRING, for every sequence of 16-bit units: the number of units, less one for
every surrogate pair; so a pair counts once and an unpaired surrogate once. -/
theorem C44_len_wstring (mem s : List Nat) (h : Holds mem s) (h16 : ∀ u ∈ s, u < 65536)
    (hlen : s.length < 2 ^ 31) :
    ∃ n : Nat, len codec16 (some mem) = .ok n ∧ n + pairs s = s.length := by
  have hl := decode_utf16_length s h16
  refine ⟨(decode_utf16 s).length, ?_, hl⟩
  unfold len Codec.decode
  rw [ptr_to_slice_of_holds h, Res.bind_ok]
  show Res.ok (asI32 (decode_utf16 s).length) = _
  rw [asI32_small (by omega)]

/-- LEN of a well-formed WSTRING is the number of its characters. -/
theorem C44_len_wstring_text (mem : List Nat) (t : List Char) (h : Holds mem (utf16 t))
    (hlen : t.length < 2 ^ 31) : len codec16 (some mem) = .ok t.length := by
  unfold len
  rw [show codec16 = codecOf .WSTRING from rfl, decode_text .WSTRING h, Res.bind_ok,
    List.length_map, asI32_small hlen]
  rfl

/-- What lies behind the first terminator is irrelevant. -/
theorem C44_tail_irrelevant (k : Codec) (s tail tail' : List Nat) (hs : ∀ u ∈ s, u ≠ 0) :
    len k (some (s ++ 0 :: tail)) = len k (some (s ++ 0 :: tail')) := by
  unfold len Codec.decode
  rw [ptr_to_slice_of_holds ⟨hs, tail, rfl⟩, ptr_to_slice_of_holds ⟨hs, tail', rfl⟩]

/-- "a😀" is 5 bytes, 3 units and 2 characters; an unpaired surrogate counts once. -/
example : len codec8 (some ([0x61, 0xF0, 0x9F, 0x98, 0x80] ++ [0, 1, 2])) = .ok 2 := by decide
example : len codec16 (some ([0x61, 0xD83D, 0xDE00] ++ [0, 1, 2])) = .ok 2 := by decide
example : len codec16 (some ([0xDE00, 0xD83D, 0x61] ++ [0, 1, 2])) = .ok 3 := by decide
example : pairs [0x61, 0xD83D, 0xDE00] = 1 := by decide

/-! ### C45: LEFT, RIGHT, MID -/

theorem i32_bounds {x : Int} (h : IntTy.i32.InRange x) : - 2 ^ 31 ≤ x ∧ x < 2 ^ 31 := by
  have h1 := h.1; have h2 := h.2
  simp [IntTy.hi, IntTy.lo, IntTy.i32] at h1 h2
  omega

/-- LEFT writes the first `L` characters, or panics when `L` is negative or too large. -/
theorem C45_left (ty : StrTy) (mem dest : List Nat) (t : List Char) (L : Int)
    (h : Holds mem (ty.units t)) (hL : IntTy.i32.InRange L) :
    left (codecOf ty) (some mem) L (some dest) =
      if 0 ≤ L ∧ L ≤ t.length then store dest (ty.units (t.take L.toNat)) else .panic := by
  have hb := i32_bounds hL
  unfold left
  rw [decode_text ty h, Res.bind_ok, List.length_map]
  by_cases h0 : L < 0
  · rw [if_pos h0, if_neg (by omega)]
  · rw [if_neg h0, asUsize_nonneg (by omega) (by omega)]
    by_cases h1 : t.length < L.toNat
    · rw [if_pos h1, if_neg (by omega)]
    · rw [if_neg h1, if_pos (by omega), ← List.map_take, write_text]


/-- RIGHT writes the last `L` characters, or panics when `L` is negative or too large. -/
theorem C45_right (ty : StrTy) (mem dest : List Nat) (t : List Char) (L : Int)
    (h : Holds mem (ty.units t)) (hL : IntTy.i32.InRange L) :
    right (codecOf ty) (some mem) L (some dest) =
      if 0 ≤ L ∧ L ≤ t.length then store dest (ty.units (t.drop (t.length - L.toNat)))
      else .panic := by
  have hb := i32_bounds hL
  unfold right
  rw [decode_text ty h, Res.bind_ok, List.length_map]
  by_cases h0 : L < 0
  · rw [if_pos h0, if_neg (by omega)]
  · rw [if_neg h0, asUsize_nonneg (by omega) (by omega)]
    by_cases h1 : t.length < L.toNat
    · rw [if_pos h1, if_neg (by omega)]
    · rw [if_neg h1, if_pos (by omega), ← List.map_drop, write_text]

/-- C43, a well-formed argument is seen as exactly the characters it encodes: there is one such text, and LEFT and RIGHT with its
number of characters, which is its LEN, reproduce it. -/
theorem C43_wellformed (mem dest : List Nat) (t : List Char) (h : Holds mem (utf8 t)) (hlen : t.length < 2 ^ 31) :
    len codec8 (some mem) = .ok t.length ∧
    left codec8 (some mem) t.length (some dest) = store dest (utf8 t) ∧
    right codec8 (some mem) t.length (some dest) = store dest (utf8 t) ∧
    ∀ t', utf8 t' = utf8 t → t' = t := by
  have hr : IntTy.i32.InRange (t.length : Int) := by
    simp only [IntTy.InRange, IntTy.lo, IntTy.hi, IntTy.i32]; norm_num; omega
  refine ⟨C44_len_string mem t h hlen, ?_, ?_, fun t' h' => utf8_injective h'⟩
  · have := C45_left .STRING mem dest t t.length h hr
    rw [if_pos (by omega), Int.toNat_natCast, List.take_length] at this
    exact this
  · have := C45_right .STRING mem dest t t.length h hr
    rw [if_pos (by omega), Int.toNat_natCast, Nat.sub_self, List.drop_zero] at this
    exact this

/-- MID writes the `L` characters from the 1-based position `P`; it panics when `L` is
negative, when `P` is no position of the string and when fewer than `L` characters follow. -/
theorem C45_mid (p : Profile) (ty : StrTy) (mem dest : List Nat) (t : List Char) (L P : Int)
    (h : Holds mem (ty.units t)) (hlen : t.length < 2 ^ 63)
    (hL : IntTy.i32.InRange L) (hP : IntTy.i32.InRange P) :
    mid p (codecOf ty) (some mem) L P (some dest) =
      if 0 ≤ L ∧ 1 ≤ P ∧ P ≤ t.length ∧ P - 1 + L ≤ t.length then
        store dest (ty.units ((t.drop (P - 1).toNat).take L.toNat))
      else .panic := by
  have hbL := i32_bounds hL
  have hbP := i32_bounds hP
  unfold mid
  rw [decode_text ty h, Res.bind_ok, List.length_map]
  by_cases h0 : L < 0
  · rw [if_pos h0, if_neg (by omega)]
  · rw [if_neg h0, asUsize_nonneg (x := L) (by omega) (by omega)]
    by_cases hp : P < 0
    · rw [asUsize_neg hp (by omega), if_pos (by
        simp only [Bool.or_eq_true, decide_eq_true_eq]; omega), if_neg (by omega)]
    · rw [asUsize_nonneg (x := P) (by omega) (by omega)]
      by_cases h1 : P.toNat < 1 ∨ P.toNat > t.length
      · rw [if_pos (by simp only [Bool.or_eq_true, decide_eq_true_eq]; exact h1),
          if_neg (by omega)]
      · rw [if_neg (by simp only [Bool.or_eq_true, decide_eq_true_eq]; exact h1)]
        dsimp only
        rw [arith_u64 p (by omega) (by omega), Res.bind_ok]
        by_cases h2 : (t.length : Int) < ((L.toNat : Int) + ((P.toNat - 1 : Nat) : Int))
        · rw [if_pos h2, if_neg (by omega)]
        · rw [if_neg h2, if_pos (by omega), ← List.map_drop, ← List.map_take, write_text,
            show P.toNat - 1 = (P - 1).toNat by omega]

/-- "aé😀z": LEFT 2, RIGHT 2, MID 2 characters from position 2; too long a part panics. -/
example : left codec8 (some [0x61, 0xC3, 0xA9, 0xF0, 0x9F, 0x98, 0x80, 0x7A, 0]) 2
    (some [9, 9, 9, 9, 9, 9, 9]) = .ok [0x61, 0xC3, 0xA9, 0, 9, 9, 9] := by decide
example : right codec16 (some [0x61, 0xE9, 0xD83D, 0xDE00, 0x7A, 0]) 2
    (some [9, 9, 9, 9, 9]) = .ok [0xD83D, 0xDE00, 0x7A, 0, 9] := by decide
example : mid .release codec8 (some [0x61, 0xC3, 0xA9, 0xF0, 0x9F, 0x98, 0x80, 0x7A, 0]) 2 2
    (some [9, 9, 9, 9, 9, 9, 9]) = .ok [0xC3, 0xA9, 0xF0, 0x9F, 0x98, 0x80, 0] := by decide
example : mid .release codec8 (some [0x61, 0x62, 0]) 2 2 (some [9, 9, 9]) = .panic := by decide
example : Holds [0x61, 0xC3, 0xA9, 0xF0, 0x9F, 0x98, 0x80, 0x7A, 0] (StrTy.units .STRING
    ['a', 'é', '😀', 'z']) := ⟨by decide, [], by decide⟩

/-! ### C46: INSERT, DELETE, REPLACE -/

/-- INSERT writes the base text with the other text put in behind character `P`. -/
theorem C46_insert (ty : StrTy) (mema memb dest : List Nat) (a b : List Char) (P : Int)
    (ha : Holds mema (ty.units a)) (hb : Holds memb (ty.units b)) (hlen : a.length < 2 ^ 31)
    (hP : IntTy.i32.InRange P) :
    insert (codecOf ty) (some mema) (some memb) P (some dest) =
      if 0 ≤ P ∧ P ≤ a.length then
        store dest (ty.units (a.take P.toNat ++ b ++ a.drop P.toNat))
      else .panic := by
  have hbP := i32_bounds hP
  unfold insert
  rw [decode_text ty ha, Res.bind_ok]; dsimp only
  rw [List.length_map, asI32_small hlen]
  by_cases h0 : P < 0 ∨ P > a.length
  · rw [if_pos (by simp only [Bool.or_eq_true, decide_eq_true_eq]; exact h0), if_neg (by omega)]
  · rw [if_neg (by simp only [Bool.or_eq_true, decide_eq_true_eq]; exact h0), if_pos (by omega),
      decode_text ty hb, Res.bind_ok, asUsize_nonneg (by omega) (by omega), ← List.map_take,
      ← List.map_drop, ← List.map_append, ← List.map_append, write_text]

/-- DELETE with `L ≥ 0` writes the text without the `L` characters from position `P`. -/
theorem C46_delete (p : Profile) (ty : StrTy) (mem dest : List Nat) (t : List Char) (L P : Int)
    (h : Holds mem (ty.units t)) (hlen : t.length < 2 ^ 31)
    (hL : IntTy.i32.InRange L) (hP : IntTy.i32.InRange P) (hL0 : 0 ≤ L) :
    delete p (codecOf ty) (some mem) L P (some dest) =
      if 1 ≤ P ∧ P ≤ t.length ∧ P - 1 + L ≤ t.length then
        store dest (ty.units (t.take (P - 1).toNat ++ t.drop (P - 1 + L).toNat))
      else .panic := by
  have hbL := i32_bounds hL
  have hbP := i32_bounds hP
  unfold delete
  rw [decode_text ty h, Res.bind_ok]; dsimp only
  rw [List.length_map, asI32_small hlen]
  by_cases h0 : P < 1 ∨ P > t.length
  · rw [if_pos (by simp only [Bool.or_eq_true, decide_eq_true_eq]; exact h0), if_neg (by omega)]
  · rw [if_neg (by simp only [Bool.or_eq_true, decide_eq_true_eq]; exact h0),
      asUsize_nonneg (x := P) (by omega) (by omega), asUsize_nonneg (x := L) (by omega) (by omega),
      arith_u64 p (by omega) (by omega), Res.bind_ok]
    by_cases h1 : ((L.toNat : Int) + ((P.toNat - 1 : Nat) : Int)) > t.length
    · rw [if_pos h1, if_neg (by omega)]
    · rw [if_neg h1, if_pos (by omega), ← List.map_take, ← List.map_drop, ← List.map_append,
        write_text, show P.toNat - 1 = (P - 1).toNat by omega,
        show (((L.toNat : Int) + ((P - 1).toNat : Int))).toNat = (P - 1 + L).toNat by omega]

/-- REPLACE with `L ≥ 0` writes the base text with the `L` characters from position `P`
replaced by the other text. -/
theorem C46_replace (p : Profile) (ty : StrTy) (mema memb dest : List Nat) (a b : List Char)
    (L P : Int) (ha : Holds mema (ty.units a)) (hb : Holds memb (ty.units b))
    (hlen : a.length < 2 ^ 31) (hL : IntTy.i32.InRange L) (hP : IntTy.i32.InRange P)
    (hL0 : 0 ≤ L) :
    replace p (codecOf ty) (some mema) (some memb) L P (some dest) =
      if 1 ≤ P ∧ P ≤ a.length ∧ P - 1 + L ≤ a.length then
        store dest (ty.units (a.take (P - 1).toNat ++ b ++ a.drop (P - 1 + L).toNat))
      else .panic := by
  have hbL := i32_bounds hL
  have hbP := i32_bounds hP
  unfold replace
  rw [decode_text ty ha, Res.bind_ok]; dsimp only
  rw [List.length_map, asI32_small hlen]
  by_cases h0 : P < 1 ∨ P > a.length
  · rw [if_pos (by simp only [Bool.or_eq_true, decide_eq_true_eq]; exact h0), if_neg (by omega)]
  · rw [if_neg (by simp only [Bool.or_eq_true, decide_eq_true_eq]; exact h0),
      asUsize_nonneg (x := P - 1) (by omega) (by omega),
      asUsize_nonneg (x := L) (by omega) (by omega), arith_u64 p (by omega) (by omega),
      Res.bind_ok]
    by_cases h1 : ((L.toNat : Int) + ((P - 1).toNat : Int)) > a.length
    · rw [if_pos h1, if_neg (by omega)]
    · rw [if_neg h1, if_pos (by omega), decode_text ty hb, Res.bind_ok, ← List.map_take,
        ← List.map_drop, ← List.map_append, ← List.map_append, write_text,
        show ((L.toNat : Int) + ((P - 1).toNat : Int)).toNat = (P - 1 + L).toNat by omega,
        List.append_assoc]

/-- INSERT('aé', '😀', 1), DELETE('aé😀', 1, 2), REPLACE('aé😀', 'xy', 1, 2). -/
example : insert codec16 (some [0x61, 0xE9, 0]) (some [0xD83D, 0xDE00, 0]) 1
    (some [9, 9, 9, 9, 9, 9]) = .ok [0x61, 0xD83D, 0xDE00, 0xE9, 0, 9] := by decide
example : delete .debug codec8 (some [0x61, 0xC3, 0xA9, 0xF0, 0x9F, 0x98, 0x80, 0]) 1 2
    (some [9, 9, 9, 9, 9, 9, 9]) = .ok [0x61, 0xF0, 0x9F, 0x98, 0x80, 0, 9] := by decide
example : replace .debug codec8 (some [0x61, 0xC3, 0xA9, 0x62, 0]) (some [0x78, 0x79, 0, 5]) 1 2
    (some [9, 9, 9, 9, 9, 9]) = .ok [0x61, 0x78, 0x79, 0x62, 0, 9] := by decide
example : insert codec8 (some [0x61, 0]) (some [0x62, 0]) 2 (some [9, 9, 9]) = .panic := by decide

/-! ### C47: negative lengths -/

/-- C47 is false in release builds: DELETE('abc', -1, 3) "succeeds" and duplicates a
character, and REPLACE likewise. -/
theorem C47_refuted :
    ¬ (∀ (p : Profile) (mem dest : List Nat) (t : List Char) (L P : Int),
        Holds mem (utf8 t) → IntTy.i32.InRange L → IntTy.i32.InRange P → L < 0 →
        delete p codec8 (some mem) L P (some dest) = .panic) ∧
    ¬ (∀ (p : Profile) (mem mem' dest : List Nat) (t t' : List Char) (L P : Int),
        Holds mem (utf8 t) → Holds mem' (utf8 t') → IntTy.i32.InRange L → IntTy.i32.InRange P →
        L < 0 → replace p codec8 (some mem) (some mem') L P (some dest) = .panic) := by
  constructor
  · intro h
    have := h .release [0x61, 0x62, 0x63, 0] [9, 9, 9, 9, 9] ['a', 'b', 'c'] (-1) 3
      ⟨by decide, [], by decide⟩ (by decide) (by decide) (by decide)
    revert this; decide
  · intro h
    have := h .release [0x61, 0x62, 0x63, 0] [0x78, 0] [9, 9, 9, 9, 9, 9] ['a', 'b', 'c'] ['x'] (-1) 3
      ⟨by decide, [], by decide⟩ ⟨by decide, [], by decide⟩ (by decide) (by decide) (by decide)
    revert this; decide

theorem arith_u64_neg {L : Int} {q : Nat} (hL : - 2 ^ 31 ≤ L) (hL0 : L < 0) (hq : q < 2 ^ 31)
    (p : Profile) :
    IntTy.u64.arith p ((asUsize L : Int) + q) =
      if q < -L then .ok (2 ^ 64 + L + q)
      else match p with
        | .debug => .panic
        | .release => .ok (L + q) := by
  rw [asUsize_neg hL0 (by omega)]
  unfold IntTy.arith
  by_cases h : q < -L
  · rw [if_pos h, if_pos (by simp [IntTy.InRange, IntTy.lo, IntTy.hi, IntTy.u64]; omega)]
    congr 1; omega
  · rw [if_neg h, if_neg (by simp [IntTy.InRange, IntTy.lo, IntTy.hi, IntTy.u64]; omega)]
    cases p
    · rfl
    · simp only [IntTy.wrap, IntTy.u64, Bool.false_eq_true, if_false]
      congr 1; omega

/-- What is true of C47: with a negative number of characters, debug builds always panic;
release builds panic unless `P + L ≥ 1`, and then write the text with the `-L` characters in
front of position `P` doubled. -/
theorem C47_delete_partial (p : Profile) (ty : StrTy) (mem dest : List Nat) (t : List Char)
    (L P : Int) (h : Holds mem (ty.units t)) (hlen : t.length < 2 ^ 31)
    (hL : IntTy.i32.InRange L) (hP : IntTy.i32.InRange P) (hL0 : L < 0) :
    delete p (codecOf ty) (some mem) L P (some dest) =
      if p = .release ∧ 1 ≤ P + L ∧ P ≤ t.length then
        store dest (ty.units (t.take (P - 1).toNat ++ t.drop (P - 1 + L).toNat))
      else .panic := by
  have hbL := i32_bounds hL
  have hbP := i32_bounds hP
  unfold delete
  rw [decode_text ty h, Res.bind_ok]; dsimp only
  rw [List.length_map, asI32_small hlen]
  by_cases h0 : P < 1 ∨ P > t.length
  · rw [if_pos (by simp only [Bool.or_eq_true, decide_eq_true_eq]; exact h0), if_neg (by omega)]
  · rw [if_neg (by simp only [Bool.or_eq_true, decide_eq_true_eq]; exact h0),
      asUsize_nonneg (x := P) (by omega) (by omega),
      arith_u64_neg hbL.1 hL0 (by omega) p]
    by_cases h1 : ((P.toNat - 1 : Nat) : Int) < -L
    · rw [if_pos h1, Res.bind_ok, if_pos (by omega), if_neg (by omega)]
    · rw [if_neg h1]
      cases p
      · simp
      · rw [Res.bind_ok, if_neg (by omega), if_pos ⟨rfl, by omega, by omega⟩, ← List.map_take,
          ← List.map_drop, ← List.map_append, write_text,
          show P.toNat - 1 = (P - 1).toNat by omega,
          show (L + ((P - 1).toNat : Int)).toNat = (P - 1 + L).toNat by omega]

theorem C47_replace_partial (p : Profile) (ty : StrTy) (mema memb dest : List Nat)
    (a b : List Char) (L P : Int) (ha : Holds mema (ty.units a)) (hb : Holds memb (ty.units b))
    (hlen : a.length < 2 ^ 31) (hL : IntTy.i32.InRange L) (hP : IntTy.i32.InRange P)
    (hL0 : L < 0) :
    replace p (codecOf ty) (some mema) (some memb) L P (some dest) =
      if p = .release ∧ 1 ≤ P + L ∧ P ≤ a.length then
        store dest (ty.units (a.take (P - 1).toNat ++ b ++ a.drop (P - 1 + L).toNat))
      else .panic := by
  have hbL := i32_bounds hL
  have hbP := i32_bounds hP
  unfold replace
  rw [decode_text ty ha, Res.bind_ok]; dsimp only
  rw [List.length_map, asI32_small hlen]
  by_cases h0 : P < 1 ∨ P > a.length
  · rw [if_pos (by simp only [Bool.or_eq_true, decide_eq_true_eq]; exact h0), if_neg (by omega)]
  · rw [if_neg (by simp only [Bool.or_eq_true, decide_eq_true_eq]; exact h0),
      asUsize_nonneg (x := P - 1) (by omega) (by omega),
      arith_u64_neg hbL.1 hL0 (by omega) p]
    by_cases h1 : ((P - 1).toNat : Int) < -L
    · rw [if_pos h1, Res.bind_ok, if_pos (by omega), if_neg (by omega)]
    · rw [if_neg h1]
      cases p
      · simp
      · rw [Res.bind_ok, if_neg (by omega), if_pos ⟨rfl, by omega, by omega⟩,
          decode_text ty hb, Res.bind_ok, ← List.map_take,
          ← List.map_drop, ← List.map_append, ← List.map_append, write_text,
          show (L + ((P - 1).toNat : Int)).toNat = (P - 1 + L).toNat by omega, List.append_assoc]

/-- DELETE('abc', -1, 3): 'abbc' in a release build, a panic in a debug build. -/
example : delete .release codec8 (some [0x61, 0x62, 0x63, 0]) (-1) 3 (some [9, 9, 9, 9, 9, 9]) =
    .ok [0x61, 0x62, 0x62, 0x63, 0, 9] := by decide
example : delete .debug codec8 (some [0x61, 0x62, 0x63, 0]) (-1) 3 (some [9, 9, 9, 9, 9, 9]) =
    .panic := by decide

/-! ### C48: CONCAT -/

/-- The pointers of `argv` hold the texts, one each and in order. -/
def HoldTexts (ty : StrTy) : List Ptr → List (List Char) → Prop
  | [], [] => True
  | a :: argv, t :: ts => (∃ mem, a = some mem ∧ Holds mem (ty.units t)) ∧ HoldTexts ty argv ts
  | _, _ => False

theorem concatLoop_texts (ty : StrTy) (ts : List (List Char)) (argv : List Ptr) (more : List Ptr)
    (h : HoldTexts ty argv ts) (w r : List Nat) (hr : 0 < r.length)
    (hz : r.headD 0 = 0) :
    concatLoop (codecOf ty) ts.length (argv ++ more) ⟨w, r⟩ =
      if (ty.units ts.flatten).length < r.length then
        .ok ⟨w ++ ty.units ts.flatten, 0 :: r.drop ((ty.units ts.flatten).length + 1)⟩
      else .ub := by
  induction ts generalizing argv w r with
  | nil =>
    cases argv with
    | nil =>
      cases r with
      | nil => simp at hr
      | cons x r => simp at hz; subst hz; simp [concatLoop, units_nil]
    | cons a l => simp [HoldTexts] at h
  | cons t ts ih =>
    cases argv with
    | nil => simp [HoldTexts] at h
    | cons a argv =>
      obtain ⟨⟨mem, rfl, hm⟩, h⟩ := h
      rw [List.length_cons, List.cons_append, concatLoop, decode_text ty hm, Res.bind_ok,
        encode_eq _ _ _ (allUnits_text ty t), List.flatten_cons, units_append]
      simp only [List.length_append]
      by_cases h1 : (ty.units t).length < r.length
      · rw [if_pos h1, Res.bind_ok, ih argv h _ _ (by simp) (by simp)]
        simp only [List.length_cons, List.length_drop, List.drop_succ_cons, List.drop_drop,
          List.append_assoc]
        by_cases h2 : (ty.units t).length + (ty.units ts.flatten).length < r.length
        · rw [if_pos (by omega), if_pos h2]
          rw [show (ty.units t).length + 1 + (ty.units ts.flatten).length =
            (ty.units t).length + (ty.units ts.flatten).length + 1 by omega]
        · rw [if_neg (by omega), if_neg h2]
      · rw [if_neg h1, Res.bind_ub, if_neg (by omega)]

/-- CONCAT of `n ≥ 1` strings writes their characters in argument order and one terminator
(and nothing else); further pointers behind the first `n` are not touched. -/
theorem C48_concat (ty : StrTy) (ts : List (List Char)) (argv more : List Ptr)
    (dest : List Nat) (hn : ts ≠ []) (h : HoldTexts ty argv ts) :
    concat (codecOf ty) (some dest) ts.length (some (argv ++ more)) =
      store dest (ty.units ts.flatten) := by
  cases ts with
  | nil => exact absurd rfl hn
  | cons t ts =>
    cases argv with
    | nil => simp [HoldTexts] at h
    | cons a argv =>
      obtain ⟨⟨mem, rfl, hm⟩, h⟩ := h
      unfold concat store
      simp only [Int.toNat_natCast]
      rw [List.length_cons, List.cons_append, concatLoop, decode_text ty hm, Res.bind_ok,
        encode_eq _ _ _ (allUnits_text ty t), List.flatten_cons, units_append]
      simp only [List.length_append]
      by_cases h1 : (ty.units t).length < dest.length
      · rw [if_pos h1, Res.bind_ok, concatLoop_texts ty ts argv more h _ _ (by simp) (by simp)]
        simp only [List.length_cons, List.length_drop, List.drop_succ_cons, List.drop_drop]
        by_cases h2 : (ty.units t).length + (ty.units ts.flatten).length < dest.length
        · rw [if_pos (by omega), if_pos h2]
          simp only [Res.bind_ok, Res.pure_eq, Dest.mem, List.nil_append, List.append_assoc]
          rw [show (ty.units t).length + 1 + (ty.units ts.flatten).length =
            (ty.units t).length + (ty.units ts.flatten).length + 1 by omega]
        · rw [if_neg (by omega), if_neg h2]; rfl
      · rw [if_neg h1, if_neg (by omega)]; rfl

theorem concatLoop_add (k : Codec) (n m : Nat) (a b : List Ptr) (hn : a.length = n) (d : Dest) :
    concatLoop k (n + m) (a ++ b) d = (concatLoop k n a d >>= fun d => concatLoop k m b d) := by
  induction a generalizing n d with
  | nil => subst hn; simp [concatLoop]
  | cons x a ih =>
    subst hn
    rw [List.length_cons, show a.length + 1 + m = (a.length + m) + 1 by omega, List.cons_append,
      concatLoop, concatLoop]
    cases k.decode x with
    | panic => rfl
    | ub => rfl
    | ok items =>
      simp only [Res.bind_ok]
      cases k.encode items d with
      | panic => rfl
      | ub => rfl
      | ok d' => simp only [Res.bind_ok]; exact ih _ rfl d'

theorem holdTexts_length {ty : StrTy} {argv : List Ptr} {ts : List (List Char)}
    (h : HoldTexts ty argv ts) : argv.length = ts.length := by
  induction argv generalizing ts with
  | nil => cases ts with
    | nil => rfl
    | cons t ts => simp [HoldTexts] at h
  | cons a argv ih => cases ts with
    | nil => simp [HoldTexts] at h
    | cons t ts => simp [ih h.2]

/-- C43 for CONCAT: a malformed argument behind well-formed ones panics (if the destination
has room for the well-formed ones; otherwise it is overrun before). -/
theorem C43_malformed_panics_concat (ts : List (List Char)) (argv more : List Ptr)
    (mem s dest : List Nat) (h : HoldTexts .STRING argv ts) (hm : Holds mem s)
    (hbad : ¬ ∃ t, s = utf8 t) (hroom : (utf8 ts.flatten).length < dest.length) (n : Nat) :
    concat codec8 (some dest) ((ts.length + 1 + n : Nat) : Int)
      (some (argv ++ some mem :: more)) = .panic := by
  have hd := decode8_bad hm hbad
  unfold concat
  simp only [Int.toNat_natCast]
  rw [Nat.add_assoc, concatLoop_add _ _ _ _ _ (holdTexts_length h)]
  rw [show 1 + n = n + 1 by omega]
  by_cases hn : ts = []
  · subst hn
    have := holdTexts_length h
    simp at this; subst this
    simp [concatLoop, hd]
  · have h48 := C48_concat .STRING ts argv [] dest hn h
    unfold concat at h48
    simp only [Int.toNat_natCast, List.append_nil] at h48
    unfold store at h48
    rw [show StrTy.units .STRING = utf8 from rfl, if_pos hroom, Res.bind_eq_ok] at h48
    obtain ⟨d, hd', _⟩ := h48
    rw [show codecOf .STRING = codec8 from rfl] at hd'
    rw [hd', Res.bind_ok, concatLoop, hd]
    rfl

/-- CONCAT of no strings (`argc ≤ 0`) writes nothing, not even a terminator; null pointers
panic. -/
theorem C48_concat_none (k : Codec) (dest : List Nat) (argc : Int) (argv : List Ptr)
    (h : argc ≤ 0) : concat k (some dest) argc (some argv) = .ok dest := by
  unfold concat
  simp only
  rw [show argc.toNat = 0 by omega]
  simp [concatLoop, Dest.mem]

theorem C48_concat_null (k : Codec) (dest : Ptr) (argc : Int) (argv : Option (List Ptr))
    (h : dest = none ∨ argv = none) : concat k dest argc argv = .panic := by
  unfold concat
  rcases h with rfl | rfl
  · cases argv <;> rfl
  · rfl

/-- CONCAT('aé', '', '😀') with a fourth pointer in memory. -/
example : concat codec8 (some [9, 9, 9, 9, 9, 9, 9, 9, 9]) 3
    (some [some [0x61, 0xC3, 0xA9, 0], some [0, 1], some [0xF0, 0x9F, 0x98, 0x80, 0], none]) =
    .ok [0x61, 0xC3, 0xA9, 0xF0, 0x9F, 0x98, 0x80, 0, 9] := by decide
example : HoldTexts .STRING [some [0x61, 0xC3, 0xA9, 0], some [0, 1]] [['a', 'é'], []] :=
  ⟨⟨_, rfl, by decide, [], by decide⟩, ⟨_, rfl, by decide, [1], by decide⟩, trivial⟩

end Verif
