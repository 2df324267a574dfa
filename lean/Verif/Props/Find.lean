import Verif.Proofs.Find
import Verif.Props.StringAlgebra
/-
C50, C51: FIND.
-/
namespace Verif
open Spec

theorem find_found (ty : StrTy) (p : Profile) (ma mb : List Nat) (a b : List Char) (k : Nat)
    (ha : Holds ma (ty.units a)) (hb : Holds mb (ty.units b)) (hlen : a.length < 2 ^ 31)
    (hne : b ≠ []) (hk : FirstOccurrence a b k) :
    findOf ty p (some ma) (some mb) = .ok ((k : Int) + 1) := by
  obtain ⟨hocc, hmin⟩ := hk
  obtain ⟨d, hd⟩ := hocc
  have hbl : 0 < b.length := List.length_pos_iff.2 hne
  have hka : k < a.length := by
    have := congrArg List.length hd
    rw [List.length_append, List.length_drop] at this
    omega
  have hsplit : ty.units a = ty.units (a.take k) ++ (ty.units b ++ ty.units d) := by
    rw [← units_append, hd, ← units_append, List.take_append_drop]
  have hneb := units_ne_nil ty hne
  have hposb : 0 < (ty.units b).length := List.length_pos_iff.2 hneb
  have hla := congrArg List.length hsplit
  rw [List.length_append, List.length_append] at hla
  rw [findOf_eq ty p ha hb, if_neg (by
    simp only [Bool.or_eq_true, decide_eq_true_eq, List.isEmpty_iff]
    rintro ((h | h) | h)
    · omega
    · rw [h] at hla; simp at hla; omega
    · exact hneb h)]
  have hmatch : ty.units b <+: (ty.units a).drop (ty.units (a.take k)).length :=
    ⟨ty.units d, by rw [hsplit, List.drop_left]⟩
  cases hp : position (ty.units b) (ty.units a) with
  | none => exact absurd hmatch (position_none hneb hp _)
  | some i =>
    obtain ⟨h1, h2⟩ := position_some hp
    obtain ⟨y, hy⟩ := h1
    have hi : i ≤ (ty.units a).length := by
      refine Classical.byContradiction fun hgt => ?_
      rw [List.drop_eq_nil_of_le (by omega)] at hy
      simp at hy; exact hneb hy.1
    obtain ⟨k', hk', hx, hpre⟩ := sync ty hne (x := (ty.units a).take i) (y := y) (by
      rw [hy, List.take_append_drop])
    have hi' : i = (ty.units (a.take k')).length := by
      rw [← hx, List.length_take]; omega
    have hkk : k' = k := by
      rcases Nat.lt_trichotomy k' k with hlt | heq | hgt
      · exact absurd hpre (hmin k' hlt)
      · exact heq
      · have hge := units_take_mono ty a (i := k + 1) (j := k') (by omega)
        have hstrict : (ty.units (a.take k)).length < (ty.units (a.take (k + 1))).length := by
          rw [List.take_succ_eq_append_getElem hka, units_append, List.length_append]
          have := units_length_pos ty a[k]
          omega
        exact absurd hmatch (h2 _ (by omega))
    subst hkk
    simp only
    rw [hx, decodeSlice_text, Res.bind_ok, List.length_map, List.length_take,
      Nat.min_eq_left hk', arith_i32_succ p (by omega)]

theorem find_not_found (ty : StrTy) (p : Profile) (ma mb : List Nat) (a b : List Char)
    (ha : Holds ma (ty.units a)) (hb : Holds mb (ty.units b)) (hno : b = [] ∨ ¬ Occurs a b) :
    findOf ty p (some ma) (some mb) = .ok 0 := by
  rw [findOf_eq ty p ha hb]
  by_cases hne : b = []
  · subst hne; simp [units_nil]
  · have hneb := units_ne_nil ty hne
    split
    · rfl
    · cases hp : position (ty.units b) (ty.units a) with
      | none => rfl
      | some i =>
        exfalso
        obtain ⟨⟨y, hy⟩, _⟩ := position_some hp
        obtain ⟨k', _, _, hpre⟩ := sync ty hne (x := (ty.units a).take i) (y := y) (by
          rw [hy, List.take_append_drop])
        rcases hno with h | h
        · exact hne h
        · exact h ⟨k', hpre⟩

theorem firstOccurrence_exists {a b : List Char} (h : Occurs a b) :
    ∃ k, FirstOccurrence a b k := by
  obtain ⟨k, hk⟩ := h
  induction k using Nat.strongRecOn with
  | ind k ih =>
    by_cases h : ∃ j, j < k ∧ b <+: a.drop j
    · obtain ⟨j, hj, hp⟩ := h; exact ih j hj hp
    · exact ⟨k, hk, fun j hj hp => h ⟨j, hj, hp⟩⟩

/-- FIND on STRING, the searched text occurs: 1 + the least character index at which it does.
The search compares bytes, but never hits the inside of a character and never panics. -/
theorem C50_found (p : Profile) (ma mb : List Nat) (a b : List Char) (k : Nat)
    (ha : Holds ma (utf8 a)) (hb : Holds mb (utf8 b)) (hlen : a.length < 2 ^ 31)
    (hne : b ≠ []) (hk : FirstOccurrence a b k) :
    FIND__STRING p (some ma) (some mb) = .ok ((k : Int) + 1) :=
  find_found .STRING p ma mb a b k ha hb hlen hne hk

/-- FIND on STRING, the searched text is empty or does not occur: 0. -/
theorem C50_not_found (p : Profile) (ma mb : List Nat) (a b : List Char)
    (ha : Holds ma (utf8 a)) (hb : Holds mb (utf8 b)) (hno : b = [] ∨ ¬ Occurs a b) :
    FIND__STRING p (some ma) (some mb) = .ok 0 :=
  find_not_found .STRING p ma mb a b ha hb hno

/-- FIND on STRING is 0 only in these cases, and succeeds on every pair of texts. -/
theorem C50_total (p : Profile) (ma mb : List Nat) (a b : List Char)
    (ha : Holds ma (utf8 a)) (hb : Holds mb (utf8 b)) (hlen : a.length < 2 ^ 31) :
    ∃ n : Nat, FIND__STRING p (some ma) (some mb) = .ok n ∧ (n = 0 ↔ b = [] ∨ ¬ Occurs a b) := by
  by_cases h : b = [] ∨ ¬ Occurs a b
  · exact ⟨0, C50_not_found p ma mb a b ha hb h, by simp [h]⟩
  · obtain ⟨h1, h2⟩ := not_or.1 h
    obtain ⟨k, hk⟩ := firstOccurrence_exists (Classical.not_not.1 h2)
    exact ⟨k + 1, C50_found p ma mb a b k ha hb hlen h1 hk, by simp [h]⟩

/-- FIND on WSTRING, the searched text occurs. -/
theorem C51_found (p : Profile) (ma mb : List Nat) (a b : List Char) (k : Nat)
    (ha : Holds ma (utf16 a)) (hb : Holds mb (utf16 b)) (hlen : a.length < 2 ^ 31)
    (hne : b ≠ []) (hk : FirstOccurrence a b k) :
    FIND__WSTRING p (some ma) (some mb) = .ok ((k : Int) + 1) :=
  find_found .WSTRING p ma mb a b k ha hb hlen hne hk

/-- FIND on WSTRING, the searched text is empty or does not occur: 0. -/
theorem C51_not_found (p : Profile) (ma mb : List Nat) (a b : List Char)
    (ha : Holds ma (utf16 a)) (hb : Holds mb (utf16 b)) (hno : b = [] ∨ ¬ Occurs a b) :
    FIND__WSTRING p (some ma) (some mb) = .ok 0 :=
  find_not_found .WSTRING p ma mb a b ha hb hno

/-- FIND on WSTRING is 0 only in these cases, and succeeds on every pair of texts. -/
theorem C51_total (p : Profile) (ma mb : List Nat) (a b : List Char)
    (ha : Holds ma (utf16 a)) (hb : Holds mb (utf16 b)) (hlen : a.length < 2 ^ 31) :
    ∃ n : Nat, FIND__WSTRING p (some ma) (some mb) = .ok n ∧
      (n = 0 ↔ b = [] ∨ ¬ Occurs a b) := by
  by_cases h : b = [] ∨ ¬ Occurs a b
  · exact ⟨0, C51_not_found p ma mb a b ha hb h, by simp [h]⟩
  · obtain ⟨h1, h2⟩ := not_or.1 h
    obtain ⟨k, hk⟩ := firstOccurrence_exists (Classical.not_not.1 h2)
    exact ⟨k + 1, C51_found p ma mb a b k ha hb hlen h1 hk, by simp [h]⟩

/-- FIND('éaéb', 'éb') = 3: the match is at byte 3, character index 2. -/
example : FIND__STRING .debug (some [0xC3, 0xA9, 0x61, 0xC3, 0xA9, 0x62, 0])
    (some [0xC3, 0xA9, 0x62, 0, 5]) = .ok 3 := by decide
example : FirstOccurrence ['é', 'a', 'é', 'b'] ['é', 'b'] 2 :=
  ⟨⟨[], rfl⟩, by decide⟩
example : FIND__WSTRING .debug (some [0xD83D, 0xDE00, 0x61, 0]) (some [0x61, 0]) = .ok 2 := by decide
example : FIND__WSTRING .debug (some [0xD83D, 0xDE00, 0x61, 0]) (some [0x62, 0]) = .ok 0 := by decide

/-- FIND(s, MID(s, L, P)) is a position, and not behind P (for `L ≥ 1`; the empty part is
"found" at 0). -/
theorem C58_find_mid (p : Profile) (ty : StrTy) (mem dest out : List Nat) (t : List Char)
    (L P : Int) (h : Holds mem (ty.units t)) (hlen : t.length < 2 ^ 31) (hL : 1 ≤ L)
    (hP : 1 ≤ P) (hLP : P - 1 + L ≤ t.length)
    (r : mid p (codecOf ty) (some mem) L P (some dest) = .ok out) :
    ∃ n : Int, findOf ty p (some mem) (some out) = .ok n ∧ 1 ≤ n ∧ n ≤ P := by
  have iL : IntTy.i32.InRange L := by
    simp [IntTy.InRange, IntTy.lo, IntTy.hi, IntTy.i32]; omega
  have iP : IntTy.i32.InRange P := by
    simp [IntTy.InRange, IntTy.lo, IntTy.hi, IntTy.i32]; omega
  rw [C45_mid p ty mem dest t L P h (by omega) iL iP, if_pos (by omega)] at r
  have hz := noNul_of_holds ty h
  have k := store_ok_holds ty (NoNul.sub hz fun c hc =>
    List.mem_of_mem_drop (List.mem_of_mem_take hc)) r
  have hne : (t.drop (P - 1).toNat).take L.toNat ≠ [] := by
    apply List.length_pos_iff.1
    rw [List.length_take, List.length_drop]; omega
  have hocc : (t.drop (P - 1).toNat).take L.toNat <+: t.drop (P - 1).toNat :=
    List.take_prefix _ _
  obtain ⟨j, hj⟩ := firstOccurrence_exists ⟨(P - 1).toNat, hocc⟩
  refine ⟨(j : Int) + 1, find_found ty p mem out t _ j h k hlen hne hj, by omega, ?_⟩
  have : j ≤ (P - 1).toNat := by
    refine Classical.byContradiction fun hgt => ?_
    exact hj.2 _ (by omega) hocc
  omega

/-- MID('abab', 2, 3) = 'ab' is found at 1. -/
example : ∃ out, mid .debug codec8 (some [0x61, 0x62, 0x61, 0x62, 0]) 2 3 (some [9, 9, 9]) = .ok out
    ∧ FIND__STRING .debug (some [0x61, 0x62, 0x61, 0x62, 0]) (some out) = .ok 1 :=
  ⟨[0x61, 0x62, 0], by decide⟩

end Verif
