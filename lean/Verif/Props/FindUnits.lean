import Verif.Props.Find
import Verif.Proofs.Utf16
/-
C112: FIND on strings that need not be well-formed.

The property one expects: FIND rejects a STRING that is not well-formed UTF-8, as all other STRING functions do (C43), and on
a WSTRING counts an unpaired surrogate as one character, as all other WSTRING functions do (C74), so that the result is the
position of an element.  Both halves are false of the code; the exact outcome for every pair of unit sequences is proved.
-/
namespace Verif
open Spec

namespace Spec

/-- The units `b` occur in the units `a` behind the first `i` units, and at no earlier place. -/
def FirstUnits (a b : List Nat) (i : Nat) : Prop := b <+: a.drop i ∧ ∀ j < i, ¬ b <+: a.drop j

end Spec

private theorem findOf_units (ty : StrTy) (p : Profile) {ma mb a b : List Nat} (ha : Holds ma a) (hb : Holds mb b) :
    ((b = [] ∨ ∀ i, ¬ b <+: a.drop i) → findOf ty p (some ma) (some mb) = .ok 0) ∧
    (∀ i, b ≠ [] → FirstUnits a b i → findOf ty p (some ma) (some mb) =
      ((codecOf ty).decodeSlice (a.take i) >>= fun cs => IntTy.i32.arith p (asI32 cs.length + 1))) := by
  rw [findOf_eq ty p ha hb]
  constructor
  · rintro (rfl | h)
    · simp
    · split
      · rfl
      · cases hp : position b a with
        | none => rfl
        | some i => exact absurd (position_some hp).1 (h i)
  · intro i hne ⟨h1, h2⟩
    have hl := h1.length_le
    have hpos := List.length_pos_iff.2 hne
    rw [List.length_drop] at hl
    rw [if_neg (by
      simp only [Bool.or_eq_true, decide_eq_true_eq, List.isEmpty_iff]
      rintro ((h | rfl) | h)
      · omega
      · simp at hl; exact hne hl
      · exact hne h)]
    cases hp : position b a with
    | none => exact absurd h1 (position_none hne hp i)
    | some j =>
      obtain ⟨g1, g2⟩ := position_some hp
      obtain rfl : j = i := by
        rcases Nat.lt_trichotomy j i with h | h | h
        · exact absurd g1 (h2 j h)
        · exact h
        · exact absurd h1 (g2 i h)
      rfl

/-- **C112**, the searched units are empty or do not occur: 0, whatever the two strings contain. -/
theorem C112_not_found_partial (p : Profile) (ma mb a b : List Nat) (ha : Holds ma a) (hb : Holds mb b)
    (h : b = [] ∨ ∀ i, ¬ b <+: a.drop i) :
    FIND__STRING p (some ma) (some mb) = .ok 0 ∧ FIND__WSTRING p (some ma) (some mb) = .ok 0 :=
  ⟨(findOf_units .STRING p ha hb).1 h, (findOf_units .WSTRING p ha hb).1 h⟩

/-- **C112**, FIND on STRING, the bytes `b` first occur behind `i` bytes of `a`: the result is one more than the number of
characters these `i` bytes encode; if they are no well-formed UTF-8 the call panics.  Neither the rest of `a` nor `b` is
looked at as text. -/
theorem C112_string_partial (p : Profile) (ma mb a b : List Nat) (i : Nat) (ha : Holds ma a) (hb : Holds mb b)
    (hne : b ≠ []) (hi : FirstUnits a b i) (hlen : a.length < 2 ^ 31) :
    (∀ t, a.take i = utf8 t → FIND__STRING p (some ma) (some mb) = .ok ((t.length : Int) + 1)) ∧
    ((¬ ∃ t, a.take i = utf8 t) → FIND__STRING p (some ma) (some mb) = .panic) := by
  have hf := (findOf_units .STRING p ha hb).2 i hne hi
  change FIND__STRING p (some ma) (some mb) = _ at hf
  rw [hf]
  constructor
  · intro t ht
    have htl : t.length ≤ (utf8 t).length := by
      clear ht
      induction t with
      | nil => simp
      | cons c t ih =>
        have := utf8Char_length_pos c
        rw [utf8_cons, List.length_append, List.length_cons]; omega
    have h1 : i + b.length ≤ a.length := by
      have := hi.1.length_le; have := List.length_pos_iff.2 hne; rw [List.length_drop] at *; omega
    have h2 : (a.take i).length = i := by rw [List.length_take]; omega
    have := List.length_pos_iff.2 hne
    rw [ht] at h2
    rw [ht, show utf8 t = StrTy.STRING.units t from rfl, decodeSlice_text, Res.bind_ok, List.length_map,
      arith_i32_succ p (by omega)]
  · intro h
    rw [← from_utf8_iff] at h
    simp [codecOf, codec8, h]

/-- **C112**, FIND on WSTRING, the units `b` first occur behind `i` units of `a`: the result is one more than the number of
elements of these `i` units, where a surrogate pair cut off by the occurrence counts for its first half. -/
theorem C112_wstring_partial (p : Profile) (ma mb a b : List Nat) (i : Nat) (es : List W16) (ha : Holds ma a)
    (hb : Holds mb b) (hne : b ≠ []) (hi : FirstUnits a b i) (hlen : a.length < 2 ^ 31) (he : Elements (a.take i) es) :
    FIND__WSTRING p (some ma) (some mb) = .ok ((es.length : Int) + 1) := by
  have hf := (findOf_units .WSTRING p ha hb).2 i hne hi
  change FIND__WSTRING p (some ma) (some mb) = _ at hf
  have hel : es.length ≤ (es.flatMap W16.units).length := by
    clear he
    induction es with
    | nil => simp
    | cons e es ih =>
      have : 0 < e.units.length := by
        cases e with
        | char c => simp only [W16.units, utf16Char]; split <;> simp
        | lone u => simp [W16.units]
      rw [List.flatMap_cons, List.length_append, List.length_cons]; omega
  have h1 : i + b.length ≤ a.length := by
    have := hi.1.length_le; have := List.length_pos_iff.2 hne; rw [List.length_drop] at *; omega
  have h2 : (a.take i).length = i := by rw [List.length_take]; omega
  have h3 := List.length_pos_iff.2 hne
  have hu := he.units
  rw [hu] at h2
  obtain ⟨l, hd, hll⟩ : ∃ l, (codecOf .WSTRING).decodeSlice (a.take i) = .ok l ∧ l.length = es.length := by
    refine ⟨_, rfl, ?_⟩
    change (decode_utf16 (a.take i)).length = es.length
    rw [decode_elements he, List.length_map]
  rw [hf, hd, Res.bind_ok, hll, arith_i32_succ p (by omega)]

/-- The elements before the occurrence exist for every sequence of 16-bit units. -/
theorem C112_elements (a : List Nat) (i : Nat) (h16 : ∀ u ∈ a, u < 65536) : ∃ es, Elements (a.take i) es :=
  elements_exist _ fun u hu => h16 u (List.mem_of_mem_take hu)

/-- **C112 is false of the code.**  FIND accepts the malformed STRING `61 C3 62` (searching `b` in it panics, searching `a`
or the lone byte `C3` does not), panics on the well-formed "é" if the lone byte `A9` is searched, and on a WSTRING finds the
second half of "😀" at position 2 although the string has only one character. -/
theorem C112_refuted (p : Profile) :
    (¬ ∃ t, ([0x61, 0xC3, 0x62] : List Nat) = utf8 t) ∧
    FIND__STRING p (some [0x61, 0xC3, 0x62, 0]) (some [0x61, 0]) = .ok 1 ∧
    FIND__STRING p (some [0x61, 0xC3, 0x62, 0]) (some [0xC3, 0]) = .ok 2 ∧
    FIND__STRING p (some [0x61, 0xC3, 0x62, 0]) (some [0x62, 0]) = .panic ∧
    FIND__STRING p (some [0xC3, 0xA9, 0]) (some [0xA9, 0]) = .panic ∧
    FIND__WSTRING p (some [0xD83D, 0xDE00, 0]) (some [0xDE00, 0]) = .ok 2 ∧ len codec16 (some [0xD83D, 0xDE00, 0]) = .ok 1 := by
  refine ⟨by rw [← from_utf8_iff]; decide, ?_⟩
  cases p <;> decide

/-- The hypotheses: `62` occurs first behind the two bytes `61 C3`, which are no text; `C3` behind the text "a". -/
example : FirstUnits [0x61, 0xC3, 0x62] [0x62] 2 ∧ (¬ ∃ t, ([0x61, 0xC3, 0x62] : List Nat).take 2 = utf8 t) ∧
    FirstUnits [0x61, 0xC3, 0x62] [0xC3] 1 ∧ ([0x61, 0xC3, 0x62] : List Nat).take 1 = utf8 ['a'] := by
  refine ⟨⟨by decide, by decide⟩, by rw [← from_utf8_iff]; decide, ⟨by decide, by decide⟩, by decide⟩

/-- "😀" is cut in two by the occurrence of its second half. -/
example : FirstUnits [0xD83D, 0xDE00] [0xDE00] 1 ∧ Elements ([0xD83D, 0xDE00].take 1) [.lone 0xD83D] :=
  ⟨⟨by decide, by decide⟩, ⟨by decide, by simp [IsHigh, IsLow], by simp [NoSplitPair]⟩⟩

end Verif
