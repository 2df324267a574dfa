import Verif.Props.Split
import Verif.Props.StStrings
/-
C139: replacing every occurrence, and reversing a string.
-/
namespace Verif
namespace Spec

/-- The text with every occurrence of `b` replaced by `r`: from left to right, without overlaps. -/
def substitute (b r : List Char) : List Char → List Char
  | [] => []
  | c :: t => if b <+: c :: t then r ++ substitute b r (t.drop (b.length - 1)) else c :: substitute b r t
termination_by t => t.length
decreasing_by
  · simp only [List.length_drop, List.length_cons]; omega
  · simp

end Spec
open Spec

/-- The loop
```
n := FIND(s, b);
WHILE n > 0 DO
  out := CONCAT(out, LEFT(s, n - 1), r);
  s := DELETE(s, n - 1 + LEN(b), 1);
  n := FIND(s, b);
END_WHILE
out := CONCAT(out, s);
```
for at most `fuel` rounds; more are a panic here. -/
def replaceAll (p : Profile) (ty : StrTy) (b r : List Nat) : Nat → List Nat → List Nat → Res (List Nat)
  | 0, _, _ => .panic
  | fuel + 1, s, out => do
    let n ← findOf ty p (some s) (some b)
    if n > 0 then
      let head ← St.LEFT (codecOf ty) (some s) (n - 1)
      let out ← St.CONCAT (codecOf ty) [some out, some head, some r]
      let l ← len (codecOf ty) (some b)
      let s ← St.DELETE p (codecOf ty) (some s) (n - 1 + l) 1
      replaceAll p ty b r fuel s out
    else St.CONCAT (codecOf ty) [some out, some s]

/-- The loop `WHILE LEN(s) > 0 DO out := CONCAT(out, RIGHT(s, 1)); s := LEFT(s, LEN(s) - 1); END_WHILE`, for at most `fuel` rounds; more are
a panic here. -/
def reverseString (ty : StrTy) : Nat → List Nat → List Nat → Res (List Nat)
  | 0, _, _ => .panic
  | fuel + 1, s, out => do
    let n ← len (codecOf ty) (some s)
    if n > 0 then
      let c ← St.RIGHT (codecOf ty) (some s) 1
      let out ← St.CONCAT (codecOf ty) [some out, some c]
      let s ← St.LEFT (codecOf ty) (some s) (n - 1)
      reverseString ty fuel s out
    else pure out

private theorem length_le_units (ty : StrTy) (t : List Char) : t.length ≤ (ty.units t).length := by
  induction t with
  | nil => simp
  | cons c t ih =>
    have hpos : 0 < (ty.units [c]).length := List.length_pos_iff.2 (units_ne_nil ty (by simp))
    rw [show c :: t = [c] ++ t from rfl, units_append, List.length_append, List.length_append]
    simp only [List.length_singleton]; omega

/-! ### The specification at the first occurrence -/

theorem substitute_of_first (b r : List Char) (hb : b ≠ []) : ∀ (k : Nat) (a : List Char), FirstOccurrence a b k →
    substitute b r a = a.take k ++ r ++ substitute b r (a.drop (k + b.length)) := by
  intro k
  induction k with
  | zero =>
    rintro a ⟨h, -⟩
    rw [List.drop_zero] at h
    cases a with
    | nil => exact absurd (List.prefix_nil.1 h) hb
    | cons c t =>
      rw [substitute, if_pos h]
      have : b.length = (b.length - 1) + 1 := by have := List.length_pos_iff.2 hb; omega
      rw [this]
      simp
  | succ k ih =>
    rintro a ⟨h, hmin⟩
    cases a with
    | nil => simp at h; exact absurd h hb
    | cons c t =>
      have h0 := hmin 0 (by omega)
      rw [List.drop_zero] at h0
      rw [substitute, if_neg h0, ih t ⟨by simpa using h, fun j hj => by simpa using hmin (j + 1) (by omega)⟩]
      rw [show k + 1 + b.length = (k + b.length) + 1 by omega]
      simp

theorem substitute_of_none (b r : List Char) : ∀ a : List Char, ¬ Occurs a b → substitute b r a = a := by
  intro a
  induction a with
  | nil => intro _; rw [substitute]
  | cons c t ih =>
    intro h
    rw [substitute, if_neg (fun hp => h ⟨0, by simpa using hp⟩), ih (fun ⟨k, hk⟩ => h ⟨k + 1, by simpa using hk⟩)]

/-- Replacing a single character replaces each of its occurrences. -/
theorem substitute_char (c : Char) (r t : List Char) : substitute [c] r t = t.flatMap fun d => if d = c then r else [d] := by
  induction t with
  | nil => rw [substitute]; rfl
  | cons d t ih =>
    rw [substitute, List.flatMap_cons]
    by_cases h : d = c
    · subst h; rw [if_pos (by simp), if_pos rfl]; simp [ih]
    · rw [if_neg (by simpa [eq_comm] using h), if_neg h, ih]; rfl

/-! ### Replacing -/

/-- **C139.** The loop replaces every occurrence of a text by another one, from left to right, whatever the texts are, if the result fits into a
string variable; it ends after as many rounds as there are occurrences, at the latest after LEN(s) + 1 rounds. -/
theorem C139_replace_all (p : Profile) (ty : StrTy) (mb mr ms mo : List Nat) (b r t : List Char) (hne : b ≠ [])
    (hb : Holds mb (ty.units b)) (hr : Holds mr (ty.units r)) (hs : Holds ms (ty.units t)) (ho : Holds mo [])
    (ht : (ty.units t).length ≤ 2048) (hl : (ty.units (substitute b r t)).length ≤ 2048) (fuel : Nat) (hf : t.length < fuel) :
    Returns (replaceAll p ty mb mr fuel ms mo) (ty.units (substitute b r t)) := by
  have key : ∀ (fuel : Nat) (ms mo : List Nat) (t o : List Char), Holds ms (ty.units t) → Holds mo (ty.units o) → (ty.units t).length ≤ 2048 →
      (ty.units (o ++ substitute b r t)).length ≤ 2048 → t.length < fuel →
      Returns (replaceAll p ty mb mr fuel ms mo) (ty.units (o ++ substitute b r t)) := by
    intro fuel
    induction fuel with
    | zero => intro _ _ _ _ _ _ _ _ h; omega
    | succ fuel ih =>
      intro ms mo t o hs ho ht hl hf
      have htl := length_le_units ty t
      unfold replaceAll
      by_cases hocc : Occurs t b
      · obtain ⟨k, hk⟩ := firstOccurrence_exists hocc
        have hbl : 0 < b.length := List.length_pos_iff.2 hne
        have hkb : k + b.length ≤ t.length := by
          have := hk.1.length_le
          rw [List.length_drop] at this; omega
        rw [find_found ty p ms mb t b k hs hb (by omega) hne hk, Res.bind_ok, if_pos (by omega)]
        obtain ⟨mh, h1, _, h2⟩ := (C95_select p ty ms t (k + 1 - 1) 1 hs ht (by omega) (by omega) (by omega) (by omega) (by omega)).1
        rw [show ((k : Int) + 1 - 1).toNat = k by omega] at h2
        rw [h1, Res.bind_ok]
        rw [substitute_of_first b r hne k t hk] at hl ⊢
        have e : o ++ (t.take k ++ r ++ substitute b r (t.drop (k + b.length))) =
            (o ++ (t.take k ++ r)) ++ substitute b r (t.drop (k + b.length)) := by simp
        have hcl : (ty.units [o, t.take k, r].flatten).length ≤ 2048 := by
          rw [e, units_append, List.length_append] at hl
          simp only [List.flatten_cons, List.flatten_nil, List.append_nil] at hl ⊢
          omega
        obtain ⟨mo', c1, _, c2⟩ := (C95_concat_partial ty [o, t.take k, r] [some mo, some mh, some mr] (by simp)
          ⟨⟨_, rfl, ho⟩, ⟨_, rfl, h2⟩, ⟨_, rfl, hr⟩, trivial⟩).1 hcl
        simp only [List.flatten_cons, List.flatten_nil, List.append_nil] at c2
        rw [c1, Res.bind_ok]
        have hbl' : b.length < 2 ^ 31 := by omega
        rw [len_text ty _ _ hb hbl', Res.bind_ok]
        obtain ⟨ms', d1, _, d2⟩ := (C95_select p ty ms t (k + 1 - 1 + b.length) 1 hs ht (by omega) (by omega) (by omega) (by omega)
          (by omega)).2.2.2
        rw [show (1 - 1 + ((k : Int) + 1 - 1 + b.length)).toNat = k + b.length by omega] at d2
        simp only [Int.sub_self, Int.toNat_zero, List.take_zero, List.nil_append] at d2
        rw [d1, Res.bind_ok, e]
        have hdl : (ty.units (t.drop (k + b.length))).length ≤ 2048 := by
          have : (ty.units t).length = (ty.units (t.take (k + b.length))).length + (ty.units (t.drop (k + b.length))).length := by
            rw [← List.length_append, ← units_append, List.take_append_drop]
          omega
        exact ih ms' mo' _ _ d2 c2 hdl (by rw [← e]; exact hl) (by rw [List.length_drop]; omega)
      · rw [find_not_found ty p ms mb t b hs hb (.inr hocc), Res.bind_ok, if_neg (by omega)]
        rw [substitute_of_none b r t hocc] at hl ⊢
        have := (C95_concat_partial ty [o, t] [some mo, some ms] (by simp) ⟨⟨_, rfl, ho⟩, ⟨_, rfl, hs⟩, trivial⟩).1 (by
          simpa only [List.flatten_cons, List.flatten_nil, List.append_nil] using hl)
        simpa only [List.flatten_cons, List.flatten_nil, List.append_nil] using this
  have hnil : ty.units [] = [] := by cases ty <;> rfl
  exact key fuel ms mo t [] hs (by rw [hnil]; exact ho) ht (by simpa using hl) hf

/-- **C139**, a single character: each of its occurrences is replaced. -/
theorem C139_replace_char (p : Profile) (ty : StrTy) (mb mr ms mo : List Nat) (c : Char) (r t : List Char)
    (hb : Holds mb (ty.units [c])) (hr : Holds mr (ty.units r)) (hs : Holds ms (ty.units t)) (ho : Holds mo [])
    (ht : (ty.units t).length ≤ 2048) (hl : (ty.units (t.flatMap fun d => if d = c then r else [d])).length ≤ 2048) :
    Returns (replaceAll p ty mb mr (t.length + 1) ms mo) (ty.units (t.flatMap fun d => if d = c then r else [d])) := by
  rw [← substitute_char] at hl ⊢
  exact C139_replace_all p ty mb mr ms mo [c] r t (by simp) hb hr hs ho ht hl _ (by omega)

/-! ### Reversing -/

/-- **C139.** The other loop reverses a string, character by character. -/
theorem C139_reverse (ty : StrTy) (ms mo : List Nat) (t : List Char) (hs : Holds ms (ty.units t)) (ho : Holds mo [])
    (ht : (ty.units t).length ≤ 2048) (fuel : Nat) (hf : t.length < fuel) :
    ∃ mem, reverseString ty fuel ms mo = .ok mem ∧ Holds mem (ty.units t.reverse) := by
  have key : ∀ (fuel : Nat) (ms mo : List Nat) (t o : List Char), Holds ms (ty.units t) → Holds mo (ty.units o) →
      (ty.units o).length + (ty.units t).length ≤ 2048 → t.length < fuel →
      ∃ mem, reverseString ty fuel ms mo = .ok mem ∧ Holds mem (ty.units (o ++ t.reverse)) := by
    intro fuel
    induction fuel with
    | zero => intro _ _ _ _ _ _ _ h; omega
    | succ fuel ih =>
      intro ms mo t o hs ho hl hf
      have htl := length_le_units ty t
      unfold reverseString
      rw [len_text ty _ _ hs (by omega), Res.bind_ok]
      rcases List.eq_nil_or_concat t with rfl | ⟨q, c, rfl⟩
      · rw [if_neg (by simp)]
        exact ⟨mo, rfl, by simpa using ho⟩
      · rw [List.concat_eq_append] at *
        have hsmall : (q ++ [c]).length ≤ 2048 := by omega
        rw [units_append, List.length_append] at hl
        have hlen : (q ++ [c]).length = q.length + 1 := by simp
        rw [if_pos (by rw [hlen]; omega)]
        obtain ⟨mc, r1, _, r2⟩ := (C95_select .debug ty ms (q ++ [c]) 1 1 hs (by rw [units_append, List.length_append]; omega) (by omega) (by omega)
          (by omega) (by rw [hlen]; omega) (by rw [hlen]; omega)).2.1
        rw [show (q ++ [c]).length - (1 : Int).toNat = q.length by rw [hlen]; simp, List.drop_left] at r2
        rw [r1, Res.bind_ok]
        obtain ⟨mo', c1, _, c2⟩ := (C95_concat_partial ty [o, [c]] [some mo, some mc] (by simp)
          ⟨⟨_, rfl, ho⟩, ⟨_, rfl, r2⟩, trivial⟩).1 (by
            simp only [List.flatten_cons, List.flatten_nil, List.append_nil]; rw [units_append, List.length_append]; omega)
        simp only [List.flatten_cons, List.flatten_nil, List.append_nil] at c2
        rw [c1, Res.bind_ok]
        obtain ⟨ms', l1, _, l2⟩ := (C95_select .debug ty ms (q ++ [c]) ((q ++ [c]).length - 1) 1 hs (by rw [units_append, List.length_append]; omega)
          (by omega) (by rw [hlen]; omega) (by omega) (by rw [hlen]; omega) (by omega)).1
        rw [show (((q ++ [c]).length : Int) - 1).toNat = q.length by rw [hlen]; omega, List.take_left] at l2
        rw [l1, Res.bind_ok]
        obtain ⟨mem, m1, m2⟩ := ih ms' mo' q (o ++ [c]) l2 c2 (by rw [units_append, List.length_append]; omega) (by rw [hlen] at hf; omega)
        exact ⟨mem, m1, by simpa using m2⟩
  have hnil : ty.units [] = [] := by cases ty <;> rfl
  have := key fuel ms mo t [] hs (by rw [hnil]; exact ho) (by rw [hnil]; simpa using ht) hf
  simpa using this

/-! ### Examples -/

/-- 'a,b,' with ',' replaced by '; '; the occurrences of 'aa' in 'aaaa' do not overlap. -/
example : substitute [','] [';', ' '] ['a', ',', 'b', ','] = ['a', ';', ' ', 'b', ';', ' '] ∧
    substitute ['a', 'a'] ['b'] ['a', 'a', 'a', 'a', 'a'] = ['b', 'b', 'a'] ∧ substitute ['a'] [] ['a', 'b', 'a'] = ['b'] := by
  simp [substitute, List.cons_prefix_cons]

/-- The hypotheses are met: replacing 'a' by 'aa' in 'aé', which would never end if FIND looked at the replaced text again. -/
example : Returns (replaceAll .debug .STRING [97, 0] [97, 97, 0] 3 [97, 195, 169, 0] [0]) [97, 97, 195, 169] := by
  have := C139_replace_char .debug .STRING [97, 0] [97, 97, 0] [97, 195, 169, 0] [0] 'a' ['a', 'a'] ['a', 'é'] ⟨by decide, [], by decide⟩
    ⟨by decide, [], by decide⟩ ⟨by decide, [], by decide⟩ ⟨by decide, [], by decide⟩ (by decide) (by decide)
  exact this

example : ∃ mem, reverseString .STRING 4 [97, 195, 169, 98, 0] [0] = .ok mem ∧ Holds mem [98, 195, 169, 97] :=
  C139_reverse .STRING [97, 195, 169, 98, 0] [0] ['a', 'é', 'b'] ⟨by decide, [], by decide⟩ ⟨by decide, [], by decide⟩ (by decide) 4 (by decide)

end Verif
