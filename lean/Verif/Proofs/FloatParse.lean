import Mathlib.Tactic.Ring
import Mathlib.Tactic.FieldSimp
import Mathlib.Tactic.Linarith
import Mathlib.Tactic.Positivity
import Verif.Model.FloatText
import Verif.Spec.FloatText
import Verif.Proofs.FloatSign
import Verif.Proofs.Parse
/-
`core`'s float parser against the grammar of the specification.
-/
namespace Verif
open Spec

theorem digitsValue_eq (ds : List Nat) : digitsValue ds = Nat.ofDigits 10 ds.reverse := by
  have : ∀ acc, ds.foldl (fun acc d => acc * 10 + d) acc = horner 10 ds acc := by
    induction ds with
    | nil => intro acc; rfl
    | cons d ds ih => intro acc; rw [List.foldl_cons, ih]; rfl
  unfold digitsValue
  rw [this, horner_eq]; simp

/-- The text that `takeDigits` has consumed. -/
theorem takeDigits_spec (s : List Nat) : ∃ p, s = p ++ (takeDigits s).2 ∧
    List.Forall₂ (IsDigit 10) p (takeDigits s).1 := by
  induction s with
  | nil => exact ⟨[], rfl, .nil⟩
  | cons c cs ih =>
    rw [takeDigits]
    split
    · rename_i d hd
      obtain ⟨p, h1, h2⟩ := ih
      refine ⟨c :: p, ?_, .cons ((toDigit_iff 10 c d (by omega)).1 hd) h2⟩
      dsimp only
      rw [List.cons_append, ← h1]
    · exact ⟨[], rfl, .nil⟩

/-- The text does not go on with a digit. -/
def NoDigit (s : List Nat) : Prop := ∀ c cs, s = c :: cs → toDigit 10 c = none

theorem takeDigits_append {p ds : List Nat} (rest : List Nat) (h : List.Forall₂ (IsDigit 10) p ds)
    (hr : NoDigit rest) : takeDigits (p ++ rest) = (ds, rest) := by
  induction h with
  | nil =>
    cases rest with
    | nil => rfl
    | cons c cs => rw [List.nil_append, takeDigits, hr c cs rfl]
  | cons hd _ ih =>
    rw [List.cons_append, takeDigits, (toDigit_iff 10 _ _ (by omega)).2 hd]
    dsimp only
    rw [ih]

theorem forall2_nil_iff {p ds : List Nat} (h : List.Forall₂ (IsDigit 10) p ds) : ds = [] ↔ p = [] := by
  cases h with
  | nil => simp
  | cons _ _ => simp

theorem numeral_of {p ds : List Nat} (h : List.Forall₂ (IsDigit 10) p ds) (hne : ds ≠ []) :
    Numeral 10 p (digitsValue ds) := ⟨ds, h, hne, digitsValue_eq ds⟩

theorem forall2_append {p q ds es : List Nat} (h : List.Forall₂ (IsDigit 10) p ds)
    (h' : List.Forall₂ (IsDigit 10) q es) : List.Forall₂ (IsDigit 10) (p ++ q) (ds ++ es) := by
  induction h with
  | nil => exact h'
  | cons hd _ ih => exact .cons hd ih

theorem forall2_append_inv (p : List Nat) {q ds : List Nat} (h : List.Forall₂ (IsDigit 10) (p ++ q) ds) :
    ∃ ds1 ds2, ds = ds1 ++ ds2 ∧ List.Forall₂ (IsDigit 10) p ds1 ∧ List.Forall₂ (IsDigit 10) q ds2 := by
  induction p generalizing ds with
  | nil => exact ⟨[], ds, rfl, .nil, h⟩
  | cons c p ih =>
    cases h with
    | cons hd ht =>
      obtain ⟨d1, d2, rfl, h1, h2⟩ := ih ht
      exact ⟨_ :: d1, d2, rfl, .cons hd h1, h2⟩

theorem noDigit_of_cons {c : Nat} (cs : List Nat) (h : c < 48 ∨ 57 < c) : NoDigit (c :: cs) := by
  intro c' cs' he
  injection he with h1 h2
  subst h1
  cases hd : toDigit 10 c with
  | none => rfl
  | some d =>
    have := (toDigit_iff 10 c d (by omega)).1 hd
    unfold IsDigit at this; omega

theorem noDigit_nil : NoDigit [] := by intro c cs h; cases h

/-! ### Exponents -/

theorem parseExponent_iff (s : List Nat) (e : Int) : parseExponent s = some e ↔
    ∃ sign ∈ signs, ∃ digits n, s = ascii sign.1 ++ digits ∧ Numeral 10 digits n ∧ e = sign.2 * n := by
  have main : ∀ (negative : Bool) (t : List Nat),
      (if (takeDigits t).1.isEmpty || !(takeDigits t).2.isEmpty then none
        else some (if negative then -(digitsValue (takeDigits t).1 : Int) else digitsValue (takeDigits t).1)) = some e ↔
      ∃ n : Nat, Numeral 10 t n ∧ e = (if negative then -1 else 1) * (n : Int) := by
    intro negative t
    constructor
    · intro h
      split at h
      · cases h
      · rename_i hc
        simp only [Bool.or_eq_true, List.isEmpty_iff, Bool.not_eq_true', not_or] at hc
        obtain ⟨hc1, hc2⟩ := hc
        obtain ⟨p, hp, hf⟩ := takeDigits_spec t
        have h2 : (takeDigits t).2 = [] := by
          cases ht : (takeDigits t).2 with
          | nil => rfl
          | cons a b => rw [ht] at hc2; simp at hc2
        rw [h2, List.append_nil] at hp
        subst hp
        refine ⟨_, numeral_of hf hc1, ?_⟩
        rw [← Option.some.inj h]
        cases negative <;> simp
    · rintro ⟨n, ⟨ds, hf, hne, rfl⟩, rfl⟩
      have ht : takeDigits t = (ds, []) := by
        have := takeDigits_append [] hf noDigit_nil
        rwa [List.append_nil] at this
      rw [ht]
      have hne' : ds.isEmpty = false := by
        cases ds with
        | nil => exact absurd rfl hne
        | cons _ _ => rfl
      simp only [hne', List.isEmpty_nil, Bool.not_true, Bool.or_self, Bool.false_eq_true, if_false]
      rw [digitsValue_eq]
      cases negative <;> simp
  have nosign : ∀ {c : Nat} {cs : List Nat} {n : Nat}, Numeral 10 (c :: cs) n → c ≠ 43 ∧ c ≠ 45 := by
    intro c cs n h
    obtain ⟨d, hd⟩ := numeral_mem h c (by simp)
    unfold IsDigit at hd; omega
  unfold parseExponent
  cases s with
  | nil =>
    have h0 : ([45] : List Nat).isPrefixOf [] = false := rfl
    have h1 : ([43] : List Nat).isPrefixOf [] = false := rfl
    simp only [h0, h1, Bool.or_self, Bool.false_eq_true, if_false]
    constructor
    · intro h; cases h
    · rintro ⟨sign, hs, digits, n, he, hn, -⟩
      obtain ⟨c, cs, rfl⟩ := numeral_cons hn
      have := congrArg List.length he
      simp at this
  | cons c cs =>
    have p45 : ([45] : List Nat).isPrefixOf (c :: cs) = (c == 45) := by
      simp [List.isPrefixOf, eq_comm]
    have p43 : ([43] : List Nat).isPrefixOf (c :: cs) = (c == 43) := by
      simp [List.isPrefixOf, eq_comm]
    simp only [p45, p43]
    have plain : (∃ sign ∈ signs, ∃ digits n, c :: cs = ascii sign.1 ++ digits ∧ Numeral 10 digits n ∧ e = sign.2 * n) ↔
        (∃ n : Nat, Numeral 10 (c :: cs) n ∧ e = 1 * (n : Int)) ∨ (c = 43 ∧ ∃ n : Nat, Numeral 10 cs n ∧ e = 1 * (n : Int)) ∨
        (c = 45 ∧ ∃ n : Nat, Numeral 10 cs n ∧ e = -1 * (n : Int)) := by
      constructor
      · rintro ⟨sign, hs, digits, n, he, hn, rfl⟩
        unfold signs at hs
        simp only [List.mem_cons, List.not_mem_nil, or_false] at hs
        rcases hs with rfl | rfl | rfl
        · have : c :: cs = digits := he
          exact .inl ⟨n, this ▸ hn, rfl⟩
        · have : c :: cs = 43 :: digits := he
          injection this with h1 h2
          exact .inr (.inl ⟨h1, n, h2 ▸ hn, rfl⟩)
        · have : c :: cs = 45 :: digits := he
          injection this with h1 h2
          exact .inr (.inr ⟨h1, n, h2 ▸ hn, rfl⟩)
      · rintro (⟨n, hn, rfl⟩ | ⟨rfl, n, hn, rfl⟩ | ⟨rfl, n, hn, rfl⟩)
        · exact ⟨("", 1), by simp [signs], _, n, rfl, hn, rfl⟩
        · exact ⟨("+", 1), by simp [signs], _, n, rfl, hn, rfl⟩
        · exact ⟨("-", -1), by simp [signs], _, n, rfl, hn, rfl⟩
    rw [plain]
    by_cases h45 : c = 45
    · subst h45
      have := main true cs
      simp only [BEq.rfl, Bool.true_or, if_true, List.drop_succ_cons, List.drop_zero] at this ⊢
      rw [this]
      constructor
      · exact fun h => .inr (.inr ⟨trivial, h⟩)
      · rintro (⟨n, hn, -⟩ | ⟨h, -⟩ | ⟨-, h⟩)
        · exact absurd rfl (nosign hn).2
        · omega
        · exact h
    · by_cases h43 : c = 43
      · subst h43
        have := main false cs
        simp only [show ((43 : Nat) == 45) = false from rfl, BEq.rfl, Bool.false_or, if_true, List.drop_succ_cons,
          List.drop_zero, Bool.false_eq_true, if_false] at this ⊢
        rw [this]
        constructor
        · exact fun h => .inr (.inl ⟨trivial, h⟩)
        · rintro (⟨n, hn, -⟩ | ⟨-, h⟩ | ⟨h, -⟩)
          · exact absurd rfl (nosign hn).1
          · exact h
          · omega
      · have := main false (c :: cs)
        have b45 : (c == 45) = false := by simpa using h45
        have b43 : (c == 43) = false := by simpa using h43
        simp only [b45, b43, Bool.or_self, Bool.false_eq_true, if_false] at this ⊢
        rw [this]
        constructor
        · exact fun h => .inl h
        · rintro (h | ⟨h, -⟩ | ⟨h, -⟩)
          · exact h
          · exact absurd h h43
          · exact absurd h h45

theorem parseSuffix_iff (s : List Nat) (e : Int) : parseSuffix s = some e ↔ ExponentPart s e := by
  unfold ExponentPart
  cases s with
  | nil =>
    simp only [parseSuffix, Option.some.injEq, true_and]
    constructor
    · exact fun h => .inl h.symm
    · rintro (h | ⟨l, hl, sign, -, digits, n, he, -⟩)
      · exact h.symm
      · exfalso
        simp only [List.mem_cons, List.not_mem_nil, or_false] at hl
        rcases hl with rfl | rfl <;> (have := congrArg List.length he; simp [ascii] at this)
  | cons c cs =>
    rw [parseSuffix]
    constructor
    · intro h
      split at h
      · rename_i hc
        obtain ⟨sign, hs, digits, n, rfl, hn, he⟩ := (parseExponent_iff _ _).1 h
        simp only [Bool.or_eq_true, beq_iff_eq] at hc
        rcases hc with rfl | rfl
        · exact .inr ⟨"e", by simp, sign, hs, digits, n, rfl, hn, he⟩
        · exact .inr ⟨"E", by simp, sign, hs, digits, n, rfl, hn, he⟩
      · cases h
    · rintro (⟨h, -⟩ | ⟨l, hl, sign, hs, digits, n, he, hn, rfl⟩)
      · cases h
      · simp only [List.mem_cons, List.not_mem_nil, or_false] at hl
        have hx := (parseExponent_iff (ascii sign.1 ++ digits) _).2 ⟨sign, hs, digits, n, rfl, hn, rfl⟩
        rcases hl with rfl | rfl
        · have : c :: cs = 101 :: (ascii sign.1 ++ digits) := he
          injection this with h1 h2
          rw [h1, h2]; exact hx
        · have : c :: cs = 69 :: (ascii sign.1 ++ digits) := he
          injection this with h1 h2
          rw [h1, h2]; exact hx

theorem exponentPart_noDigit {s : List Nat} {e : Int} (h : ExponentPart s e) : NoDigit s ∧ [46].isPrefixOf s = false := by
  rcases h with ⟨rfl, -⟩ | ⟨l, hl, sign, hs, digits, n, rfl, -⟩
  · exact ⟨noDigit_nil, rfl⟩
  · simp only [List.mem_cons, List.not_mem_nil, or_false] at hl
    rcases hl with rfl | rfl
    · exact ⟨noDigit_of_cons (c := 101) _ (by omega), rfl⟩
    · exact ⟨noDigit_of_cons (c := 69) _ (by omega), rfl⟩

/-! ### Numbers -/

theorem parse_number_sound {s : List Nat} {m : Nat} {e : Int} (h : parse_number s = some (m, e)) :
    DecimalLiteral s (m * (10 : ℚ) ^ e) := by
  unfold parse_number at h
  dsimp only at h
  obtain ⟨p, hp, hf⟩ := takeDigits_spec s
  by_cases hdot : ([46] : List Nat).isPrefixOf (takeDigits s).2 = true
  · rw [if_pos hdot] at h
    obtain ⟨q, hq, hg⟩ := takeDigits_spec ((takeDigits s).2.drop 1)
    have hd := isPrefixOf_drop hdot
    split at h
    · cases h
    · rename_i hc
      obtain ⟨e0, he0, hme⟩ := Option.map_eq_some_iff.1 h
      injection hme with h1 h2
      refine ⟨p, ascii ".", q, (takeDigits ((takeDigits s).2.drop 1)).2, m, e0, ?_, .inl rfl, ?_,
        (parseSuffix_iff _ _).1 he0, ?_⟩
      · have : (takeDigits s).2 = ascii "." ++ (takeDigits s).2.drop 1 := hd
        rw [List.append_assoc, List.append_assoc, ← hq, ← this, ← hp]
      · rw [← h1]
        refine numeral_of (forall2_append hf hg) ?_
        intro hnil
        rw [List.append_eq_nil_iff] at hnil
        rw [hnil.1, hnil.2] at hc; simp at hc
      · rw [← h2, hg.length_eq]
  · rw [if_neg hdot] at h
    dsimp only at h
    split at h
    · cases h
    · rename_i hc
      obtain ⟨e0, he0, hme⟩ := Option.map_eq_some_iff.1 h
      injection hme with h1 h2
      refine ⟨p, [], [], (takeDigits s).2, m, e0, ?_, .inr ⟨rfl, rfl⟩, ?_, (parseSuffix_iff _ _).1 he0, ?_⟩
      · rw [List.append_nil, List.append_nil]; exact hp
      · rw [List.append_nil] at h1 ⊢
        rw [← h1]
        refine numeral_of hf ?_
        intro hnil
        rw [hnil] at hc; simp at hc
      · rw [← h2]

theorem parse_number_complete {s : List Nat} {v : ℚ} (h : DecimalLiteral s v) :
    ∃ m e, parse_number s = some (m, e) ∧ v = m * (10 : ℚ) ^ e := by
  obtain ⟨whole, point, fraction, expo, n, e, rfl, hpt, ⟨ds, hf, hne, rfl⟩, hexp, rfl⟩ := h
  obtain ⟨d1, d2, rfl, h1, h2⟩ := forall2_append_inv whole hf
  obtain ⟨hnd, hnp⟩ := exponentPart_noDigit hexp
  refine ⟨_, _, ?_, rfl⟩
  rw [← digitsValue_eq]
  unfold parse_number
  dsimp only
  rcases hpt with rfl | ⟨rfl, rfl⟩
  · have e1 : takeDigits (whole ++ ascii "." ++ fraction ++ expo) = (d1, 46 :: (fraction ++ expo)) := by
      rw [List.append_assoc, List.append_assoc]
      exact takeDigits_append _ h1 (noDigit_of_cons (c := 46) _ (by omega))
    rw [e1]
    have e2 : ([46] : List Nat).isPrefixOf (46 :: (fraction ++ expo)) = true := by simp [List.isPrefixOf]
    dsimp only
    rw [if_pos e2, List.drop_succ_cons, List.drop_zero, takeDigits_append _ h2 hnd]
    dsimp only
    rw [if_neg, (parseSuffix_iff _ _).2 hexp, h2.length_eq]
    · rfl
    · intro hc
      simp only [Bool.and_eq_true, List.isEmpty_iff] at hc
      apply hne; rw [hc.1, hc.2]; rfl
  · have e0 : d2 = [] := (forall2_nil_iff h2).2 rfl
    subst e0
    rw [List.append_nil, List.append_nil, takeDigits_append _ h1 hnd]
    dsimp only
    simp only [hnp, Bool.false_eq_true, if_false]
    rw [if_neg, (parseSuffix_iff _ _).2 hexp]
    · rfl
    · intro hc
      simp only [Bool.and_eq_true, List.isEmpty_iff] at hc
      apply hne; rw [hc.1]; rfl

/-- A decimal literal has one value. -/
theorem decimalLiteral_unique {s : List Nat} {v w : ℚ} (h : DecimalLiteral s v) (h' : DecimalLiteral s w) : v = w := by
  obtain ⟨m, e, h1, rfl⟩ := parse_number_complete h
  obtain ⟨m', e', h1', rfl⟩ := parse_number_complete h'
  rw [h1] at h1'
  injection h1' with h1'
  injection h1' with h2 h3
  rw [h2, h3]

/-! ### Words -/

theorem upper_word (w s : List Nat) (hw : ∀ c ∈ w, 97 ≤ c ∧ c ≤ 122) :
    s.map upperAscii = w.map (· - 32) ↔ List.Forall₂ (fun l c => c = l ∨ c + 32 = l) w s := by
  induction w generalizing s with
  | nil =>
    cases s with
    | nil => exact ⟨fun _ => .nil, fun _ => rfl⟩
    | cons c s => exact ⟨fun h => by simp at h, fun h => by cases h⟩
  | cons l w ih =>
    have hl := hw l (by simp)
    cases s with
    | nil => exact ⟨fun h => by simp at h, fun h => by cases h⟩
    | cons c s =>
      rw [List.map_cons, List.map_cons, List.forall₂_cons, List.cons.injEq, ih s fun x hx => hw x (by simp [hx])]
      apply and_congr_left; intro _
      unfold upperAscii
      split
      · rename_i h; simp only [Bool.and_eq_true, decide_eq_true_eq] at h; omega
      · rename_i h; simp only [Bool.and_eq_true, decide_eq_true_eq] at h; omega

theorem parse_inf_nan_iff (f : FloatFmt) (s : List Nat) (r : Nat) :
    parse_inf_nan f s = some r ↔ ((IsWord "inf" s ∨ IsWord "infinity" s) ∧ r = f.inf) ∨ (IsWord "nan" s ∧ r = f.nan) := by
  have w1 : s.map upperAscii = [73, 78, 70] ↔ IsWord "inf" s :=
    upper_word (ascii "inf") s (by decide)
  have w2 : s.map upperAscii = [73, 78, 70, 73, 78, 73, 84, 89] ↔ IsWord "infinity" s :=
    upper_word (ascii "infinity") s (by decide)
  have w3 : s.map upperAscii = [78, 65, 78] ↔ IsWord "nan" s :=
    upper_word (ascii "nan") s (by decide)
  unfold parse_inf_nan
  rw [← w1, ← w2, ← w3]
  dsimp only
  split
  · rename_i h
    simp only [Bool.or_eq_true, beq_iff_eq] at h
    rw [Option.some.injEq]
    constructor
    · exact fun hr => .inl ⟨h, hr.symm⟩
    · rintro (⟨-, h⟩ | ⟨h3, -⟩)
      · exact h.symm
      · rw [h3] at h; simp at h
  · rename_i h
    simp only [Bool.or_eq_true, beq_iff_eq] at h
    split
    · rename_i h3
      simp only [beq_iff_eq] at h3
      rw [Option.some.injEq]
      constructor
      · exact fun hr => .inr ⟨h3, hr.symm⟩
      · rintro (⟨h', -⟩ | ⟨-, h⟩)
        · exact absurd h' h
        · exact h.symm
    · rename_i h3
      simp only [beq_iff_eq] at h3
      constructor
      · intro hr; cases hr
      · rintro (⟨h', -⟩ | ⟨h', -⟩)
        · exact absurd h' h
        · exact absurd h' h3

end Verif
