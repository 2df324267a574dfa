import Verif.Proofs.Text
/-
Integer literals: from_str_radix and the prefixes.
-/
namespace Verif
open Spec

/-- Sign and digits of a literal. -/
def Tail (radix : Nat) (r : List Nat) (v : Int) : Prop :=
  ∃ sign ∈ signs, ∃ digits n, r = ascii sign.1 ++ digits ∧ Numeral radix digits n ∧ v = sign.2 * n

theorem intLiteral_iff (s : List Nat) (v : Int) :
    IntLiteral s v ↔ ∃ pre ∈ prefixes, ∃ r, s = ascii pre.1 ++ r ∧ Tail pre.2 r v := by
  constructor
  · rintro ⟨pre, hp, sign, hs, digits, n, rfl, h⟩
    exact ⟨pre, hp, _, by rw [List.append_assoc], sign, hs, digits, n, rfl, h⟩
  · rintro ⟨pre, hp, r, rfl, sign, hs, digits, n, rfl, h⟩
    exact ⟨pre, hp, sign, hs, digits, n, by rw [List.append_assoc], h⟩

theorem isDigit_alnum {r c d : Nat} (hr : r ≤ 16) (h : IsDigit r c d) :
    (48 ≤ c ∧ c ≤ 57) ∨ (97 ≤ c ∧ c ≤ 102) ∨ (65 ≤ c ∧ c ≤ 70) := by
  unfold IsDigit at h; omega

theorem numeral_mem {r : Nat} {s : List Nat} {n : Nat} (h : Numeral r s n) :
    ∀ c ∈ s, ∃ d, IsDigit r c d := by
  obtain ⟨ds, h, h'⟩ := h
  clear h'
  induction h with
  | nil => intro c hc; cases hc
  | cons hd _ ih =>
    intro c hc
    rcases List.mem_cons.1 hc with rfl | hc
    · exact ⟨_, hd⟩
    · exact ih c hc

theorem numeral_cons {r : Nat} {s : List Nat} {n : Nat} (h : Numeral r s n) :
    ∃ c cs, s = c :: cs := by
  obtain ⟨ds, h, hne, _⟩ := h
  cases h with
  | nil => exact absurd rfl hne
  | cons _ _ => exact ⟨_, _, rfl⟩

theorem numeral_iff_horner (r : Nat) (s : List Nat) (n : Nat) (hs : s ≠ []) :
    Numeral r s n ↔ ∃ ds, List.Forall₂ (IsDigit r) s ds ∧ n = horner r ds 0 := by
  constructor
  · rintro ⟨ds, h, _, rfl⟩
    exact ⟨ds, h, by rw [horner_eq]; simp⟩
  · rintro ⟨ds, h, rfl⟩
    refine ⟨ds, h, ?_, by rw [horner_eq]; simp⟩
    rintro rfl; cases h; exact hs rfl

theorem parseDigits_numeral (t : IntTy) (hlo : t.lo ≤ 0) (hhi : 0 ≤ t.hi) (radix : Nat)
    (hr : 2 ≤ radix) (hr' : radix ≤ 16) (positive : Bool) (s : List Nat) (hs : s ≠ []) (v : Int) :
    parseDigits t radix positive s 0 = some v ↔
      (∃ n, Numeral radix s n ∧ v = (if positive then 1 else -1) * (n : Int)) ∧ t.InRange v := by
  have h0 : (0 : Int) = if positive then ((0 : Nat) : Int) else -((0 : Nat) : Int) := by
    cases positive <;> rfl
  rw [h0, parseDigits_iff t hlo hhi radix hr hr' positive s 0 v (by
    rw [← h0]; exact ⟨hlo, hhi⟩)]
  constructor
  · rintro ⟨ds, h1, h2, h3⟩
    refine ⟨⟨_, (numeral_iff_horner _ _ _ hs).2 ⟨ds, h1, rfl⟩, ?_⟩, h3⟩
    rw [h2]; cases positive <;> simp
  · rintro ⟨⟨n, h1, h2⟩, h3⟩
    obtain ⟨ds, h1', rfl⟩ := (numeral_iff_horner _ _ _ hs).1 h1
    refine ⟨ds, h1', ?_, h3⟩
    rw [h2]; cases positive <;> simp

theorem from_str_radix_iff (t : IntTy) (hlo : t.lo ≤ 0) (hhi : 0 ≤ t.hi) (radix : Nat)
    (hr : 2 ≤ radix) (hr' : radix ≤ 16) (s : List Nat) (v : Int) :
    from_str_radix t radix s = some v ↔ Tail radix s v ∧ t.InRange v := by
  have nosign : ∀ c cs n, Numeral radix (c :: cs) n → c ≠ 43 ∧ c ≠ 45 := by
    intro c cs n h
    obtain ⟨d, hd⟩ := numeral_mem h c (by simp)
    have := isDigit_alnum hr' hd
    omega
  -- all the ways to be a tail
  have tail_iff : Tail radix s v ↔
      (∃ n : Nat, Numeral radix s n ∧ v = 1 * (n : Int)) ∨
      (∃ cs, s = 43 :: cs ∧ ∃ n : Nat, Numeral radix cs n ∧ v = 1 * (n : Int)) ∨
      (∃ cs, s = 45 :: cs ∧ ∃ n : Nat, Numeral radix cs n ∧ v = -1 * (n : Int)) := by
    unfold Tail signs
    constructor
    · rintro ⟨sign, hs, digits, n, rfl, h, rfl⟩
      simp only [List.mem_cons, List.not_mem_nil, or_false] at hs
      rcases hs with rfl | rfl | rfl
      · exact .inl ⟨n, h, rfl⟩
      · exact .inr (.inl ⟨digits, rfl, n, h, rfl⟩)
      · exact .inr (.inr ⟨digits, rfl, n, h, rfl⟩)
    · rintro (⟨n, h, rfl⟩ | ⟨cs, rfl, n, h, rfl⟩ | ⟨cs, rfl, n, h, rfl⟩)
      · exact ⟨("", 1), by simp, s, n, rfl, h, rfl⟩
      · exact ⟨("+", 1), by simp, cs, n, rfl, h, rfl⟩
      · exact ⟨("-", -1), by simp, cs, n, rfl, h, rfl⟩
  rw [tail_iff]
  cases s with
  | nil =>
    rw [from_str_radix]
    simp only [reduceCtorEq, false_and, exists_const, or_false, false_iff]
    rintro ⟨⟨n, h, _⟩, _⟩
    obtain ⟨c, cs, h⟩ := numeral_cons h
    cases h
  | cons c cs =>
    have nonil : ∀ n, Numeral radix cs n → cs ≠ [] := by
      intro n h hc
      obtain ⟨_, _, h⟩ := numeral_cons h
      rw [hc] at h; cases h
    unfold from_str_radix
    dsimp only
    by_cases hplus : c = 43
    · subst hplus
      by_cases hcs : cs = []
      · subst hcs
        simp only [beq_self_eq_true, Bool.true_or, List.isEmpty_nil, Bool.and_self, if_true,
          reduceCtorEq, false_iff]
        rintro ⟨⟨n, h, _⟩ | ⟨cs, hc, n, h, _⟩ | ⟨cs, hc, n, h, _⟩, _⟩
        · exact (nosign _ _ _ h).1 rfl
        · injection hc with _ hc; subst hc; exact nonil _ h rfl
        · injection hc with hc _; omega
      · rw [if_neg (by simp [hcs]), if_pos (by rfl),
          parseDigits_numeral t hlo hhi radix hr hr' true cs hcs]
        apply and_congr_left; intro _
        constructor
        · intro h; exact .inr (.inl ⟨cs, rfl, h⟩)
        · rintro (⟨n, h, _⟩ | ⟨cs', hc, h⟩ | ⟨cs', hc, _⟩)
          · exact absurd rfl (nosign _ _ _ h).1
          · injection hc with _ hc; subst hc; exact h
          · injection hc with hc _; omega
    · by_cases hminus : c = 45
      · subst hminus
        by_cases hcs : cs = []
        · subst hcs
          simp only [beq_self_eq_true, Bool.or_true, List.isEmpty_nil, Bool.and_self, if_true,
            reduceCtorEq, false_iff]
          rintro ⟨⟨n, h, _⟩ | ⟨cs, hc, n, h, _⟩ | ⟨cs, hc, n, h, _⟩, _⟩
          · exact (nosign _ _ _ h).2 rfl
          · injection hc with hc _; omega
          · injection hc with _ hc; subst hc; exact nonil _ h rfl
        · rw [if_neg (by simp [hcs]), if_neg (by simp), if_pos (by rfl),
            parseDigits_numeral t hlo hhi radix hr hr' false cs hcs]
          apply and_congr_left; intro _
          constructor
          · intro h; exact .inr (.inr ⟨cs, rfl, h⟩)
          · rintro (⟨n, h, _⟩ | ⟨cs', hc, h⟩ | ⟨cs', hc, h⟩)
            · exact absurd rfl (nosign _ _ _ h).2
            · injection hc with hc _; omega
            · injection hc with _ hc; subst hc; exact h
      · rw [if_neg (by simp [hplus, hminus]), if_neg (by simp [hplus]), if_neg (by simp [hminus]),
          parseDigits_numeral t hlo hhi radix hr hr' true (c :: cs) (by simp)]
        apply and_congr_left; intro _
        constructor
        · intro h; exact .inl h
        · rintro (h | ⟨cs', hc, _⟩ | ⟨cs', hc, _⟩)
          · exact h
          · injection hc with hc _; exact absurd hc hplus
          · injection hc with hc _; exact absurd hc hminus

/-- In a literal without prefix every byte after the first is a decimal digit. -/
theorem tail_decimal {s : List Nat} {v : Int} (h : Tail 10 s v) :
    ∀ c cs, s = c :: cs → ∀ b ∈ cs, 48 ≤ b ∧ b ≤ 57 := by
  obtain ⟨sign, hs, digits, n, rfl, h, _⟩ := h
  have hd : ∀ b ∈ digits, 48 ≤ b ∧ b ≤ 57 := by
    intro b hb
    obtain ⟨d, h1, h2⟩ := numeral_mem h b hb
    omega
  intro c cs hc b hb
  unfold signs at hs
  simp only [List.mem_cons, List.not_mem_nil, or_false] at hs
  rcases hs with rfl | rfl | rfl
  · exact hd b (by have : digits = c :: cs := hc; rw [this]; exact List.mem_cons_of_mem _ hb)
  · have : (43 : Nat) :: digits = c :: cs := hc
    injection this with _ this; exact hd b (this ▸ hb)
  · have : (45 : Nat) :: digits = c :: cs := hc
    injection this with _ this; exact hd b (this ▸ hb)

theorem isPrefixOf_drop {p s : List Nat} (h : p.isPrefixOf s = true) :
    s = p ++ s.drop p.length := by
  obtain ⟨r, rfl⟩ := List.isPrefixOf_iff_prefix.1 h
  simp

theorem literal_split (s : List Nat) (v : Int) :
    IntLiteral s v ↔ Tail (splitPrefix s).2 (splitPrefix s).1 v := by
  rw [intLiteral_iff]
  constructor
  · rintro ⟨pre, hp, r, rfl, h⟩
    unfold prefixes at hp
    simp only [List.mem_cons, List.not_mem_nil, or_false] at hp
    rcases hp with rfl | rfl | rfl | rfl | rfl | rfl | rfl | rfl
    · have hd := tail_decimal h
      have hn : ∀ p : List Nat, (∃ a b c, p = a :: b ++ c ∧ ∃ x ∈ b, x < 48 ∨ 57 < x) →
          p.isPrefixOf r = false := by
        rintro p ⟨a, b, c, rfl, x, hx, hx'⟩
        by_contra hc
        have hc : (a :: b ++ c).isPrefixOf r = true := by simpa using hc
        have := hd a (b ++ c ++ r.drop (a :: b ++ c).length) (isPrefixOf_drop hc) x
          (by simp [hx])
        omega
      have hs : splitPrefix r = (r, 10) := by
        unfold splitPrefix
        rw [hn [49, 54, 35] ⟨49, [54, 35], [], rfl, 35, by simp, by omega⟩,
          hn [48, 120] ⟨48, [120], [], rfl, 120, by simp, by omega⟩,
          hn [48, 88] ⟨48, [88], [], rfl, 88, by simp, by omega⟩,
          hn [56, 35] ⟨56, [35], [], rfl, 35, by simp, by omega⟩,
          hn [50, 35] ⟨50, [35], [], rfl, 35, by simp, by omega⟩,
          hn [48, 98] ⟨48, [98], [], rfl, 98, by simp, by omega⟩,
          hn [48, 66] ⟨48, [66], [], rfl, 66, by simp, by omega⟩]
        rfl
      show Tail (splitPrefix r).2 (splitPrefix r).1 v
      rw [hs]; exact h
    all_goals exact h
  · intro h
    unfold splitPrefix at h
    split at h
    · exact ⟨("16#", 16), by simp [prefixes], _, isPrefixOf_drop (by assumption), h⟩
    split at h
    · rename_i hc
      rcases (Bool.or_eq_true _ _).mp hc with hc | hc
      · exact ⟨("0x", 16), by simp [prefixes], _, isPrefixOf_drop hc, h⟩
      · exact ⟨("0X", 16), by simp [prefixes], _, isPrefixOf_drop hc, h⟩
    split at h
    · exact ⟨("8#", 8), by simp [prefixes], _, isPrefixOf_drop (by assumption), h⟩
    split at h
    · rename_i hc
      rcases (Bool.or_eq_true _ _).mp hc with hc | hc
      · rcases (Bool.or_eq_true _ _).mp hc with hc | hc
        · exact ⟨("2#", 2), by simp [prefixes], _, isPrefixOf_drop hc, h⟩
        · exact ⟨("0b", 2), by simp [prefixes], _, isPrefixOf_drop hc, h⟩
      · exact ⟨("0B", 2), by simp [prefixes], _, isPrefixOf_drop hc, h⟩
    · exact ⟨("", 10), by simp [prefixes], s, rfl, h⟩

theorem splitPrefix_radix (s : List Nat) : 2 ≤ (splitPrefix s).2 ∧ (splitPrefix s).2 ≤ 16 := by
  unfold splitPrefix
  repeat' split
  all_goals simp

theorem ascii_utf8 {s : List Nat} (h : ∀ b ∈ s, b < 128) : s = utf8 (s.map Char.ofNat) := by
  induction s with
  | nil => rfl
  | cons b s ih =>
    have hb := h b (List.mem_cons_self ..)
    rw [List.map_cons, utf8_cons, ← ih fun x hx => h x (List.mem_cons_of_mem _ hx), utf8Char]
    simp only [toNat_ofNat (n := b) (by omega)]
    rw [if_pos (by omega)]; rfl

theorem tail_ascii {r : Nat} (hr : r ≤ 16) {s : List Nat} {v : Int} (h : Tail r s v) :
    ∀ b ∈ s, b < 128 := by
  obtain ⟨sign, hs, digits, n, rfl, h, _⟩ := h
  intro b hb
  rcases List.mem_append.1 hb with hb | hb
  · unfold signs at hs
    simp only [List.mem_cons, List.not_mem_nil, or_false] at hs
    rcases hs with rfl | rfl | rfl
    · cases hb
    · have : b ∈ [43] := hb
      simp at this; omega
    · have : b ∈ [45] := hb
      simp at this; omega
  · obtain ⟨d, hd⟩ := numeral_mem h b hb
    have := isDigit_alnum hr hd
    omega

/-- `string_to_int` returns exactly the values of the literals in range. -/
theorem string_to_int_iff (t : IntTy) (hlo : t.lo ≤ 0) (hhi : 0 ≤ t.hi) {mem s : List Nat}
    (h : Holds mem s) (v : Int) :
    string_to_int t (some mem) = .ok v ↔ IntLiteral s v ∧ t.InRange v := by
  unfold string_to_int
  rw [ptr_to_slice_of_holds h, Res.bind_ok]
  dsimp only
  have hr := splitPrefix_radix s
  rw [literal_split, ← from_str_radix_iff t hlo hhi _ hr.1 hr.2]
  by_cases hu : from_utf8 (splitPrefix s).1 = true
  · rw [if_pos hu, Res.unwrap_eq_ok]
  · rw [if_neg hu]
    constructor
    · intro h; cases h
    · intro hp
      exfalso; apply hu
      have ht := ((from_str_radix_iff t hlo hhi _ hr.1 hr.2 _ _).1 hp).1
      rw [from_utf8_iff]
      exact ⟨_, ascii_utf8 (tail_ascii hr.2 ht)⟩

theorem string_to_int_total (t : IntTy) {mem s : List Nat} (h : Holds mem s) :
    string_to_int t (some mem) = .panic ∨ ∃ v, string_to_int t (some mem) = .ok v := by
  unfold string_to_int
  rw [ptr_to_slice_of_holds h, Res.bind_ok]
  dsimp only
  split
  · cases from_str_radix t (splitPrefix s).2 (splitPrefix s).1 with
    | none => exact .inl rfl
    | some v => exact .inr ⟨v, rfl⟩
  · exact .inl rfl

end Verif
