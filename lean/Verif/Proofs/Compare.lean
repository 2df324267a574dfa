import Verif.Proofs.Strings
/-
Lemmas about the comparison of slices and the order of the encoding forms.
-/
namespace Verif
open Spec

theorem cmp_lt (a b : List Nat) : cmpSlices a b = .lt ↔ a < b := by
  induction a generalizing b with
  | nil => cases b <;> simp [cmpSlices]
  | cons x a ih =>
    cases b with
    | nil => simp [cmpSlices]
    | cons y b =>
      rw [List.cons_lt_cons_iff, cmpSlices]
      by_cases h1 : x < y
      · simp [h1]
      · by_cases h2 : x > y
        · simp [h1, h2]; omega
        · have : x = y := by omega
          subst this
          simp [ih]

theorem cmp_gt (a b : List Nat) : cmpSlices a b = .gt ↔ b < a := by
  induction a generalizing b with
  | nil => cases b <;> simp [cmpSlices]
  | cons x a ih =>
    cases b with
    | nil => simp [cmpSlices]
    | cons y b =>
      rw [List.cons_lt_cons_iff, cmpSlices]
      by_cases h1 : x < y
      · simp [h1]; omega
      · by_cases h2 : x > y
        · simp [h1, h2]
        · have : x = y := by omega
          subst this
          simp [ih]

theorem cmp_eq (a b : List Nat) : cmpSlices a b = .eq ↔ a = b := by
  induction a generalizing b with
  | nil => cases b <;> simp [cmpSlices]
  | cons x a ih =>
    cases b with
    | nil => simp [cmpSlices]
    | cons y b =>
      rw [cmpSlices]
      by_cases h1 : x < y
      · simp [h1]; omega
      · by_cases h2 : x > y
        · simp [h1, h2]; omega
        · have : x = y := by omega
          subst this
          simp [ih]

/-- The pointers of `argv` hold the unit strings, one each and in order. -/
def HoldAll : List Ptr → List (List Nat) → Prop
  | [], [] => True
  | a :: argv, s :: ss => (∃ mem, a = some mem ∧ Holds mem s) ∧ HoldAll argv ss
  | _, _ => False

theorem holdAll_length {argv : List Ptr} {ss : List (List Nat)} (h : HoldAll argv ss) :
    argv.length = ss.length := by
  induction argv generalizing ss with
  | nil => cases ss with
    | nil => rfl
    | cons t ts => simp [HoldAll] at h
  | cons a argv ih => cases ss with
    | nil => simp [HoldAll] at h
    | cons t ts => simp [ih h.2]

/-- The loop compares neighbours. -/
theorem compareLoop_eq (pred : Ordering → Bool) (argv more : List Ptr) (ss : List (List Nat))
    (prev : List Nat) (h : HoldAll argv ss) :
    ∃ b, compareLoop pred ss.length prev (argv ++ more) = .ok b ∧
      (b = true ↔ List.IsChain (fun x y => pred (cmpSlices x y) = true) (prev :: ss)) := by
  induction ss generalizing argv prev with
  | nil => exact ⟨true, by simp [compareLoop], by simp⟩
  | cons s ss ih =>
    cases argv with
    | nil => simp [HoldAll] at h
    | cons a argv =>
      obtain ⟨⟨mem, rfl, hm⟩, h⟩ := h
      obtain ⟨b, hb, hiff⟩ := ih argv s h
      rw [List.length_cons, List.cons_append, compareLoop, ptr_to_slice_of_holds hm, Res.bind_ok]
      by_cases hp : pred (cmpSlices prev s) = true
      · refine ⟨b, by simp [hp, hb], ?_⟩
        rw [hiff, List.isChain_cons_cons]
        simp [hp]
      · refine ⟨false, by simp [hp], ?_⟩
        rw [List.isChain_cons_cons]
        simp [hp]

/-- For a transitive relation a chain relates every two elements. -/
theorem isChain_pairwise {α : Type} {R : α → α → Prop} (ht : ∀ x y z, R x y → R y z → R x z)
    (l : List α) : List.IsChain R l ↔ l.Pairwise R := by
  induction l with
  | nil => simp
  | cons x l ih =>
    cases l with
    | nil => simp
    | cons y l =>
      rw [List.isChain_cons_cons, ih]
      constructor
      · rintro ⟨h1, h2⟩
        refine List.pairwise_cons.2 ⟨fun z hz => ?_, h2⟩
        rcases List.mem_cons.1 hz with rfl | hz
        · exact h1
        · exact ht _ _ _ h1 ((List.pairwise_cons.1 h2).1 z hz)
      · intro h
        obtain ⟨h1, h2⟩ := List.pairwise_cons.1 h
        exact ⟨h1 y (by simp), h2⟩

theorem compare_eq (pred : Ordering → Bool) (argv more : List Ptr) (ss : List (List Nat))
    (h : HoldAll argv ss) (h2 : 2 ≤ ss.length) :
    ∃ b, compare ss.length (some (argv ++ more)) pred = .ok b ∧
      (b = true ↔ List.IsChain (fun x y => pred (cmpSlices x y) = true) ss) := by
  cases ss with
  | nil => simp at h2
  | cons s ss =>
    cases argv with
    | nil => simp [HoldAll] at h
    | cons a argv =>
      obtain ⟨⟨mem, rfl, hm⟩, h⟩ := h
      obtain ⟨b, hb, hiff⟩ := compareLoop_eq pred argv more ss s h
      refine ⟨b, ?_, hiff⟩
      unfold compare
      simp only [List.length_cons] at h2 ⊢
      rw [if_neg (by omega), List.cons_append]
      simp only
      rw [ptr_to_slice_of_holds hm, Res.bind_ok,
        show (((ss.length + 1 : Nat) : Int) - 1).toNat = ss.length by omega, hb]

/-! ### Order of the encoding forms -/

theorem utf8Char_lt {c d : Char} (h : c.toNat < d.toNat) (x y : List Nat) :
    utf8Char c ++ x < utf8Char d ++ y := by
  have hc := char_bounds c
  have hd := char_bounds d
  unfold utf8Char
  simp only
  generalize c.toNat = n at *
  generalize d.toNat = m at *
  by_cases n1 : n < 0x80
  · rw [if_pos n1]
    by_cases m1 : m < 0x80
    · rw [if_pos m1]
      simp only [List.cons_append, List.nil_append, List.cons_lt_cons_iff]; exact .inl h
    rw [if_neg m1]
    by_cases m2 : m < 0x800
    · rw [if_pos m2]
      simp only [List.cons_append, List.nil_append, List.cons_lt_cons_iff]; exact .inl (by omega)
    rw [if_neg m2]
    by_cases m3 : m < 0x10000
    · rw [if_pos m3]
      simp only [List.cons_append, List.nil_append, List.cons_lt_cons_iff]; exact .inl (by omega)
    · rw [if_neg m3]
      simp only [List.cons_append, List.nil_append, List.cons_lt_cons_iff]; exact .inl (by omega)
  rw [if_neg n1, if_neg (show ¬ m < 0x80 by omega)]
  by_cases n2 : n < 0x800
  · rw [if_pos n2]
    by_cases m2 : m < 0x800
    · rw [if_pos m2]
      simp only [List.cons_append, List.nil_append, List.cons_lt_cons_iff]
      by_cases h0 : 192 + n / 64 < 192 + m / 64
      · exact .inl h0
      · exact .inr ⟨by omega, .inl (by omega)⟩
    rw [if_neg m2]
    by_cases m3 : m < 0x10000
    · rw [if_pos m3]
      simp only [List.cons_append, List.nil_append, List.cons_lt_cons_iff]; exact .inl (by omega)
    · rw [if_neg m3]
      simp only [List.cons_append, List.nil_append, List.cons_lt_cons_iff]; exact .inl (by omega)
  rw [if_neg n2, if_neg (show ¬ m < 0x800 by omega)]
  by_cases n3 : n < 0x10000
  · rw [if_pos n3]
    by_cases m3 : m < 0x10000
    · rw [if_pos m3]
      simp only [List.cons_append, List.nil_append, List.cons_lt_cons_iff]
      by_cases h0 : 224 + n / 4096 < 224 + m / 4096
      · exact .inl h0
      refine .inr ⟨by omega, ?_⟩
      by_cases h1 : 128 + n / 64 % 64 < 128 + m / 64 % 64
      · exact .inl h1
      · exact .inr ⟨by omega, .inl (by omega)⟩
    · rw [if_neg m3]
      simp only [List.cons_append, List.nil_append, List.cons_lt_cons_iff]; exact .inl (by omega)
  rw [if_neg n3, if_neg (show ¬ m < 0x10000 by omega)]
  simp only [List.cons_append, List.nil_append, List.cons_lt_cons_iff]
  by_cases h0 : 240 + n / 262144 < 240 + m / 262144
  · exact .inl h0
  refine .inr ⟨by omega, ?_⟩
  by_cases h1 : 128 + n / 4096 % 64 < 128 + m / 4096 % 64
  · exact .inl h1
  refine .inr ⟨by omega, ?_⟩
  by_cases h2 : 128 + n / 64 % 64 < 128 + m / 64 % 64
  · exact .inl h2
  · exact .inr ⟨by omega, .inl (by omega)⟩

/-- Where UTF-16 code unit order puts a character: supplementary characters come between
U+D7FF and U+E000. -/
def key16 (c : Char) : Nat :=
  if c.toNat < 0xD800 then c.toNat
  else if c.toNat < 0x10000 then c.toNat + 0x100000
  else c.toNat - 0x10000 + 0xD800

theorem utf16Char_lt {c d : Char} (h : key16 c < key16 d) (x y : List Nat) :
    utf16Char c ++ x < utf16Char d ++ y := by
  have hc := char_bounds c
  have hd := char_bounds d
  unfold key16 at h
  unfold utf16Char
  simp only
  generalize c.toNat = n at *
  generalize d.toNat = m at *
  by_cases n1 : n < 0x10000
  · rw [if_pos n1]
    by_cases m1 : m < 0x10000
    · rw [if_pos m1]
      simp only [List.cons_append, List.nil_append, List.cons_lt_cons_iff]
      refine .inl ?_
      split at h <;> split at h <;> omega
    · rw [if_neg m1]
      simp only [List.cons_append, List.nil_append, List.cons_lt_cons_iff]
      refine .inl ?_
      split at h <;> split at h <;> omega
  · rw [if_neg n1]
    by_cases m1 : m < 0x10000
    · rw [if_pos m1]
      simp only [List.cons_append, List.nil_append, List.cons_lt_cons_iff]
      refine .inl ?_
      split at h <;> split at h <;> omega
    · rw [if_neg m1]
      simp only [List.cons_append, List.nil_append, List.cons_lt_cons_iff]
      rw [if_neg (by omega), if_neg n1, if_neg (by omega), if_neg m1] at h
      by_cases h0 : 55296 + (n - 65536) / 1024 < 55296 + (m - 65536) / 1024
      · exact .inl h0
      · exact .inr ⟨by omega, .inl (by omega)⟩

theorem key16_injective {c d : Char} (h : key16 c = key16 d) : c = d := by
  have hc := char_bounds c
  have hd := char_bounds d
  have : c.toNat = d.toNat := by
    unfold key16 at h
    generalize c.toNat = n at *
    generalize d.toNat = m at *
    (repeat' split at h) <;> omega
  rw [← ofNat_toNat c, this, ofNat_toNat]

theorem append_lt_append_left (a x y : List Nat) : a ++ x < a ++ y ↔ x < y := by
  induction a with
  | nil => rfl
  | cons u a ih => simp [ih]

theorem nil_lt_append {a : List Nat} (h : a ≠ []) (x : List Nat) : [] < a ++ x := by
  cases a with
  | nil => exact absurd rfl h
  | cons u a => simp

/-- An order-preserving, self-delimiting encoding of characters preserves lexicographic order. -/
theorem flatMap_lt_iff (enc : Char → List Nat) (key : Char → Nat)
    (hne : ∀ c, enc c ≠ [])
    (hlt : ∀ c d, key c < key d → ∀ x y, enc c ++ x < enc d ++ y)
    (hinj : ∀ c d, key c = key d → c = d) (a b : List Char) :
    a.flatMap enc < b.flatMap enc ↔ a.map key < b.map key := by
  induction a generalizing b with
  | nil =>
    cases b with
    | nil => simp
    | cons d b =>
      simp only [List.flatMap_nil, List.flatMap_cons, List.map_nil, List.map_cons]
      exact ⟨fun _ => by simp, fun _ => nil_lt_append (hne d) _⟩
  | cons c a ih =>
    cases b with
    | nil => simp
    | cons d b =>
      simp only [List.flatMap_cons, List.map_cons, List.cons_lt_cons_iff]
      rcases Nat.lt_trichotomy (key c) (key d) with h | h | h
      · exact ⟨fun _ => .inl h, fun _ => hlt c d h _ _⟩
      · have := hinj c d h
        subst this
        rw [append_lt_append_left, ih]
        simp
      · constructor
        · intro hh
          exact absurd hh (List.lt_asymm (hlt d c h _ _))
        · rintro (hh | hh)
          · omega
          · omega

theorem utf8_lt_iff (a b : List Char) :
    utf8 a < utf8 b ↔ a.map Char.toNat < b.map Char.toNat :=
  flatMap_lt_iff utf8Char Char.toNat utf8Char_ne_nil (fun _ _ h x y => utf8Char_lt h x y)
    (fun c d h => by rw [← ofNat_toNat c, h, ofNat_toNat]) a b

theorem utf16Char_ne_nil (c : Char) : utf16Char c ≠ [] := by
  unfold utf16Char; simp only; split <;> simp

theorem utf16_lt_iff (a b : List Char) :
    utf16 a < utf16 b ↔ a.map key16 < b.map key16 :=
  flatMap_lt_iff utf16Char key16 utf16Char_ne_nil (fun _ _ h x y => utf16Char_lt h x y)
    (fun _ _ h => key16_injective h) a b

end Verif
