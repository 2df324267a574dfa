import Verif.Props.Find
/-
C122: FIND together with the functions that cut and edit strings.
-/
namespace Verif
open Spec

/-- What the result of FIND on two texts tells. -/
theorem find_result (ty : StrTy) (p : Profile) (ma mb : List Nat) (a b : List Char) (n : Int)
    (ha : Holds ma (ty.units a)) (hb : Holds mb (ty.units b)) (hlen : a.length < 2 ^ 31)
    (hf : findOf ty p (some ma) (some mb) = .ok n) :
    (n = 0 ∧ (b = [] ∨ ¬ Occurs a b)) ∨ (1 ≤ n ∧ b ≠ [] ∧ FirstOccurrence a b (n - 1).toNat) := by
  by_cases h : b = [] ∨ ¬ Occurs a b
  · rw [find_not_found ty p ma mb a b ha hb h] at hf
    exact .inl ⟨(Res.ok.inj hf).symm, h⟩
  · obtain ⟨h1, h2⟩ := not_or.1 h
    obtain ⟨k, hk⟩ := firstOccurrence_exists (Classical.not_not.1 h2)
    rw [find_found ty p ma mb a b k ha hb hlen h1 hk] at hf
    have := Res.ok.inj hf
    refine .inr ⟨by omega, h1, ?_⟩
    rw [show (n - 1).toNat = k by omega]; exact hk

theorem len_text (ty : StrTy) (m : List Nat) (t : List Char) (hm : Holds m (ty.units t)) (ht : t.length < 2 ^ 31) :
    len (codecOf ty) (some m) = .ok t.length := by
  unfold len
  rw [decode_text ty hm, Res.bind_ok, List.length_map, asI32_small ht]; rfl

theorem occ_split {a b : List Char} {k : Nat} (h : b <+: a.drop k) :
    (a.drop k).take b.length = b ∧ a.take k ++ b ++ a.drop (k + b.length) = a := by
  obtain ⟨d, hd⟩ := h
  have h1 : (a.drop k).take b.length = b := by rw [← hd, List.take_left]
  refine ⟨h1, ?_⟩
  have h2 : a.drop (k + b.length) = d := by rw [← List.drop_drop, ← hd, List.drop_left]
  rw [h2, List.append_assoc, hd, List.take_append_drop]

theorem occ_len {a b : List Char} {k : Nat} (h : b <+: a.drop k) (hb : b ≠ []) : k + b.length ≤ a.length := by
  have h1 := h.length_le
  rw [List.length_drop] at h1
  have := List.length_pos_iff.2 hb
  omega

/-- What FIND found is there: MID(s, LEN(b), FIND(s, b)) = b. -/
theorem C122_mid (p : Profile) (ty : StrTy) (ma mb dest : List Nat) (a b : List Char) (n L : Int)
    (ha : Holds ma (ty.units a)) (hb : Holds mb (ty.units b)) (hla : a.length < 2 ^ 31)
    (hf : findOf ty p (some ma) (some mb) = .ok n) (hn : n ≠ 0)
    (hL : len (codecOf ty) (some mb) = .ok L) :
    mid p (codecOf ty) (some ma) L n (some dest) = store dest (ty.units b) := by
  rcases find_result ty p ma mb a b n ha hb hla hf with ⟨h0, _⟩ | ⟨h1, hne, ho, _⟩
  · exact absurd h0 hn
  have hle := occ_len ho hne
  have hbl := List.length_pos_iff.2 hne
  rw [len_text ty mb b hb (by omega)] at hL
  cases hL
  rw [C45_mid p ty ma dest a b.length n ha (by omega)
    (by simp [IntTy.InRange, IntTy.lo, IntTy.hi, IntTy.i32]; omega)
    (by simp [IntTy.InRange, IntTy.lo, IntTy.hi, IntTy.i32]; omega), if_pos (by omega)]
  rw [Int.toNat_natCast, (occ_split ho).1]

/-- The string is what is in front of the occurrence, the occurrence and what is behind it:
CONCAT(LEFT(s, n - 1), b, RIGHT(s, LEN(s) - LEN(b) - n + 1)) = s for n = FIND(s, b). -/
theorem C122_concat_parts (p : Profile) (ty : StrTy) (ma mb d1 d2 d3 o1 o2 : List Nat) (a b : List Char) (n L N : Int)
    (ha : Holds ma (ty.units a)) (hb : Holds mb (ty.units b)) (hla : a.length < 2 ^ 31)
    (hf : findOf ty p (some ma) (some mb) = .ok n) (hn : n ≠ 0)
    (hL : len (codecOf ty) (some mb) = .ok L) (hN : len (codecOf ty) (some ma) = .ok N)
    (r1 : left (codecOf ty) (some ma) (n - 1) (some d1) = .ok o1)
    (r2 : right (codecOf ty) (some ma) (N - L - n + 1) (some d2) = .ok o2) :
    concat (codecOf ty) (some d3) 3 (some [some o1, some mb, some o2]) = store d3 (ty.units a) := by
  rcases find_result ty p ma mb a b n ha hb hla hf with ⟨h0, _⟩ | ⟨h1, hne, ho, _⟩
  · exact absurd h0 hn
  have hle := occ_len ho hne
  rw [len_text ty mb b hb (by omega)] at hL
  rw [len_text ty ma a ha hla] at hN
  cases hL; cases hN
  have i1 : IntTy.i32.InRange (n - 1) := by simp [IntTy.InRange, IntTy.lo, IntTy.hi, IntTy.i32]; omega
  have i2 : IntTy.i32.InRange (a.length - b.length - n + 1) := by
    simp [IntTy.InRange, IntTy.lo, IntTy.hi, IntTy.i32]; omega
  rw [C45_left ty ma d1 a _ ha i1, if_pos (by omega)] at r1
  rw [C45_right ty ma d2 a _ ha i2, if_pos (by omega)] at r2
  have hz := noNul_of_holds ty ha
  have k1 := store_ok_holds ty (NoNul.sub hz fun c hc => List.mem_of_mem_take hc) r1
  have k2 := store_ok_holds ty (NoNul.sub hz fun c hc => List.mem_of_mem_drop hc) r2
  have := C48_concat ty [_, _, _] [some o1, some mb, some o2] [] d3 (by simp)
    ⟨⟨o1, rfl, k1⟩, ⟨mb, rfl, hb⟩, ⟨o2, rfl, k2⟩, trivial⟩
  simp only [List.append_nil, List.length_cons, List.length_nil] at this
  rw [show ((0 + 1 + 1 + 1 : Nat) : Int) = 3 from rfl] at this
  rw [this]
  congr 2
  simp only [List.flatten_cons, List.flatten_nil, List.append_nil]
  rw [show a.length - (a.length - b.length - n + 1 : Int).toNat = (n - 1).toNat + b.length by omega, ← List.append_assoc]
  exact (occ_split ho).2

/-- Replacing the occurrence by itself changes nothing; replacing it by another text `c` gives that text between the two parts. -/
theorem C122_replace (p : Profile) (ty : StrTy) (ma mb mc dest : List Nat) (a b c : List Char) (n L : Int)
    (ha : Holds ma (ty.units a)) (hb : Holds mb (ty.units b)) (hc : Holds mc (ty.units c)) (hla : a.length < 2 ^ 31)
    (hf : findOf ty p (some ma) (some mb) = .ok n) (hn : n ≠ 0)
    (hL : len (codecOf ty) (some mb) = .ok L) :
    ∃ x y, a = x ++ b ++ y ∧ (x.length : Int) = n - 1 ∧
      replace p (codecOf ty) (some ma) (some mc) L n (some dest) = store dest (ty.units (x ++ c ++ y)) ∧
      delete p (codecOf ty) (some ma) L n (some dest) = store dest (ty.units (x ++ y)) := by
  rcases find_result ty p ma mb a b n ha hb hla hf with ⟨h0, _⟩ | ⟨h1, hne, ho, _⟩
  · exact absurd h0 hn
  have hle := occ_len ho hne
  have hbl := List.length_pos_iff.2 hne
  rw [len_text ty mb b hb (by omega)] at hL
  cases hL
  have i1 : IntTy.i32.InRange n := by simp [IntTy.InRange, IntTy.lo, IntTy.hi, IntTy.i32]; omega
  have i2 : IntTy.i32.InRange b.length := by simp [IntTy.InRange, IntTy.lo, IntTy.hi, IntTy.i32]; omega
  refine ⟨a.take (n - 1).toNat, a.drop ((n - 1).toNat + b.length), (occ_split ho).2.symm, ?_, ?_, ?_⟩
  · rw [List.length_take]; omega
  · rw [C46_replace p ty ma mc dest a c _ n ha hc hla i2 i1 (by omega), if_pos (by omega),
      show (n - 1 + b.length : Int).toNat = (n - 1).toNat + b.length by omega]
  · rw [C46_delete p ty ma dest a _ n ha hla i2 i1 (by omega), if_pos (by omega),
      show (n - 1 + b.length : Int).toNat = (n - 1).toNat + b.length by omega]

theorem C122_replace_self (p : Profile) (ty : StrTy) (ma mb dest : List Nat) (a b : List Char) (n L : Int)
    (ha : Holds ma (ty.units a)) (hb : Holds mb (ty.units b)) (hla : a.length < 2 ^ 31)
    (hf : findOf ty p (some ma) (some mb) = .ok n) (hn : n ≠ 0)
    (hL : len (codecOf ty) (some mb) = .ok L) :
    replace p (codecOf ty) (some ma) (some mb) L n (some dest) = store dest (ty.units a) := by
  obtain ⟨x, y, e, _, h, _⟩ := C122_replace p ty ma mb mb dest a b b n L ha hb hb hla hf hn hL
  rw [h, ← e]

/-- A deleted occurrence can be put back: INSERT(DELETE(s, LEN(b), n), b, n - 1) = s. -/
theorem C122_delete_insert (p : Profile) (ty : StrTy) (ma mb d1 d2 o1 : List Nat) (a b : List Char) (n L : Int)
    (ha : Holds ma (ty.units a)) (hb : Holds mb (ty.units b)) (hla : a.length < 2 ^ 31)
    (hf : findOf ty p (some ma) (some mb) = .ok n) (hn : n ≠ 0)
    (hL : len (codecOf ty) (some mb) = .ok L)
    (r : delete p (codecOf ty) (some ma) L n (some d1) = .ok o1) :
    insert (codecOf ty) (some o1) (some mb) (n - 1) (some d2) = store d2 (ty.units a) := by
  obtain ⟨x, y, e, hx, _, h⟩ := C122_replace p ty ma mb mb d1 a b b n L ha hb hb hla hf hn hL
  rw [r] at h
  have hz := noNul_of_holds ty ha
  have hlen := congrArg List.length e
  simp only [List.length_append] at hlen
  have k := store_ok_holds ty (NoNul.sub hz (s := x ++ y) fun c hc => by
    rw [e]; simp only [List.mem_append] at hc ⊢; exact hc.elim (fun h => .inl (.inl h)) .inr) h.symm
  rw [C46_insert ty o1 mb d2 _ b (n - 1) k hb (by rw [List.length_append]; omega)
    (by simp [IntTy.InRange, IntTy.lo, IntTy.hi, IntTy.i32]; omega), if_pos (by rw [List.length_append]; omega)]
  rw [show (n - 1).toNat = x.length by omega, List.take_left, List.drop_left, ← e]

/-- It is the first occurrence: in front of its last character there is none. -/
theorem C122_first (p : Profile) (ty : StrTy) (ma mb d o : List Nat) (a b : List Char) (n L : Int)
    (ha : Holds ma (ty.units a)) (hb : Holds mb (ty.units b)) (hla : a.length < 2 ^ 31)
    (hf : findOf ty p (some ma) (some mb) = .ok n) (hn : n ≠ 0)
    (hL : len (codecOf ty) (some mb) = .ok L)
    (r : left (codecOf ty) (some ma) (n + L - 2) (some d) = .ok o) :
    findOf ty p (some o) (some mb) = .ok 0 := by
  rcases find_result ty p ma mb a b n ha hb hla hf with ⟨h0, _⟩ | ⟨h1, hne, ho, hmin⟩
  · exact absurd h0 hn
  have hle := occ_len ho hne
  have hbl := List.length_pos_iff.2 hne
  rw [len_text ty mb b hb (by omega)] at hL
  cases hL
  have i1 : IntTy.i32.InRange (n + b.length - 2) := by simp [IntTy.InRange, IntTy.lo, IntTy.hi, IntTy.i32]; omega
  rw [C45_left ty ma d a _ ha i1, if_pos (by omega)] at r
  have k := store_ok_holds ty (NoNul.sub (noNul_of_holds ty ha) fun c hc => List.mem_of_mem_take hc) r
  refine find_not_found ty p o mb _ b k hb (.inr ?_)
  rintro ⟨j, hj⟩
  have hlj := occ_len hj hne
  rw [List.length_take] at hlj
  refine hmin j (by omega) (hj.trans ?_)
  rw [List.drop_take]
  exact List.take_prefix _ _

theorem occurs_append {x a y b : List Char} (h : Occurs a b) : Occurs (x ++ a ++ y) b := by
  obtain ⟨k, d, hd⟩ := h
  by_cases hk : k ≤ a.length
  · refine ⟨x.length + k, d ++ y, ?_⟩
    rw [List.append_assoc, List.drop_append, List.drop_eq_nil_of_le (as := x) (by omega), List.nil_append,
      Nat.add_sub_cancel_left, List.drop_append_of_le_length hk, ← hd, List.append_assoc]
  · rw [List.drop_eq_nil_of_le (by omega)] at hd
    obtain ⟨hb, _⟩ := List.append_eq_nil_iff.1 hd
    subst hb
    exact ⟨0, List.nil_prefix⟩

/-- A text that does not occur in a string does not occur in a part of it. -/
theorem C122_absent (p : Profile) (ty : StrTy) (ma mb d o : List Nat) (a b : List Char) (L P : Int)
    (ha : Holds ma (ty.units a)) (hb : Holds mb (ty.units b)) (hla : a.length < 2 ^ 31)
    (iL : IntTy.i32.InRange L) (iP : IntTy.i32.InRange P)
    (hf : findOf ty p (some ma) (some mb) = .ok 0)
    (r : mid p (codecOf ty) (some ma) L P (some d) = .ok o ∨ left (codecOf ty) (some ma) L (some d) = .ok o ∨
      right (codecOf ty) (some ma) L (some d) = .ok o) :
    findOf ty p (some o) (some mb) = .ok 0 := by
  rcases find_result ty p ma mb a b 0 ha hb hla hf with ⟨_, h⟩ | ⟨h1, _⟩
  swap
  · omega
  have hz := noNul_of_holds ty ha
  have key : ∀ m x y, a = x ++ m ++ y → Res.ok o = store d (ty.units m) → findOf ty p (some o) (some mb) = .ok 0 := by
    intro m x y e hs
    have k := store_ok_holds ty (NoNul.sub hz (s := m) fun c hc => by
      rw [e]; simp only [List.mem_append]; exact .inl (.inr hc)) hs.symm
    refine find_not_found ty p o mb m b k hb (h.imp id fun h ho => h ?_)
    rw [e]; exact occurs_append ho
  rcases r with r | r | r
  · rw [C45_mid p ty ma d a L P ha (by omega) iL iP] at r
    split at r
    · refine key _ (a.take (P - 1).toNat) ((a.drop (P - 1).toNat).drop L.toNat) ?_ r.symm
      rw [List.append_assoc, List.take_append_drop, List.take_append_drop]
    · cases r
  · rw [C45_left ty ma d a L ha iL] at r
    split at r
    · refine key _ [] (a.drop L.toNat) ?_ r.symm
      rw [List.nil_append, List.take_append_drop]
    · cases r
  · rw [C45_right ty ma d a L ha iL] at r
    split at r
    · refine key _ (a.take (a.length - L.toNat)) [] ?_ r.symm
      rw [List.append_nil, List.take_append_drop]
    · cases r

/-- Something appended is found, not behind the place where it was appended; something that occurs stays where it is when something
is appended. -/
theorem C122_append (p : Profile) (ty : StrTy) (ma mb dest o : List Nat) (a b : List Char) (na : Int)
    (ha : Holds ma (ty.units a)) (hb : Holds mb (ty.units b)) (hla : a.length + b.length < 2 ^ 31) (hne : b ≠ [])
    (hna : len (codecOf ty) (some ma) = .ok na)
    (r : concat (codecOf ty) (some dest) 2 (some [some ma, some mb]) = .ok o) :
    (∃ n : Int, findOf ty p (some o) (some mb) = .ok n ∧ 1 ≤ n ∧ n ≤ na + 1) ∧
    ∀ (mc : List Nat) (c : List Char) (n : Int), Holds mc (ty.units c) → findOf ty p (some ma) (some mc) = .ok n → n ≠ 0 →
      findOf ty p (some o) (some mc) = .ok n := by
  rw [len_text ty ma a ha (by omega)] at hna
  cases hna
  have := C48_concat ty [a, b] [some ma, some mb] [] dest (by simp) ⟨⟨ma, rfl, ha⟩, ⟨mb, rfl, hb⟩, trivial⟩
  simp only [List.append_nil, List.length_cons, List.length_nil, List.flatten_cons, List.flatten_nil] at this
  rw [show ((0 + 1 + 1 : Nat) : Int) = 2 from rfl, r] at this
  have hz : NoNul (a ++ b) := by
    intro c hc
    rcases List.mem_append.1 hc with hc | hc
    · exact noNul_of_holds ty ha c hc
    · exact noNul_of_holds ty hb c hc
  have k := store_ok_holds ty hz this.symm
  have hl : (a ++ b).length < 2 ^ 31 := by simpa using hla
  constructor
  · have ho : b <+: (a ++ b).drop a.length := by rw [List.drop_left]; exact List.prefix_rfl
    obtain ⟨j, hj⟩ := firstOccurrence_exists ⟨a.length, ho⟩
    refine ⟨_, find_found ty p o mb _ b j k hb hl hne hj, by omega, ?_⟩
    have : j ≤ a.length := Classical.byContradiction fun hgt => hj.2 _ (by omega) ho
    omega
  · intro mc c n hc hf hn
    rcases find_result ty p ma mc a c n ha hc (by omega) hf with ⟨h0, _⟩ | ⟨h1, hcne, ho, hmin⟩
    · exact absurd h0 hn
    have hle := occ_len ho hcne
    have := find_found ty p o mc (a ++ b) c (n - 1).toNat k hc hl hcne ⟨?_, ?_⟩
    · rw [this]; congr 1; omega
    · rw [List.drop_append_of_le_length (by omega)]
      exact ho.trans (List.prefix_append _ _)
    · intro j hj hpre
      refine hmin j hj ?_
      rw [List.drop_append_of_le_length (by omega)] at hpre
      exact (List.prefix_append_right_inj [] |>.2 (List.prefix_of_prefix_length_le hpre (List.prefix_append _ _)
        (by rw [List.length_drop]; omega)))

/-- If `b` occurs in `a` and `c` occurs in `b`, then `c` occurs in `a`, and not later than at that place. -/
theorem C122_trans (p : Profile) (ty : StrTy) (ma mb mc : List Nat) (a b c : List Char) (n m : Int)
    (ha : Holds ma (ty.units a)) (hb : Holds mb (ty.units b)) (hc : Holds mc (ty.units c)) (hla : a.length < 2 ^ 31)
    (h1 : findOf ty p (some ma) (some mb) = .ok n) (hn : n ≠ 0)
    (h2 : findOf ty p (some mb) (some mc) = .ok m) (hm : m ≠ 0) :
    ∃ r : Int, findOf ty p (some ma) (some mc) = .ok r ∧ 1 ≤ r ∧ r ≤ n + m - 1 := by
  rcases find_result ty p ma mb a b n ha hb hla h1 with ⟨h0, _⟩ | ⟨hn1, hbne, ho, _⟩
  · exact absurd h0 hn
  have hle := occ_len ho hbne
  rcases find_result ty p mb mc b c m hb hc (by omega) h2 with ⟨h0, _⟩ | ⟨hm1, hcne, ho', _⟩
  · exact absurd h0 hm
  have hle' := occ_len ho' hcne
  have hocc : c <+: a.drop ((n - 1).toNat + (m - 1).toNat) := by
    obtain ⟨d, hd⟩ := ho
    rw [← List.drop_drop, ← hd, List.drop_append_of_le_length (by omega)]
    exact ho'.trans (List.prefix_append _ _)
  obtain ⟨j, hj⟩ := firstOccurrence_exists ⟨_, hocc⟩
  refine ⟨_, find_found ty p ma mc a c j ha hc hla hcne hj, by omega, ?_⟩
  have : j ≤ (n - 1).toNat + (m - 1).toNat := Classical.byContradiction fun hgt => hj.2 _ (by omega) hocc
  omega

/-- A string starts with each of its left parts. -/
theorem C122_left (p : Profile) (ty : StrTy) (ma d o : List Nat) (a : List Char) (L : Int)
    (ha : Holds ma (ty.units a)) (hla : a.length < 2 ^ 31) (iL : IntTy.i32.InRange L) (hL : L ≠ 0)
    (r : left (codecOf ty) (some ma) L (some d) = .ok o) :
    findOf ty p (some ma) (some o) = .ok 1 := by
  rw [C45_left ty ma d a L ha iL] at r
  split at r
  next h =>
    have k := store_ok_holds ty (NoNul.sub (noNul_of_holds ty ha) fun c hc => List.mem_of_mem_take hc) r
    have hne : a.take L.toNat ≠ [] := by
      apply List.length_pos_iff.1; rw [List.length_take]; omega
    exact find_found ty p ma o a _ 0 ha k hla hne ⟨by rw [List.drop_zero]; exact List.take_prefix _ _, by omega⟩
  next => cases r

/-! ### A program that removes every occurrence -/

/-- `WHILE FIND(s, b) > 0 DO s := DELETE(s, LEN(b), FIND(s, b)); END_WHILE`, at most `fuel` rounds, with the results of DELETE in a
buffer like that of `s`.  The second component tells whether the loop has ended. -/
def removeAll (p : Profile) (ty : StrTy) (b : List Nat) : Nat → List Nat → Res (List Nat × Bool)
  | 0, s => .ok (s, false)
  | fuel + 1, s => do
    let n ← findOf ty p (some s) (some b)
    if n > 0 then
      let l ← len (codecOf ty) (some b)
      let s' ← delete p (codecOf ty) (some s) l n (some s)
      removeAll p ty b fuel s'
    else pure (s, true)

/-- The loop ends: after at most LEN(s) / LEN(b) rounds, with a string that does not contain `b` any more, and never aborts or leaves
the buffer of `s`. -/
theorem C122_remove_all (p : Profile) (ty : StrTy) (mb : List Nat) (b : List Char) (hb : Holds mb (ty.units b)) (hne : b ≠ [])
    (ma : List Nat) (a : List Char) (ha : Holds ma (ty.units a)) (hla : a.length < 2 ^ 31)
    (fuel : Nat) (hfuel : a.length / b.length < fuel) :
    ∃ o t, removeAll p ty mb fuel ma = .ok (o, true) ∧ o.length = ma.length ∧ Holds o (ty.units t) ∧ ¬ Occurs t b ∧
      t.Sublist a ∧ ∃ k, t.length + k * b.length = a.length := by
  have hbl := List.length_pos_iff.2 hne
  induction fuel generalizing ma a with
  | zero => exact absurd hfuel (Nat.not_lt_zero _)
  | succ fuel ih =>
    unfold removeAll
    by_cases ho : Occurs a b
    · obtain ⟨k, hk⟩ := firstOccurrence_exists ho
      have hf := find_found ty p ma mb a b k ha hb hla hne hk
      have hle := occ_len hk.1 hne
      have hL := len_text ty mb b hb (by omega)
      obtain ⟨x, y, e, hx, _, hd⟩ := C122_replace p ty ma mb mb ma a b b _ _ ha hb hb hla hf (by omega) hL
      have hlen := congrArg List.length e
      simp only [List.length_append] at hlen
      have hroom : (ty.units (x ++ y)).length < ma.length := by
        obtain ⟨_, tail, hm⟩ := ha
        rw [hm, e]
        simp only [units_append, List.length_append, List.length_cons]; omega
      have hd' := hd
      unfold store at hd'
      rw [if_pos hroom] at hd'
      have hs := store_ok_holds ty (NoNul.sub (noNul_of_holds ty ha) (s := x ++ y) fun c hc => by
        rw [e]; simp only [List.mem_append] at hc ⊢; exact hc.elim (fun h => .inl (.inl h)) .inr) (hd.symm.trans hd')
      rw [hf, Res.bind_ok, if_pos (by omega), hL, Res.bind_ok, hd', Res.bind_ok]
      obtain ⟨o, t, h1, h2, h3, h4, h5, q, h6⟩ := ih _ (x ++ y) hs (by rw [List.length_append]; omega) (by
        have hq := Nat.add_div_right (x.length + y.length) hbl
        rw [show x.length + y.length + b.length = a.length by omega] at hq
        rw [List.length_append]; omega)
      refine ⟨o, t, h1, ?_, h3, h4, h5.trans ?_, q + 1, ?_⟩
      · rw [h2]; simp only [List.length_append, List.length_cons, List.length_drop]; omega
      · rw [e, List.append_assoc]
        exact List.Sublist.append (List.Sublist.refl x) (List.sublist_append_right b y)
      · rw [Nat.add_mul, Nat.one_mul]; rw [List.length_append] at h6; omega
    · rw [find_not_found ty p ma mb a b ha hb (.inr ho), Res.bind_ok, if_neg (by omega)]
      exact ⟨ma, a, rfl, rfl, ha, ho, List.Sublist.refl a, 0, by omega⟩

/-! ### Examples -/

/-- 'aXbXX' with 'X' removed. -/
example : removeAll .debug .STRING [0x58, 0] 6 [0x61, 0x58, 0x62, 0x58, 0x58, 0] = .ok ([0x61, 0x62, 0, 0, 0, 0], true) := by
  decide
/-- Removing can bring a new occurrence together: 'aabb' without 'ab'. -/
example : removeAll .debug .STRING [0x61, 0x62, 0] 3 [0x61, 0x61, 0x62, 0x62, 0] = .ok ([0, 0x62, 0, 0x62, 0], true) := by
  decide
example : findOf .STRING .debug (some [0x61, 0x62, 0x61, 0x62, 0]) (some [0x62, 0]) = .ok 2 := by decide
example : len codec8 (some [0x62, 0]) = .ok 1 := by decide
example : left codec8 (some [0x61, 0x62, 0x61, 0x62, 0]) 1 (some [7, 7]) = .ok [0x61, 0] := by decide
example : right codec8 (some [0x61, 0x62, 0x61, 0x62, 0]) 2 (some [7, 7, 7]) = .ok [0x61, 0x62, 0] := by decide

end Verif
