import Verif.Props.Strings
/-
C49: what the writers modify.  C58: laws that connect the string functions.
-/
namespace Verif
open Spec

/-! ### C49: writers touch only the result and its terminator -/

/-- What `store` means cell by cell: the call succeeds iff the string and a terminator fit;
the buffer keeps its size, holds the string and the terminator at its front, and every cell
behind has its old value. -/
theorem C49_store (dest s out : List Nat) :
    store dest s = .ok out ↔
      s.length + 1 ≤ dest.length ∧ out.length = dest.length ∧
      (∀ i, i < s.length → out[i]? = s[i]?) ∧ out[s.length]? = some 0 ∧
      (∀ i, s.length < i → out[i]? = dest[i]?) := by
  unfold store
  constructor
  · intro h
    split at h
    · rename_i hl
      cases h
      refine ⟨hl, ?_, ?_, ?_, ?_⟩
      · simp; omega
      · intro i hi; rw [List.getElem?_append_left hi]
      · rw [List.getElem?_append_right (Nat.le_refl _)]; simp
      · intro i hi
        rw [List.getElem?_append_right (by omega)]
        obtain ⟨j, rfl⟩ : ∃ j, i = s.length + 1 + j := ⟨i - (s.length + 1), by omega⟩
        rw [show s.length + 1 + j - s.length = j + 1 by omega, List.getElem?_cons_succ,
          List.getElem?_drop]
    · cases h
  · rintro ⟨h1, h2, h3, h4, h5⟩
    rw [if_pos (by omega)]
    congr 1
    apply List.ext_getElem?
    intro i
    rcases Nat.lt_trichotomy i s.length with hi | hi | hi
    · rw [h3 i hi, List.getElem?_append_left hi]
    · subst hi
      rw [h4, List.getElem?_append_right (Nat.le_refl _)]; simp
    · rw [h5 i hi, List.getElem?_append_right (by omega)]
      obtain ⟨j, rfl⟩ : ∃ j, i = s.length + 1 + j := ⟨i - (s.length + 1), by omega⟩
      rw [show s.length + 1 + j - s.length = j + 1 by omega, List.getElem?_cons_succ,
        List.getElem?_drop]

/-- A writing call, seen as a function of its destination buffer: either no buffer makes it
succeed, or there is one string it stores into whatever buffer it is given. -/
def WritesOneString (call : List Nat → Res (List Nat)) : Prop :=
  (∀ dest out, call dest ≠ .ok out) ∨ ∃ s, ∀ dest, call dest = store dest s

theorem foldlM_not_ok (k : Codec) (items : List k.Item) (h : ∀ us, k.allUnits items ≠ .ok us)
    (d d' : Dest) :
    items.foldlM (fun d c => (k.units c) >>= fun slice => slice.foldlM Dest.put d) d ≠ .ok d' := by
  induction items generalizing d with
  | nil => exact absurd rfl (h [])
  | cons c l ih =>
    rw [List.foldlM_cons]
    intro hok
    rw [Res.bind_eq_ok] at hok
    obtain ⟨d1, h1, h2⟩ := hok
    rw [Res.bind_eq_ok] at h1
    obtain ⟨a, ha, h1⟩ := h1
    refine ih ?_ d1 h2
    intro b hb
    apply h (a ++ b)
    rw [Codec.allUnits, ha, hb]; rfl

theorem allUnits_or (k : Codec) (items : List k.Item) :
    (∃ us, k.allUnits items = .ok us) ∨ ∀ us, k.allUnits items ≠ .ok us := by
  cases h : k.allUnits items with
  | ok us => exact .inl ⟨us, rfl⟩
  | panic => exact .inr (fun us => by simp)
  | ub => exact .inr (fun us => by simp)

theorem encode_not_ok (k : Codec) (items : List k.Item) (h : ∀ us, k.allUnits items ≠ .ok us)
    (d d' : Dest) : k.encode items d ≠ .ok d' := by
  unfold Codec.encode
  intro hok
  rw [Res.bind_eq_ok] at hok
  obtain ⟨d1, h1, _⟩ := hok
  exact foldlM_not_ok k items h d d1 h1

theorem writesOneString_write (k : Codec) (items : List k.Item) :
    WritesOneString (fun dest => k.write items (some dest)) := by
  rcases allUnits_or k items with ⟨us, h⟩ | h
  · exact .inr ⟨us, fun dest => write_eq k items dest h⟩
  · refine .inl fun dest out hok => ?_
    unfold Codec.write at hok
    rw [Res.bind_eq_ok] at hok
    obtain ⟨d1, h1, hok⟩ := hok
    rw [Res.bind_eq_ok] at hok
    obtain ⟨d2, h2, _⟩ := hok
    exact encode_not_ok k items h _ _ h2

theorem writesOneString_panic : WritesOneString (fun _ => .panic) := .inl fun _ _ h => by cases h
theorem writesOneString_ub : WritesOneString (fun _ => .ub) := .inl fun _ _ h => by cases h

theorem writesOneString_bind {α : Type} (x : Res α) (f : α → List Nat → Res (List Nat))
    (h : ∀ a, WritesOneString (f a)) : WritesOneString (fun dest => x >>= fun a => f a dest) := by
  cases x with
  | ok a => exact h a
  | panic => exact writesOneString_panic
  | ub => exact writesOneString_ub

theorem writesOneString_ite (c : Prop) [Decidable c] (f g : List Nat → Res (List Nat))
    (hf : WritesOneString f) (hg : WritesOneString g) :
    WritesOneString (fun dest => if c then f dest else g dest) := by
  by_cases h : c
  · simp only [h, if_true]; exact hf
  · simp only [h, if_false]; exact hg

/-- LEFT, RIGHT, MID, INSERT, DELETE, REPLACE and WSTRING_TO_STRING, for every content of the
sources (well-formed or not) and every parameter: a successful call stores one string, fixed
by the sources and parameters, with one terminator, and leaves the rest of the buffer alone;
it stays inside the buffer iff the string and its terminator fit. -/
theorem C49_writers (p : Profile) (k : Codec) (src other : Ptr) (L P : Int) :
    WritesOneString (fun dest => left k src L (some dest)) ∧
    WritesOneString (fun dest => right k src L (some dest)) ∧
    WritesOneString (fun dest => mid p k src L P (some dest)) ∧
    WritesOneString (fun dest => insert k src other P (some dest)) ∧
    WritesOneString (fun dest => delete p k src L P (some dest)) ∧
    WritesOneString (fun dest => replace p k src other L P (some dest)) ∧
    WritesOneString (fun dest => WSTRING_TO_STRING_EXT src (some dest)) := by
  refine ⟨?_, ?_, ?_, ?_, ?_, ?_, ?_⟩
  · exact writesOneString_ite _ _ _ writesOneString_panic
      (writesOneString_bind _ _ fun items => writesOneString_ite _ _ _ writesOneString_panic
        (writesOneString_write _ _))
  · exact writesOneString_ite _ _ _ writesOneString_panic
      (writesOneString_bind _ _ fun items => writesOneString_ite _ _ _ writesOneString_panic
        (writesOneString_write _ _))
  · exact writesOneString_ite _ _ _ writesOneString_panic
      (writesOneString_bind _ _ fun items => writesOneString_ite _ _ _ writesOneString_panic
        (writesOneString_bind _ _ fun sum => writesOneString_ite _ _ _ writesOneString_panic
          (writesOneString_write _ _)))
  · exact writesOneString_bind _ _ fun items => writesOneString_ite _ _ _ writesOneString_panic
      (writesOneString_bind _ _ fun ins => writesOneString_write _ _)
  · exact writesOneString_bind _ _ fun items => writesOneString_ite _ _ _ writesOneString_panic
      (writesOneString_bind _ _ fun sum => writesOneString_ite _ _ _ writesOneString_panic
        (writesOneString_write _ _))
  · exact writesOneString_bind _ _ fun items => writesOneString_ite _ _ _ writesOneString_panic
      (writesOneString_bind _ _ fun sum => writesOneString_ite _ _ _ writesOneString_panic
        (writesOneString_bind _ _ fun repl => writesOneString_write _ _))
  · exact writesOneString_bind _ _ fun items => writesOneString_write _ _

/-- CONCAT's loop either succeeds for no buffer or appends one fixed string. -/
theorem concatLoop_writes (k : Codec) (n : Nat) (argv : List Ptr) :
    (∀ d d', concatLoop k (n + 1) argv d ≠ .ok d') ∨
    ∃ s, ∀ d, concatLoop k (n + 1) argv d =
      if s.length < d.room.length then .ok ⟨d.written ++ s, 0 :: d.room.drop (s.length + 1)⟩
      else .ub := by
  induction n generalizing argv with
  | zero =>
    cases argv with
    | nil => exact .inl fun d d' h => by cases h
    | cons a argv =>
      simp only [concatLoop]
      cases hd : k.decode a with
      | panic => exact .inl fun d d' h => by cases h
      | ub => exact .inl fun d d' h => by cases h
      | ok items =>
        rcases allUnits_or k items with ⟨us, h⟩ | h
        · refine .inr ⟨us, fun d => ?_⟩
          rw [Res.bind_ok, encode_eq k items d h]
          split <;> rfl
        · refine .inl fun d d' hok => ?_
          rw [Res.bind_ok, Res.bind_eq_ok] at hok
          obtain ⟨d2, h2, _⟩ := hok
          exact encode_not_ok k items h _ _ h2
  | succ n ih =>
    cases argv with
    | nil => exact .inl fun d d' h => by cases h
    | cons a argv =>
      have hstep : ∀ d, concatLoop k (n + 1 + 1) (a :: argv) d =
          (k.decode a >>= fun items => k.encode items d >>= fun d => concatLoop k (n + 1) argv d) :=
        fun d => rfl
      simp only [hstep]
      cases hd : k.decode a with
      | panic => exact .inl fun d d' h => by cases h
      | ub => exact .inl fun d d' h => by cases h
      | ok items =>
        rcases allUnits_or k items with ⟨us, h⟩ | h
        · rcases ih argv with h2 | ⟨s, h2⟩
          · refine .inl fun d d' hok => ?_
            rw [Res.bind_ok, Res.bind_eq_ok] at hok
            obtain ⟨d1, _, h3⟩ := hok
            exact h2 d1 d' h3
          · refine .inr ⟨us ++ s, fun d => ?_⟩
            rw [Res.bind_ok, encode_eq k items d h]
            by_cases h1 : us.length < d.room.length
            · rw [if_pos h1, Res.bind_ok, h2]
              simp only [List.length_cons, List.length_drop, List.length_append,
                List.drop_succ_cons, List.drop_drop, List.append_assoc]
              by_cases h3 : us.length + s.length < d.room.length
              · rw [if_pos (by omega), if_pos h3,
                  show us.length + 1 + s.length = us.length + s.length + 1 by omega]
              · rw [if_neg (by omega), if_neg h3]
            · rw [if_neg h1, Res.bind_ub, if_neg (by simp; omega)]
        · refine .inl fun d d' hok => ?_
          rw [Res.bind_ok, Res.bind_eq_ok] at hok
          obtain ⟨d2, h2, _⟩ := hok
          exact encode_not_ok k items h _ _ h2

/-- The same for CONCAT of at least one string. -/
theorem C49_concat (k : Codec) (argc : Int) (argv : Option (List Ptr)) (h : 1 ≤ argc) :
    WritesOneString (fun dest => concat k (some dest) argc argv) := by
  cases argv with
  | none => exact writesOneString_panic
  | some argv =>
    obtain ⟨n, hn⟩ : ∃ n, argc.toNat = n + 1 := ⟨argc.toNat - 1, by omega⟩
    simp only [concat, hn]
    rcases concatLoop_writes k n argv with h | ⟨s, h⟩
    · refine .inl fun dest out hok => ?_
      rw [Res.bind_eq_ok] at hok
      obtain ⟨d, h1, _⟩ := hok
      exact h _ _ h1
    · refine .inr ⟨s, fun dest => ?_⟩
      dsimp only
      rw [h]
      unfold store
      by_cases h1 : s.length < dest.length
      · rw [if_pos h1, if_pos h1]; rfl
      · rw [if_neg h1, if_neg h1]; rfl

/-- A concrete case: 'ab' into buffers of size 4, 3 and 2. -/
example : left codec8 (some [0x61, 0x62, 0x63, 0]) 2 (some [9, 9, 9, 9]) = .ok [0x61, 0x62, 0, 9] ∧
    left codec8 (some [0x61, 0x62, 0x63, 0]) 2 (some [9, 9, 9]) = .ok [0x61, 0x62, 0] ∧
    left codec8 (some [0x61, 0x62, 0x63, 0]) 2 (some [9, 9]) = .ub := by decide

/-! ### C58: algebra

Each law runs the functions one after the other, the result buffer of one call being the
source of the next, on any buffers large enough for the calls to succeed. -/

theorem i32_of_nat {n : Nat} (h : n < 2 ^ 31) : IntTy.i32.InRange n := by
  simp [IntTy.InRange, IntTy.lo, IntTy.hi, IntTy.i32]; omega

theorem store_ok_holds (ty : StrTy) {t : List Char} {dest out : List Nat} (ht : NoNul t)
    (h : store dest (ty.units t) = .ok out) : Holds out (ty.units t) :=
  holds_of_store h (units_ne_zero ty ht)

theorem NoNul.sub {t s : List Char} (h : NoNul t) (hs : ∀ c ∈ s, c ∈ t) : NoNul s :=
  fun c hc => h c (hs c hc)

/-- CONCAT(LEFT(s, L), RIGHT(s, LEN(s) - L)) = s. -/
theorem C58_left_right (ty : StrTy) (mem d1 d2 d3 o1 o2 : List Nat) (t : List Char) (L : Int)
    (h : Holds mem (ty.units t)) (hlen : t.length < 2 ^ 31) (h0 : 0 ≤ L) (h1 : L ≤ t.length)
    (n : Int) (hn : len (codecOf ty) (some mem) = .ok n)
    (r1 : left (codecOf ty) (some mem) L (some d1) = .ok o1)
    (r2 : right (codecOf ty) (some mem) (n - L) (some d2) = .ok o2) :
    concat (codecOf ty) (some d3) 2 (some [some o1, some o2]) = store d3 (ty.units t) := by
  have hnn : n = t.length := by
    unfold len at hn
    rw [decode_text ty h, Res.bind_ok, List.length_map, asI32_small hlen] at hn
    exact (Res.ok.inj hn).symm
  subst hnn
  have hL : IntTy.i32.InRange L := by
    simp [IntTy.InRange, IntTy.lo, IntTy.hi, IntTy.i32]; omega
  have hL' : IntTy.i32.InRange (t.length - L) := by
    simp [IntTy.InRange, IntTy.lo, IntTy.hi, IntTy.i32]; omega
  rw [C45_left ty mem d1 t L h hL, if_pos ⟨h0, h1⟩] at r1
  rw [C45_right ty mem d2 t _ h hL', if_pos (by omega)] at r2
  have hz := noNul_of_holds ty h
  have k1 := store_ok_holds ty (NoNul.sub hz fun c hc => List.mem_of_mem_take hc) r1
  have k2 := store_ok_holds ty (NoNul.sub hz fun c hc => List.mem_of_mem_drop hc) r2
  have := C48_concat ty [_, _] [some o1, some o2] [] d3 (by simp)
    ⟨⟨o1, rfl, k1⟩, ⟨o2, rfl, k2⟩, trivial⟩
  simp only [List.append_nil, List.length_cons, List.length_nil] at this
  rw [show ((0 + 1 + 1 : Nat) : Int) = 2 from rfl] at this
  rw [this]
  congr 2
  simp only [List.flatten_cons, List.flatten_nil, List.append_nil]
  rw [show t.length - (↑t.length - L).toNat = L.toNat by omega, List.take_append_drop]

/-- DELETE(INSERT(a, b, P), LEN(b), P + 1) = a, if `P + 1` is a position of INSERT(a, b, P)
(it is not when `b` is empty and `P = LEN(a)`). -/
theorem C58_delete_insert (p : Profile) (ty : StrTy) (ma mb d1 d2 o1 : List Nat)
    (a b : List Char) (P n : Int) (ha : Holds ma (ty.units a)) (hb : Holds mb (ty.units b))
    (hlen : a.length + b.length < 2 ^ 31) (hlegal : P + 1 ≤ a.length + b.length) (h0 : 0 ≤ P) (h1 : P ≤ a.length)
    (hn : len (codecOf ty) (some mb) = .ok n)
    (r1 : insert (codecOf ty) (some ma) (some mb) P (some d1) = .ok o1) :
    delete p (codecOf ty) (some o1) n (P + 1) (some d2) = store d2 (ty.units a) := by
  have hnn : n = b.length := by
    unfold len at hn
    rw [decode_text ty hb, Res.bind_ok, List.length_map, asI32_small (by omega)] at hn
    exact (Res.ok.inj hn).symm
  subst hnn
  have hP : IntTy.i32.InRange P := by
    simp [IntTy.InRange, IntTy.lo, IntTy.hi, IntTy.i32]; omega
  have hP' : IntTy.i32.InRange (P + 1) := by
    simp [IntTy.InRange, IntTy.lo, IntTy.hi, IntTy.i32]; omega
  rw [C46_insert ty ma mb d1 a b P ha hb (by omega) hP, if_pos ⟨h0, h1⟩] at r1
  have hz := noNul_of_holds ty ha
  have hzb := noNul_of_holds ty hb
  have hz1 : NoNul (a.take P.toNat ++ b ++ a.drop P.toNat) := by
    intro c hc
    simp only [List.mem_append] at hc
    rcases hc with (hc | hc) | hc
    · exact hz c (List.mem_of_mem_take hc)
    · exact hzb c hc
    · exact hz c (List.mem_of_mem_drop hc)
  have k1 := store_ok_holds ty hz1 r1
  have hl1 : (a.take P.toNat ++ b ++ a.drop P.toNat).length = a.length + b.length := by
    simp only [List.length_append, List.length_take, List.length_drop]; omega
  rw [C46_delete p ty o1 d2 _ b.length (P + 1) k1 (by omega) (i32_of_nat (by omega)) hP' (by omega),
    hl1, if_pos (by omega)]
  congr 2
  have e1 : (P + 1 - 1).toNat = (a.take P.toNat).length := by rw [List.length_take]; omega
  have e2 : (P + 1 - 1 + (b.length : Int)).toNat = (a.take P.toNat ++ b).length := by
    rw [List.length_append, List.length_take]; omega
  rw [e1, e2, List.drop_left, List.append_assoc, List.take_left, List.take_append_drop]

/-- REPLACE(a, b, L, P) = INSERT(DELETE(a, L, P), b, P - 1). -/
theorem C58_replace (p : Profile) (ty : StrTy) (ma mb d1 d2 o1 : List Nat)
    (a b : List Char) (L P : Int) (ha : Holds ma (ty.units a)) (hb : Holds mb (ty.units b))
    (hlen : a.length < 2 ^ 31) (hL0 : 0 ≤ L) (hP1 : 1 ≤ P) (hP : P ≤ a.length)
    (hLP : P - 1 + L ≤ a.length)
    (r1 : delete p (codecOf ty) (some ma) L P (some d1) = .ok o1) :
    insert (codecOf ty) (some o1) (some mb) (P - 1) (some d2) =
      replace p (codecOf ty) (some ma) (some mb) L P (some d2) := by
  have iL : IntTy.i32.InRange L := by
    simp [IntTy.InRange, IntTy.lo, IntTy.hi, IntTy.i32]; omega
  have iP : IntTy.i32.InRange P := by
    simp [IntTy.InRange, IntTy.lo, IntTy.hi, IntTy.i32]; omega
  have iP' : IntTy.i32.InRange (P - 1) := by
    simp [IntTy.InRange, IntTy.lo, IntTy.hi, IntTy.i32]; omega
  rw [C46_delete p ty ma d1 a L P ha hlen iL iP hL0, if_pos (by omega)] at r1
  rw [C46_replace p ty ma mb d2 a b L P ha hb hlen iL iP hL0, if_pos (by omega)]
  have hz := noNul_of_holds ty ha
  have hz1 : NoNul (a.take (P - 1).toNat ++ a.drop (P - 1 + L).toNat) := by
    intro c hc
    simp only [List.mem_append] at hc
    rcases hc with hc | hc
    · exact hz c (List.mem_of_mem_take hc)
    · exact hz c (List.mem_of_mem_drop hc)
  have k1 := store_ok_holds ty hz1 r1
  have hl1 : (a.take (P - 1).toNat ++ a.drop (P - 1 + L).toNat).length = a.length - L.toNat := by
    simp only [List.length_append, List.length_take, List.length_drop]; omega
  rw [C46_insert ty o1 mb d2 _ b (P - 1) k1 hb (by omega) iP', hl1, if_pos (by omega)]
  congr 2
  have e1 : (a.take (P - 1).toNat).length = (P - 1).toNat := by rw [List.length_take]; omega
  rw [List.take_left' e1, List.drop_left' e1]

/-- MID(s, L, 1) = LEFT(s, L), for a string that is not empty (on the empty string MID panics
and LEFT does not). -/
theorem C58_mid_left (p : Profile) (ty : StrTy) (mem dest : List Nat) (t : List Char) (L : Int)
    (h : Holds mem (ty.units t)) (hlen : t.length < 2 ^ 63) (hne : t ≠ [])
    (hL : IntTy.i32.InRange L) :
    mid p (codecOf ty) (some mem) L 1 (some dest) = left (codecOf ty) (some mem) L (some dest) := by
  have hpos : 0 < t.length := List.length_pos_iff.2 hne
  rw [C45_mid p ty mem dest t L 1 h hlen hL (by decide), C45_left ty mem dest t L h hL]
  simp only [Int.sub_self, Int.zero_add, Int.toNat_zero, List.drop_zero]
  by_cases h1 : 0 ≤ L ∧ L ≤ t.length
  · rw [if_pos (by omega), if_pos h1]
  · rw [if_neg (by omega), if_neg h1]

/-- LEN(CONCAT(a, b)) = LEN(a) + LEN(b). -/
theorem C58_len_concat (ty : StrTy) (ma mb dest out : List Nat) (a b : List Char)
    (ha : Holds ma (ty.units a)) (hb : Holds mb (ty.units b))
    (hlen : a.length + b.length < 2 ^ 31) (na nb : Int)
    (hna : len (codecOf ty) (some ma) = .ok na) (hnb : len (codecOf ty) (some mb) = .ok nb)
    (r : concat (codecOf ty) (some dest) 2 (some [some ma, some mb]) = .ok out) :
    len (codecOf ty) (some out) = .ok (na + nb) := by
  have hlen' : ∀ (m : List Nat) (t : List Char), Holds m (ty.units t) → t.length < 2 ^ 31 →
      len (codecOf ty) (some m) = .ok t.length := by
    intro m t hm ht
    unfold len
    rw [decode_text ty hm, Res.bind_ok, List.length_map, asI32_small ht]; rfl
  rw [hlen' ma a ha (by omega)] at hna
  rw [hlen' mb b hb (by omega)] at hnb
  cases hna; cases hnb
  have := C48_concat ty [a, b] [some ma, some mb] [] dest (by simp)
    ⟨⟨ma, rfl, ha⟩, ⟨mb, rfl, hb⟩, trivial⟩
  simp only [List.append_nil, List.length_cons, List.length_nil, List.flatten_cons,
    List.flatten_nil] at this
  rw [show ((0 + 1 + 1 : Nat) : Int) = 2 from rfl, r] at this
  have hz : NoNul (a ++ b) := by
    intro c hc
    rcases List.mem_append.1 hc with hc | hc
    · exact noNul_of_holds ty ha c hc
    · exact noNul_of_holds ty hb c hc
  have k := store_ok_holds ty hz this.symm
  rw [hlen' out _ k (by simpa using hlen)]
  simp

end Verif
