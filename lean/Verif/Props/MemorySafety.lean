import Verif.Props.StringConv
import Verif.Props.Find
import Verif.Props.StringCompare
/-
C115: the string functions and the memory they are given, for strings with any contents and all numbers.
-/
namespace Verif
open Spec

namespace Spec

/-- A call that writes to `dest` is well-behaved: it aborts the program, or leaves a string of at most `n` units, its
terminator, and everything behind it as it was. -/
def Confined (dest : List Nat) (n : Nat) (r : Res (List Nat)) : Prop :=
  r = .panic ∨ ∃ us, us.length ≤ n ∧ us.length < dest.length ∧ r = .ok (us ++ 0 :: dest.drop (us.length + 1))

/-- `mem` is memory with a terminated string of `s.length` units of 8 or 16 bits, of any contents. -/
def HoldsUnits (ty : StrTy) (mem s : List Nat) : Prop :=
  Holds mem s ∧ ∀ u ∈ s, u < (match ty with | .STRING => 256 | .WSTRING => 65536)

end Spec

/-! ### Sizes of decoded items -/

/-- `w` bounds the number of units of an item, and the items of a slice have together at most as many units as the slice. -/
private structure Weighs (k : Codec) (ok : List Nat → Prop) (w : k.Item → Nat) : Prop where
  units : ∀ c a, k.units c = .ok a → a.length ≤ w c
  noUb : ∀ c, k.units c ≠ .ub
  decode : ∀ s items, ok s → k.decodeSlice s = .ok items → (items.map w).sum ≤ s.length
  decodeNoUb : ∀ s, k.decodeSlice s ≠ .ub

private def weight8 (c : Char) : Nat := (utf8Char c).length

private def weight16 : Option Char → Nat
  | some c => (utf16Char c).length
  | none => 1

private def weight : (ty : StrTy) → (codecOf ty).Item → Nat
  | .STRING => weight8
  | .WSTRING => weight16

private def unitBound (ty : StrTy) (s : List Nat) : Prop := ∀ u ∈ s, u < (match ty with | .STRING => 256 | .WSTRING => 65536)

private theorem weighs8 : Weighs codec8 (unitBound .STRING) weight8 where
  units c a h := by
    have : a = encode_utf8 c := (Res.ok.inj h).symm
    subst this
    have key : ∀ c : Char, (encode_utf8 c).length ≤ weight8 c := fun c => by rw [encode_utf8_eq]; exact Nat.le_refl _
    exact key c
  noUb c h := by cases h
  decode s items _ h := by
    change (if from_utf8 s then Res.ok (chars s) else .panic) = .ok items at h
    split at h
    · next hv =>
      obtain ⟨t, rfl⟩ := (from_utf8_iff s).1 hv
      rw [chars_utf8] at h
      obtain rfl := Res.ok.inj h
      have key : ∀ t : List Char, (t.map weight8).sum ≤ (utf8 t).length := fun t => by
        rw [utf8, List.length_flatMap]; exact Nat.le_refl _
      exact key _
    · cases h
  decodeNoUb s h := by
    change (if from_utf8 s then Res.ok (chars s) else .panic) = .ub at h
    split at h <;> cases h

private theorem weighs16 : Weighs codec16 (unitBound .WSTRING) weight16 where
  units c a h := by
    have key : ∀ (c : Option Char) (a : List Nat), (Res.unwrap c >>= fun c => pure (encode_utf16 c)) = .ok a → a.length ≤ weight16 c := by
      intro c a h
      cases c with
      | none => cases h
      | some c =>
        have : a = encode_utf16 c := (Res.ok.inj h).symm
        rw [this, encode_utf16_eq]; exact Nat.le_refl _
    exact key c a h
  noUb c h := by
    have key : ∀ (c : Option Char), (Res.unwrap c >>= fun c => pure (encode_utf16 c)) ≠ .ub := by
      intro c h; cases c <;> cases h
    exact key c h
  decode s items hs h := by
    have h' : decode_utf16 s = items := Res.ok.inj h
    obtain ⟨es, he⟩ := elements_exist s hs
    rw [decode_elements he] at h'
    subst h'
    have key : ∀ es : List W16, ((es.map W16.toOption).map weight16).sum ≤ (es.flatMap W16.units).length := by
      intro es
      rw [List.length_flatMap, List.map_map]
      refine Nat.le_of_eq (congrArg _ (List.map_congr_left fun e _ => ?_))
      cases e <;> rfl
    rw [he.units]
    exact key es
  decodeNoUb s h := by cases h

private theorem weighs : (ty : StrTy) → Weighs (codecOf ty) (unitBound ty) (weight ty)
  | .STRING => weighs8
  | .WSTRING => weighs16

private theorem fold_panic {k : Codec} {ok : List Nat → Prop} {w : k.Item → Nat} (W : Weighs k ok w) :
    ∀ (items : List k.Item) (d : Dest), k.allUnits items = .panic → (items.map w).sum ≤ d.room.length →
      items.foldlM (fun d c => (k.units c) >>= fun slice => slice.foldlM Dest.put d) d = .panic := by
  intro items
  induction items with
  | nil => intro d h; simp [Codec.allUnits] at h
  | cons c l ih =>
    intro d h hr
    rw [List.foldlM_cons]
    rw [Codec.allUnits] at h
    rw [List.map_cons, List.sum_cons] at hr
    cases hc : k.units c with
    | panic => rfl
    | ub => exact absurd hc (W.noUb c)
    | ok a =>
      rw [hc, Res.bind_ok] at h
      have ha := W.units c a hc
      rw [Res.bind_ok, put_all, if_pos (by omega), Res.bind_ok]
      apply ih
      · cases hl : k.allUnits l with
        | panic => rfl
        | ub => rw [hl] at h; simp at h
        | ok b => rw [hl] at h; simp at h
      · simp only [List.length_drop]; omega

private theorem allUnits_weight {k : Codec} {ok : List Nat → Prop} {w : k.Item → Nat} (W : Weighs k ok w) (items : List k.Item) :
    k.allUnits items = .panic ∨ ∃ us, k.allUnits items = .ok us ∧ us.length ≤ (items.map w).sum := by
  induction items with
  | nil => exact .inr ⟨[], rfl, by simp⟩
  | cons c l ih =>
    rw [Codec.allUnits]
    cases hc : k.units c with
    | panic => exact .inl rfl
    | ub => exact absurd hc (W.noUb c)
    | ok a =>
      rcases ih with h | ⟨us, h, hl⟩
      · rw [h]; exact .inl rfl
      · rw [h]
        refine .inr ⟨a ++ us, rfl, ?_⟩
        have := W.units c a hc
        rw [List.length_append, List.map_cons, List.sum_cons]; omega

/-- Encoding items whose units fit never leaves the destination. -/
private theorem encode_safe {k : Codec} {ok : List Nat → Prop} {w : k.Item → Nat} (W : Weighs k ok w) (items : List k.Item) (d : Dest)
    (h : (items.map w).sum < d.room.length) :
    k.encode items d = .panic ∨ ∃ us, us.length ≤ (items.map w).sum ∧
      k.encode items d = .ok ⟨d.written ++ us, 0 :: d.room.drop (us.length + 1)⟩ := by
  rcases allUnits_weight W items with hp | ⟨us, hu, hl⟩
  · left
    unfold Codec.encode
    rw [fold_panic W items d hp (by omega)]
    rfl
  · right
    refine ⟨us, hl, ?_⟩
    rw [encode_eq k items d hu, if_pos (by omega)]

private theorem write_safe {k : Codec} {ok : List Nat → Prop} {w : k.Item → Nat} (W : Weighs k ok w) (items : List k.Item)
    (dest : List Nat) (n : Nat) (hn : (items.map w).sum ≤ n) (h : n < dest.length) : Confined dest n (k.write items (some dest)) := by
  unfold Codec.write openDest
  rw [Res.bind_ok]
  rcases encode_safe W items ⟨[], dest⟩ (by simpa using Nat.lt_of_le_of_lt hn h) with hp | ⟨us, hl, hu⟩
  · rw [hp]; exact .inl rfl
  · rw [hu]
    exact .inr ⟨us, by omega, by omega, by simp [Dest.mem]⟩

private theorem decode_safe (ty : StrTy) {mem s : List Nat} (h : HoldsUnits ty mem s) :
    (codecOf ty).decode (some mem) = .panic ∨ ∃ items, (codecOf ty).decode (some mem) = .ok items ∧
      (items.map (weight ty)).sum ≤ s.length := by
  unfold Codec.decode
  rw [ptr_to_slice_of_holds h.1, Res.bind_ok]
  cases hd : (codecOf ty).decodeSlice s with
  | panic => exact .inl rfl
  | ub => exact absurd hd ((weighs ty).decodeNoUb s)
  | ok items => exact .inr ⟨items, rfl, (weighs ty).decode s items h.2 hd⟩

private theorem sum_take_drop {α : Type} (f : α → Nat) (l : List α) (n : Nat) :
    ((l.take n).map f).sum + ((l.drop n).map f).sum = (l.map f).sum := by
  rw [← List.sum_append, ← List.map_append, List.take_append_drop]

private theorem sum_drop_le {α : Type} (f : α → Nat) (l : List α) {m n : Nat} (h : m ≤ n) :
    ((l.drop n).map f).sum ≤ ((l.drop m).map f).sum := by
  have := sum_take_drop f (l.drop m) (n - m)
  rw [List.drop_drop, show m + (n - m) = n by omega] at this
  omega

/-! ### Writing -/

/-- **C115**, LEFT, RIGHT and MID with any numbers, of a string with any contents: a destination with room for the source
is never overrun. -/
theorem C115_select (p : Profile) (ty : StrTy) (mem s dest : List Nat) (h : HoldsUnits ty mem s) (hd : s.length < dest.length)
    (L P : Int) :
    Confined dest s.length (left (codecOf ty) (some mem) L (some dest)) ∧
    Confined dest s.length (right (codecOf ty) (some mem) L (some dest)) ∧
    Confined dest s.length (mid p (codecOf ty) (some mem) L P (some dest)) := by
  unfold left right mid
  by_cases hL : L < 0
  · simp only [hL, if_true]; exact ⟨.inl rfl, .inl rfl, .inl rfl⟩
  simp only [hL, if_false]
  rcases decode_safe ty h with he | ⟨items, he, hw⟩
  · rw [he]; exact ⟨.inl rfl, .inl rfl, .inl rfl⟩
  rw [he]
  simp only [Res.bind_ok]
  have hw' : ∀ n, ((items.take n).map (weight ty)).sum ≤ s.length ∧ ((items.drop n).map (weight ty)).sum ≤ s.length := by
    intro n; have := sum_take_drop (weight ty) items n; omega
  refine ⟨?_, ?_, ?_⟩
  · split
    · exact .inl rfl
    · exact write_safe (weighs ty) _ _ _ (hw' _).1 hd
  · split
    · exact .inl rfl
    · exact write_safe (weighs ty) _ _ _ (hw' _).2 hd
  · split
    · exact .inl rfl
    · unfold IntTy.arith
      have fin : ∀ x : Int, Confined dest s.length (if (items.length : Int) < x then .panic
          else (codecOf ty).write ((items.drop (asUsize P - 1)).take (asUsize L)) (some dest)) := by
        intro x
        split
        · exact .inl rfl
        · refine write_safe (weighs ty) _ _ _ ?_ hd
          have := sum_take_drop (weight ty) (items.drop (asUsize P - 1)) (asUsize L)
          have := (hw' (asUsize P - 1)).2
          omega
      split
      · exact fin _
      · cases p
        · exact .inl rfl
        · exact fin _

/-- **C115**, INSERT with any position: the units of both strings suffice. -/
theorem C115_insert (ty : StrTy) (mem mem' s s' dest : List Nat) (h : HoldsUnits ty mem s) (h' : HoldsUnits ty mem' s')
    (hd : s.length + s'.length < dest.length) (P : Int) :
    Confined dest (s.length + s'.length) (insert (codecOf ty) (some mem) (some mem') P (some dest)) := by
  unfold insert
  rcases decode_safe ty h with he | ⟨items, he, hw⟩
  · rw [he]; exact .inl rfl
  rw [he, Res.bind_ok]
  dsimp only
  split
  · exact .inl rfl
  rcases decode_safe ty h' with he' | ⟨items', he', hw'⟩
  · rw [he']; exact .inl rfl
  rw [he', Res.bind_ok]
  refine write_safe (weighs ty) _ _ _ ?_ hd
  have := sum_take_drop (weight ty) items (asUsize P)
  simp only [List.map_append, List.sum_append]
  omega

/-- **C115**, DELETE and REPLACE with a length that is not negative, or in debug builds: the units of the source (of both
strings) suffice. -/
theorem C115_delete_replace_partial (p : Profile) (ty : StrTy) (mem mem' s s' dest : List Nat) (h : HoldsUnits ty mem s)
    (h' : HoldsUnits ty mem' s') (L P : Int) (hLi : IntTy.i32.InRange L) (hPi : IntTy.i32.InRange P) (hL : 0 ≤ L ∨ p = .debug) :
    (s.length < dest.length → Confined dest s.length (delete p (codecOf ty) (some mem) L P (some dest))) ∧
    (s.length + s'.length < dest.length →
      Confined dest (s.length + s'.length) (replace p (codecOf ty) (some mem) (some mem') L P (some dest))) := by
  have hb := i32_bounds hLi
  have hb' := i32_bounds hPi
  unfold delete replace
  rcases decode_safe ty h with he | ⟨items, he, hw⟩
  · rw [he]; exact ⟨fun _ => .inl rfl, fun _ => .inl rfl⟩
  rw [he, Res.bind_ok, Res.bind_ok]
  dsimp only
  by_cases hc : (decide (P < 1) || decide (P > asI32 ↑items.length)) = true
  · rw [if_pos hc, if_pos hc]; exact ⟨fun _ => .inl rfl, fun _ => .inl rfl⟩
  rw [if_neg hc, if_neg hc]
  simp only [Bool.or_eq_true, decide_eq_true_eq, not_or] at hc
  have e1 : asUsize P = P.toNat := asUsize_nonneg (by omega) (by omega)
  have e2 : asUsize (P - 1) = P.toNat - 1 := by rw [asUsize_nonneg (by omega) (by omega)]; omega
  rw [e1, e2]
  have hk31 : P.toNat - 1 < 2 ^ 31 := by omega
  generalize hn : asUsize L = n
  generalize P.toNat - 1 = k at *
  have hsum : IntTy.u64.arith p ((n : Int) + (k : Int)) = .panic ∨
      IntTy.u64.arith p ((n : Int) + (k : Int)) = .ok ((n : Int) + (k : Int)) := by
    unfold IntTy.arith
    split
    · exact .inr rfl
    · next hr =>
      cases p
      · exact .inl rfl
      · exfalso
        have h0 : 0 ≤ L := by simpa using hL
        rw [asUsize_nonneg h0 (by omega)] at hn
        apply hr
        simp [IntTy.InRange, IntTy.lo, IntTy.hi, IntTy.u64]
        omega
  rcases hsum with hs | hs
  · rw [hs]; exact ⟨fun _ => .inl rfl, fun _ => .inl rfl⟩
  rw [hs, Res.bind_ok, Res.bind_ok]
  have hk := sum_take_drop (weight ty) items k
  have hk' := sum_drop_le (weight ty) items (show k ≤ ((n : Int) + (k : Int)).toNat by omega)
  split
  · exact ⟨fun _ => .inl rfl, fun _ => .inl rfl⟩
  constructor
  · intro hd
    refine write_safe (weighs ty) _ _ _ ?_ hd
    simp only [List.map_append, List.sum_append]
    omega
  · intro hd
    rcases decode_safe ty h' with he' | ⟨items', he', hw'⟩
    · rw [he']; exact .inl rfl
    rw [he', Res.bind_ok]
    refine write_safe (weighs ty) _ _ _ ?_ hd
    simp only [List.map_append, List.sum_append]
    omega

/-- **C115 is false of the code** for DELETE and REPLACE with a negative length in release builds: DELETE('ab', -1, 2) writes
'aab', which overruns a destination of the size of the source.  The same for REPLACE and for WSTRING. -/
theorem C115_refuted :
    HoldsUnits .STRING [0x61, 0x62, 0] [0x61, 0x62] ∧ HoldsUnits .WSTRING [0x61, 0x62, 0] [0x61, 0x62] ∧
    delete .release codec8 (some [0x61, 0x62, 0]) (-1) 2 (some [9, 9, 9]) = .ub ∧
    delete .release codec16 (some [0x61, 0x62, 0]) (-1) 2 (some [9, 9, 9]) = .ub ∧
    replace .release codec8 (some [0x61, 0x62, 0]) (some [0]) (-1) 2 (some [9, 9, 9]) = .ub ∧
    replace .release codec16 (some [0x61, 0x62, 0]) (some [0]) (-1) 2 (some [9, 9, 9]) = .ub := by
  refine ⟨⟨⟨by decide, [], rfl⟩, by decide⟩, ⟨⟨by decide, [], rfl⟩, by decide⟩, ?_⟩
  decide

/-- **C115**, DELETE and REPLACE with any length in any build: twice the units of the source (and those of the replacement)
suffice. -/
theorem C115_delete_replace_any_partial (p : Profile) (ty : StrTy) (mem mem' s s' dest : List Nat) (h : HoldsUnits ty mem s)
    (h' : HoldsUnits ty mem' s') (L P : Int) :
    (2 * s.length < dest.length → Confined dest (2 * s.length) (delete p (codecOf ty) (some mem) L P (some dest))) ∧
    (2 * s.length + s'.length < dest.length →
      Confined dest (2 * s.length + s'.length) (replace p (codecOf ty) (some mem) (some mem') L P (some dest))) := by
  unfold delete replace
  rcases decode_safe ty h with he | ⟨items, he, hw⟩
  · rw [he]; exact ⟨fun _ => .inl rfl, fun _ => .inl rfl⟩
  rw [he, Res.bind_ok, Res.bind_ok]
  dsimp only
  have hsum : ∀ x, IntTy.u64.arith p x = .panic ∨ ∃ y, IntTy.u64.arith p x = .ok y := by
    intro x
    unfold IntTy.arith
    split
    · exact .inr ⟨_, rfl⟩
    · cases p
      · exact .inl rfl
      · exact .inr ⟨_, rfl⟩
  by_cases hc : (decide (P < 1) || decide (P > asI32 ↑items.length)) = true
  · rw [if_pos hc, if_pos hc]; exact ⟨fun _ => .inl rfl, fun _ => .inl rfl⟩
  rw [if_neg hc, if_neg hc]
  have hbnd : ∀ k n, ((items.take k).map (weight ty)).sum + ((items.drop n).map (weight ty)).sum ≤ 2 * s.length := by
    intro k n
    have h1 := sum_take_drop (weight ty) items k
    have h2 := sum_take_drop (weight ty) items n
    omega
  constructor
  · intro hd
    rcases hsum (((asUsize L : Nat) : Int) + ((asUsize P - 1 : Nat) : Int)) with hs | ⟨y, hs⟩
    · rw [hs]; exact .inl rfl
    rw [hs, Res.bind_ok]
    split
    · exact .inl rfl
    refine write_safe (weighs ty) _ _ _ ?_ hd
    simp only [List.map_append, List.sum_append]
    exact hbnd _ _
  · intro hd
    rcases hsum (((asUsize L : Nat) : Int) + ((asUsize (P - 1) : Nat) : Int)) with hs | ⟨y, hs⟩
    · rw [hs]; exact .inl rfl
    rw [hs, Res.bind_ok]
    split
    · exact .inl rfl
    rcases decode_safe ty h' with he' | ⟨items', he', hw'⟩
    · rw [he']; exact .inl rfl
    rw [he', Res.bind_ok]
    refine write_safe (weighs ty) _ _ _ ?_ hd
    simp only [List.map_append, List.sum_append]
    have := hbnd (asUsize (P - 1)) y.toNat
    omega

/-- The arguments `argv` of a variadic function point to terminated strings `ss` of any contents. -/
def HoldAllUnits (ty : StrTy) (argv : List Ptr) (ss : List (List Nat)) : Prop :=
  List.Forall₂ (fun a s => ∃ mem, a = some mem ∧ HoldsUnits ty mem s) argv ss

private theorem concatLoop_safe (ty : StrTy) (argv more : List Ptr) (ss : List (List Nat)) (h : HoldAllUnits ty argv ss) :
    ∀ w r : List Nat, (ss.map List.length).sum < r.length →
    concatLoop (codecOf ty) argv.length (argv ++ more) ⟨w, r⟩ = .panic ∨ ∃ us, us.length ≤ (ss.map List.length).sum ∧
      (concatLoop (codecOf ty) argv.length (argv ++ more) ⟨w, r⟩ = .ok ⟨w ++ us, r.drop us.length⟩ ∧ argv = [] ∨
       concatLoop (codecOf ty) argv.length (argv ++ more) ⟨w, r⟩ = .ok ⟨w ++ us, 0 :: r.drop (us.length + 1)⟩ ∧ argv ≠ []) := by
  induction h with
  | nil => intro w r _; exact .inr ⟨[], by simp, .inl ⟨by simp [concatLoop], rfl⟩⟩
  | @cons a s argv ss ha hl ih =>
    obtain ⟨mem, rfl, hm⟩ := ha
    intro w r hr
    rw [List.map_cons, List.sum_cons] at hr
    rw [List.length_cons, List.cons_append, concatLoop]
    rcases decode_safe ty hm with he | ⟨items, he, hw⟩
    · rw [he]; exact .inl rfl
    rw [he, Res.bind_ok]
    rcases encode_safe (weighs ty) items ⟨w, r⟩ (by show _ < r.length; omega) with hp | ⟨us, hus, hu⟩
    · rw [hp]; exact .inl rfl
    rw [hu, Res.bind_ok]
    have hlen : (0 :: r.drop (us.length + 1)).length = r.length - us.length := by
      rw [List.length_cons, List.length_drop]; omega
    rcases ih (w ++ us) (0 :: r.drop (us.length + 1)) (by rw [hlen]; omega) with hp | ⟨vs, hvs, hv⟩
    · rw [hp]; exact .inl rfl
    right
    refine ⟨us ++ vs, by rw [List.length_append, List.map_cons, List.sum_cons]; omega, .inr ⟨?_, by simp⟩⟩
    rcases hv with ⟨hv, rfl⟩ | ⟨hv, -⟩
    · cases hl
      obtain rfl : vs = [] := by simpa using hvs
      rw [hv]; simp
    · rw [hv]
      cases hvl : vs with
      | nil => simp
      | cons v vs' =>
        congr 2
        · simp
        · rw [List.drop_succ_cons, List.drop_drop]; congr 2; simp; omega

/-- **C115**, CONCAT of any number of strings: the units of all of them suffice. -/
theorem C115_concat (ty : StrTy) (argv more : List Ptr) (ss : List (List Nat)) (h : HoldAllUnits ty argv ss) (hne : ss ≠ [])
    (dest : List Nat) (hd : (ss.map List.length).sum < dest.length) :
    Confined dest (ss.map List.length).sum (concat (codecOf ty) (some dest) argv.length (some (argv ++ more))) := by
  unfold concat
  dsimp only
  rw [Int.toNat_natCast]
  rcases concatLoop_safe ty argv more ss h [] dest hd with hp | ⟨us, hus, hu⟩
  · rw [hp]; exact .inl rfl
  rcases hu with ⟨-, rfl⟩ | ⟨hu, -⟩
  · cases h; exact absurd rfl hne
  · rw [hu]; exact .inr ⟨us, hus, by omega, by simp [Dest.mem]⟩

private theorem utf_lengths (c : Char) :
    (utf16Char c).length ≤ (utf8Char c).length ∧ (utf8Char c).length ≤ 3 * (utf16Char c).length := by
  unfold utf8Char utf16Char
  dsimp only
  repeat' split
  all_goals simp only [List.length_cons, List.length_nil]; omega

private theorem sum_le_mul {α : Type} (f g : α → Nat) (k : Nat) (hfg : ∀ a, f a ≤ k * g a) :
    ∀ l : List α, (l.map f).sum ≤ k * (l.map g).sum
  | [] => by simp
  | a :: l => by
    have := sum_le_mul f g k hfg l
    have := hfg a
    rw [List.map_cons, List.sum_cons, List.map_cons, List.sum_cons, Nat.mul_add]
    omega

private theorem put_chars : ∀ (t : List Char) (w r : List Nat), (t.map fun c => (utf16Char c).length).sum ≤ r.length →
    t.foldlM (fun d c => (encode_utf16 c).foldlM Dest.put d) (⟨w, r⟩ : Dest) =
      .ok ⟨w ++ utf16 t, r.drop (utf16 t).length⟩
  | [], w, r, _ => by simp [utf16]
  | c :: t, w, r, h => by
    rw [List.map_cons, List.sum_cons] at h
    rw [List.foldlM_cons, encode_utf16_eq, put_all, if_pos (by show _ ≤ r.length; omega), Res.bind_ok,
      put_chars t _ _ (by simp only [List.length_drop]; omega)]
    simp [utf16]

/-- **C115**, the conversions: as many 16-bit units as the STRING has bytes, and three times as many bytes as the WSTRING has
units, suffice. -/
theorem C115_convert (mem s dest : List Nat) :
    (HoldsUnits .WSTRING mem s → 3 * s.length < dest.length →
      Confined dest (3 * s.length) (WSTRING_TO_STRING_EXT (some mem) (some dest))) ∧
    (HoldsUnits .STRING mem s → s.length ≤ dest.length →
      STRING_TO_WSTRING_EXT (some mem) (some dest) = .panic ∨ ∃ us, us.length ≤ s.length ∧
        STRING_TO_WSTRING_EXT (some mem) (some dest) = .ok (us ++ dest.drop us.length)) := by
  constructor
  · intro h hd
    unfold WSTRING_TO_STRING_EXT
    have hsafe : codec16.decode (some mem) = .panic ∨ ∃ items : List codec16.Item, codec16.decode (some mem) = .ok items ∧
      (items.map (weight .WSTRING)).sum ≤ s.length := decode_safe .WSTRING h
    rcases hsafe with he | ⟨items, he, hw⟩
    · exact .inl (by rw [he]; rfl)
    · rw [he, Res.bind_ok]
      refine write_safe weighs8 _ _ _ ?_ hd
      have key : ∀ items : List (Option Char), (items.map weight16).sum ≤ s.length →
          ((items.map fun c => c.getD (Char.ofNat 0xFFFD)).map weight8).sum ≤ 3 * s.length := by
        intro items hw
        rw [List.map_map]
        have := sum_le_mul (weight8 ∘ fun c : Option Char => c.getD (Char.ofNat 0xFFFD)) weight16 3 (by
          intro c
          cases c with
          | none => decide
          | some c => exact (utf_lengths c).2) items
        omega
      exact key items hw
  · intro h hd
    unfold STRING_TO_WSTRING_EXT
    have hsafe : codec8.decode (some mem) = .panic ∨ ∃ items : List codec8.Item, codec8.decode (some mem) = .ok items ∧
      (items.map (weight .STRING)).sum ≤ s.length := decode_safe .STRING h
    rcases hsafe with he | ⟨items, he, hw⟩
    · exact .inl (by rw [he]; rfl)
    · rw [he, Res.bind_ok]
      have key : ∀ items : List Char, (items.map weight8).sum ≤ s.length →
          ∃ us : List Nat, us.length ≤ s.length ∧ (do
            let d ← openDest (some dest)
            let d ← items.foldlM (fun d c => (encode_utf16 c).foldlM Dest.put d) d
            pure d.mem) = Res.ok (us ++ dest.drop us.length) := by
        intro items hw
        have h1 := sum_le_mul (fun c => (utf16Char c).length) weight8 1 (by
          intro c; rw [Nat.one_mul]; exact (utf_lengths c).1) items
        have h2 : (utf16 items).length = (items.map fun c => (utf16Char c).length).sum := by
          rw [utf16, List.length_flatMap]
        refine ⟨utf16 items, by omega, ?_⟩
        rw [openDest, Res.bind_ok, put_chars items [] dest (by omega), Res.bind_ok]
        simp [Dest.mem]
      exact .inr (key items hw)

/-! ### Reading -/

private theorem decode_same (k : Codec) {m₁ m₂ s : List Nat} (h₁ : Holds m₁ s) (h₂ : Holds m₂ s) :
    k.decode (some m₁) = k.decode (some m₂) := by
  unfold Codec.decode
  rw [ptr_to_slice_of_holds h₁, ptr_to_slice_of_holds h₂]

private theorem arith_noUb (t : IntTy) (p : Profile) (x : Int) : t.arith p x ≠ .ub := by
  unfold IntTy.arith
  split
  · exact fun h => by cases h
  · cases p <;> exact fun h => by cases h

/-- **C115**, LEN, FIND and `<>` of terminated strings read nothing else. -/
theorem C115_read (p : Profile) (ty : StrTy) (mem mem' s s' : List Nat) (h : HoldsUnits ty mem s) (h' : HoldsUnits ty mem' s') :
    len (codecOf ty) (some mem) ≠ .ub ∧
    (match ty with | .STRING => FIND__STRING | .WSTRING => FIND__WSTRING) p (some mem) (some mem') ≠ .ub ∧
    NE (some mem) (some mem') ≠ .ub := by
  refine ⟨?_, ?_, ?_⟩
  · unfold len
    rcases decode_safe ty h with he | ⟨items, he, -⟩ <;> rw [he] <;> exact fun hc => by cases hc
  · cases ty
    · show FIND__STRING p (some mem) (some mem') ≠ .ub
      unfold FIND__STRING
      rw [ptr_to_slice_of_holds h.1, ptr_to_slice_of_holds h'.1, Res.bind_ok, Res.bind_ok]
      split
      · exact fun hc => by cases hc
      · split
        · next idx _ =>
          cases hd : codec8.decodeSlice (s.take idx) with
          | panic => exact fun hc => by cases hc
          | ub => exact absurd hd (weighs8.decodeNoUb _)
          | ok items => rw [Res.bind_ok]; exact arith_noUb _ _ _
        · exact fun hc => by cases hc
    · show FIND__WSTRING p (some mem) (some mem') ≠ .ub
      unfold FIND__WSTRING
      rw [ptr_to_slice_of_holds h.1, ptr_to_slice_of_holds h'.1, Res.bind_ok, Res.bind_ok]
      split
      · exact fun hc => by cases hc
      · split
        · next idx _ =>
          cases hd : codec16.decodeSlice (s.take idx) with
          | panic => exact fun hc => by cases hc
          | ub => exact absurd hd (weighs16.decodeNoUb _)
          | ok items => rw [Res.bind_ok]; exact arith_noUb _ _ _
        · exact fun hc => by cases hc
  · unfold NE
    rw [ptr_to_slice_of_holds h.1, ptr_to_slice_of_holds h'.1]
    exact fun hc => by cases hc

/-- **C115**, the comparisons of any number of terminated strings read nothing else. -/
theorem C115_compare (ty : StrTy) (argv more : List Ptr) (ss : List (List Nat)) (h : HoldAllUnits ty argv ss) :
    GT argv.length (some (argv ++ more)) ≠ .ub ∧ GE argv.length (some (argv ++ more)) ≠ .ub ∧
    EQ argv.length (some (argv ++ more)) ≠ .ub ∧ LE argv.length (some (argv ++ more)) ≠ .ub ∧
    LT argv.length (some (argv ++ more)) ≠ .ub := by
  have loop : ∀ (f : Ordering → Bool) (argv : List Ptr) (ss : List (List Nat)), HoldAllUnits ty argv ss →
      ∀ prev, compareLoop f argv.length prev (argv ++ more) ≠ .ub := by
    intro f argv ss h
    induction h with
    | nil => intro prev hc; cases hc
    | cons ha _ ih =>
      obtain ⟨mem, rfl, hm⟩ := ha
      intro prev
      rw [List.length_cons, List.cons_append, compareLoop, ptr_to_slice_of_holds hm.1, Res.bind_ok]
      split
      · exact fun hc => by cases hc
      · exact ih _
  have all : ∀ f, compare argv.length (some (argv ++ more)) f ≠ .ub := by
    intro f
    unfold compare
    split
    · exact fun hc => by cases hc
    · cases h with
      | nil => next hlt => exact absurd (show ((List.length ([] : List Ptr) : Nat) : Int) < 2 by decide) hlt
      | @cons _ _ l _ ha ht =>
        obtain ⟨mem, rfl, hm⟩ := ha
        rw [List.cons_append]
        dsimp only
        rw [ptr_to_slice_of_holds hm.1, Res.bind_ok, List.length_cons,
          show (((l.length + 1 : Nat) : Int) - 1).toNat = l.length by omega]
        exact loop f _ _ ht _
  exact ⟨all _, all _, all _, all _, all _⟩

/-- **C115**, what lies behind the terminators of the arguments has no influence on any outcome. -/
theorem C115_behind_terminator (p : Profile) (ty : StrTy) (m₁ m₂ m₁' m₂' s s' : List Nat) (h₁ : Holds m₁ s) (h₂ : Holds m₂ s)
    (h₁' : Holds m₁' s') (h₂' : Holds m₂' s') (L P : Int) (dest : Ptr) :
    len (codecOf ty) (some m₁) = len (codecOf ty) (some m₂) ∧
    FIND__STRING p (some m₁) (some m₁') = FIND__STRING p (some m₂) (some m₂') ∧
    FIND__WSTRING p (some m₁) (some m₁') = FIND__WSTRING p (some m₂) (some m₂') ∧
    NE (some m₁) (some m₁') = NE (some m₂) (some m₂') ∧
    left (codecOf ty) (some m₁) L dest = left (codecOf ty) (some m₂) L dest ∧
    right (codecOf ty) (some m₁) L dest = right (codecOf ty) (some m₂) L dest ∧
    mid p (codecOf ty) (some m₁) L P dest = mid p (codecOf ty) (some m₂) L P dest ∧
    insert (codecOf ty) (some m₁) (some m₁') P dest = insert (codecOf ty) (some m₂) (some m₂') P dest ∧
    delete p (codecOf ty) (some m₁) L P dest = delete p (codecOf ty) (some m₂) L P dest ∧
    replace p (codecOf ty) (some m₁) (some m₁') L P dest = replace p (codecOf ty) (some m₂) (some m₂') L P dest ∧
    STRING_TO_WSTRING_EXT (some m₁) dest = STRING_TO_WSTRING_EXT (some m₂) dest ∧
    WSTRING_TO_STRING_EXT (some m₁) dest = WSTRING_TO_STRING_EXT (some m₂) dest := by
  have d := fun k : Codec => decode_same k h₁ h₂
  have d' := fun k : Codec => decode_same k h₁' h₂'
  refine ⟨?_, ?_, ?_, ?_, ?_, ?_, ?_, ?_, ?_, ?_, ?_, ?_⟩
  · unfold len; rw [d]
  · unfold FIND__STRING; rw [ptr_to_slice_of_holds h₁, ptr_to_slice_of_holds h₂, ptr_to_slice_of_holds h₁', ptr_to_slice_of_holds h₂']
  · unfold FIND__WSTRING; rw [ptr_to_slice_of_holds h₁, ptr_to_slice_of_holds h₂, ptr_to_slice_of_holds h₁', ptr_to_slice_of_holds h₂']
  · unfold NE; rw [ptr_to_slice_of_holds h₁, ptr_to_slice_of_holds h₂, ptr_to_slice_of_holds h₁', ptr_to_slice_of_holds h₂']
  · unfold left; rw [d]
  · unfold right; rw [d]
  · unfold mid; rw [d]
  · unfold insert; rw [d, d']
  · unfold delete; rw [d]
  · unfold replace; rw [d, d']
  · unfold STRING_TO_WSTRING_EXT; rw [d]
  · unfold WSTRING_TO_STRING_EXT; rw [d]

/-- Two arguments hold the same string, whatever lies behind the terminators; or are the same pointer. -/
def SameString (a b : Ptr) : Prop := a = b ∨ ∃ m₁ m₂ s, a = some m₁ ∧ b = some m₂ ∧ Holds m₁ s ∧ Holds m₂ s

private theorem slice_sameString {a b : Ptr} (h : SameString a b) : ptr_to_slice a = ptr_to_slice b := by
  rcases h with rfl | ⟨m₁, m₂, s, rfl, rfl, h₁, h₂⟩
  · rfl
  · rw [ptr_to_slice_of_holds h₁, ptr_to_slice_of_holds h₂]

/-- **C115**, the comparisons of any number of strings and CONCAT: what lies behind the terminators of the arguments has no influence. -/
theorem C115_behind_terminators (ty : StrTy) (argv₁ argv₂ : List Ptr) (h : List.Forall₂ SameString argv₁ argv₂) (argc : Int) (dest : Ptr) :
    GT argc (some argv₁) = GT argc (some argv₂) ∧ GE argc (some argv₁) = GE argc (some argv₂) ∧
    EQ argc (some argv₁) = EQ argc (some argv₂) ∧ LE argc (some argv₁) = LE argc (some argv₂) ∧
    LT argc (some argv₁) = LT argc (some argv₂) ∧
    concat (codecOf ty) dest argc (some argv₁) = concat (codecOf ty) dest argc (some argv₂) := by
  have cmp : ∀ f, compare argc (some argv₁) f = compare argc (some argv₂) f := by
    intro f
    have loop : ∀ (l₁ l₂ : List Ptr), List.Forall₂ SameString l₁ l₂ → ∀ n prev, compareLoop f n prev l₁ = compareLoop f n prev l₂ := by
      intro l₁ l₂ h
      induction h with
      | nil => intros; rfl
      | cons hab _ ih =>
        intro n prev
        cases n with
        | zero => rfl
        | succ n =>
          rw [compareLoop, compareLoop, slice_sameString hab]
          simp only [ih]
    unfold compare
    cases h with
    | nil => rfl
    | cons hab ht =>
      dsimp only
      rw [slice_sameString hab]
      simp only [loop _ _ ht]
  refine ⟨cmp _, cmp _, cmp _, cmp _, cmp _, ?_⟩
  have loop : ∀ (l₁ l₂ : List Ptr), List.Forall₂ SameString l₁ l₂ → ∀ n d, concatLoop (codecOf ty) n l₁ d = concatLoop (codecOf ty) n l₂ d := by
    intro l₁ l₂ h
    induction h with
    | nil => intros; rfl
    | cons hab _ ih =>
      intro n d
      cases n with
      | zero => rfl
      | succ n =>
        rw [concatLoop, concatLoop]
        unfold Codec.decode
        rw [slice_sameString hab]
        simp only [ih]
  unfold concat
  cases dest with
  | none => rfl
  | some mem => dsimp only; rw [loop _ _ h]

example : List.Forall₂ SameString [some [0x61, 0], none] [some [0x61, 0, 7], none] :=
  .cons (.inr ⟨_, _, [0x61], rfl, rfl, ⟨by decide, [], rfl⟩, ⟨by decide, [7], rfl⟩⟩) (.cons (.inl rfl) .nil)

/-- The hypotheses are met by strings that are no text and by memory that holds more than the string: a lone continuation
byte, then the terminator, then other data. -/
example : HoldsUnits .STRING [0x80, 0, 7, 7] [0x80] ∧ HoldsUnits .WSTRING [0xD800, 0, 7] [0xD800] ∧
    left codec16 (some [0xD800, 0, 7]) 1 (some [9, 9]) = .panic ∧
    left codec16 (some [0xD800, 0, 7]) 0 (some [9, 9]) = .ok [0, 9] ∧
    HoldAllUnits .STRING [some [0x61, 0], some [0x62, 0, 5]] [[0x61], [0x62]] ∧
    concat codec8 (some [9, 9, 9, 9]) 2 (some [some [0x61, 0], some [0x62, 0, 5]]) = .ok [0x61, 0x62, 0, 9] := by
  refine ⟨⟨⟨by decide, [7, 7], rfl⟩, by decide⟩, ⟨⟨by decide, [7], rfl⟩, by decide⟩, by decide, by decide,
    .cons ⟨_, rfl, ⟨by decide, [], rfl⟩, by decide⟩ (.cons ⟨_, rfl, ⟨by decide, [5], rfl⟩, by decide⟩ .nil), by decide⟩

end Verif
