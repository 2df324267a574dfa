import Verif.Props.StringConv
import Verif.Props.StringCompare
import Verif.Props.TimeText
import Verif.Props.IntText
import Verif.Props.FloatText
import Verif.Props.StringAlgebra
import Verif.Model.StStrings
import Mathlib.Data.List.Flatten
/-
C94 to C97: the Structured Text side of strings: conversions to WSTRING, results of 2048 units, comparison operators and
single characters.
-/
namespace Verif
open Spec

/-! ### C94: conversions to WSTRING -/

theorem ascii_utf16 {s : List Nat} (h : ∀ b ∈ s, b < 128) : s = utf16 (s.map Char.ofNat) := by
  induction s with
  | nil => rfl
  | cons b s ih =>
    have hb := h b (List.mem_cons_self ..)
    rw [List.map_cons, utf16_cons, ← ih fun x hx => h x (List.mem_cons_of_mem _ hx), utf16Char]
    simp only [toNat_ofNat (n := b) (by omega)]
    rw [if_pos (by omega)]; rfl

/-- All bytes are ASCII and not NUL. -/
def Ascii (s : List Nat) : Prop := ∀ b ∈ s, 0 < b ∧ b < 128

theorem Ascii.append {s t : List Nat} (hs : Ascii s) (ht : Ascii t) : Ascii (s ++ t) := by
  intro b hb
  rcases List.mem_append.1 hb with hb | hb
  · exact hs b hb
  · exact ht b hb

theorem ascii_decimal (n : Nat) : Ascii (decimal n) := by
  intro b hb
  unfold decimal at hb
  split at hb
  · revert b; decide
  · obtain ⟨d, hd, rfl⟩ := List.mem_map.1 hb
    have := Nat.digits_lt_base (by omega : 1 < 10) (List.mem_reverse.1 hd)
    omega

theorem ascii_signedDecimal (x : Int) : Ascii (signedDecimal x) := by
  unfold signedDecimal
  split
  · exact .append (by unfold Ascii; decide) (ascii_decimal _)
  · exact ascii_decimal _

theorem ascii_padded (w n : Nat) : Ascii (padded w n) :=
  .append (fun b hb => by rw [List.eq_of_mem_replicate hb]; omega) (ascii_decimal _)

theorem ascii_text (c : Dhms) : Ascii c.text := by
  have comp : ∀ n u, Ascii (ascii u) → Ascii (component n u) := by
    intro n u hu
    unfold component
    split
    · intro b hb; cases hb
    · exact .append (ascii_decimal _) hu
  unfold Dhms.text
  repeat' apply Ascii.append
  all_goals exact comp _ _ (by unfold Ascii; decide)

theorem ascii_date (d : Date) : Ascii (dateText d) := by
  have hd : Ascii (ascii "-") := by unfold Ascii; decide
  exact (((ascii_padded _ _).append hd).append (ascii_padded _ _)).append hd |>.append (ascii_padded _ _)

theorem ascii_time (n : Nat) : Ascii (timeText n) := by
  have hd : Ascii (ascii ":") := by unfold Ascii; decide
  have hp : Ascii (ascii ".") := by unfold Ascii; decide
  refine ((((ascii_padded _ _).append hd).append (ascii_padded _ _)).append hd |>.append (ascii_padded _ _)).append ?_
  unfold fractionText
  split
  · intro b hb; cases hb
  split
  · exact hp.append (ascii_padded _ _)
  split
  · exact hp.append (ascii_padded _ _)
  · exact hp.append (ascii_padded _ _)

theorem ascii_floatText {f : FloatFmt} {limit : ℚ} {x : Nat} {t : List Nat} (h : FloatText f limit x t) : Ascii t := by
  have hs : Ascii (signText f x) := by
    unfold signText
    split <;> (unfold Ascii; decide)
  have six : ∀ n, Ascii (sixDecimals n) := fun n =>
    ((ascii_decimal _).append (by unfold Ascii; decide)).append (ascii_padded _ _)
  obtain ⟨h1, h2, h3, h4⟩ := h
  by_cases hn : IsNaN f x
  · rw [h1 hn]; unfold Ascii; decide
  by_cases hf : IsFinite f x
  · rcases lt_or_ge (floatValue f x) limit with hv | hv
    · obtain ⟨n, _, rfl⟩ := h3 hf hv
      exact hs.append (six n)
    · obtain ⟨k, m, n, e, _, _, _, _, _, _, rfl⟩ := h4 hf hv
      exact ((six n).append (by unfold Ascii; decide)).append (ascii_decimal _)
  · rw [h2 hn hf]; exact hs.append (by unfold Ascii; decide)

/-- An ASCII text, as it is written into the result variable, converts to the WSTRING of the same text. -/
private theorem ascii_to_wstring {t : List Nat} (h : Ascii t) (hl : t.length ≤ 2048) :
    Holds (t ++ resultVar.drop t.length) t ∧
    STRING_TO_WSTRING_EXT (some (t ++ resultVar.drop t.length)) (some resultVar) = .ok (t ++ resultVar.drop t.length) := by
  have hd : resultVar.drop t.length = 0 :: List.replicate (2048 - t.length) 0 := by
    unfold resultVar STRING_LENGTH
    rw [List.drop_replicate, show 2048 + 1 - t.length = 2048 - t.length + 1 by omega, List.replicate_succ]
  have hh : Holds (t ++ resultVar.drop t.length) t := ⟨fun u hu => by have := h u hu; omega, _, by rw [hd]⟩
  refine ⟨hh, ?_⟩
  have e8 := ascii_utf8 fun b hb => (h b hb).2
  have e16 := ascii_utf16 fun b hb => (h b hb).2
  have hh' : Holds (t ++ resultVar.drop t.length) (utf8 (t.map Char.ofNat)) := by rw [← e8]; exact hh
  rw [string_to_wstring _ _ _ hh', ← e16, if_pos]
  rw [resultVar, List.length_replicate, STRING_LENGTH]; omega

/-- The STRING and the WSTRING are results of their calls and hold the same ASCII text `t`. -/
def SameText (t : List Nat) (string wstring : Res (List Nat)) : Prop :=
  (∀ b ∈ t, b < 128) ∧ (∃ mem, string = .ok mem ∧ mem.length = 2049 ∧ Holds mem t) ∧
  ∃ mem, wstring = .ok mem ∧ mem.length = 2049 ∧ Holds mem t

private theorem sameText {t : List Nat} {s w : Res (List Nat)} (h : Ascii t) (hl : t.length ≤ 81)
    (hs : s = .ok (t ++ resultVar.drop t.length))
    (hw : w = s >>= fun m => STRING_TO_WSTRING_EXT (some m) (some resultVar)) : SameText t s w := by
  obtain ⟨h1, h2⟩ := ascii_to_wstring h (by omega)
  have hlen : (t ++ resultVar.drop t.length).length = 2049 := by
    rw [List.length_append, List.length_drop, resultVar, List.length_replicate, STRING_LENGTH]; omega
  refine ⟨fun b hb => (h b hb).2, ⟨_, hs, hlen, h1⟩, _, ?_, hlen, h1⟩
  rw [hw, hs, Res.bind_ok, h2]

private theorem room : 81 ≤ resultVar.length := by rw [resultVar, List.length_replicate, STRING_LENGTH]; omega

/-- **C94**, unsigned integers: STRING and WSTRING hold the decimal notation. -/
theorem C94_unsigned (n : Nat) (h : n < 2 ^ 64) :
    SameText (decimal n) (St.LWORD_TO_STRING n) (St.LWORD_TO_WSTRING n) ∧
    (n < 2 ^ 32 → SameText (decimal n) (St.DWORD_TO_STRING n) (St.DWORD_TO_WSTRING n)) ∧
    (n < 2 ^ 8 → SameText (decimal n) (St.BYTE_TO_STRING n) (St.BYTE_TO_WSTRING n)) := by
  have hl := decimal_le_20 h
  obtain ⟨h1, h2⟩ := C59_unsigned n h resultVar room
  exact ⟨sameText (ascii_decimal n) (by omega) h1 rfl, fun _ => sameText (ascii_decimal n) (by omega) h1 rfl,
    fun hn => sameText (ascii_decimal n) (by omega) (h2 hn) rfl⟩

/-- **C94**, signed integers. -/
theorem C94_signed (x : Int) :
    (IntTy.i64.InRange x → SameText (signedDecimal x) (St.LINT_TO_STRING x) (St.LINT_TO_WSTRING x)) ∧
    (IntTy.i32.InRange x → SameText (signedDecimal x) (St.DINT_TO_STRING x) (St.DINT_TO_WSTRING x)) := by
  have key : IntTy.i64.InRange x → SameText (signedDecimal x) (St.LINT_TO_STRING x) (St.LINT_TO_WSTRING x) := fun h => by
    have := signedDecimal_le h
    exact sameText (ascii_signedDecimal x) (by omega) (C59_signed x h resultVar room) rfl
  refine ⟨key, fun h => key ?_⟩
  simp [IntTy.InRange, IntTy.lo, IntTy.hi, IntTy.i32, IntTy.i64] at h ⊢
  omega

/-- **C94**, DATE, TOD and DT. -/
theorem C94_calendar (t : Int) (ht : IntTy.i64.InRange t) :
    SameText (dateText (civilDate (dayOf t))) (St.DATE_TO_STRING t) (St.DATE_TO_WSTRING t) ∧
    SameText (timeText (timeOfDay t).toNat) (St.TOD_TO_STRING t) (St.TOD_TO_WSTRING t) ∧
    SameText (dateText (civilDate (dayOf t)) ++ ascii "-" ++ timeText (timeOfDay t).toNat)
      (St.DT_TO_STRING t) (St.DT_TO_WSTRING t) := by
  have hb := tod_bounds t
  unfold D at hb
  have l1 := dateText_length ht
  have l2 := timeText_length (timeOfDay t).toNat (by omega)
  refine ⟨sameText (ascii_date _) (by omega) ?_ rfl, sameText (ascii_time _) (by omega) (C63_tod t resultVar room) rfl,
    sameText (((ascii_date _).append (by unfold Ascii; decide)).append (ascii_time _)) ?_ (C63_dt t ht resultVar room) rfl⟩
  · have := C63_date t ht resultVar room
    rw [← l1] at this
    exact this
  · simp only [List.length_append]
    have : (ascii "-").length = 1 := by decide
    omega

/-- **C94**, TIME: for a non-negative duration the text is the one of its components (C61). -/
theorem C94_time (t : Int) : ∃ text, SameText text (St.TIME_TO_STRING t) (St.TIME_TO_WSTRING t) ∧
    ∀ c : Dhms, c.Proper → (c.nanos : Int) = t → t < 2 ^ 63 → text = c.text := by
  have hl := partsOf_length t
  refine ⟨(partsOf t).text, sameText (ascii_text _) (by omega) ?_ rfl, fun c hc hcn ht => ?_⟩
  · have := time_to_string_zero t 2049 [] (by omega) (by simp only [List.length_nil]; omega)
    simp only [List.append_nil] at this
    rw [resultVar, STRING_LENGTH, List.drop_replicate]
    exact this
  · rw [partsOf_nonneg (by omega) ht hc hcn]

/-- **C94**, LREAL and REAL: the texts of C83, up to 81 bytes; a longer text aborts both conversions. -/
theorem C94_float (x : Nat) :
    (∃ t, FloatText .f64 (10 ^ 14) x t ∧
      (t.length ≤ 81 → SameText t (St.LREAL_TO_STRING x) (St.LREAL_TO_WSTRING x)) ∧
      (81 < t.length → St.LREAL_TO_STRING x = .panic ∧ St.LREAL_TO_WSTRING x = .panic)) ∧
    (x < 2 ^ 32 → ∃ t, FloatText .f32 (10 ^ 14) x t ∧
      (t.length ≤ 81 → SameText t (St.REAL_TO_STRING x) (St.REAL_TO_WSTRING x)) ∧
      (81 < t.length → St.REAL_TO_STRING x = .panic ∧ St.REAL_TO_WSTRING x = .panic)) := by
  have key : ∀ (t : List Nat) (s w : Res (List Nat)), Ascii t → s = writeText resultVar t →
      w = (s >>= fun m => STRING_TO_WSTRING_EXT (some m) (some resultVar)) →
      (t.length ≤ 81 → SameText t s w) ∧ (81 < t.length → s = .panic ∧ w = .panic) := by
    intro t s w ht hs hw
    unfold writeText at hs
    constructor
    · intro hl
      rw [if_pos hl] at hs
      exact sameText ht hl hs hw
    · intro hl
      rw [if_neg (by omega)] at hs
      rw [hw, hs]
      exact ⟨rfl, rfl⟩
  constructor
  · obtain ⟨t, h1, h2⟩ := C83_lreal x
    exact ⟨t, h1, key t _ _ (ascii_floatText h1) (h2 _ room) rfl⟩
  · intro hx
    obtain ⟨t, h1, h2⟩ := C83_real x hx
    exact ⟨t, h1, key t _ _ (ascii_floatText h1) (h2 _ room) rfl⟩

/-- '-5' as WSTRING. -/
example : ∃ mem, St.DINT_TO_WSTRING (-5) = .ok mem ∧ Holds mem [45, 53] := by
  obtain ⟨_, _, m, h1, _, h2⟩ := (C94_signed (-5)).2 (by decide)
  have e : signedDecimal (-5) = [45, 53] := by norm_num [signedDecimal, decimal]; rfl
  exact ⟨m, h1, e ▸ h2⟩

/-! ### C95: results of at most 2048 units -/

/-- The call returns a STRING[2048] / WSTRING[2048] that holds `s`. -/
def Returns (r : Res (List Nat)) (s : List Nat) : Prop := ∃ mem, r = .ok mem ∧ mem.length = 2049 ∧ Holds mem s

private theorem returns_store {ty : StrTy} {t : List Char} (ht : NoNul t) (hl : (ty.units t).length ≤ 2048) :
    Returns (store resultVar (ty.units t)) (ty.units t) := by
  have hr : resultVar.length = 2049 := by rw [resultVar, List.length_replicate, STRING_LENGTH]
  unfold store
  rw [if_pos (by omega)]
  refine ⟨_, rfl, ?_, units_ne_zero ty ht, _, rfl⟩
  rw [List.length_append, List.length_cons, List.length_drop]; omega

private theorem overrun_store {s : List Nat} (hl : 2048 < s.length) : store resultVar s = .ub := by
  have hr : resultVar.length = 2049 := by rw [resultVar, List.length_replicate, STRING_LENGTH]
  unfold store
  rw [if_neg (by omega)]

private theorem units_sublist (ty : StrTy) {s t : List Char} (h : s.Sublist t) : (ty.units s).length ≤ (ty.units t).length := by
  cases ty
  · exact (h.flatMap utf8Char).length_le
  · exact (h.flatMap utf16Char).length_le

/-- **C95**, LEFT, RIGHT, MID and DELETE with legal parameters return the selected characters of a string of at most 2048
units: the result always fits. -/
theorem C95_select (p : Profile) (ty : StrTy) (mem : List Nat) (t : List Char) (L P : Int) (h : Holds mem (ty.units t))
    (hl : (ty.units t).length ≤ 2048) (hn : t.length < 2 ^ 31) (hL : 0 ≤ L) (hP : 1 ≤ P) (hP' : P ≤ t.length)
    (hLP : P - 1 + L ≤ t.length) :
    Returns (St.LEFT (codecOf ty) (some mem) L) (ty.units (t.take L.toNat)) ∧
    Returns (St.RIGHT (codecOf ty) (some mem) L) (ty.units (t.drop (t.length - L.toNat))) ∧
    Returns (St.MID p (codecOf ty) (some mem) L P) (ty.units ((t.drop (P - 1).toNat).take L.toNat)) ∧
    Returns (St.DELETE p (codecOf ty) (some mem) L P)
      (ty.units (t.take (P - 1).toNat ++ t.drop (P - 1 + L).toNat)) := by
  have iL : IntTy.i32.InRange L := by
    simp [IntTy.InRange, IntTy.lo, IntTy.hi, IntTy.i32]; omega
  have iP : IntTy.i32.InRange P := by
    simp [IntTy.InRange, IntTy.lo, IntTy.hi, IntTy.i32]; omega
  have hz := noNul_of_holds ty h
  have fin : ∀ s : List Char, s.Sublist t → Returns (store resultVar (ty.units s)) (ty.units s) := fun s hs =>
    returns_store (fun c hc => hz c (hs.subset hc)) (by have := units_sublist ty hs; omega)
  unfold St.LEFT St.RIGHT St.MID St.DELETE
  rw [C45_left ty mem resultVar t L h iL, if_pos (by omega), C45_right ty mem resultVar t L h iL, if_pos (by omega),
    C45_mid p ty mem resultVar t L P h (by omega) iL iP, if_pos (by omega),
    C46_delete p ty mem resultVar t L P h hn iL iP hL, if_pos (by omega)]
  refine ⟨fin _ (List.take_sublist ..), fin _ (List.drop_sublist ..),
    fin _ ((List.take_sublist ..).trans (List.drop_sublist ..)), fin _ ?_⟩
  conv_rhs => rw [← List.take_append_drop (P - 1).toNat t]
  refine List.Sublist.append (List.Sublist.refl _) ?_
  rw [show (P - 1 + L).toNat = (P - 1).toNat + L.toNat by omega, ← List.drop_drop]
  exact List.drop_sublist ..

theorem utf16_le_utf8 (t : List Char) : (utf16 t).length ≤ (utf8 t).length := by
  induction t with
  | nil => exact Nat.le_refl _
  | cons c t ih =>
    rw [utf16_cons, utf8_cons, List.length_append, List.length_append]
    have : (utf16Char c).length ≤ (utf8Char c).length := by
      unfold utf16Char utf8Char
      dsimp only
      split <;> split <;> [skip; split; skip; split] <;> try split
      all_goals simp only [List.length_cons, List.length_nil]
      all_goals omega
    omega

/-- **C95**, STRING_TO_WSTRING of a string of at most 2048 bytes always fits. -/
theorem C95_string_to_wstring (mem : List Nat) (t : List Char) (h : Holds mem (utf8 t)) (hl : (utf8 t).length ≤ 2048) :
    Returns (St.STRING_TO_WSTRING (some mem)) (utf16 t) := by
  have hr : resultVar.length = 2049 := by rw [resultVar, List.length_replicate, STRING_LENGTH]
  have hle := utf16_le_utf8 t
  unfold St.STRING_TO_WSTRING
  rw [string_to_wstring mem resultVar t h, if_pos (by omega)]
  refine ⟨_, rfl, by rw [List.length_append, List.length_drop]; omega, units_ne_zero .WSTRING (noNul_of_holds .STRING h),
    List.replicate (2048 - (utf16 t).length) 0, ?_⟩
  rw [resultVar, STRING_LENGTH, List.drop_replicate, ← List.replicate_succ,
    show 2048 + 1 - (utf16 t).length = 2048 - (utf16 t).length + 1 by omega]

/-- **C95** is false for INSERT: its result can be longer than 2048 units, and is then written past the end of the result
variable. -/
theorem C95_refuted :
    ¬ ∀ (ty : StrTy) (ma mb : List Nat) (a b : List Char) (P : Int), Holds ma (ty.units a) → Holds mb (ty.units b) →
      (ty.units a).length ≤ 2048 → (ty.units b).length ≤ 2048 → 0 ≤ P → P ≤ a.length →
      Returns (St.INSERT (codecOf ty) (some ma) (some mb) P) (ty.units (a.take P.toNat ++ b ++ a.drop P.toNat)) := by
  intro h
  have hu : ∀ n, utf8 (List.replicate n 'a') = List.replicate n 97 := by
    intro n
    induction n with
    | zero => rfl
    | succ n ih => rw [List.replicate_succ, utf8_cons, ih]; rfl
  replace hu := hu 2048
  have h1 : Holds (List.replicate 2048 97 ++ [0]) (StrTy.STRING.units (List.replicate 2048 'a')) :=
    ⟨fun u hx => by rw [show StrTy.units .STRING = utf8 from rfl, hu] at hx; rw [List.eq_of_mem_replicate hx]; omega,
      [], by rw [← hu]; rfl⟩
  have h2 : Holds [98, 0] (StrTy.STRING.units ['b']) := ⟨by decide, [], rfl⟩
  obtain ⟨mem, hm, _⟩ := h .STRING _ _ _ _ 0 h1 h2 (by show (utf8 _).length ≤ _; rw [hu, List.length_replicate])
    (by decide) (by decide) (by omega)
  unfold St.INSERT at hm
  rw [C46_insert .STRING _ _ resultVar _ _ 0 h1 h2 (by rw [List.length_replicate]; omega) (by decide),
    if_pos ⟨by decide, by omega⟩, overrun_store] at hm
  · cases hm
  · show 2048 < (utf8 (List.take (Int.toNat 0) (List.replicate 2048 'a') ++ ['b'] ++
      List.drop (Int.toNat 0) (List.replicate 2048 'a'))).length
    rw [show Int.toNat 0 = 0 from rfl, List.take_zero, List.nil_append, List.drop_zero, List.singleton_append, utf8_cons,
      List.length_append, hu, List.length_replicate]
    have : (utf8Char 'b').length = 1 := by decide
    omega

/-- **C95** for the functions whose result can be longer than their arguments: INSERT, REPLACE, CONCAT and
WSTRING_TO_STRING return the result if it has at most 2048 units, and write past the end of the result variable if it has more.
What is missing: a defined outcome for the longer ones. -/
theorem C95_grow_partial (p : Profile) (ty : StrTy) (ma mb : List Nat) (a b : List Char) (L P : Int)
    (ha : Holds ma (ty.units a)) (hb : Holds mb (ty.units b)) (hn : a.length < 2 ^ 31) :
    (0 ≤ P → P ≤ a.length →
      let s := ty.units (a.take P.toNat ++ b ++ a.drop P.toNat)
      let r := St.INSERT (codecOf ty) (some ma) (some mb) P
      (s.length ≤ 2048 → Returns r s) ∧ (2048 < s.length → r = .ub)) ∧
    (0 ≤ L → 1 ≤ P → P ≤ a.length → P - 1 + L ≤ a.length →
      let s := ty.units (a.take (P - 1).toNat ++ b ++ a.drop (P - 1 + L).toNat)
      let r := St.REPLACE p (codecOf ty) (some ma) (some mb) L P
      (s.length ≤ 2048 → Returns r s) ∧ (2048 < s.length → r = .ub)) := by
  have hza := noNul_of_holds ty ha
  have hzb := noNul_of_holds ty hb
  have fin : ∀ (s : List Char) (r : Res (List Nat)), (∀ c ∈ s, c ∈ a ∨ c ∈ b) → r = store resultVar (ty.units s) →
      ((ty.units s).length ≤ 2048 → Returns r (ty.units s)) ∧ (2048 < (ty.units s).length → r = .ub) := by
    intro s r hs hr
    rw [hr]
    refine ⟨returns_store fun c hc => ?_, overrun_store⟩
    rcases hs c hc with hc | hc
    · exact hza c hc
    · exact hzb c hc
  have mem : ∀ (i j : Nat), ∀ c ∈ a.take i ++ b ++ a.drop j, c ∈ a ∨ c ∈ b := by
    intro i j c hc
    simp only [List.mem_append] at hc
    rcases hc with (hc | hc) | hc
    · exact .inl (List.mem_of_mem_take hc)
    · exact .inr hc
    · exact .inl (List.mem_of_mem_drop hc)
  constructor
  · intro h0 h1
    have iP : IntTy.i32.InRange P := by
      simp [IntTy.InRange, IntTy.lo, IntTy.hi, IntTy.i32]; omega
    refine fin _ _ (mem _ _) ?_
    unfold St.INSERT
    rw [C46_insert ty ma mb resultVar a b P ha hb hn iP, if_pos ⟨h0, h1⟩]
  · intro hL h0 h1 h2
    have iL : IntTy.i32.InRange L := by
      simp [IntTy.InRange, IntTy.lo, IntTy.hi, IntTy.i32]; omega
    have iP : IntTy.i32.InRange P := by
      simp [IntTy.InRange, IntTy.lo, IntTy.hi, IntTy.i32]; omega
    refine fin _ _ (mem _ _) ?_
    unfold St.REPLACE
    rw [C46_replace p ty ma mb resultVar a b L P ha hb hn iL iP hL, if_pos ⟨h0, h1, h2⟩]

theorem C95_concat_partial (ty : StrTy) (ts : List (List Char)) (args : List Ptr) (hne : ts ≠ [])
    (h : HoldTexts ty args ts) :
    ((ty.units ts.flatten).length ≤ 2048 → Returns (St.CONCAT (codecOf ty) args) (ty.units ts.flatten)) ∧
    (2048 < (ty.units ts.flatten).length → St.CONCAT (codecOf ty) args = .ub) := by
  have e : St.CONCAT (codecOf ty) args = store resultVar (ty.units ts.flatten) := by
    unfold St.CONCAT
    rw [holdTexts_length h]
    have := C48_concat ty ts args [] resultVar hne h
    rwa [List.append_nil] at this
  rw [e]
  refine ⟨returns_store ?_, overrun_store⟩
  clear e hne
  induction args generalizing ts with
  | nil => cases ts with
    | nil => intro c hc; cases hc
    | cons t ts => exact absurd h (by simp [HoldTexts])
  | cons a args ih => cases ts with
    | nil => exact absurd h (by simp [HoldTexts])
    | cons t ts =>
      obtain ⟨⟨m, _, hm⟩, h⟩ := h
      intro c hc
      rw [List.flatten_cons, List.mem_append] at hc
      rcases hc with hc | hc
      · exact noNul_of_holds ty hm c hc
      · exact ih ts h c hc

theorem C95_wstring_to_string_partial (mem : List Nat) (t : List Char) (h : Holds mem (utf16 t)) :
    ((utf8 t).length ≤ 2048 → Returns (St.WSTRING_TO_STRING (some mem)) (utf8 t)) ∧
    (2048 < (utf8 t).length → St.WSTRING_TO_STRING (some mem) = .ub) := by
  unfold St.WSTRING_TO_STRING
  rw [C55_wstring_to_string mem _ resultVar _ h (elements_text t), List.map_map,
    show t.map (replaceLone ∘ W16.char) = t from List.map_id'' (fun _ => rfl) t]
  exact ⟨returns_store (ty := .STRING) (noNul_of_holds .WSTRING h), overrun_store⟩

/-- INSERT('ad', 'bc', 1) = 'abcd'. -/
example : Returns (St.INSERT codec8 (some [97, 100, 0]) (some [98, 99, 0]) 1) [97, 98, 99, 100] :=
  ((C95_grow_partial .debug .STRING [97, 100, 0] [98, 99, 0] ['a', 'd'] ['b', 'c'] 0 1 ⟨by decide, [], by decide⟩
    ⟨by decide, [], by decide⟩ (by decide)).1 (by decide) (by decide)).1 (by decide)

/-- DELETE('abc', 1, 2) = 'ac'. -/
example : Returns (St.DELETE .debug codec8 (some [97, 98, 99, 0]) 1 2) [97, 99] :=
  (C95_select .debug .STRING [97, 98, 99, 0] ['a', 'b', 'c'] 1 2 ⟨by decide, [], by decide⟩ (by decide) (by decide)
    (by decide) (by decide) (by decide) (by decide)).2.2.2

/-! ### C96: comparison operators -/

private theorem byValue_holds {mem s : List Nat} (h : Holds mem s) :
    ∃ m, St.byValue (some mem) = .ok m ∧ Holds m (s.take 80) := by
  refine ⟨s.take 80 ++ [0], ?_, fun u hu => h.1 u (List.mem_of_mem_take hu), [], rfl⟩
  unfold St.byValue
  rw [ptr_to_slice_of_holds h]; rfl

/-- **C96**, the operators compare the first 80 units of the strings. What is missing: the rest. -/
theorem C96_first_80_partial (ma mb a b : List Nat) (ha : Holds ma a) (hb : Holds mb b) :
    St.EQUAL (some ma) (some mb) = .ok (decide (a.take 80 = b.take 80)) ∧
    St.LESS (some ma) (some mb) = .ok (decide (a.take 80 < b.take 80)) ∧
    St.GREATER (some ma) (some mb) = .ok (decide (b.take 80 < a.take 80)) := by
  obtain ⟨m, h1, h2⟩ := byValue_holds ha
  obtain ⟨m', h1', h2'⟩ := byValue_holds hb
  have hall : HoldAll [some m, some m'] [a.take 80, b.take 80] := ⟨⟨m, rfl, h2⟩, ⟨m', rfl, h2'⟩, trivial⟩
  unfold St.EQUAL St.LESS St.GREATER
  rw [h1, Res.bind_ok, h1', Res.bind_ok, Res.bind_ok, Res.bind_ok, Res.bind_ok, Res.bind_ok]
  obtain ⟨e, he, e'⟩ := C52_eq _ [] _ hall (by simp)
  obtain ⟨l, hl, l'⟩ := C52_lt _ [] _ hall (by simp)
  obtain ⟨g, hg, g'⟩ := C52_gt _ [] _ hall (by simp)
  simp only [List.pairwise_cons, List.mem_singleton, forall_eq, List.not_mem_nil, false_imp_iff,
    implies_true, List.Pairwise.nil, and_true] at e' l' g'
  refine ⟨he.trans ?_, hl.trans ?_, hg.trans ?_⟩
  · rw [Bool.eq_iff_iff.2 (e'.trans decide_eq_true_iff.symm)]
  · rw [Bool.eq_iff_iff.2 (l'.trans decide_eq_true_iff.symm)]
  · rw [Bool.eq_iff_iff.2 (g'.trans decide_eq_true_iff.symm)]

/-- **C96** for strings of at most 80 units: the operators are equality and the lexicographic order. -/
theorem C96_short_partial (ma mb a b : List Nat) (ha : Holds ma a) (hb : Holds mb b) (la : a.length ≤ 80)
    (lb : b.length ≤ 80) :
    St.EQUAL (some ma) (some mb) = .ok (decide (a = b)) ∧ St.LESS (some ma) (some mb) = .ok (decide (a < b)) ∧
    St.GREATER (some ma) (some mb) = .ok (decide (b < a)) := by
  have := C96_first_80_partial ma mb a b ha hb
  rwa [List.take_of_length_le la, List.take_of_length_le lb] at this

/-- **C96** is false for longer strings: two strings that differ in the 81st unit are equal. -/
theorem C96_refuted :
    ¬ ∀ (ma mb a b : List Nat), Holds ma a → Holds mb b → St.EQUAL (some ma) (some mb) = .ok (decide (a = b)) := by
  intro h
  have := h (List.replicate 80 97 ++ [98, 0]) (List.replicate 80 97 ++ [99, 0]) (List.replicate 80 97 ++ [98])
    (List.replicate 80 97 ++ [99]) ⟨by decide, [], by decide⟩ ⟨by decide, [], by decide⟩
  revert this
  decide +kernel

/-- 'ab' < 'b'. -/
example : St.LESS (some [97, 98, 0]) (some [98, 0]) = .ok true := by decide

/-! ### C97: single characters -/

/-- **C97**, STRING_TO_CHAR is the first unit of the string, 0 for the empty string. -/
theorem C97_string_to_char (mem s : List Nat) (h : Holds mem s) : St.STRING_TO_CHAR (some mem) = .ok (s.headD 0) := by
  obtain ⟨_, tail, rfl⟩ := h
  cases s <;> rfl

/-- **C97** is false for CHAR_TO_STRING: it reads a whole string from the address of a variable that is one unit long. -/
theorem C97_refuted :
    ¬ ∀ c : Nat, 0 < c → c < 256 → ∃ out, St.CHAR_TO_STRING [c] = .ok out ∧ Holds out [c] := by
  intro h
  obtain ⟨out, h1, _⟩ := h 97 (by decide) (by decide)
  exact nomatch h1

/-- **C97**, what happens if the memory behind the parameter can be read: the result is the one-character string iff the unit
behind the parameter happens to be 0. -/
theorem C97_char_to_string_partial (c : Nat) (rest : List Nat) (hc : c ≠ 0) (hr : 79 ≤ rest.length) :
    ∃ out, St.CHAR_TO_STRING (c :: rest) = .ok out ∧ (Holds out [c] ↔ rest[0]? = some 0) := by
  cases rest with
  | nil => simp at hr
  | cons u rest =>
    unfold St.CHAR_TO_STRING
    simp only [List.length_cons] at hr
    rw [if_neg (by simp only [List.length_cons]; omega)]
    refine ⟨_, rfl, ?_⟩
    simp only [List.take_succ_cons, List.cons_append]
    constructor
    · rintro ⟨_, tail, ht⟩
      have := (List.cons.inj (List.cons.inj ht).2).1
      rw [this]; rfl
    · intro h
      have : u = 0 := by simpa using h
      subst this
      exact ⟨by simpa using hc, _, rfl⟩

example : ∃ out, St.CHAR_TO_STRING (97 :: List.replicate 79 0) = .ok out ∧ Holds out [97] := by
  obtain ⟨out, h1, h2⟩ := C97_char_to_string_partial 97 (List.replicate 79 0) (by decide) (by simp)
  exact ⟨out, h1, h2.2 (by decide)⟩

end Verif
