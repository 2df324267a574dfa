import Verif.Props.TimeText
import Verif.Props.StringCompare
/-
C110: the texts of dates and times sort like the dates and times.
-/
namespace Verif
open Spec

/-! ### order of lists -/

private theorem append_lt_left (a : List Nat) {c d : List Nat} (h : c < d) : a ++ c < a ++ d := by
  induction a with
  | nil => exact h
  | cons x a ih => exact List.cons_lt_cons_iff.2 (.inr ⟨rfl, ih⟩)

private theorem append_lt_right {a b : List Nat} (hl : a.length = b.length) (h : a < b) (c d : List Nat) : a ++ c < b ++ d := by
  induction a generalizing b with
  | nil =>
    cases b with
    | nil => exact absurd h (List.lt_irrefl _)
    | cons y b => simp at hl
  | cons x a ih =>
    cases b with
    | nil => simp at hl
    | cons y b =>
      rcases List.cons_lt_cons_iff.1 h with h1 | ⟨h1, h2⟩
      · exact List.cons_lt_cons_iff.2 (.inl h1)
      · exact List.cons_lt_cons_iff.2 (.inr ⟨h1, ih (by simpa using hl) h2⟩)

private theorem empty_lt_append {a : List Nat} (c : List Nat) (h : a ≠ []) : [] < a ++ c := by
  cases a with
  | nil => exact absurd rfl h
  | cons x a => exact List.nil_lt_cons _ _

/-! ### order of numbers of a fixed width -/

private theorem decimal_pos (n : Nat) : 1 ≤ (decimal n).length := by
  by_cases h : n < 10
  · rw [decimal_small n h]; simp
  · rw [decimal_step n (by omega)]; simp

/-- The last digit of a padded number. -/
theorem padded_step (w n : Nat) (hw : 1 ≤ w) : padded (w + 1) n = padded w (n / 10) ++ [48 + n % 10] := by
  unfold padded
  by_cases h : n < 10
  · rw [decimal_small n h, decimal_small (n / 10) (by omega), Nat.div_eq_of_lt h, Nat.mod_eq_of_lt h]
    simp only [List.length_singleton]
    rw [show w + 1 - 1 = (w - 1) + 1 by omega, List.replicate_succ']
  · rw [decimal_step n (by omega)]
    simp only [List.length_append, List.length_singleton]
    rw [show w + 1 - ((decimal (n / 10)).length + 1) = w - (decimal (n / 10)).length by omega, List.append_assoc]

theorem padded_lt (w : Nat) (hw : 1 ≤ w) {n n' : Nat} (h : n < n') (h' : n' < 10 ^ w) : padded w n < padded w n' := by
  induction w, hw using Nat.le_induction generalizing n n' with
  | base =>
    have : padded 1 n = [48 + n] ∧ padded 1 n' = [48 + n'] := by
      unfold padded; rw [decimal_small n (by omega), decimal_small n' (by omega)]; exact ⟨rfl, rfl⟩
    rw [this.1, this.2]
    exact List.cons_lt_cons_iff.2 (.inl (by omega))
  | succ w hw ih =>
    have h10 : n' / 10 < 10 ^ w := by rw [Nat.pow_succ] at h'; omega
    rw [padded_step w n hw, padded_step w n' hw]
    rcases Nat.lt_or_ge (n / 10) (n' / 10) with hd | hd
    · exact append_lt_right (by rw [padded_length w _ hw (by omega), padded_length w _ hw h10]) (ih hd h10) _ _
    · rw [show n / 10 = n' / 10 by omega]
      exact append_lt_left _ (List.cons_lt_cons_iff.2 (.inl (by omega)))

/-- A field of fixed width followed by something. -/
private theorem field_lt (w : Nat) (hw : 1 ≤ w) {n n' : Nat} (c d : List Nat) (hn' : n' < 10 ^ w) (h : n < n' ∨ n = n' ∧ c < d) :
    padded w n ++ c < padded w n' ++ d := by
  rcases h with h | ⟨rfl, h⟩
  · exact append_lt_right (by rw [padded_length w _ hw (by omega), padded_length w _ hw hn']) (padded_lt w hw h hn') _ _
  · exact append_lt_left _ h

theorem padded_add (a b n : Nat) (ha : 1 ≤ a) (hb : 1 ≤ b) (h : n < 10 ^ (a + b)) :
    padded (a + b) n = padded a (n / 10 ^ b) ++ padded b (n % 10 ^ b) := by
  induction b, hb using Nat.le_induction generalizing n with
  | base =>
    have : padded 1 (n % 10 ^ 1) = [48 + n % 10] := by
      unfold padded; rw [Nat.pow_one, decimal_small _ (Nat.mod_lt _ (by omega))]; rfl
    rw [padded_step a n ha, this, Nat.pow_one]
  | succ b hb ih =>
    rw [← Nat.add_assoc, padded_step (a + b) n (by omega), ih (n / 10) (by
      rw [← Nat.add_assoc, Nat.pow_succ] at h; omega), padded_step b _ hb, List.append_assoc]
    have e1 : n / 10 / 10 ^ b = n / 10 ^ (b + 1) := by rw [Nat.div_div_eq_div_mul, Nat.pow_succ, Nat.mul_comm]
    have e2 : n / 10 % 10 ^ b = n % 10 ^ (b + 1) / 10 := by
      rw [Nat.pow_succ, Nat.mul_comm, Nat.mod_mul_right_div_self]
    have e3 : n % 10 = n % 10 ^ (b + 1) % 10 := by
      rw [Nat.pow_succ, Nat.mul_comm, Nat.mod_mul_right_mod]
    rw [e1, e2, ← e3]

/-! ### fractions of a second -/

/-- The fraction, three digits at a time. -/
private theorem fraction_eq (n : Nat) (h : n < 1000000000) :
    fractionText n = if n = 0 then [] else ascii "." ++ (padded 3 (n / 1000000) ++
      (if n % 1000000 = 0 then [] else padded 3 (n / 1000 % 1000) ++ (if n % 1000 = 0 then [] else padded 3 (n % 1000)))) := by
  unfold fractionText
  by_cases h0 : n = 0
  · rw [if_pos h0, if_pos h0]
  rw [if_neg h0, if_neg h0]
  by_cases h6 : n % 1000000 = 0
  · rw [if_pos (Nat.dvd_of_mod_eq_zero h6), if_pos h6, List.append_nil]
  rw [if_neg (fun hd => h6 (Nat.mod_eq_zero_of_dvd hd)), if_neg h6]
  by_cases h3 : n % 1000 = 0
  · rw [if_pos (Nat.dvd_of_mod_eq_zero h3), if_pos h3, List.append_nil,
      show padded 6 (n / 1000) = padded (3 + 3) (n / 1000) from rfl, padded_add 3 3 _ (by omega) (by omega) (by omega),
      Nat.div_div_eq_div_mul]
    rfl
  · rw [if_neg (fun hd => h3 (Nat.mod_eq_zero_of_dvd hd)), if_neg h3,
      show padded 9 n = padded (3 + 6) n from rfl, padded_add 3 6 _ (by omega) (by omega) (by omega),
      show padded 6 (n % 10 ^ 6) = padded (3 + 3) (n % 10 ^ 6) from rfl, padded_add 3 3 _ (by omega) (by omega) (by omega),
      show n % 10 ^ 6 / 10 ^ 3 = n / 1000 % 1000 by omega, show n % 10 ^ 6 % 10 ^ 3 = n % 1000 by omega]
    rfl

private theorem fraction_lt {n n' : Nat} (h : n < n') (h' : n' < 1000000000) : fractionText n < fractionText n' := by
  rw [fraction_eq n (by omega), fraction_eq n' h', if_neg (show n' ≠ 0 by omega)]
  by_cases h0 : n = 0
  · rw [if_pos h0]; exact List.nil_lt_cons _ _
  rw [if_neg h0]
  have pn : ∀ m, m < 1000 → padded 3 m ≠ [] := fun m hm he => by
    have := padded_length 3 m (by omega) (by omega)
    rw [he] at this; simp at this
  refine append_lt_left _ (field_lt 3 (by omega) _ _ (by omega) ?_)
  rcases Nat.lt_or_ge (n / 1000000) (n' / 1000000) with hd | hd
  · exact .inl hd
  refine .inr ⟨by omega, ?_⟩
  rw [if_neg (show ¬ n' % 1000000 = 0 by omega)]
  by_cases h6 : n % 1000000 = 0
  · rw [if_pos h6]; exact empty_lt_append _ (pn _ (by omega))
  rw [if_neg h6]
  refine field_lt 3 (by omega) _ _ (by omega) ?_
  rcases Nat.lt_or_ge (n / 1000 % 1000) (n' / 1000 % 1000) with hd | hd
  · exact .inl hd
  refine .inr ⟨by omega, ?_⟩
  rw [if_neg (show ¬ n' % 1000 = 0 by omega)]
  by_cases h3 : n % 1000 = 0
  · rw [if_pos h3]; have := empty_lt_append [] (pn (n' % 1000) (by omega)); rwa [List.append_nil] at this
  · rw [if_neg h3]; exact padded_lt 3 (by omega) (by omega) (by omega)

private theorem time_lt {n n' : Nat} (h : n < n') (h' : n' < 86400000000000) : timeText n < timeText n' := by
  unfold timeText
  simp only [List.append_assoc]
  refine field_lt 2 (by omega) _ _ (by omega) ?_
  rcases Nat.lt_or_ge (n / 3600000000000) (n' / 3600000000000) with hd | hd
  · exact .inl hd
  refine .inr ⟨by omega, append_lt_left _ (field_lt 2 (by omega) _ _ (by omega) ?_)⟩
  rcases Nat.lt_or_ge (n / 60000000000 % 60) (n' / 60000000000 % 60) with hd | hd
  · exact .inl hd
  refine .inr ⟨by omega, append_lt_left _ (field_lt 2 (by omega) _ _ (by omega) ?_)⟩
  rcases Nat.lt_or_ge (n / 1000000000 % 60) (n' / 1000000000 % 60) with hd | hd
  · exact .inl hd
  exact .inr ⟨by omega, fraction_lt (by omega) (by omega)⟩

/-! ### dates -/

/-- The order of dates: by year, then month, then day. -/
private def Before (d d' : Date) : Prop :=
  d.year < d'.year ∨ d.year = d'.year ∧ (d.month < d'.month ∨ d.month = d'.month ∧ d.day < d'.day)

private theorem civil_before {k k' : Int} (h : k < k') : Before (civilDate k) (civilDate k') := by
  have step : ∀ k, Before (civilDate k) (civilDate (k + 1)) := by
    intro k
    rw [civilDate_succ]
    unfold Date.next Before
    split
    · dsimp only; omega
    · split <;> dsimp only <;> omega
  obtain ⟨n, rfl⟩ : ∃ n : Nat, k' = k + 1 + n := ⟨(k' - k - 1).toNat, by omega⟩
  clear h
  induction n with
  | zero => simpa using step k
  | succ n ih =>
    have := step (k + 1 + n)
    rw [show k + 1 + ((n + 1 : Nat) : Int) = k + 1 + n + 1 by omega]
    unfold Before at *
    omega

private theorem date_lt {t t' : Int} (ht : IntTy.i64.InRange t) (ht' : IntTy.i64.InRange t') (h : dayOf t < dayOf t') :
    dateText (civilDate (dayOf t)) < dateText (civilDate (dayOf t')) := by
  have hb := civil_before h
  have hy := year_range ht
  have hy' := year_range ht'
  have hm' := date_bounds (dayOf t')
  unfold Before at hb
  unfold dateText
  simp only [List.append_assoc]
  refine field_lt 4 (by omega) _ _ (by omega) ?_
  rcases hb with hb | ⟨e, hb⟩
  · exact .inl (by omega)
  refine .inr ⟨by omega, append_lt_left _ (field_lt 2 (by omega) _ _ (by omega) ?_)⟩
  rcases hb with hb | ⟨e, hb⟩
  · exact .inl hb
  exact .inr ⟨e, append_lt_left _ (padded_lt 2 (by omega) hb (by omega))⟩

/-! ### the theorem -/

/-- From an increasing text to the comparison functions. -/
theorem compare_texts (text : Int → List Nat) (key : Int → Int) (P : Int → Prop)
    (hlt : ∀ t t', P t → P t' → key t < key t' → text t < text t') (heq : ∀ t t', key t = key t' → text t = text t')
    (t t' : Int) (ht : P t) (ht' : P t') {m m' : List Nat} (hm : Holds m (text t)) (hm' : Holds m' (text t')) :
    LT 2 (some [some m, some m']) = .ok (decide (key t < key t')) ∧ EQ 2 (some [some m, some m']) = .ok (decide (key t = key t')) ∧
    GT 2 (some [some m, some m']) = .ok (decide (key t' < key t)) := by
  unfold LT EQ GT
  rw [compare_two _ hm hm', compare_two _ hm hm', compare_two _ hm hm']
  have a := isLT_iff (text t) (text t')
  have b := isEq_iff (text t) (text t')
  have c := isGT_iff (text t) (text t')
  have irr : ∀ {x y : List Nat}, x < y → x ≠ y := fun h e => List.lt_irrefl _ (e ▸ h)
  have asy : ∀ {x y : List Nat}, x < y → ¬ y < x := fun h h' => List.lt_irrefl _ (List.lt_trans h h')
  refine ⟨congrArg _ (Bool.eq_iff_iff.2 (a.trans ?_)), congrArg _ (Bool.eq_iff_iff.2 (b.trans ?_)), congrArg _ (Bool.eq_iff_iff.2 (c.trans ?_))⟩ <;>
    rw [decide_eq_true_iff] <;> clear a b c
  all_goals
    rcases lt_trichotomy (key t) (key t') with h | h | h
    · have l := hlt t t' ht ht' h
      first
      | exact ⟨fun _ => h, fun _ => l⟩
      | exact ⟨fun e => absurd e (irr l), fun e => by omega⟩
      | exact ⟨fun e => absurd e (asy l), fun e => by omega⟩
    · have l := heq t t' h
      first
      | exact ⟨fun _ => h, fun _ => l⟩
      | exact ⟨fun e => absurd (l ▸ e) (List.lt_irrefl _), fun e => by omega⟩
    · have l := hlt t' t ht' ht h
      first
      | exact ⟨fun _ => h, fun _ => l⟩
      | exact ⟨fun e => absurd e.symm (irr l), fun e => by omega⟩
      | exact ⟨fun e => absurd e (asy l), fun e => by omega⟩

private theorem holds_zeroed {n : Nat} (hn : 81 ≤ n) {text : List Nat} (h1 : ∀ b ∈ text, b ≠ 0) (h2 : text.length < 81) :
    Holds (text ++ (List.replicate n 0).drop text.length) text := by
  rw [holds_written h1, List.getElem?_replicate, if_pos (by omega)]

/-- **C110**, DATE: the texts compare like the days. -/
theorem C110_date (t t' : Int) (ht : IntTy.i64.InRange t) (ht' : IntTy.i64.InRange t') (n n' : Nat) (hn : 81 ≤ n) (hn' : 81 ≤ n') :
    ∃ m m', DATE_TO_STRING_EXT t (some (List.replicate n 0)) = .ok m ∧ DATE_TO_STRING_EXT t' (some (List.replicate n' 0)) = .ok m' ∧
      LT 2 (some [some m, some m']) = .ok (decide (dayOf t < dayOf t')) ∧
      EQ 2 (some [some m, some m']) = .ok (decide (dayOf t = dayOf t')) ∧
      GT 2 (some [some m, some m']) = .ok (decide (dayOf t' < dayOf t)) := by
  have hl := dateText_length ht
  have hl' := dateText_length ht'
  refine ⟨_, _, C63_date t ht _ (by simpa using hn), C63_date t' ht' _ (by simpa using hn'), ?_⟩
  have h1 := holds_zeroed hn (dateText_ne_zero (civilDate (dayOf t))) (by omega)
  have h2 := holds_zeroed hn' (dateText_ne_zero (civilDate (dayOf t'))) (by omega)
  rw [hl] at h1; rw [hl'] at h2
  exact compare_texts (fun t => dateText (civilDate (dayOf t))) dayOf IntTy.i64.InRange (fun _ _ => date_lt)
    (fun _ _ h => by simp only [h]) t t' ht ht' h1 h2

private theorem tod_nat (t : Int) : (timeOfDay t).toNat < 86400000000000 ∧ ((timeOfDay t).toNat : Int) = timeOfDay t := by
  have hb := tod_bounds t
  unfold D at hb
  omega

/-- **C110**, TOD: the texts compare like the times of day. -/
theorem C110_tod (t t' : Int) (n n' : Nat) (hn : 81 ≤ n) (hn' : 81 ≤ n') :
    ∃ m m', TOD_TO_STRING_EXT t (some (List.replicate n 0)) = .ok m ∧ TOD_TO_STRING_EXT t' (some (List.replicate n' 0)) = .ok m' ∧
      LT 2 (some [some m, some m']) = .ok (decide (timeOfDay t < timeOfDay t')) ∧
      EQ 2 (some [some m, some m']) = .ok (decide (timeOfDay t = timeOfDay t')) ∧
      GT 2 (some [some m, some m']) = .ok (decide (timeOfDay t' < timeOfDay t)) := by
  have hl := timeText_length _ (tod_nat t).1
  have hl' := timeText_length _ (tod_nat t').1
  refine ⟨_, _, C63_tod t _ (by simpa using hn), C63_tod t' _ (by simpa using hn'), ?_⟩
  refine compare_texts (fun t => timeText (timeOfDay t).toNat) timeOfDay (fun _ => True) (fun a b _ _ h => ?_)
    (fun _ _ h => by simp only [h]) t t' trivial trivial (holds_zeroed hn (timeText_ne_zero _) (by omega)) (holds_zeroed hn' (timeText_ne_zero _) (by omega))
  have := tod_nat a; have := tod_nat b
  exact time_lt (by omega) (by omega)

/-- **C110**, DT: the texts compare like the timestamps. -/
theorem C110_dt (t t' : Int) (ht : IntTy.i64.InRange t) (ht' : IntTy.i64.InRange t') (n n' : Nat) (hn : 81 ≤ n) (hn' : 81 ≤ n') :
    ∃ m m', DT_TO_STRING_EXT t (some (List.replicate n 0)) = .ok m ∧ DT_TO_STRING_EXT t' (some (List.replicate n' 0)) = .ok m' ∧
      LT 2 (some [some m, some m']) = .ok (decide (t < t')) ∧
      EQ 2 (some [some m, some m']) = .ok (decide (t = t')) ∧
      GT 2 (some [some m, some m']) = .ok (decide (t' < t)) := by
  have hl := timeText_length _ (tod_nat t).1
  have hl' := timeText_length _ (tod_nat t').1
  have hd := dateText_length ht
  have hd' := dateText_length ht'
  have hm : ∀ b ∈ ascii "-", b ≠ 0 := by decide
  have hlen : (ascii "-").length = 1 := rfl
  have nz : ∀ d k, ∀ x ∈ dateText d ++ ascii "-" ++ timeText k, x ≠ 0 := by
    intro d k x hx
    simp only [List.mem_append] at hx
    rcases hx with (hx | hx) | hx
    · exact dateText_ne_zero _ x hx
    · exact hm x hx
    · exact timeText_ne_zero _ x hx
  refine ⟨_, _, C63_dt t ht _ (by simpa using hn), C63_dt t' ht' _ (by simpa using hn'), ?_⟩
  refine compare_texts (fun t => dateText (civilDate (dayOf t)) ++ ascii "-" ++ timeText (timeOfDay t).toNat) id IntTy.i64.InRange
    (fun a b ha hb h => ?_) (fun _ _ h => by simp only [id] at h; rw [h]) t t' ht ht'
    (holds_zeroed hn (nz _ _) (by simp only [List.length_append]; omega))
    (holds_zeroed hn' (nz _ _) (by simp only [List.length_append]; omega))
  simp only [id] at h
  have ta := tod_nat a; have tb := tod_nat b
  have da := day_tod a; have db := day_tod b
  simp only [List.append_assoc]
  rcases lt_trichotomy (dayOf a) (dayOf b) with hc | hc | hc
  · exact append_lt_right (by rw [dateText_length ha, dateText_length hb]) (date_lt ha hb hc) _ _
  · rw [hc]
    refine append_lt_left _ (append_lt_left _ (time_lt ?_ tb.1))
    rw [hc] at da; omega
  · unfold D at *; omega

/-- The fraction of a second does not disturb: 12:00:01 < 12:00:01.000001 < 12:00:01.001. -/
example : TOD_TO_STRING_EXT 43201000000000 (some (List.replicate 81 0)) = .ok (ascii "12:00:01" ++ List.replicate 73 0) ∧
    TOD_TO_STRING_EXT 43201000001000 (some (List.replicate 81 0)) = .ok (ascii "12:00:01.000001" ++ List.replicate 66 0) ∧
    LT 2 (some [some (ascii "12:00:01" ++ List.replicate 73 0), some (ascii "12:00:01.000001" ++ List.replicate 66 0)]) = .ok true := by
  decide +kernel

/-- The texts of durations do not sort like the durations: '10s' < '9s'. -/
example : TIME_TO_STRING_EXT 10000000000 (List.replicate 81 0) = .ok (ascii "10s" ++ List.replicate 78 0) ∧
    TIME_TO_STRING_EXT 9000000000 (List.replicate 81 0) = .ok (ascii "9s" ++ List.replicate 79 0) ∧
    LT 2 (some [some (ascii "10s" ++ List.replicate 78 0), some (ascii "9s" ++ List.replicate 79 0)]) = .ok true := by
  decide +kernel

end Verif
