import Verif.Proofs.Text
/-
Durations, dates and times of day as text.
-/
namespace Verif
open Spec Chrono

/-! ### Unique reading of number-unit sequences -/

/-- A text that starts with a run of `P`-bytes followed by something else has one such run. -/
theorem run_unique {P : Nat → Prop} {a a' b b' : List Nat} (h : a ++ b = a' ++ b')
    (ha : ∀ x ∈ a, P x) (ha' : ∀ x ∈ a', P x) (hb : ∀ x, b.head? = some x → ¬ P x)
    (hb' : ∀ x, b'.head? = some x → ¬ P x) : a = a' ∧ b = b' := by
  induction a generalizing a' with
  | nil =>
    cases a' with
    | nil => exact ⟨rfl, h⟩
    | cons x a' =>
      exact absurd (ha' x (by simp)) (hb x (by rw [show b = _ from h]; rfl))
  | cons x a ih =>
    cases a' with
    | nil =>
      exact absurd (ha x (by simp)) (hb' x (by rw [← show _ = b' from h]; rfl))
    | cons x' a' =>
      injection h with h1 h2
      obtain ⟨h3, h4⟩ := ih h2 (fun y hy => ha y (List.mem_cons_of_mem _ hy))
        (fun y hy => ha' y (List.mem_cons_of_mem _ hy))
      exact ⟨by rw [h1, h3], h4⟩

/-- A unit is a non-empty sequence of lower-case letters. -/
def IsUnit (u : List Nat) : Prop := u ≠ [] ∧ ∀ x ∈ u, 97 ≤ x ∧ x ≤ 122

/-- Text of number-unit pairs. -/
def tokText (l : List (Nat × List Nat)) : List Nat := l.flatMap fun it => decimal it.1 ++ it.2

theorem tokText_head (l : List (Nat × List Nat)) (x : Nat) (h : (tokText l).head? = some x) :
    48 ≤ x ∧ x ≤ 57 := by
  cases l with
  | nil => cases h
  | cons it l =>
    obtain ⟨c, cs, hc⟩ := List.exists_cons_of_ne_nil (decimal_ne_nil it.1)
    have := decimal_digit it.1 c (by rw [hc]; simp)
    unfold tokText at h
    rw [List.flatMap_cons, hc] at h
    have : c = x := by simpa using h
    omega

theorem tokText_injective {l l' : List (Nat × List Nat)} (hl : ∀ it ∈ l, IsUnit it.2)
    (hl' : ∀ it ∈ l', IsUnit it.2) (h : tokText l = tokText l') : l = l' := by
  have hcons : ∀ (it : Nat × List Nat) l, tokText (it :: l) = decimal it.1 ++ (it.2 ++ tokText l) := by
    intro it l; unfold tokText; rw [List.flatMap_cons, List.append_assoc]
  have hne : ∀ (it : Nat × List Nat) l, tokText (it :: l) ≠ [] := by
    intro it l hc
    rw [hcons] at hc
    exact decimal_ne_nil _ (List.append_eq_nil_iff.1 hc).1
  induction l generalizing l' with
  | nil =>
    cases l' with
    | nil => rfl
    | cons it l' => exact absurd h.symm (hne it l')
  | cons it l ih =>
    cases l' with
    | nil => exact absurd h (hne it l)
    | cons it' l' =>
      rw [hcons, hcons] at h
      have hu := hl it (by simp)
      have hu' := hl' it' (by simp)
      have unit_head : ∀ (u : List Nat) (r : List Nat), IsUnit u → ∀ x, (u ++ r).head? = some x →
          ¬ (48 ≤ x ∧ x ≤ 57) := by
        rintro u r ⟨h1, h2⟩ x hx
        obtain ⟨c, cs, rfl⟩ := List.exists_cons_of_ne_nil h1
        have := h2 c (by simp)
        have : c = x := by simpa using hx
        omega
      obtain ⟨h1, h2⟩ := run_unique (P := fun x => 48 ≤ x ∧ x ≤ 57) h (decimal_digit _)
        (decimal_digit _) (unit_head _ _ hu) (unit_head _ _ hu')
      obtain ⟨h3, h4⟩ := run_unique (P := fun x => 97 ≤ x ∧ x ≤ 122) h2 hu.2 hu'.2
        (fun x hx => by have := tokText_head _ x hx; omega)
        (fun x hx => by have := tokText_head _ x hx; omega)
      rw [ih (fun y hy => hl y (List.mem_cons_of_mem _ hy))
        (fun y hy => hl' y (List.mem_cons_of_mem _ hy)) h4]
      rw [Prod.ext_iff.2 ⟨decimal_injective h1, h3⟩]

/-- The components with their units. -/
def parts (c : Dhms) : List (Nat × List Nat) :=
  [(c.d, [100]), (c.h, [104]), (c.m, [109]), (c.s, [115]), (c.ms, [109, 115]),
    (c.us, [117, 115]), (c.ns, [110, 115])]

theorem parts_unit (c : Dhms) : ∀ it ∈ parts c, IsUnit it.2 := by
  intro it hit
  simp only [parts, List.mem_cons, List.not_mem_nil, or_false] at hit
  rcases hit with rfl | rfl | rfl | rfl | rfl | rfl | rfl <;>
    exact ⟨by simp, by simp⟩

theorem tokText_filter (l : List (Nat × List Nat)) :
    tokText (l.filter fun it => it.1 != 0) =
      l.flatMap fun it => if it.1 = 0 then [] else decimal it.1 ++ it.2 := by
  induction l with
  | nil => rfl
  | cons it l ih =>
    rw [List.filter_cons, List.flatMap_cons, ← ih]
    by_cases h : it.1 = 0
    · simp [h]
    · simp [h, tokText]

theorem text_eq (c : Dhms) : c.text = tokText ((parts c).filter fun it => it.1 != 0) := by
  rw [tokText_filter]
  unfold Dhms.text component parts
  simp only [List.flatMap_cons, List.flatMap_nil, List.append_nil, List.append_assoc]
  rfl

/-- Total of the numbers with a given unit. -/
def totalOf (u : List Nat) (l : List (Nat × List Nat)) : Nat :=
  ((l.filter fun it => it.2 == u).map (·.1)).sum

theorem totalOf_filter (u : List Nat) (l : List (Nat × List Nat)) :
    totalOf u (l.filter fun it => it.1 != 0) = totalOf u l := by
  induction l with
  | nil => rfl
  | cons it l ih =>
    unfold totalOf at *
    rw [List.filter_filter] at ih
    by_cases h : it.1 = 0
    · by_cases hu : it.2 = u <;> simp [h, hu, ih]
    · by_cases hu : it.2 = u <;> simp [h, hu, ih]

/-- Different components give different texts. -/
theorem text_injective {c c' : Dhms} (h : c.text = c'.text) : c = c' := by
  rw [text_eq, text_eq] at h
  have h := tokText_injective
    (fun it hit => parts_unit c it (List.mem_filter.1 hit).1)
    (fun it hit => parts_unit c' it (List.mem_filter.1 hit).1) h
  have key : ∀ u, totalOf u (parts c) = totalOf u (parts c') := by
    intro u; rw [← totalOf_filter, h, totalOf_filter]
  obtain ⟨d, hh, m, s, ms, us, ns⟩ := c
  obtain ⟨d', h', m', s', ms', us', ns'⟩ := c'
  have h1 := key [100]
  have h2 := key [104]
  have h3 := key [109]
  have h4 := key [115]
  have h5 := key [109, 115]
  have h6 := key [117, 115]
  have h7 := key [110, 115]
  simp [totalOf, parts] at h1 h2 h3 h4 h5 h6 h7
  subst h1 h2 h3 h4 h5 h6 h7
  rfl

theorem nanos_injective {c c' : Dhms} (hc : c.Proper) (hc' : c'.Proper)
    (h : c.nanos = c'.nanos) : c = c' := by
  obtain ⟨d, hh, m, s, ms, us, ns⟩ := c
  obtain ⟨d', h', m', s', ms', us', ns'⟩ := c'
  simp only [Dhms.Proper, Dhms.nanos] at *
  have h7 : ns = ns' := by omega
  have h6 : us = us' := by omega
  have h5 : ms = ms' := by omega
  have h4 : s = s' := by omega
  have h3 : m = m' := by omega
  have h2 : hh = h' := by omega
  have h1 : d = d' := by omega
  subst h1 h2 h3 h4 h5 h6 h7
  rfl

/-! ### The loop on a zeroed buffer -/

theorem findIdx_zero {text : List Nat} (hz : ∀ b ∈ text, b ≠ 0) (r : List Nat)
    (hk : text.length < 81) :
    ((text ++ 0 :: r).take 81).findIdx? (· == 0) = some text.length := by
  rw [List.take_append, List.take_of_length_le (by omega),
    show 81 - text.length = (80 - text.length) + 1 by omega, List.take_succ_cons,
    List.findIdx?_append]
  have : text.findIdx? (· == 0) = none := by
    rw [List.findIdx?_eq_none_iff]
    intro x hx; simp [hz x hx]
  rw [this]
  simp [List.findIdx?_cons]

theorem unit_ne_zero {u : List Nat} (h : IsUnit u) : ∀ b ∈ u, b ≠ 0 := by
  intro b hb; have := h.2 b hb; omega

theorem tokText_ne_zero {l : List (Nat × List Nat)} (h : ∀ it ∈ l, IsUnit it.2) :
    ∀ b ∈ tokText l, b ≠ 0 := by
  intro b hb
  obtain ⟨it, hit, hb⟩ := List.mem_flatMap.1 hb
  rcases List.mem_append.1 hb with hb | hb
  · have := decimal_digit _ b hb; omega
  · exact unit_ne_zero (h it hit) b hb

/-- The loop writes the text of the parts one after the other, if there are zeros. -/
theorem timeLoop_zero (l : List (Nat × List Nat)) (hl : ∀ it ∈ l, IsUnit it.2) (w : List Nat)
    (k : Nat) (rest : List Nat) (hk : (tokText l).length < k) (hk' : (tokText l).length < 81)
    (hroom : (tokText l).length + 81 ≤ k + rest.length) :
    timeLoop l w (List.replicate k 0 ++ rest) =
      .ok (w ++ tokText l ++ (List.replicate (k - (tokText l).length) 0 ++ rest)) := by
  induction l generalizing w k with
  | nil => simp [timeLoop, tokText]
  | cons it l ih =>
    have hcons : tokText (it :: l) = (decimal it.1 ++ it.2) ++ tokText l := by
      unfold tokText; rw [List.flatMap_cons]
    rw [hcons] at hk hk' hroom ⊢
    rw [timeLoop, fmtNat_eq]
    generalize ht : decimal it.1 ++ it.2 = text at *
    have hz : ∀ b ∈ text, b ≠ 0 := by
      intro b hb
      rw [← ht] at hb
      rcases List.mem_append.1 hb with hb | hb
      · have := decimal_digit _ b hb; omega
      · exact unit_ne_zero (hl it (by simp)) b hb
    rw [List.length_append] at hk hk' hroom ⊢
    have hdrop : (List.replicate k 0 ++ rest).drop text.length =
        0 :: (List.replicate (k - text.length - 1) 0 ++ rest) := by
      rw [List.drop_append_of_le_length (by simp; omega), List.drop_replicate,
        show k - text.length = (k - text.length - 1) + 1 by omega, List.replicate_succ]
      simp
    have hw : writeBuf (some (List.replicate k 0 ++ rest)) text =
        .ok (text ++ 0 :: (List.replicate (k - text.length - 1) 0 ++ rest)) := by
      unfold writeBuf DEFAULT_STRING_LEN
      dsimp only
      rw [List.length_append, List.length_replicate, if_neg (by omega), if_neg (by omega), hdrop]
    rw [hw, Res.bind_ok, DEFAULT_STRING_LEN, findIdx_zero hz _ (by omega), Res.unwrap_some,
      Res.bind_ok, List.take_left, List.drop_left, ← List.cons_append, ← List.replicate_succ,
      show k - text.length - 1 + 1 = k - text.length by omega,
      ih (fun x hx => hl x (List.mem_cons_of_mem _ hx)) (w ++ text) (k - text.length) (by omega)
        (by omega) (by omega)]
    simp only [List.append_assoc, Nat.sub_sub]

/-! ### Components of a timestamp -/

/-- What `parse_timestamp` computes. -/
def partsOf (t : Int) : Dhms where
  d := (IntTy.u32.wrap (t.tdiv D)).toNat
  h := (timeOfDay t / 3600000000000).toNat
  m := (timeOfDay t / 60000000000 % 60).toNat
  s := (timeOfDay t / 1000000000 % 60).toNat
  ms := (timeOfDay t / 1000000 % 1000).toNat
  us := (timeOfDay t / 1000 % 1000).toNat
  ns := (timeOfDay t % 1000).toNat

theorem parse_timestamp_eq (t : Int) : parse_timestamp t = parts (partsOf t) := by
  have h1 := ts_secs t
  have h2 := ts_frac t
  have h3 := tod_bounds t
  unfold parse_timestamp parts partsOf
  simp only [NaiveTime.hour, NaiveTime.minute, NaiveTime.second,
    NaiveDateTime.timestamp_subsec_millis, NaiveDateTime.timestamp_subsec_micros,
    NaiveDateTime.timestamp_subsec_nanos]
  unfold D at h3
  generalize (timestamp_nanos_utc t).time.secs = s at *
  generalize (timestamp_nanos_utc t).time.frac = f at *
  generalize timeOfDay t = n at *
  rw [show s / 3600 = (n / 3600000000000).toNat by omega,
    show s / 60 % 60 = (n / 60000000000 % 60).toNat by omega,
    show s % 60 = (n / 1000000000 % 60).toNat by omega,
    show f / 1000000 = (n / 1000000 % 1000).toNat by omega,
    show f / 1000 % 1000 = (n / 1000 % 1000).toNat by omega,
    show f % 1000 = (n % 1000).toNat by omega]
  rfl

theorem partsOf_proper (t : Int) : (partsOf t).Proper := by
  have := tod_bounds t
  unfold D at this
  unfold Dhms.Proper partsOf
  generalize timeOfDay t = n at *
  dsimp only
  omega

theorem partsOf_rest (t : Int) : ((partsOf t).nanos : Int) = (partsOf t).d * D + timeOfDay t := by
  have := tod_bounds t
  unfold D at *
  unfold Dhms.nanos partsOf
  generalize (IntTy.u32.wrap (t.tdiv 86400000000000)).toNat = d
  generalize timeOfDay t = n at *
  dsimp only
  omega

theorem component_length (n : Nat) (u : String) (k : Nat) (hk : 0 < k) (hn : n < 10 ^ k) :
    (component n u).length ≤ k + (ascii u).length := by
  unfold component
  split
  · simp
  · have := decimal_length_le n k hk hn
    rw [List.length_append]; omega

theorem partsOf_length (t : Int) : (partsOf t).text.length ≤ 36 := by
  have hp := partsOf_proper t
  have hd : (partsOf t).d < 10 ^ 10 := by
    have h := IntTy.wrap_inRange .u32 (by decide) (t.tdiv D)
    have h : 0 ≤ IntTy.u32.wrap (t.tdiv D) ∧ IntTy.u32.wrap (t.tdiv D) ≤ 4294967295 := by
      simpa [IntTy.InRange, IntTy.lo, IntTy.hi, IntTy.u32] using h
    show (IntTy.u32.wrap (t.tdiv D)).toNat < _
    omega
  obtain ⟨h1, h2, h3, h4, h5, h6⟩ := hp
  have a := component_length (partsOf t).d "d" 10 (by omega) hd
  have b := component_length (partsOf t).h "h" 2 (by omega) (by omega)
  have c := component_length (partsOf t).m "m" 2 (by omega) (by omega)
  have d := component_length (partsOf t).s "s" 2 (by omega) (by omega)
  have e := component_length (partsOf t).ms "ms" 3 (by omega) (by omega)
  have f := component_length (partsOf t).us "us" 3 (by omega) (by omega)
  have g := component_length (partsOf t).ns "ns" 3 (by omega) (by omega)
  have l1 : (ascii "d").length = 1 := rfl
  have l2 : (ascii "h").length = 1 := rfl
  have l3 : (ascii "m").length = 1 := rfl
  have l4 : (ascii "s").length = 1 := rfl
  have l5 : (ascii "ms").length = 2 := rfl
  have l6 : (ascii "us").length = 2 := rfl
  have l7 : (ascii "ns").length = 2 := rfl
  unfold Dhms.text
  simp only [List.length_append]
  omega

/-- TIME_TO_STRING into zeros writes the components. -/
theorem time_to_string_zero (t : Int) (k : Nat) (rest : List Nat)
    (hk : (partsOf t).text.length < k) (hroom : (partsOf t).text.length + 81 ≤ k + rest.length) :
    TIME_TO_STRING_EXT t (List.replicate k 0 ++ rest) =
      .ok ((partsOf t).text ++ (List.replicate (k - (partsOf t).text.length) 0 ++ rest)) := by
  have hl := partsOf_length t
  unfold TIME_TO_STRING_EXT
  rw [parse_timestamp_eq, text_eq] at *
  rw [timeLoop_zero _ (fun it hit => parts_unit _ it (List.mem_filter.1 hit).1) [] k rest hk
    (by omega) hroom]
  simp

theorem text_ne_zero (c : Dhms) : ∀ b ∈ c.text, b ≠ 0 := by
  rw [text_eq]
  exact tokText_ne_zero (fun it hit => parts_unit c it (List.mem_filter.1 hit).1)

end Verif
