import Verif.Proofs.Unicode
/-
Arbitrary sequences of 16-bit units: their unique division into characters and unpaired
surrogates, and that `decode_utf16` finds it.
-/
namespace Verif
open Spec

/-- What `decode_utf16` yields for an element. -/
def W16.toOption : W16 → Option Char
  | .char c => some c
  | .lone _ => none

theorem utf16Char_head (c : Char) :
    ∃ u r, utf16Char c = u :: r ∧ ¬ IsLow u := by
  have hc := char_bounds c
  unfold utf16Char
  simp only
  generalize c.toNat = n at hc
  split
  · exact ⟨_, _, rfl, by unfold IsLow; omega⟩
  · exact ⟨_, _, rfl, by unfold IsLow; omega⟩

theorem noSplitPair_tail {e : W16} {es : List W16} (h : NoSplitPair (e :: es)) : NoSplitPair es := by
  cases e with
  | char c => simpa [NoSplitPair] using h
  | lone u =>
    cases es with
    | nil => trivial
    | cons e' es =>
      cases e' with
      | char c => simpa [NoSplitPair] using h
      | lone v => exact h.2

theorem elements_tail {s : List Nat} {e : W16} {es : List W16} (h : Elements s (e :: es)) :
    ∃ r, s = e.units ++ r ∧ Elements r es :=
  ⟨es.flatMap W16.units, by rw [h.units, List.flatMap_cons],
    ⟨rfl, fun u hu => h.lone u (by simp [hu]), noSplitPair_tail h.pairs⟩⟩

/-- `decode_utf16` yields the elements. -/
theorem decode_elements {s : List Nat} {es : List W16} (h : Elements s es) :
    decode_utf16 s = es.map W16.toOption := by
  induction es generalizing s with
  | nil => rw [h.units]; simp [decode_utf16]
  | cons e es ih =>
    obtain ⟨r, hs, hr⟩ := elements_tail h
    cases e with
    | char c =>
      rw [hs]
      show decode_utf16 (utf16Char c ++ r) = _
      rw [decode_utf16_char, ih hr]; rfl
    | lone u =>
      have hu := h.lone u (by simp)
      have hur : u < 65536 := by unfold IsHigh IsLow at hu; omega
      have hne : ¬ ((u &&& 0xF800) != 0xD800) = true := by
        rw [surrogate_test u hur]; unfold IsHigh IsLow at hu; omega
      rw [hs]
      show decode_utf16 (u :: r) = _
      rw [decode_utf16.eq_def]; dsimp only
      rw [if_neg hne]
      by_cases hge : u ≥ 0xDC00
      · rw [if_pos hge, ih hr]; rfl
      · rw [if_neg hge]
        cases r with
        | nil =>
          have : es = [] := by
            cases es with
            | nil => rfl
            | cons e es =>
              have := hr.units
              cases e with
              | lone v => simp [W16.units] at this
              | char c =>
                obtain ⟨u', r', h', _⟩ := utf16Char_head c
                rw [List.flatMap_cons, W16.units, h'] at this
                simp at this
          subst this; rfl
        | cons v r =>
          dsimp only
          rw [if_pos ?_, ih hr]
          · rfl
          · simp only [Bool.or_eq_true, decide_eq_true_eq]
            refine Classical.byContradiction fun hlow => ?_
            have hv : IsLow v := by unfold IsLow; omega
            cases es with
            | nil => have := hr.units; simp at this
            | cons e es =>
              have hru := hr.units
              rw [List.flatMap_cons] at hru
              cases e with
              | lone w =>
                simp [W16.units] at hru
                have hp := h.pairs
                refine hp.1 ⟨?_, hru.1 ▸ hv⟩
                unfold IsHigh IsLow at *; omega
              | char c =>
                obtain ⟨u', r', h', hl⟩ := utf16Char_head c
                rw [W16.units, h'] at hru
                simp at hru
                exact hl (hru.1 ▸ hv)

/-- The division is unique. -/
theorem elements_unique {s : List Nat} {es es' : List W16} (h : Elements s es)
    (h' : Elements s es') : es = es' := by
  have hd := decode_elements h
  rw [decode_elements h'] at hd
  induction es generalizing s es' with
  | nil => simpa using hd
  | cons e es ih =>
    cases es' with
    | nil => simp at hd
    | cons e' es' =>
      obtain ⟨r, hs, hr⟩ := elements_tail h
      obtain ⟨r', hs', hr'⟩ := elements_tail h'
      simp only [List.map_cons, List.cons.injEq] at hd
      have he : e = e' := by
        cases e with
        | char c =>
          cases e' with
          | char c' => simp [W16.toOption] at hd; rw [hd.1]
          | lone u => simp [W16.toOption] at hd
        | lone u =>
          cases e' with
          | char c' => simp [W16.toOption] at hd
          | lone u' =>
            rw [hs] at hs'
            simp [W16.units] at hs'
            rw [hs'.1]
      subst he
      rw [hs] at hs'
      have : r = r' := List.append_cancel_left hs'
      subst this
      rw [ih hr hr' hd.2]

theorem noSplitPair_cons_char (c : Char) {es : List W16} (h : NoSplitPair es) :
    NoSplitPair (.char c :: es) := by
  cases es <;> exact h

/-- Every sequence of 16-bit units has a division. -/
theorem elements_exist (s : List Nat) (h16 : ∀ u ∈ s, u < 65536) : ∃ es, Elements s es := by
  induction hn : s.length using Nat.strongRecOn generalizing s with
  | ind n ih =>
    match s, h16, hn with
    | [], _, _ => exact ⟨[], rfl, by simp, trivial⟩
    | u :: l, h16, hn =>
      have hu := h16 u (by simp)
      have hl16 : ∀ w ∈ l, w < 65536 := fun w hw => h16 w (List.mem_cons_of_mem _ hw)
      simp only [List.length_cons] at hn
      obtain ⟨es, he⟩ := ih l.length (by omega) l hl16 rfl
      by_cases hs : 0xD800 ≤ u ∧ u ≤ 0xDFFF
      · by_cases hpair : IsHigh u ∧ ∃ v l', l = v :: l' ∧ IsLow v
        · obtain ⟨hh, v, l', rfl, hv⟩ := hpair
          obtain ⟨es', he'⟩ := ih l'.length (by simp at hn; omega) l'
            (fun w hw => hl16 w (List.mem_cons_of_mem _ hw)) rfl
          unfold IsHigh at hh; unfold IsLow at hv
          have hval := toNat_ofNat (n := 0x10000 + (u - 0xD800) * 1024 + (v - 0xDC00)) (by omega)
          refine ⟨.char (Char.ofNat (0x10000 + (u - 0xD800) * 1024 + (v - 0xDC00))) :: es', ?_, ?_,
            noSplitPair_cons_char _ he'.pairs⟩
          · rw [List.flatMap_cons, ← he'.units, W16.units, utf16Char]
            simp only [hval]
            rw [if_neg (by omega)]
            exact List.cons_eq_cons.2 ⟨by omega, List.cons_eq_cons.2 ⟨by omega, rfl⟩⟩
          · intro w hw; simp at hw; exact he'.lone w hw
        · refine ⟨.lone u :: es, ?_, ?_, ?_⟩
          · rw [List.flatMap_cons, ← he.units]; rfl
          · intro w hw
            simp only [List.mem_cons, W16.lone.injEq] at hw
            rcases hw with rfl | hw
            · unfold IsHigh IsLow; omega
            · exact he.lone w hw
          · cases es with
            | nil => trivial
            | cons e es =>
              cases e with
              | char c => exact he.pairs
              | lone v =>
                refine ⟨fun ⟨h1, h2⟩ => hpair ⟨h1, v, es.flatMap W16.units, ?_, h2⟩, he.pairs⟩
                rw [he.units]; rfl
      · refine ⟨.char (Char.ofNat u) :: es, ?_, ?_, noSplitPair_cons_char _ he.pairs⟩
        · have hval := toNat_ofNat (n := u) (by omega)
          rw [List.flatMap_cons, ← he.units, W16.units, utf16Char]
          simp only [hval]
          rw [if_pos hu]; rfl
        · intro w hw; simp at hw; exact he.lone w hw

/-- A text is the list of its characters, without unpaired surrogates. -/
theorem elements_text (t : List Char) : Elements (utf16 t) (t.map W16.char) := by
  refine ⟨?_, ?_, ?_⟩
  · simp only [utf16, List.flatMap_map]; rfl
  · intro u hu; simp at hu
  · induction t with
    | nil => trivial
    | cons c t ih => exact noSplitPair_cons_char c ih

end Verif
