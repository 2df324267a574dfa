import Verif.Props.SelectorAlgebra
/-
C131: peak indicators made of MAX and MIN.
-/
namespace Verif
open Spec

/-- The program `peak := MAX(peak, sample)`, once per sample, on integers; `peak` starts with the first sample. -/
def peakInt (first : Int) (samples : List Int) : Res Int :=
  samples.foldlM (fun peak sample => maxInt 2 (some [peak, sample])) first

/-- The program `low := MIN(low, sample)`. -/
def lowInt (first : Int) (samples : List Int) : Res Int :=
  samples.foldlM (fun low sample => minInt 2 (some [low, sample])) first

/-- The same with REAL or LREAL. -/
def peakFloat (f : FloatFmt) (tie : Nat → Nat → Bool) (first : Nat) (samples : List Nat) : Res Nat :=
  samples.foldlM (fun peak sample => maxFloat f tie 2 (some [peak, sample])) first

/-- The same with REAL or LREAL. -/
def lowFloat (f : FloatFmt) (tie : Nat → Nat → Bool) (first : Nat) (samples : List Nat) : Res Nat :=
  samples.foldlM (fun low sample => minFloat f tie 2 (some [low, sample])) first

/-- **C131.** After any number of samples the peak is the largest and the low the smallest of them. -/
theorem C131_int (first : Int) (samples : List Int) :
    ∃ p l, peakInt first samples = .ok p ∧ lowInt first samples = .ok l ∧ p ∈ first :: samples ∧ l ∈ first :: samples ∧
      ∀ y ∈ first :: samples, l ≤ y ∧ y ≤ p := by
  have hp : ∀ (samples : List Int) (first : Int), ∃ p, peakInt first samples = .ok p ∧ p ∈ first :: samples ∧
      ∀ y ∈ first :: samples, y ≤ p := by
    intro samples
    induction samples with
    | nil => intro first; exact ⟨first, rfl, by simp, by simp⟩
    | cons x xs ih =>
      intro first
      obtain ⟨m, h1, h2, h3⟩ := C18_max_int [first, x] [] (by simp)
      obtain ⟨p, i1, i2, i3⟩ := ih m
      refine ⟨p, ?_, ?_, ?_⟩
      · unfold peakInt
        rw [List.foldlM_cons]
        have : maxInt 2 (some [first, x]) = .ok m := h1
        rw [this]
        exact i1
      · simp only [List.mem_cons, List.not_mem_nil, or_false] at h2 i2 ⊢
        rcases i2 with rfl | i2
        · rcases h2 with h2 | h2 <;> simp [h2]
        · simp [i2]
      · intro y hy
        simp only [List.mem_cons] at hy h3 i3
        rcases hy with rfl | rfl | hy
        · exact (h3 _ (by simp)).trans (i3 m (by simp))
        · exact (h3 _ (by simp)).trans (i3 m (by simp))
        · exact i3 y (.inr hy)
  have hl : ∀ (samples : List Int) (first : Int), ∃ p, lowInt first samples = .ok p ∧ p ∈ first :: samples ∧
      ∀ y ∈ first :: samples, p ≤ y := by
    intro samples
    induction samples with
    | nil => intro first; exact ⟨first, rfl, by simp, by simp⟩
    | cons x xs ih =>
      intro first
      obtain ⟨m, h1, h2, h3⟩ := C18_min_int [first, x] [] (by simp)
      obtain ⟨p, i1, i2, i3⟩ := ih m
      refine ⟨p, ?_, ?_, ?_⟩
      · unfold lowInt
        rw [List.foldlM_cons]
        have : minInt 2 (some [first, x]) = .ok m := h1
        rw [this]
        exact i1
      · simp only [List.mem_cons, List.not_mem_nil, or_false] at h2 i2 ⊢
        rcases i2 with rfl | i2
        · rcases h2 with h2 | h2 <;> simp [h2]
        · simp [i2]
      · intro y hy
        simp only [List.mem_cons] at hy h3 i3
        rcases hy with rfl | rfl | hy
        · exact (i3 m (by simp)).trans (h3 _ (by simp))
        · exact (i3 m (by simp)).trans (h3 _ (by simp))
        · exact i3 y (.inr hy)
  obtain ⟨p, p1, p2, p3⟩ := hp samples first
  obtain ⟨l, l1, l2, l3⟩ := hl samples first
  exact ⟨p, l, p1, l1, p2, l2, fun y hy => ⟨l3 y hy, p3 y hy⟩⟩

example : peakInt 3 [-5, 9, 2] = .ok 9 ∧ lowInt 3 [-5, 9, 2] = .ok (-5) := by decide

/-- **C131**, REAL and LREAL: samples that are NaN, a sensor without signal for instance, are ignored, also as the first sample; the result
is a NaN only if there was nothing else. -/
theorem C131_float (f : FloatFmt) (hf : IsFloatTy f) (tie : Nat → Nat → Bool) (first : Nat) (samples : List Nat) :
    ∃ p l, peakFloat f tie first samples = .ok p ∧ lowFloat f tie first samples = .ok l ∧
      p ∈ first :: samples ∧ l ∈ first :: samples ∧
      ((∃ y ∈ first :: samples, ¬ IsNaN f y) → ¬ IsNaN f p ∧ ¬ IsNaN f l) ∧
      ∀ y ∈ first :: samples, ¬ IsNaN f y → floatValue f l ≤ floatValue f y ∧ floatValue f y ≤ floatValue f p := by
  have hp : ∀ (samples : List Nat) (first : Nat), ∃ p, peakFloat f tie first samples = .ok p ∧ p ∈ first :: samples ∧
      ((∃ y ∈ first :: samples, ¬ IsNaN f y) → ¬ IsNaN f p) ∧
      ∀ y ∈ first :: samples, ¬ IsNaN f y → floatValue f y ≤ floatValue f p := by
    intro samples
    induction samples with
    | nil => intro first; exact ⟨first, rfl, by simp, by simp, by simp⟩
    | cons x xs ih =>
      intro first
      obtain ⟨m, h1, h2, h3⟩ := C20_max_float f hf tie [first, x] [] (by simp)
      obtain ⟨p, i1, i2, i3, i4⟩ := ih m
      have hm : ∀ y ∈ [first, x], ¬ IsNaN f y → ¬ IsNaN f m ∧ floatValue f y ≤ floatValue f m := fun y hy hn =>
        ⟨(h3 ⟨y, hy, hn⟩).1, (h3 ⟨y, hy, hn⟩).2 y hy hn⟩
      refine ⟨p, ?_, ?_, ?_, ?_⟩
      · unfold peakFloat
        rw [List.foldlM_cons]
        have : maxFloat f tie 2 (some [first, x]) = .ok m := h1
        rw [this]
        exact i1
      · simp only [List.mem_cons, List.not_mem_nil, or_false] at h2 i2 ⊢
        rcases i2 with rfl | i2
        · rcases h2 with h2 | h2 <;> simp [h2]
        · simp [i2]
      · rintro ⟨y, hy, hn⟩
        simp only [List.mem_cons] at hy
        rcases hy with rfl | rfl | hy
        · exact i3 ⟨m, by simp, (hm _ (by simp) hn).1⟩
        · exact i3 ⟨m, by simp, (hm _ (by simp) hn).1⟩
        · exact i3 ⟨y, by simp [hy], hn⟩
      · intro y hy hn
        simp only [List.mem_cons] at hy
        rcases hy with rfl | rfl | hy
        · have := hm _ (by simp) hn; exact this.2.trans (i4 m (by simp) this.1)
        · have := hm _ (by simp) hn; exact this.2.trans (i4 m (by simp) this.1)
        · exact i4 y (by simp [hy]) hn
  have hl : ∀ (samples : List Nat) (first : Nat), ∃ p, lowFloat f tie first samples = .ok p ∧ p ∈ first :: samples ∧
      ((∃ y ∈ first :: samples, ¬ IsNaN f y) → ¬ IsNaN f p) ∧
      ∀ y ∈ first :: samples, ¬ IsNaN f y → floatValue f p ≤ floatValue f y := by
    intro samples
    induction samples with
    | nil => intro first; exact ⟨first, rfl, by simp, by simp, by simp⟩
    | cons x xs ih =>
      intro first
      obtain ⟨m, h1, h2, h3⟩ := C20_min_float f hf tie [first, x] [] (by simp)
      obtain ⟨p, i1, i2, i3, i4⟩ := ih m
      have hm : ∀ y ∈ [first, x], ¬ IsNaN f y → ¬ IsNaN f m ∧ floatValue f m ≤ floatValue f y := fun y hy hn =>
        ⟨(h3 ⟨y, hy, hn⟩).1, (h3 ⟨y, hy, hn⟩).2 y hy hn⟩
      refine ⟨p, ?_, ?_, ?_, ?_⟩
      · unfold lowFloat
        rw [List.foldlM_cons]
        have : minFloat f tie 2 (some [first, x]) = .ok m := h1
        rw [this]
        exact i1
      · simp only [List.mem_cons, List.not_mem_nil, or_false] at h2 i2 ⊢
        rcases i2 with rfl | i2
        · rcases h2 with h2 | h2 <;> simp [h2]
        · simp [i2]
      · rintro ⟨y, hy, hn⟩
        simp only [List.mem_cons] at hy
        rcases hy with rfl | rfl | hy
        · exact i3 ⟨m, by simp, (hm _ (by simp) hn).1⟩
        · exact i3 ⟨m, by simp, (hm _ (by simp) hn).1⟩
        · exact i3 ⟨y, by simp [hy], hn⟩
      · intro y hy hn
        simp only [List.mem_cons] at hy
        rcases hy with rfl | rfl | hy
        · have := hm _ (by simp) hn; exact (i4 m (by simp) this.1).trans this.2
        · have := hm _ (by simp) hn; exact (i4 m (by simp) this.1).trans this.2
        · exact i4 y (by simp [hy]) hn
  obtain ⟨p, p1, p2, p3, p4⟩ := hp samples first
  obtain ⟨l, l1, l2, l3, l4⟩ := hl samples first
  exact ⟨p, l, p1, l1, p2, l2, fun h => ⟨p3 h, l3 h⟩, fun y hy hn => ⟨l4 y hy hn, p4 y hy hn⟩⟩

/-- NaN, 1.0, NaN, 2.0: the peak is 2.0 and the low is 1.0. -/
example : peakFloat .f32 (fun _ _ => true) 0x7fc00000 [0x3f800000, 0x7fc00000, 0x40000000] = .ok 0x40000000 ∧
    lowFloat .f32 (fun _ _ => true) 0x7fc00000 [0x3f800000, 0x7fc00000, 0x40000000] = .ok 0x3f800000 := by decide +kernel

end Verif
