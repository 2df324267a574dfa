/-
General list lemmas used by the proofs.
-/
namespace Verif

/-- Induction on a list from the right. -/
@[elab_as_elim]
theorem snoc_induction {α : Type} {P : List α → Prop} (h0 : P [])
    (h1 : ∀ l a, P l → P (l ++ [a])) (l : List α) : P l := by
  suffices h : ∀ r : List α, P r.reverse by simpa using h l.reverse
  intro r
  induction r with
  | nil => exact h0
  | cons a r ih => simpa using h1 _ a ih

/-- Every list is empty or has a last element. -/
theorem snoc_cases {α : Type} (l : List α) : l = [] ∨ ∃ l' a, l = l' ++ [a] := by
  refine snoc_induction (P := fun l => l = [] ∨ ∃ l' a, l = l' ++ [a]) (.inl rfl) ?_ l
  intro l a _
  exact .inr ⟨l, a, rfl⟩

end Verif
