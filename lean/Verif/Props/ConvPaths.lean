import Verif.Props.StConv
/-
C113: conversions in several steps.
-/
namespace Verif
open Spec

namespace Spec

/-- The functions `path` can be applied one after the other, from type `s` to type `d`. -/
def Path : StType → List StConv → StType → Prop
  | s, [], d => s = d
  | s, c :: path, d => c ∈ stConversions ∧ c.src = s ∧ Path c.dst path d

/-- The types a value has on its way, without the first. -/
def via (path : List StConv) : List StType := path.map (·.dst)

/-- Applying the functions one after the other. -/
def runPath (path : List StConv) (x : Int) : Int := path.foldl (fun y c => c.run stConversions y) x

end Spec

/-- **C113**, no detour through a type narrower than the target changes the result: if all types on the way are at least as
wide as the target, the value arrives as converting it in one step has to give it. -/
theorem C113_wide (s d : StType) (path : List StConv) (hp : Path s path d)
    (hb : ∀ t ∈ via path, t ≠ .BOOL) (hw : ∀ t ∈ via path, d.ty.bits ≤ t.ty.bits) (x : Int) (hx : s.ty.InRange x) :
    d.ty.InRange (runPath path x) ∧ ((2 ^ d.ty.bits : Nat) : Int) ∣ runPath path x - x := by
  have key : ∀ (path : List StConv) (s : StType) (y : Int), Path s path d → s.ty.InRange y → (∀ t ∈ via path, t ≠ .BOOL) →
      (∀ t ∈ via path, d.ty.bits ≤ t.ty.bits) →
      d.ty.InRange (runPath path y) ∧ ((2 ^ d.ty.bits : Nat) : Int) ∣ runPath path y - y := by
    intro path
    induction path with
    | nil => intro s y h hy _ _; obtain rfl : s = d := h; exact ⟨hy, by simp [runPath]⟩
    | cons c path ih =>
      intro s y ⟨hc, hs, h3⟩ hy hb hw
      obtain ⟨r1, -, r3⟩ := C64_value c hc (hb _ (by simp [via])) y (by rw [hs]; exact hy)
      obtain ⟨g1, g2⟩ := ih c.dst (c.run stConversions y) h3 r1
        (fun t ht => hb t (by simp only [via, List.map_cons, List.mem_cons] at ht ⊢; exact Or.inr ht))
        (fun t ht => hw t (by simp only [via, List.map_cons, List.mem_cons] at ht ⊢; exact Or.inr ht))
      refine ⟨g1, ?_⟩
      have hd : ((2 ^ d.ty.bits : Nat) : Int) ∣ c.run stConversions y - y :=
        Int.dvd_trans (Int.natCast_dvd_natCast.2 (Nat.pow_dvd_pow 2 (hw _ (by simp [via])))) r3
      have := Int.dvd_add g2 hd
      rwa [sub_add_sub_cancel] at this
  exact key path s x hp hx hb hw

/-- **C113**, two ways without a narrower type give the same result; in particular a detour gives what the direct function
gives. -/
theorem C113_same_result (s d : StType) (path path' : List StConv) (hp : Path s path d) (hp' : Path s path' d)
    (hb : ∀ t ∈ via path ++ via path', t ≠ .BOOL)
    (hw : ∀ t ∈ via path ++ via path', d.ty.bits ≤ t.ty.bits) (x : Int) (hx : s.ty.InRange x) :
    runPath path x = runPath path' x := by
  obtain ⟨h1, h2⟩ := C113_wide s d path hp (fun t ht => hb t (by simp [ht])) (fun t ht => hw t (by simp [ht])) x hx
  obtain ⟨g1, g2⟩ := C113_wide s d path' hp' (fun t ht => hb t (by simp [ht])) (fun t ht => hw t (by simp [ht])) x hx
  refine IntTy.eq_of_congr d.ty (by cases d <;> decide) h1 g1 ?_
  have := Int.dvd_sub h2 g2
  rwa [sub_sub_sub_cancel_right] at this

/-- **C113**, a value that all types on the way have arrives unchanged, however long the way. -/
theorem C113_value (s d : StType) (path : List StConv) (hp : Path s path d) (hb : ∀ t ∈ via path, t ≠ .BOOL) (x : Int)
    (hx : s.ty.InRange x) (hv : ∀ t ∈ via path, t.ty.InRange x) : runPath path x = x := by
  induction path generalizing s with
  | nil => rfl
  | cons c path ih =>
    obtain ⟨hc, hs, h3⟩ := hp
    have h := (C64_value c hc (hb _ (by simp [via])) x (by rw [hs]; exact hx)).2.1 (hv _ (by simp [via]))
    show runPath path (c.run stConversions x) = x
    rw [h]
    refine ih c.dst h3 ?_ (hv _ (by simp [via])) ?_
    · exact fun t ht => hb t (by simp only [via, List.map_cons, List.mem_cons] at ht ⊢; exact Or.inr ht)
    · exact fun t ht => hv t (by simp only [via, List.map_cons, List.mem_cons] at ht ⊢; exact Or.inr ht)

/-- DINT to INT directly and through ULINT and WORD: the same for -70000; through SINT it would not be. -/
example : let f (s d : StType) : StConv := ((stFind s d).getD ⟨s, d, s, d, .bit0⟩)
    Path .DINT [f .DINT .ULINT, f .ULINT .WORD, f .WORD .INT] .INT ∧ Path .DINT [f .DINT .INT] .INT ∧
    (∀ t ∈ via [f .DINT .ULINT, f .ULINT .WORD, f .WORD .INT], StType.INT.ty.bits ≤ t.ty.bits ∧ t ≠ .BOOL) ∧
    runPath [f .DINT .ULINT, f .ULINT .WORD, f .WORD .INT] (-70000) = -4464 ∧ runPath [f .DINT .INT] (-70000) = -4464 ∧
    runPath [f .DINT .SINT, f .SINT .INT] (-70000) = -112 := by
  refine ⟨?_, ?_, ?_, ?_⟩ <;> (simp only [Path]; decide +kernel)

end Verif
