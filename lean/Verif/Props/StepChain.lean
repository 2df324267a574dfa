import Verif.Props.Scan
/-
C155: a chain of `n` steps made of latches,

  t[k] := step[k].Q AND cond[k];                            (for all k, before the latches are called)
  step[0](SET1 := t[n-1] OR start, RESET := t[0]);           (an SR)
  step[k](SET := t[k-1], RESET1 := t[k] OR start);           (an RS, for the other k)

One step is active at a time; when its condition is TRUE, the next one becomes active.
-/
namespace Verif
open Spec

/-! ### Specification -/

/-- The signals of one scan: the chain is to start from the beginning, and the conditions of the steps. -/
structure Spec.StepsIn where
  start : Bool
  cond : Nat → Bool

/-- The step that is active after a scan in which `j` was active before it. -/
def Spec.nextStep (n : Nat) (j : Nat) (x : StepsIn) : Nat :=
  if x.start then 0 else if x.cond j then (j + 1) % n else j

/-- The step that is active after the scans `h` from the start of the chain on. -/
def Spec.activeStep (n : Nat) (h : List StepsIn) : Nat := h.foldl (nextStep n) 0

/-- One call of a latch. -/
abbrev Latch := SetResetParams → LatchIn → Res SetResetParams

/-- One scan of the program (calls of `SR` and `RS`, src/bistable_functionblocks.rs:23-37); `first` and `other` are the latches that the first and the other steps are made of. -/
def chainScan (first other : Latch) (n : Nat) (s : List SetResetParams) (x : StepsIn) : Res (List SetResetParams) :=
  let step := fun k => s.getD k SetResetParams.default
  let t := fun k => (step k).output && x.cond k
  (List.range n).mapM fun k =>
    if k = 0 then first (step k) ⟨t (n - 1) || x.start, t 0⟩
    else other (step k) ⟨t (k - 1), t k || x.start⟩

/-- The outputs of the steps after the scans `h`, from new latches on. -/
def chainOutputs (first other : Latch) (n : Nat) (h : List StepsIn) : Res (List Bool) :=
  (runFB (chainScan first other n) (List.replicate n SetResetParams.default) h).bind fun s => .ok (s.map (·.output))

/-- After every history that begins with `start`, exactly the step is active that should be. -/
def Spec.StepByStep (first other : Latch) (n : Nat) : Prop :=
  ∀ x h, x.start = true → chainOutputs first other n (x :: h) = .ok ((List.range n).map fun k => decide (k = activeStep n h))

/-! ### Proof -/

private theorem mapM_pure {α β : Type} (f : α → Res β) (g : α → β) (h : ∀ a, f a = .ok (g a)) (l : List α) : l.mapM f = .ok (l.map g) := by
  induction l with
  | nil => rfl
  | cons a l ih => rw [List.mapM_cons, h a, Res.bind_ok, ih, Res.bind_ok]; rfl

private theorem scan_gives (F G : SetResetParams → SetResetParams) (n : Nat) (s : List SetResetParams) (x : StepsIn) :
    ∃ s', chainScan (fun p i => .ok (F { p with set := i.set, reset := i.reset })) (fun p i => .ok (G { p with set := i.set, reset := i.reset })) n s x = .ok s' ∧ s'.length = n ∧ ∀ k, k < n →
      let step := fun k => s.getD k SetResetParams.default
      let t := fun k => (step k).output && x.cond k
      s'.getD k SetResetParams.default =
        if k = 0 then F { step k with set := t (n - 1) || x.start, reset := t 0 } else G { step k with set := t (k - 1), reset := t k || x.start } := by
  refine ⟨_, mapM_pure _ (fun k => if k = 0 then F { s.getD k SetResetParams.default with set := _, reset := _ } else G { s.getD k SetResetParams.default with set := _, reset := _ })
    (fun k => by split <;> rfl) _, by simp, fun k hk => ?_⟩
  simp only [List.getD_eq_getElem?_getD, List.getElem?_map, List.getElem?_range hk, Option.map_some, Option.getD_some]

private theorem scan_outputs (n : Nat) (s : List SetResetParams) (x : StepsIn) :
    ∃ s', chainScan SR.call RS.call n s x = .ok s' ∧ s'.length = n ∧ ∀ k, k < n →
      let q := fun k => (s.getD k SetResetParams.default).output
      (s'.getD k SetResetParams.default).output =
        if k = 0 then (q (n - 1) && x.cond (n - 1) || x.start) || (!(q 0 && x.cond 0) && q 0)
        else !(q k && x.cond k || x.start) && ((q (k - 1) && x.cond (k - 1)) || q k) := by
  obtain ⟨s', h1, h2, h3⟩ := scan_gives SR RS n s x
  refine ⟨s', h1, h2, fun k hk => ?_⟩
  rw [h3 k hk]
  split
  · next h => subst h; rfl
  · rfl

/-- Exactly step `j` is active. -/
private def Only' (n j : Nat) (s : List SetResetParams) : Prop := s.length = n ∧ ∀ k, k < n → (s.getD k SetResetParams.default).output = decide (k = j)

private theorem chain_step {n j : Nat} (hn : 2 ≤ n) (hj : j < n) {s : List SetResetParams} (hs : Only' n j s) (x : StepsIn) :
    ∃ s', chainScan SR.call RS.call n s x = .ok s' ∧ Only' n (nextStep n j x) s' := by
  obtain ⟨s', h1, h2, h3⟩ := scan_outputs n s x
  refine ⟨s', h1, h2, fun k hk => ?_⟩
  rw [h3 k hk]
  have q0 := hs.2 0 (by omega)
  have ql := hs.2 (n - 1) (by omega)
  have qk := hs.2 k hk
  have qp := hs.2 (k - 1) (by omega)
  simp only [q0, ql, qk, qp]
  unfold nextStep
  cases x.start with
  | true => by_cases h : k = 0 <;> simp [h]
  | false =>
    have hm : (j + 1) % n = if j = n - 1 then 0 else j + 1 := by
      split
      · next h => rw [h, show n - 1 + 1 = n by omega, Nat.mod_self]
      · exact Nat.mod_eq_of_lt (by omega)
    simp only [Bool.false_eq_true, if_false, Bool.or_false, hm]
    by_cases hk0 : k = 0
    · subst hk0
      simp only [if_true]
      by_cases e1 : n - 1 = j
      · subst e1
        have : ¬ 0 = n - 1 := by omega
        cases hc : x.cond (n - 1) <;> simp [this]
      · by_cases e2 : 0 = j
        · subst e2
          have : ¬ 0 = n - 1 := by omega
          cases hc : x.cond 0 <;> simp [e1, this]
        · have : ¬ j = n - 1 := fun h => e1 h.symm
          cases hc : x.cond j <;> simp [e1, e2, this]
    · simp only [if_neg hk0]
      by_cases e1 : k = j
      · subst e1
        have e2 : ¬ k - 1 = k := by omega
        cases hc : x.cond k
        · simp
        · simp
          split <;> omega
      · by_cases e2 : k - 1 = j
        · subst e2
          have e3 : ¬ k - 1 = n - 1 := by omega
          have e4 : k - 1 + 1 = k := by omega
          cases hc : x.cond (k - 1) <;> simp [e1, e3, e4]
        · have e3 : ¬ k = if j = n - 1 then 0 else j + 1 := by split <;> omega
          cases hc : x.cond j <;> simp [e1, e2, e3]

private theorem next_lt {n : Nat} (hn : 2 ≤ n) {j : Nat} (hj : j < n) (x : StepsIn) : nextStep n j x < n := by
  unfold nextStep
  split
  · omega
  · split
    · exact Nat.mod_lt _ (by omega)
    · exact hj

private theorem chain_run {n : Nat} (hn : 2 ≤ n) : ∀ (h : List StepsIn) (j : Nat) (s : List SetResetParams), j < n → Only' n j s →
    ∃ s', runFB (chainScan SR.call RS.call n) s h = .ok s' ∧ Only' n (h.foldl (nextStep n) j) s'
  | [], j, s, _, hs => ⟨s, rfl, hs⟩
  | x :: h, j, s, hj, hs => by
    obtain ⟨s1, h1, h2⟩ := chain_step hn hj hs x
    obtain ⟨s2, h3, h4⟩ := chain_run hn h _ s1 (next_lt hn hj x) h2
    exact ⟨s2, by rw [runFB_cons, h1, Res.bind_ok, h3], h4⟩

private theorem chain_start {n : Nat} (x : StepsIn) (hx : x.start = true) (s : List SetResetParams) : ∃ s', chainScan SR.call RS.call n s x = .ok s' ∧ Only' n 0 s' := by
  obtain ⟨s', h1, h2, h3⟩ := scan_outputs n s x
  refine ⟨s', h1, h2, fun k hk => ?_⟩
  rw [h3 k hk]
  by_cases h : k = 0 <;> simp [h, hx]

/-- **C155.** -/
theorem C155 (n : Nat) (hn : 2 ≤ n) : StepByStep SR.call RS.call n := by
  intro x h hx
  obtain ⟨s1, h1, h2⟩ := chain_start x hx (List.replicate n SetResetParams.default)
  obtain ⟨s2, h3, h4, h5⟩ := chain_run hn h 0 s1 (by omega) h2
  unfold chainOutputs
  rw [runFB_cons, h1, Res.bind_ok, h3]
  show Res.ok _ = Res.ok _
  congr 1
  apply List.ext_getElem
  · simp [h4]
  · intro k h6 h7
    have hk : k < n := by simpa using h7
    have := h5 k hk
    rw [List.getD_eq_getElem?_getD, List.getElem?_eq_getElem (by omega), Option.getD_some] at this
    simpa [activeStep] using this

private theorem outputs_get {first other : Latch} {n : Nat} {h : List StepsIn} {s : List SetResetParams} (hs : runFB (chainScan first other n) (List.replicate n SetResetParams.default) h = .ok s)
    (hl : s.length = n) {l : List Bool} (ho : chainOutputs first other n h = .ok l) (k : Nat) (hk : k < n) : l[k]? = some (s.getD k SetResetParams.default).output := by
  unfold chainOutputs at ho
  rw [hs] at ho
  obtain rfl : s.map (·.output) = l := Res.ok.inj ho
  rw [List.getElem?_map, List.getElem?_eq_getElem (by omega), List.getD_eq_getElem?_getD, List.getElem?_eq_getElem (by omega)]
  rfl

/-- The choice of the latches matters: with SR for all steps two steps are active after a new start that comes together with a condition, and with RS for all steps none is. -/
theorem C155_latches (n : Nat) (hn : 2 ≤ n) : ¬ StepByStep SR.call SR.call n ∧ ¬ StepByStep RS.call RS.call n := by
  let x1 : StepsIn := ⟨true, fun _ => false⟩
  let x2 : StepsIn := ⟨true, fun k => decide (k = 0)⟩
  constructor
  · intro H
    obtain ⟨s1, h1, l1, g1⟩ := scan_gives SR SR n (List.replicate n SetResetParams.default) x1
    obtain ⟨s2, h2, l2, g2⟩ := scan_gives SR SR n s1 x2
    have hr : runFB (chainScan SR.call SR.call n) (List.replicate n SetResetParams.default) [x1, x2] = .ok s2 := by
      rw [runFB_cons, show chainScan SR.call SR.call n _ x1 = .ok s1 from h1, Res.bind_ok, runFB_cons, show chainScan SR.call SR.call n s1 x2 = .ok s2 from h2]; rfl
    have := outputs_get hr l2 (H x1 [x2] rfl) 1 (by omega)
    rw [List.getElem?_map, List.getElem?_range (by omega), g2 1 (by omega)] at this
    have q0 : (s1.getD 0 SetResetParams.default).output = true := by
      rw [g1 0 (by omega)]
      simp [SR, x1]
    simp only [x2, SR, if_neg (show ¬ (1 : Nat) = 0 by omega), Nat.sub_self, q0] at this
    simp [activeStep, nextStep] at this
  · intro H
    obtain ⟨s1, h1, l1, g1⟩ := scan_gives RS RS n (List.replicate n SetResetParams.default) x1
    obtain ⟨s2, h2, l2, g2⟩ := scan_gives RS RS n s1 x2
    have hr : runFB (chainScan RS.call RS.call n) (List.replicate n SetResetParams.default) [x1, x2] = .ok s2 := by
      rw [runFB_cons, show chainScan RS.call RS.call n _ x1 = .ok s1 from h1, Res.bind_ok, runFB_cons, show chainScan RS.call RS.call n s1 x2 = .ok s2 from h2]; rfl
    have := outputs_get hr l2 (H x1 [x2] rfl) 0 (by omega)
    rw [List.getElem?_map, List.getElem?_range (by omega), g2 0 (by omega)] at this
    have q0 : (s1.getD 0 SetResetParams.default).output = true := by
      rw [g1 0 (by omega)]
      simp [RS, x1, SetResetParams.default]
    simp only [x2, RS, if_pos, q0] at this
    simp [activeStep, nextStep] at this

/-- Three steps: start, then the conditions of the first and of the second step, then a new start together with the condition of the third. -/
example : chainOutputs SR.call RS.call 3 [⟨true, fun _ => false⟩, ⟨false, (· == 0)⟩, ⟨false, (· == 1)⟩] = .ok [false, false, true] ∧
    chainOutputs SR.call RS.call 3 [⟨true, fun _ => false⟩, ⟨false, (· == 0)⟩, ⟨false, (· == 1)⟩, ⟨true, (· == 2)⟩] = .ok [true, false, false] := by
  decide

/-- All conditions TRUE at once: one step further in each scan. -/
example : chainOutputs SR.call RS.call 3 (⟨true, fun _ => true⟩ :: List.replicate 4 ⟨false, fun _ => true⟩) = .ok [false, true, false] := by decide

end Verif
