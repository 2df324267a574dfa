import Verif.Props.SharedInstance
/-
C153: a call takes a bounded number of loads and stores, whatever other tasks do to the instance at the same time.

Model/SharedInstance.lean takes a call apart into its loads and stores; `Steps.runTasks` interleaves them.
-/
namespace Verif
open Spec

/-! ### Specification -/

/-- A task has made all of its calls when it has been given `n` loads or stores for each of them, however many tasks there are and whatever they do in between. -/
def Spec.ReturnsAfter {S I : Type} (steps : I → Steps S) (n : Nat) : Prop :=
  ∀ (s : S) (tasks : List (List I)) (schedule : List Nat) (rest : List (Steps S)) (m : S),
    Steps.runTasks (tasks.map (Steps.task steps)) schedule s = .ok (rest, m) →
    ∀ (j : Nat) (l : List I), tasks[j]? = some l → n * l.length ≤ schedule.count j → rest[j]? = some .done

/-! ### Rules for what is left of a task -/

/-- At most `n` loads and stores are left. -/
private inductive Short {S : Type} : Nat → Steps S → Prop
  | done {n} : Short n .done
  | panic {n} : Short (n + 1) .panic
  | load {n next} : (∀ m, Short n (next m)) → Short (n + 1) (.load next)
  | store {n f next} : Short n next → Short (n + 1) (.store f next)

private theorem Short.more {S : Type} {n : Nat} {t : Steps S} (h : Short n t) : Short (n + 1) t := by
  induction h with
  | done => exact .done
  | panic => exact .panic
  | load _ ih => exact .load ih
  | store _ ih => exact .store ih

private theorem Short.le {S : Type} {n n' : Nat} {t : Steps S} (h : Short n t) (hn : n ≤ n') : Short n' t := by
  induction hn with
  | refl => exact h
  | step _ ih => exact ih.more

private theorem Short.andThen {S : Type} {n n' : Nat} {a b : Steps S} (ha : Short n a) (hb : Short n' b) : Short (n + n') (a.andThen b) := by
  induction ha with
  | done => exact hb.le (by omega)
  | @panic n =>
    rw [show n + 1 + n' = n + n' + 1 by omega]
    exact .panic
  | @load n next _ ih =>
    rw [show n + 1 + n' = n + n' + 1 by omega]
    exact .load ih
  | @store n f next _ ih =>
    rw [show n + 1 + n' = n + n' + 1 by omega]
    exact .store ih

private theorem short_task {S I : Type} {steps : I → Steps S} {n : Nat} (h : ∀ i, Short n (steps i)) : ∀ l : List I, Short (n * l.length) (Steps.task steps l)
  | [] => .done
  | i :: l => ((h i).andThen (short_task h l)).le (by rw [List.length_cons, Nat.mul_add]; omega)

private theorem short_tasks {S : Type} : ∀ (schedule : List Nat) (tasks rest : List (Steps S)) (s m : S) (j n : Nat) (t : Steps S), Steps.runTasks tasks schedule s = .ok (rest, m) →
    tasks[j]? = some t → Short n t → n ≤ schedule.count j → rest[j]? = some .done
  | [], tasks, rest, s, m, j, n, t, h, hj, ht, hn => by
    cases h
    cases ht with
    | done => exact hj
    | panic => simp at hn
    | load _ => simp at hn
    | store _ => simp at hn
  | i :: schedule, tasks, rest, s, m, j, n, t, h, hj, ht, hn => by
    by_cases hij : i = j
    · subst hij
      rw [List.count_cons_self] at hn
      have hlt : i < tasks.length := (List.getElem?_eq_some_iff.1 hj).1
      have set : ∀ x : Steps S, (tasks.set i x)[i]? = some x := fun x => by rw [List.getElem?_set_self hlt]
      cases ht with
      | done =>
        simp only [Steps.runTasks, hj, Steps.step, Res.bind_ok] at h
        exact short_tasks schedule _ rest _ m i 0 _ h (set _) .done (Nat.zero_le _)
      | panic =>
        simp only [Steps.runTasks, hj, Steps.step] at h
        cases h
      | load ht =>
        simp only [Steps.runTasks, hj, Steps.step, Res.bind_ok] at h
        exact short_tasks schedule _ rest _ m i _ _ h (set _) (ht _) (by omega)
      | store ht =>
        simp only [Steps.runTasks, hj, Steps.step, Res.bind_ok] at h
        exact short_tasks schedule _ rest _ m i _ _ h (set _) ht (by omega)
    · rw [List.count_cons_of_ne hij] at hn
      simp only [Steps.runTasks] at h
      cases hi : tasks[i]? with
      | none =>
        rw [hi] at h
        exact short_tasks schedule tasks rest s m j n t h hj ht hn
      | some x =>
        rw [hi] at h
        obtain ⟨⟨x', s'⟩, h1, h2⟩ := Res.bind_eq_ok.1 h
        exact short_tasks schedule _ rest s' m j n t h2 (by rw [List.getElem?_set_ne hij]; exact hj) ht hn

private theorem after {S I : Type} {steps : I → Steps S} {n : Nat} (h : ∀ i, Short n (steps i)) : ReturnsAfter steps n := by
  intro s tasks schedule rest m hr j l hj hn
  exact short_tasks schedule _ rest s m j _ _ hr (by rw [List.getElem?_map, hj]; rfl) (short_task h l) hn

private theorem not_after {S I : Type} {steps : I → Steps S} {n : Nat} (s : S) (i : I) (x : Steps S) (m : S)
    (h : Steps.runTasks ([[i]].map (Steps.task steps)) (List.replicate n 0) s = .ok ([x], m)) (hx : x ≠ .done) : ∀ k, k ≤ n → ¬ ReturnsAfter steps k := by
  intro k hk ha
  have := ha s [[i]] _ _ _ h 0 [i] rfl (by simpa using hk)
  simp only [List.getElem?_cons_zero, Option.some.injEq] at this
  exact hx this

/-! ### The blocks -/

private theorem short_rise {S : Type} {get : S → Signal} {set : S → Signal → S} {v : Bool} {n : Nat} {next : Bool → Steps S} (h : ∀ b, Short n (next b)) :
    Short (n + 2) (Steps.rising_edge get set v next) := by
  unfold Steps.rising_edge
  split
  · exact .load fun _ => .store (h _)
  · exact (Short.store (h _)).le (by omega)

private theorem short_fall {S : Type} {get : S → Signal} {set : S → Signal → S} {v : Bool} {n : Nat} {next : Bool → Steps S} (h : ∀ b, Short n (next b)) :
    Short (n + 2) (Steps.falling_edge get set v next) := by
  unfold Steps.falling_edge
  split
  · exact (Short.store (h _)).le (by omega)
  · exact .load fun _ => .store (h _)

private theorem short_ite {S : Type} {c : Prop} [Decidable c] {n a b : Nat} {x y : Steps S} (hx : Short a x) (hy : Short b y) (ha : a ≤ n) (hb : b ≤ n) : Short n (if c then x else y) := by
  split
  · exact hx.le ha
  · exact hy.le hb

private theorem short_ctu_end : Short 3 ctuStepsEnd := .load fun _ => .load fun _ => .store .done

private theorem short_ctd_end : Short 2 ctdStepsEnd := .load fun _ => .store .done

private theorem short_ctud_end : Short 5 ctudStepsEnd := .load fun _ => .load fun _ => .store (.load fun _ => .store .done)

private theorem short_match {S : Type} {n : Nat} (r : Res Int) {f : Int → Steps S} (h : ∀ v, Short (n + 1) (f v)) : Short (n + 1) (match r with | .ok v => f v | _ => .panic) := by
  cases r
  · exact h _
  · exact .panic
  · exact .panic

private theorem short_ctu (t : IntTy) (p : Profile) (i : CTUIn) : Short 13 (ctuSteps t p i) :=
  .store (.store (.store (.load fun _ => short_ite (.store short_ctu_end) (.load fun _ => short_rise fun _ => .load fun _ =>
    short_ite (.load fun _ => short_match _ fun _ => .store short_ctu_end) short_ctu_end (n := 5) (by omega) (by omega)) (by omega) (by omega))))

private theorem short_ctd (t : IntTy) (p : Profile) (i : CTDIn) : Short 12 (ctdSteps t p i) :=
  .store (.store (.store (.load fun _ => short_ite (.load fun _ => .store short_ctd_end) (.load fun _ => short_rise fun _ => .load fun _ =>
    short_ite (.load fun _ => short_match _ fun _ => .store short_ctd_end) short_ctd_end (n := 4) (by omega) (by omega)) (by omega) (by omega))))

private theorem short_ctud (t : IntTy) (p : Profile) (i : CTUDIn) : Short 22 (ctudSteps t p i) :=
  .store (.store (.store (.store (.store (.load fun _ => short_ite (.store short_ctud_end) (.load fun _ => short_ite (.load fun _ => .store short_ctud_end)
    (.load fun _ => short_rise fun _ => .load fun _ => short_rise fun _ => short_ite short_ctud_end (.load fun _ =>
      short_ite (.load fun _ => short_match _ fun _ => .store short_ctud_end) (.load fun _ =>
        short_ite (.load fun _ => short_match _ fun _ => .store short_ctud_end) short_ctud_end (n := 7) (by omega) (by omega)) (n := 8) (by omega) (by omega)) (n := 9) (by omega) (by omega))
    (n := 15) (by omega) (by omega)) (n := 16) (by omega) (by omega))))))

private theorem short_finish (q : Bool) : Short 3 (TimerParams.finishSteps q) := .store (.load fun _ => .store .done)

private theorem short_update {n now : Nat} {next : Steps TimerParams} (h : Short n next) : Short (n + 4) (TimerParams.updateSteps now next) := by
  refine .load fun m => short_ite (a := n + 3) (b := n) (.load fun _ => .load fun m => ?_) h (by omega) (by omega)
  cases m.get_run_time now
  · exact .panic
  · exact .store h

private theorem short_range {n now : Nat} {next : Bool → Steps TimerParams} (h : ∀ b, Short n (next b)) : Short (n + 2) (TimerParams.rangeSteps now next) := .load fun _ => .load fun _ => h _

private theorem short_tp (i : TimerIn) : Short 17 (TP.steps i) :=
  .store (.store (.load fun _ => short_ite (short_update (short_range fun _ => short_ite (short_finish _) (.load fun _ => short_fall fun _ =>
    short_ite (.store (.store (short_finish _))) (short_finish _) (n := 5) (by omega) (by omega)) (n := 8) (by omega) (by omega)))
    (.load fun _ => short_rise fun _ => short_ite (.store (.store (short_finish _))) (.panic (n := 0)) (n := 5) (by omega) (by omega)) (by omega) (by omega)))

private theorem short_ton (i : TimerIn) : Short 13 (TON.steps i) :=
  .store (.store (.load fun _ => short_ite (.load fun _ => short_ite (short_update (short_range fun _ => short_finish _))
    (.load fun _ => short_rise fun _ => short_ite (.store (.store (short_finish _))) (short_finish _) (n := 5) (by omega) (by omega)) (n := 9) (by omega) (by omega))
    (.store (.store (short_finish _))) (by omega) (by omega)))

private theorem short_tof (i : TimerIn) : Short 16 (TOF.steps i) :=
  .store (.store (.load fun _ => short_ite (.load fun _ => short_rise fun _ => short_ite (.store (.store (short_finish _))) (short_finish _) (n := 5) (by omega) (by omega))
    (.load fun _ => short_fall fun _ => short_ite (.store (.store (short_finish _))) (.load fun _ => short_ite (short_update (short_range fun _ => short_finish _)) (short_finish _)
      (n := 9) (by omega) (by omega)) (n := 10) (by omega) (by omega)) (by omega) (by omega)))

/-- **C153.** -/
theorem C153 :
    ReturnsAfter R_TRIG.steps 5 ∧ ReturnsAfter F_TRIG.steps 5 ∧ ReturnsAfter SR.steps 6 ∧ ReturnsAfter RS.steps 6 ∧
    (∀ t p, ReturnsAfter (ctuSteps t p) 13) ∧ (∀ t p, ReturnsAfter (ctdSteps t p) 12) ∧ (∀ t p, ReturnsAfter (ctudSteps t p) 22) ∧
    ReturnsAfter TP.steps 17 ∧ ReturnsAfter TON.steps 13 ∧ ReturnsAfter TOF.steps 16 :=
  ⟨after fun _ => .store (.load fun _ => short_rise fun _ => .store .done), after fun _ => .store (.load fun _ => short_fall fun _ => .store .done),
   after fun _ => .store (.store (.load fun _ => .load fun _ => .load fun _ => .store .done)),
   after fun _ => .store (.store (.load fun _ => .load fun _ => .load fun _ => .store .done)),
   fun t p => after (short_ctu t p), fun t p => after (short_ctd t p), fun t p => after (short_ctud t p), after short_tp, after short_ton, after short_tof⟩

/-- The numbers of C153 are exact: with fewer loads and stores a call is not always done. -/
theorem C153_exact :
    (∀ k, k < 5 → ¬ ReturnsAfter R_TRIG.steps k) ∧ (∀ k, k < 5 → ¬ ReturnsAfter F_TRIG.steps k) ∧ (∀ k, k < 6 → ¬ ReturnsAfter SR.steps k) ∧ (∀ k, k < 6 → ¬ ReturnsAfter RS.steps k) ∧
    (∀ t p, CounterTy t → ∀ k, k < 13 → ¬ ReturnsAfter (ctuSteps t p) k) ∧ (∀ t p, CounterTy t → ∀ k, k < 12 → ¬ ReturnsAfter (ctdSteps t p) k) ∧
    (∀ t p, CounterTy t → ∀ k, k < 22 → ¬ ReturnsAfter (ctudSteps t p) k) ∧
    (∀ k, k < 17 → ¬ ReturnsAfter TP.steps k) ∧ (∀ k, k < 13 → ¬ ReturnsAfter TON.steps k) ∧ (∀ k, k < 16 → ¬ ReturnsAfter TOF.steps k) := by
  refine ⟨fun k hk => not_after Trigger.default true _ _ rfl (by intro h; cases h) k (Nat.le_of_lt_succ hk), fun k hk => not_after Trigger.default false _ _ rfl (by intro h; cases h) k (Nat.le_of_lt_succ hk),
    fun k hk => not_after SetResetParams.default ⟨true, true⟩ _ _ rfl (by intro h; cases h) k (Nat.le_of_lt_succ hk),
    fun k hk => not_after SetResetParams.default ⟨true, true⟩ _ _ rfl (by intro h; cases h) k (Nat.le_of_lt_succ hk), ?_, ?_, ?_, ?_, ?_, ?_⟩
  · intro t p ht k hk
    rcases ht with rfl | rfl | rfl | rfl | rfl <;> cases p <;> exact not_after CTUParams.default ⟨true, false, 0⟩ _ _ rfl (by intro h; cases h) k (Nat.le_of_lt_succ hk)
  · intro t p ht k hk
    rcases ht with rfl | rfl | rfl | rfl | rfl <;> cases p <;> exact not_after { CTDParams.default with cv := 5 } ⟨true, false, 0⟩ _ _ rfl (by intro h; cases h) k (Nat.le_of_lt_succ hk)
  · intro t p ht k hk
    rcases ht with rfl | rfl | rfl | rfl | rfl <;> cases p <;> exact not_after { CTUDParams.default with cv := 5, internal_up := ⟨true⟩ } ⟨true, true, false, false, 0⟩ _ _ rfl (by intro h; cases h) k (Nat.le_of_lt_succ hk)
  · exact fun k hk => not_after ⟨true, 0, true, 0, ⟨true⟩, some 0⟩ ⟨false, 0, 100, 100⟩ _ _ rfl (by intro h; cases h) k (Nat.le_of_lt_succ hk)
  · exact fun k hk => not_after ⟨true, 0, true, 0, ⟨true⟩, some 0⟩ ⟨true, 0, 100, 100⟩ _ _ rfl (by intro h; cases h) k (Nat.le_of_lt_succ hk)
  · exact fun k hk => not_after ⟨false, 0, true, 0, ⟨false⟩, some 0⟩ ⟨false, 0, 100, 100⟩ _ _ rfl (by intro h; cases h) k (Nat.le_of_lt_succ hk)

/-- Three tasks with one call of SR each; the first stops after three of its six loads and stores, and the others are done when they have had six. -/
example : ∃ x m, Steps.runTasks ([[(⟨true, false⟩ : LatchIn)], [⟨false, true⟩], [⟨true, true⟩]].map (Steps.task SR.steps)) [0, 1, 2, 0, 2, 1, 1, 2, 0, 1, 2, 1, 2, 2, 1] SetResetParams.default =
    .ok ([x, .done, .done], m) ∧ x ≠ .done :=
  ⟨_, _, rfl, by intro h; cases h⟩

end Verif
