import Verif.Props.SharedReturn
import Mathlib.Data.List.Permutation
/-
C152: tasks on several cores call the same instance at the same time.

Model/SharedInstance.lean takes a call apart into its loads and stores; `Steps.runTasks` interleaves them.
-/
namespace Verif
open Spec

/-! ### Specification -/

/-- Tasks may run on several cores: if their calls return in whatever order they take place one after the other, no call panics when their loads and stores are mixed in
any way. Each task makes the calls of one list. -/
def ReturnsOnManyCores {S I : Type} (call : S → I → Res S) (steps : I → Steps S) (fresh : S) : Prop :=
  ∀ h s (tasks : List (List I)), runFB call fresh h = .ok s → (∀ l, l.Perm tasks.flatten → ∃ x, runFB call s l = .ok x) →
    ∀ schedule, ∃ r, Steps.runTasks (tasks.map (Steps.task steps)) schedule s = .ok r

/-! ### Rules -/

/-- A store that changes the memory as `R` allows, on whatever memory it takes effect. -/
def TaskAllowed {S : Type} (R : S → S → Prop) (f : S → S) : Prop := ∀ m, R m (f m) ∧ ∀ m', R m m' → R (f m) (f m')

/-- What is left of a task does not panic if the other tasks change the memory only as `R` allows, and it does so itself. -/
inductive TaskFine {S : Type} (R : S → S → Prop) : S → Steps S → Prop
  | done {m} : TaskFine R m .done
  | load {m next} : (∀ m', R m m' → TaskFine R m' (next m')) → TaskFine R m (.load next)
  | store {m f next} : TaskAllowed R f → (∀ m', R m m' → TaskFine R (f m') next) → TaskFine R m (.store f next)

structure TaskOrder {S : Type} (R : S → S → Prop) : Prop where
  refl : ∀ m, R m m
  trans : ∀ {a b c}, R a b → R b c → R a c

theorem TaskFine.mono {S : Type} {R : S → S → Prop} (o : TaskOrder R) {m m' : S} {t : Steps S} (h : TaskFine R m t) (hm : R m m') : TaskFine R m' t := by
  cases h with
  | done => exact .done
  | load h => exact .load fun x hx => h x (o.trans hm hx)
  | store h h' => exact .store h fun x hx => h' x (o.trans hm hx)

private theorem TaskFine.step {S : Type} {R : S → S → Prop} (o : TaskOrder R) {m : S} {t : Steps S} (h : TaskFine R m t) :
    ∃ t' m', t.step m = .ok (t', m') ∧ R m m' ∧ TaskFine R m' t' := by
  cases h with
  | done => exact ⟨_, _, rfl, o.refl m, .done⟩
  | load h => exact ⟨_, _, rfl, o.refl m, h m (o.refl m)⟩
  | store h h' => exact ⟨_, _, rfl, (h m).1, h' m (o.refl m)⟩

private theorem fine_tasks {S : Type} {R : S → S → Prop} (o : TaskOrder R) : ∀ (schedule : List Nat) (tasks : List (Steps S)) (m : S), (∀ t ∈ tasks, TaskFine R m t) →
    ∃ r, Steps.runTasks tasks schedule m = .ok r
  | [], _, _, _ => ⟨_, rfl⟩
  | i :: schedule, tasks, m, h => by
    cases ht : tasks[i]? with
    | none =>
      simp only [Steps.runTasks, ht]
      exact fine_tasks o schedule tasks m h
    | some t =>
      obtain ⟨t', m', h1, h2, h3⟩ := (h t (List.mem_of_getElem? ht)).step o
      simp only [Steps.runTasks, ht, h1, Res.bind_ok]
      refine fine_tasks o schedule _ m' fun x hx => ?_
      rcases List.mem_or_eq_of_mem_set hx with hx | rfl
      · exact (h x hx).mono o h2
      · exact h3

theorem TaskFine.andThen {S : Type} {R : S → S → Prop} (o : TaskOrder R) {m : S} {a b : Steps S} (ha : TaskFine R m a) (hb : ∀ m', R m m' → TaskFine R m' b) : TaskFine R m (a.andThen b) := by
  induction ha with
  | @done m => exact hb m (o.refl m)
  | load _ ih => exact .load fun x hx => ih x hx fun y hy => hb y (o.trans hx hy)
  | @store m f next h _ ih => exact .store h fun x hx => ih x hx fun y hy => hb y (o.trans hx (o.trans (h x).1 hy))

/-- If every call of every task is fine, from every memory that `P` is true of and that is kept by `R`, no task panics. -/
private theorem fine_calls {S I : Type} {R : S → S → Prop} (o : TaskOrder R) {steps : I → Steps S} {P : S → Prop} (hP : ∀ m m', P m → R m m' → P m') (C : I → Prop)
    (h : ∀ m i, P m → C i → TaskFine R m (steps i)) (tasks : List (List I)) (hC : ∀ l ∈ tasks, ∀ i ∈ l, C i) (s : S) (hs : P s) (schedule : List Nat) :
    ∃ r, Steps.runTasks (tasks.map (Steps.task steps)) schedule s = .ok r := by
  refine fine_tasks o schedule _ s fun t ht => ?_
  obtain ⟨l, hl, rfl⟩ := List.mem_map.1 ht
  have : ∀ (l : List I), (∀ i ∈ l, C i) → ∀ m, P m → TaskFine R m (Steps.task steps l) := by
    intro l
    induction l with
    | nil => exact fun _ _ _ => .done
    | cons i l ih => exact fun hl m hm => (h m i hm (hl i (by simp))).andThen o fun m' hm' => ih (fun j hj => hl j (by simp [hj])) m' (hP m m' hm hm')
  exact this l (hC l hl) s hs

/-! ### One task -/

private theorem run_alone {S : Type} (b : Steps S) : ∀ (a : Steps S) (m m' : S), a.run m = .ok m' → ∃ n, ∀ schedule, Steps.runTasks [a.andThen b] (List.replicate n 0 ++ schedule) m = Steps.runTasks [b] schedule m'
  | .done, m, m', h => ⟨0, fun _ => by cases h; rfl⟩
  | .panic, _, _, h => by cases h
  | .load next, m, m', h => by
    obtain ⟨n, hn⟩ := run_alone b (next m) m m' h
    exact ⟨n + 1, hn⟩
  | .store f next, m, m', h => by
    obtain ⟨n, hn⟩ := run_alone b next (f m) m' h
    exact ⟨n + 1, hn⟩

private theorem task_alone {S I : Type} {call : S → I → Res S} {steps : I → Steps S} (hs : ∀ s i, (steps i).run s = call s i) (l : List I) : ∀ (s s' : S), runFB call s l = .ok s' →
    ∃ n, Steps.runTasks [Steps.task steps l] (List.replicate n 0) s = .ok ([.done], s') := by
  induction l with
  | nil => exact fun _ _ h => ⟨0, by cases h; rfl⟩
  | cons i l ih =>
    intro s s' h
    rw [runFB_cons] at h
    obtain ⟨x, h1, h2⟩ := Res.bind_eq_ok.1 h
    obtain ⟨n, hn⟩ := ih x s' h2
    obtain ⟨k, hk⟩ := run_alone (Steps.task steps l) (steps i) s x ((hs s i).trans h1)
    exact ⟨k + n, by rw [List.replicate_add]; exact (hk _).trans hn⟩

/-- A task on its own leaves what its calls leave. -/
theorem tasks_call (t : IntTy) (p : Profile) :
    (∀ l s s', runFB R_TRIG.call s l = .ok s' → ∃ n, Steps.runTasks [Steps.task R_TRIG.steps l] (List.replicate n 0) s = .ok ([.done], s')) ∧
    (∀ l s s', runFB F_TRIG.call s l = .ok s' → ∃ n, Steps.runTasks [Steps.task F_TRIG.steps l] (List.replicate n 0) s = .ok ([.done], s')) ∧
    (∀ l s s', runFB SR.call s l = .ok s' → ∃ n, Steps.runTasks [Steps.task SR.steps l] (List.replicate n 0) s = .ok ([.done], s')) ∧
    (∀ l s s', runFB RS.call s l = .ok s' → ∃ n, Steps.runTasks [Steps.task RS.steps l] (List.replicate n 0) s = .ok ([.done], s')) ∧
    (∀ l s s', runFB (ctuCall t p) s l = .ok s' → ∃ n, Steps.runTasks [Steps.task (ctuSteps t p) l] (List.replicate n 0) s = .ok ([.done], s')) ∧
    (∀ l s s', runFB (ctdCall t p) s l = .ok s' → ∃ n, Steps.runTasks [Steps.task (ctdSteps t p) l] (List.replicate n 0) s = .ok ([.done], s')) ∧
    (∀ l s s', runFB (ctudCall t p) s l = .ok s' → ∃ n, Steps.runTasks [Steps.task (ctudSteps t p) l] (List.replicate n 0) s = .ok ([.done], s')) ∧
    (∀ l s s', runFB TP.call s l = .ok s' → ∃ n, Steps.runTasks [Steps.task TP.steps l] (List.replicate n 0) s = .ok ([.done], s')) ∧
    (∀ l s s', runFB TON.call s l = .ok s' → ∃ n, Steps.runTasks [Steps.task TON.steps l] (List.replicate n 0) s = .ok ([.done], s')) ∧
    (∀ l s s', runFB TOF.call s l = .ok s' → ∃ n, Steps.runTasks [Steps.task TOF.steps l] (List.replicate n 0) s = .ok ([.done], s')) := by
  obtain ⟨h1, h2, h3, h4, h5, h6, h7, h8, h9, h10⟩ := steps_call t p
  exact ⟨task_alone h1, task_alone h2, task_alone h3, task_alone h4, task_alone h5, task_alone h6, task_alone h7, task_alone h8, task_alone h9, task_alone h10⟩

/-! ### Edge detection and latches -/

private theorem order_true {S : Type} : TaskOrder fun (_ _ : S) => True := ⟨fun _ => trivial, fun _ _ => trivial⟩

private theorem fine_store {S : Type} {m : S} {f : S → S} {next : Steps S} (h : ∀ m', TaskFine (fun _ _ => True) m' next) : TaskFine (fun _ _ => True) m (.store f next) :=
  .store (fun _ => ⟨trivial, fun _ _ => trivial⟩) fun _ _ => h _

private theorem fine_load {S : Type} {m : S} {next : S → Steps S} (h : ∀ m', TaskFine (fun _ _ => True) m' (next m')) : TaskFine (fun _ _ => True) m (.load next) := .load fun m' _ => h m'

/-- **C152** for R_TRIG, F_TRIG, SR and RS. -/
theorem C152_flanks_latches :
    ReturnsOnManyCores R_TRIG.call R_TRIG.steps Trigger.default ∧
    ReturnsOnManyCores F_TRIG.call F_TRIG.steps Trigger.default ∧
    ReturnsOnManyCores SR.call SR.steps SetResetParams.default ∧
    ReturnsOnManyCores RS.call RS.steps SetResetParams.default := by
  have all : ∀ {S I : Type} {call : S → I → Res S} {steps : I → Steps S} {fresh : S}, (∀ m i, TaskFine (fun _ _ => True) m (steps i)) → ReturnsOnManyCores call steps fresh :=
    fun h _ s tasks _ _ schedule => fine_calls order_true (P := fun _ => True) (fun _ _ _ _ => trivial) (fun _ => True) (fun m i _ _ => h m i) tasks (fun _ _ _ _ => trivial) s trivial schedule
  refine ⟨all fun m i => ?_, all fun m i => ?_, all fun m i => ?_, all fun m i => ?_⟩
  · refine fine_store fun _ => fine_load fun m => ?_
    unfold Steps.rising_edge
    split
    · exact fine_load fun _ => fine_store fun _ => fine_store fun _ => .done
    · exact fine_store fun _ => fine_store fun _ => .done
  · refine fine_store fun _ => fine_load fun m => ?_
    unfold Steps.falling_edge
    split
    · exact fine_store fun _ => fine_store fun _ => .done
    · exact fine_load fun _ => fine_store fun _ => fine_store fun _ => .done
  · exact fine_store fun _ => fine_store fun _ => fine_load fun _ => fine_load fun _ => fine_load fun _ => fine_store fun _ => .done
  · exact fine_store fun _ => fine_store fun _ => fine_load fun _ => fine_load fun _ => fine_load fun _ => fine_store fun _ => .done

/-- Two tasks with two calls of R_TRIG each, load by load and store by store in turn. -/
example : ((Steps.runTasks ([[true, false], [false, true]].map (Steps.task R_TRIG.steps)) ((List.range 20).map (· % 2)) Trigger.default).bind fun r => .ok r.2) = .ok ⟨true, true, ⟨true⟩⟩ := by
  decide

/-! ### Where it is false -/

private theorem not_on_many {S I : Type} {call : S → I → Res S} {steps : I → Steps S} {fresh s : S} (h : List I) (a b : I) (schedule : List Nat)
    (hs : runFB call fresh h = .ok s) (h1 : ∃ x, runFB call s [a, b] = .ok x) (h2 : ∃ x, runFB call s [b, a] = .ok x)
    (hp : Steps.runTasks ([[a], [b]].map (Steps.task steps)) schedule s = .panic) : ¬ ReturnsOnManyCores call steps fresh := by
  intro hall
  obtain ⟨m, hm⟩ := hall h s [[a], [b]] hs (by
    intro l hl
    have : l ∈ [[a, b], [b, a]] := List.mem_permutations'.2 hl
    simp only [List.mem_cons, List.not_mem_nil, or_false] at this
    rcases this with rfl | rfl
    · exact h1
    · exact h2) schedule
  rw [hp] at hm
  cases hm

private def turns (a b c : Nat) : List Nat := List.replicate a 0 ++ (List.replicate b 1 ++ List.replicate c 0)

/-- **C152 is false for counters (debug build) and timers**: two calls on two cores. -/
theorem C152_refuted :
    (∀ t, CounterTy t → ¬ ReturnsOnManyCores (ctuCall t .debug) (ctuSteps t .debug) CTUParams.default) ∧
    (∀ t, CounterTy t → ¬ ReturnsOnManyCores (ctdCall t .debug) (ctdSteps t .debug) CTDParams.default) ∧
    (∀ t, CounterTy t → ¬ ReturnsOnManyCores (ctudCall t .debug) (ctudSteps t .debug) CTUDParams.default) ∧
    ¬ ReturnsOnManyCores TP.call TP.steps TimerParams.default ∧
    ¬ ReturnsOnManyCores TON.call TON.steps TimerParams.default ∧
    ¬ ReturnsOnManyCores TOF.call TOF.steps TimerParams.default := by
  refine ⟨?_, ?_, ?_, ?_, ?_, ?_⟩
  · intro t ht
    obtain ⟨h, hh⟩ := ctu_reaches t .debug (by rcases ht with rfl | rfl | rfl | rfl | rfl <;> decide) (t.hi - 1).toNat
      (by rcases ht with rfl | rfl | rfl | rfl | rfl <;> decide)
    refine not_on_many h ⟨true, false, 0⟩ ⟨true, false, 0⟩ (turns 6 8 4 ++ [1, 1]) hh ?_ ?_ ?_
    · rcases ht with rfl | rfl | rfl | rfl | rfl <;> exact ⟨_, rfl⟩
    · rcases ht with rfl | rfl | rfl | rfl | rfl <;> exact ⟨_, rfl⟩
    · rcases ht with rfl | rfl | rfl | rfl | rfl <;> rfl
  · intro t ht
    refine not_on_many (s := ⟨false, true, t.lo + 1, decide (t.lo + 1 ≤ 0), t.lo + 1, ⟨false⟩⟩) [⟨false, true, t.lo + 1⟩] ⟨true, false, 0⟩ ⟨false, true, t.lo⟩ (turns 8 8 2) rfl ?_ ?_ ?_
    · rcases ht with rfl | rfl | rfl | rfl | rfl <;> exact ⟨_, rfl⟩
    · rcases ht with rfl | rfl | rfl | rfl | rfl <;> exact ⟨_, rfl⟩
    · rcases ht with rfl | rfl | rfl | rfl | rfl <;> rfl
  · intro t ht
    refine not_on_many (s := ⟨false, false, false, true, t.hi - 1, true, decide (t.hi - 1 ≤ 0), t.hi - 1, ⟨false⟩, ⟨false⟩⟩) [⟨false, false, false, true, t.hi - 1⟩]
      ⟨true, false, false, false, 0⟩ ⟨false, false, false, true, t.hi⟩ (turns 13 14 2) ?_ ?_ ?_ ?_
    · rcases ht with rfl | rfl | rfl | rfl | rfl <;> decide
    · rcases ht with rfl | rfl | rfl | rfl | rfl <;> exact ⟨_, rfl⟩
    · rcases ht with rfl | rfl | rfl | rfl | rfl <;> exact ⟨_, rfl⟩
    · rcases ht with rfl | rfl | rfl | rfl | rfl <;> rfl
  · exact not_on_many [] ⟨true, 100, 0, 0⟩ ⟨true, 100, 0, 0⟩ (turns 3 20 6) rfl ⟨_, rfl⟩ ⟨_, rfl⟩ rfl
  · exact not_on_many [⟨true, 100, 0, 0⟩] ⟨true, 100, 10, 10⟩ ⟨false, 100, 10, 10⟩ (turns 5 20 6) rfl ⟨_, rfl⟩ ⟨_, rfl⟩ rfl
  · exact not_on_many [⟨true, 100, 0, 0⟩, ⟨false, 100, 10, 10⟩] ⟨false, 100, 20, 20⟩ ⟨true, 100, 20, 20⟩ (turns 8 20 6) rfl ⟨_, rfl⟩ ⟨_, rfl⟩ rfl

/-- **In a release build the value of a counter jumps** from the largest but one to the smallest: two calls of CTU on two cores, both of which return, where the calls one after the other
leave the largest value. -/
theorem C152_release_refuted : ∀ t, CounterTy t → ∃ (h : List CTUIn) (s : CTUParams) (a b : CTUIn) (schedule : List Nat) (x y r : CTUParams), runFB (ctuCall t .release) CTUParams.default h = .ok s ∧
    s.cv = t.hi - 1 ∧ runFB (ctuCall t .release) s [a, b] = .ok x ∧ x.cv = t.hi ∧ runFB (ctuCall t .release) s [b, a] = .ok y ∧ y.cv = t.hi ∧
    Steps.runTasks ([[a], [b]].map (Steps.task (ctuSteps t .release))) schedule s = .ok ([.done, .done], r) ∧ r.cv = t.lo := by
  intro t ht
  obtain ⟨h, hh⟩ := ctu_reaches t .release (by rcases ht with rfl | rfl | rfl | rfl | rfl <;> decide) (t.hi - 1).toNat
    (by rcases ht with rfl | rfl | rfl | rfl | rfl <;> decide)
  refine ⟨h, _, ⟨true, false, 0⟩, ⟨true, false, 0⟩, turns 6 8 4 ++ (List.replicate 5 1 ++ List.replicate 3 0), ⟨true, false, 0, true, t.hi, ⟨true⟩⟩, ⟨true, false, 0, true, t.hi, ⟨true⟩⟩,
    ⟨true, false, 0, decide (t.lo ≥ 0), t.lo, ⟨true⟩⟩, hh, ?_⟩
  rcases ht with rfl | rfl | rfl | rfl | rfl <;> exact ⟨rfl, rfl, rfl, rfl, rfl, rfl, rfl⟩

/-! ### Timers whose calls all have the same IN -/

/-- What the tasks may do: IN remains `v` once it is, and, if `k`, the timer remains started. -/
def TaskOnly (v k : Bool) (m m' : TimerParams) : Prop := (m.input = v → m'.input = v) ∧ (k = true → m.start_time.isSome → m'.start_time.isSome)

theorem only_order (v k : Bool) : TaskOrder (TaskOnly v k) := ⟨fun _ => ⟨id, fun _ => id⟩, fun h h' => ⟨h'.1 ∘ h.1, fun hk => h'.2 hk ∘ h.2 hk⟩⟩

private theorem fine_finish {v k : Bool} (m : TimerParams) (q : Bool) : TaskFine (TaskOnly v k) m (TimerParams.finishSteps q) :=
  .store (fun _ => ⟨⟨id, fun _ => id⟩, fun _ h => h⟩) fun _ _ => .load fun _ _ => .store (fun _ => ⟨⟨id, fun _ => id⟩, fun _ h => h⟩) fun _ _ => .done

private theorem fine_start {v k : Bool} (m : TimerParams) (now : Nat) {next : Steps TimerParams} (h : ∀ m, TaskFine (TaskOnly v k) m next) : TaskFine (TaskOnly v k) m (TimerParams.startSteps now next) :=
  .store (fun _ => ⟨⟨id, fun _ _ => rfl⟩, fun _ h => ⟨h.1, fun _ _ => rfl⟩⟩) fun _ _ => .store (fun _ => ⟨⟨id, fun _ => id⟩, fun _ h => h⟩) fun _ _ => h _

private theorem fine_reset {v : Bool} (m : TimerParams) {next : Steps TimerParams} (h : ∀ m, TaskFine (TaskOnly v false) m next) : TaskFine (TaskOnly v false) m (TimerParams.resetSteps next) :=
  .store (fun _ => ⟨⟨id, fun h => absurd h (by decide)⟩, fun _ h => ⟨h.1, fun h => absurd h (by decide)⟩⟩) fun _ _ => .store (fun _ => ⟨⟨id, fun _ => id⟩, fun _ h => h⟩) fun _ _ => h _

private theorem fine_update {v : Bool} (m : TimerParams) (now : Nat) {next : Steps TimerParams} (h : ∀ m', TaskOnly v true m m' → TaskFine (TaskOnly v true) m' next) :
    TaskFine (TaskOnly v true) m (TimerParams.updateSteps now next) := by
  refine .load fun m1 h1 => ?_
  split
  · next hr =>
    refine .load fun m2 h2 => .load fun m3 h3 => ?_
    have : m3.start_time.isSome := h3.2 rfl (h2.2 rfl hr)
    simp only [TimerParams.get_run_time]
    cases hst : m3.start_time with
    | none => rw [hst] at this; exact absurd this (by decide)
    | some st =>
      exact .store (fun _ => ⟨⟨id, fun _ => id⟩, fun _ h => ⟨h.1, h.2⟩⟩) fun m4 h4 => h _ ((only_order v true).trans h1 ((only_order v true).trans h2
        ((only_order v true).trans h3 ((only_order v true).trans h4 ⟨id, fun _ => id⟩))))
  · exact h m1 h1

private theorem fine_range {v k : Bool} (m : TimerParams) (now : Nat) {next : Bool → Steps TimerParams} (h : ∀ m' b, TaskOnly v k m m' → TaskFine (TaskOnly v k) m' (next b)) :
    TaskFine (TaskOnly v k) m (TimerParams.rangeSteps now next) :=
  .load fun _ h1 => .load fun _ h2 => h _ _ ((only_order v k).trans h1 h2)

private theorem fine_rise {v k : Bool} (m : TimerParams) {next : Bool → Steps TimerParams} (h : ∀ m' b, TaskFine (TaskOnly v k) m' (next b)) : TaskFine (TaskOnly v k) m (TimerParams.riseSteps next) := by
  refine .load fun m1 _ => ?_
  unfold Steps.rising_edge
  split
  · exact .load fun _ _ => .store (fun _ => ⟨⟨id, fun _ => id⟩, fun _ h => h⟩) fun _ _ => h _ _
  · exact .store (fun _ => ⟨⟨id, fun _ => id⟩, fun _ h => h⟩) fun _ _ => h _ _

private theorem fine_fall {v k : Bool} (m : TimerParams) {next : Bool → Steps TimerParams} (h : ∀ m' b, TaskOnly v k m m' → (b = true → m'.input = false ∨ ∃ x, TaskOnly v k m x ∧ x.input = false) → TaskFine (TaskOnly v k) m' (next b)) : TaskFine (TaskOnly v k) m (TimerParams.fallSteps next) := by
  refine .load fun m1 h1 => ?_
  unfold Steps.falling_edge
  split
  · exact .store (fun _ => ⟨⟨id, fun _ => id⟩, fun _ h => h⟩) fun _ h2 => h _ _ ((only_order v k).trans h1 ((only_order v k).trans h2 ⟨id, fun _ => id⟩)) fun h => absurd h (by decide)
  · next hin =>
    exact .load fun _ h2 => .store (fun _ => ⟨⟨id, fun _ => id⟩, fun _ h => h⟩) fun _ h3 => h _ _ ((only_order v k).trans h1 ((only_order v k).trans h2 ((only_order v k).trans h3 ⟨id, fun _ => id⟩)))
      fun _ => .inr ⟨m1, h1, by simpa using hin⟩

theorem ton_fine (v : Bool) (m : TimerParams) (i : TimerIn) (hi : i.input = v) : TaskFine (TaskOnly v v) m (TON.steps i) := by
  refine .store (fun _ => ⟨⟨fun _ => hi, fun _ => id⟩, fun _ h => ⟨fun _ => hi, h.2⟩⟩) fun _ _ => .store (fun _ => ⟨⟨id, fun _ => id⟩, fun _ h => h⟩) fun m1 h1 => .load fun m2 h2 => ?_
  have h3 : m2.input = v := h2.1 (h1.1 hi)
  cases v with
  | true =>
    rw [if_pos h3]
    refine .load fun m4 _ => ?_
    split
    · exact fine_update _ _ fun _ _ => fine_range _ _ fun _ _ _ => fine_finish _ _
    · refine fine_rise _ fun _ b => ?_
      cases b
      · exact fine_finish _ _
      · exact fine_start _ _ fun _ => fine_finish _ _
  | false =>
    rw [if_neg (by rw [h3]; decide)]
    exact fine_reset _ fun _ => fine_finish _ _

/-- TON, whose tasks all call it with the same IN: no call panics, whatever the memory was. -/
theorem C152_ton_partial (s : TimerParams) (v : Bool) (tasks : List (List TimerIn)) (hv : ∀ l ∈ tasks, ∀ i ∈ l, i.input = v) (schedule : List Nat) :
    ∃ r, Steps.runTasks (tasks.map (Steps.task TON.steps)) schedule s = .ok r := by
  exact fine_calls (only_order v v) (P := fun _ => True) (fun _ _ _ _ => trivial) (fun i => i.input = v) (fun m i _ hi => ton_fine v m i hi) tasks hv s trivial schedule

theorem tof_fine (v : Bool) (m : TimerParams) (i : TimerIn) (hi : i.input = v) : TaskFine (TaskOnly v !v) m (TOF.steps i) := by
  refine .store (fun _ => ⟨⟨fun _ => hi, fun _ => id⟩, fun _ h => ⟨fun _ => hi, h.2⟩⟩) fun _ _ => .store (fun _ => ⟨⟨id, fun _ => id⟩, fun _ h => h⟩) fun m1 h1 => .load fun m2 h2 => ?_
  have h3 : m2.input = v := h2.1 (h1.1 hi)
  cases v with
  | true =>
    rw [if_pos h3]
    refine fine_rise _ fun _ b => ?_
    cases b
    · exact fine_finish _ _
    · exact fine_reset _ fun _ => fine_finish _ _
  | false =>
    rw [if_neg (by rw [h3]; decide)]
    refine fine_fall _ fun _ b _ _ => ?_
    cases b
    · refine .load fun _ _ => ?_
      split
      · exact fine_update _ _ fun _ _ => fine_range _ _ fun _ _ _ => fine_finish _ _
      · exact fine_finish _ _
    · exact fine_start _ _ fun _ => fine_finish _ _

/-- TOF, whose tasks all call it with the same IN: no call panics, whatever the memory was. -/
theorem C152_tof_partial (s : TimerParams) (v : Bool) (tasks : List (List TimerIn)) (hv : ∀ l ∈ tasks, ∀ i ∈ l, i.input = v) (schedule : List Nat) :
    ∃ r, Steps.runTasks (tasks.map (Steps.task TOF.steps)) schedule s = .ok r := by
  exact fine_calls (only_order v !v) (P := fun _ => True) (fun _ _ _ _ => trivial) (fun i => i.input = v) (fun m i _ hi => tof_fine v m i hi) tasks hv s trivial schedule

theorem tp_fine (m : TimerParams) (hm : m.start_time.isSome) (i : TimerIn) (hi : i.input = true) : TaskFine (TaskOnly true true) m (TP.steps i) := by
  refine .store (fun _ => ⟨⟨fun _ => hi, fun _ => id⟩, fun _ h => ⟨fun _ => hi, h.2⟩⟩) fun m0 h0 => .store (fun _ => ⟨⟨id, fun _ => id⟩, fun _ h => h⟩) fun m1 h1 => .load fun m2 h2 => ?_
  have h3 : m2.input = true := h2.1 (h1.1 hi)
  have h4 : m2.start_time.isSome := h2.2 rfl (h1.2 rfl (h0.2 rfl hm))
  rw [if_pos h4]
  refine fine_update _ _ fun m5 h5 => fine_range _ _ fun m6 b h6 => ?_
  cases b
  · refine fine_fall _ fun m7 b h7 hb => ?_
    cases b
    · exact fine_finish _ _
    · have := h6.1 (h5.1 h3)
      rcases hb rfl with h | ⟨x, hx, h⟩
      · rw [h7.1 this] at h; cases h
      · rw [hx.1 this] at h; cases h
  · exact fine_finish _ _

/-- TP that is running, whose tasks all call it with IN = TRUE: no call panics. -/
theorem C152_tp_partial (s : TimerParams) (hs : s.start_time.isSome) (tasks : List (List TimerIn)) (hv : ∀ l ∈ tasks, ∀ i ∈ l, i.input = true) (schedule : List Nat) :
    ∃ r, Steps.runTasks (tasks.map (Steps.task TP.steps)) schedule s = .ok r := by
  exact fine_calls (only_order true true) (P := fun m => m.start_time.isSome) (fun _ _ h h' => h'.2 rfl h) (fun i => i.input = true) (fun m i hm hi => tp_fine m hm i hi) tasks hv s hs schedule

/-! ### Counters that are far from their limits -/

/-- What is left of a task counts at most `n` times more.  `ok k` is true of a memory on which `k` more counts are allowed. -/
inductive TaskWithin {S : Type} (ok : Nat → S → Prop) : Nat → Nat → Steps S → Prop
  | done {n k} : TaskWithin ok n k .done
  | load {n k next} : (∀ k', k' ≤ k → n ≤ k' → ∀ m, ok k' m → TaskWithin ok n k' (next m)) → TaskWithin ok n k (.load next)
  | count {n k next} : (∀ k', k' + 1 ≤ k → n ≤ k' → ∀ m, ok (k' + 1) m → TaskWithin ok n k' (next m)) → TaskWithin ok (n + 1) k (.load next)
  | store {n k f next} : (∀ k', k' ≤ k → ∀ m, ok k' m → ok k' (f m)) → TaskWithin ok n k next → TaskWithin ok n k (.store f next)

theorem TaskWithin.mono {S : Type} {ok : Nat → S → Prop} {n k : Nat} {t : Steps S} (h : TaskWithin ok n k t) : ∀ {k'}, k' ≤ k → TaskWithin ok n k' t := by
  induction h with
  | done => exact fun _ => .done
  | load h _ => exact fun hk => .load fun x hx => h x (Nat.le_trans hx hk)
  | count h _ => exact fun hk => .count fun x hx => h x (Nat.le_trans hx hk)
  | store h _ ih => exact fun hk => .store (fun x hx => h x (Nat.le_trans hx hk)) (ih hk)

theorem TaskWithin.more {S : Type} {ok : Nat → S → Prop} {n k : Nat} {t : Steps S} (h : TaskWithin ok n k t) : TaskWithin ok (n + 1) k t := by
  induction h with
  | done => exact .done
  | load _ ih => exact .load fun x hx hn => ih x hx (by omega)
  | count _ ih => exact .count fun x hx hn => ih x hx (by omega)
  | store h _ ih => exact .store h ih

theorem TaskWithin.le {S : Type} {ok : Nat → S → Prop} {n n' k : Nat} {t : Steps S} (h : TaskWithin ok n k t) (hn : n ≤ n') : TaskWithin ok n' k t := by
  induction hn with
  | refl => exact h
  | step _ ih => exact ih.more

theorem TaskWithin.andThen {S : Type} {ok : Nat → S → Prop} {n n' k : Nat} {a b : Steps S} (ha : TaskWithin ok n k a) (hb : TaskWithin ok n' k b) : TaskWithin ok (n + n') k (a.andThen b) := by
  induction ha with
  | done => exact hb.le (by omega)
  | load _ ih => exact .load fun x hx hn m hm => ih x hx (by omega) m hm (hb.mono hx)
  | @count n k next _ ih =>
    rw [show n + 1 + n' = n + n' + 1 by omega]
    exact .count fun x hx hn m hm => ih x hx (by omega) m hm (hb.mono (by omega))
  | store h _ ih => exact .store h (ih hb)

def TasksWithin {S : Type} (ok : Nat → S → Prop) (k : Nat) : List (Steps S) → Nat → Prop
  | [], _ => True
  | t :: ts, b => ∃ n b', n + b' ≤ b ∧ TaskWithin ok n k t ∧ TasksWithin ok k ts b'

theorem TasksWithin.mono {S : Type} {ok : Nat → S → Prop} {k k' : Nat} (hk : k' ≤ k) : ∀ (tasks : List (Steps S)) (b : Nat), TasksWithin ok k tasks b → TasksWithin ok k' tasks b
  | [], _, _ => trivial
  | _ :: ts, _, ⟨n, b', h1, h2, h3⟩ => ⟨n, b', h1, h2.mono hk, TasksWithin.mono hk ts b' h3⟩

theorem TasksWithin.get {S : Type} {ok : Nat → S → Prop} {k : Nat} : ∀ (tasks : List (Steps S)) (b i : Nat) (t : Steps S), TasksWithin ok k tasks b → tasks[i]? = some t →
    ∃ n b0, n + b0 ≤ b ∧ TaskWithin ok n k t ∧ ∀ n' k' t', k' ≤ k → TaskWithin ok n' k' t' → TasksWithin ok k' (tasks.set i t') (n' + b0)
  | [], _, _, _, _, h => by simp at h
  | x :: ts, b, 0, t, ⟨n, b', h1, h2, h3⟩, h => by
    obtain rfl : x = t := by simpa using h
    exact ⟨n, b', h1, h2, fun n' k' t' hk ht => ⟨n', b', Nat.le_refl _, ht, h3.mono hk ts b'⟩⟩
  | x :: ts, b, i + 1, t, ⟨n, b', h1, h2, h3⟩, h => by
    obtain ⟨n1, b1, h4, h5, h6⟩ := TasksWithin.get ts b' i t h3 (by simpa using h)
    exact ⟨n1, n + b1, by omega, h5, fun n' k' t' hk ht => ⟨n, n' + b1, by omega, h2.mono hk, h6 n' k' t' hk ht⟩⟩

private theorem within_tasks {S : Type} {ok : Nat → S → Prop} (less : ∀ k m, ok (k + 1) m → ok k m) : ∀ (schedule : List Nat) (tasks : List (Steps S)) (m : S) (k b : Nat),
    TasksWithin ok k tasks b → b ≤ k → ok k m → ∃ r, Steps.runTasks tasks schedule m = .ok r ∧ ∃ k', ok k' r.2
  | [], _, _, _, _, _, _, h => ⟨_, rfl, _, h⟩
  | i :: schedule, tasks, m, k, b, h, hb, hm => by
    cases ht : tasks[i]? with
    | none =>
      simp only [Steps.runTasks, ht]
      exact within_tasks less schedule tasks m k b h hb hm
    | some t =>
      obtain ⟨n, b0, h1, h2, h3⟩ := h.get tasks b i t ht
      cases h2 with
      | done =>
        simp only [Steps.runTasks, ht, Steps.step, Res.bind_ok]
        exact within_tasks less schedule _ _ k _ (h3 n k _ (Nat.le_refl _) .done) (by omega) hm
      | @load _ _ next h2 =>
        simp only [Steps.runTasks, ht, Steps.step, Res.bind_ok]
        exact within_tasks less schedule _ _ k _ (h3 n k _ (Nat.le_refl _) (h2 k (Nat.le_refl _) (by omega) m hm)) (by omega) hm
      | @count n' _ next h2 =>
        simp only [Steps.runTasks, ht, Steps.step, Res.bind_ok]
        obtain ⟨k', rfl⟩ : ∃ k', k = k' + 1 := ⟨k - 1, by omega⟩
        exact within_tasks less schedule _ _ k' _ (h3 n' k' _ (by omega) (h2 k' (Nat.le_refl _) (by omega) m hm)) (by omega) (less _ _ hm)
      | @store _ _ f next h2 h4 =>
        simp only [Steps.runTasks, ht, Steps.step, Res.bind_ok]
        exact within_tasks less schedule _ _ k _ (h3 n k _ (Nat.le_refl _) h4) (by omega) (h2 k (Nat.le_refl _) m hm)

/-- If every call counts at most once, and as many counts are allowed as there are calls, no task panics. -/
private theorem within_calls {S I : Type} {ok : Nat → S → Prop} (less : ∀ k m, ok (k + 1) m → ok k m) {steps : I → Steps S} (C : I → Prop) (K : Nat)
    (h : ∀ i k, C i → k ≤ K → TaskWithin ok 1 k (steps i)) (tasks : List (List I)) (hC : ∀ l ∈ tasks, ∀ i ∈ l, C i) (hK : tasks.flatten.length ≤ K) (s : S) (hs : ok K s) (schedule : List Nat) :
    ∃ r, Steps.runTasks (tasks.map (Steps.task steps)) schedule s = .ok r ∧ ∃ k', ok k' r.2 := by
  have one : ∀ l : List I, (∀ i ∈ l, C i) → TaskWithin ok l.length K (Steps.task steps l) := by
    intro l
    induction l with
    | nil => exact fun _ => .done
    | cons i l ih =>
      intro hl
      rw [List.length_cons, Nat.add_comm]
      exact (h i K (hl i (by simp)) (Nat.le_refl _)).andThen (ih fun j hj => hl j (by simp [hj]))
  have all : ∀ tasks : List (List I), (∀ l ∈ tasks, ∀ i ∈ l, C i) → TasksWithin ok K (tasks.map (Steps.task steps)) tasks.flatten.length := by
    intro tasks
    induction tasks with
    | nil => exact fun _ => trivial
    | cons l ls ih =>
      intro hl
      exact ⟨l.length, ls.flatten.length, by simp, one l (hl l (by simp)), ih fun x hx => hl x (by simp [hx])⟩
  exact within_tasks less schedule _ s K _ (all tasks hC) hK hs

private theorem in_range {t : IntTy} (ht : CounterTy t) {x : Int} (h1 : t.lo ≤ x) (h2 : x ≤ t.hi) (p : Profile) : t.arith p x = .ok x := by
  rcases ht with rfl | rfl | rfl | rfl | rfl <;> exact if_pos ⟨h1, h2⟩

private theorem lo_hi {t : IntTy} (ht : CounterTy t) : t.lo ≤ 0 ∧ 0 ≤ t.hi := by
  rcases ht with rfl | rfl | rfl | rfl | rfl <;> decide

theorem ctu_within {t : IntTy} (ht : CounterTy t) (p : Profile) (c : Int) (n : Nat) (_h0 : 0 ≤ c) (h : c + n ≤ t.hi) : ∀ (i : CTUIn) k, True → k ≤ n →
    TaskWithin (fun k m => 0 ≤ m.cv ∧ m.cv + k ≤ c + n) 1 k (ctuSteps t p i) := by
  let ok : Nat → CTUParams → Prop := fun k m => 0 ≤ m.cv ∧ m.cv + k ≤ c + n
  have fin : ∀ b k, TaskWithin ok b k ctuStepsEnd := fun b k => .load fun _ _ _ _ _ => .load fun _ _ _ _ _ => .store (fun _ _ _ h => h) .done
  have call : ∀ (i : CTUIn) k, True → k ≤ n → TaskWithin ok 1 k (ctuSteps t p i) := by
    intro i k _ hk
    refine .store (fun _ _ _ h => h) (.store (fun _ _ _ h => h) (.store (fun _ _ _ h => h) (.load fun k1 hk1 _ m1 hm1 => ?_)))
    split
    · exact .store (fun k' hk' m hm => ⟨Int.le_refl 0, by show (0 : Int) + k' ≤ _; omega⟩) (fin _ _)
    · refine .load fun k2 hk2 _ m2 hm2 => ?_
      have rest : ∀ e k, k ≤ n → TaskWithin ok 1 k (.load fun m => if e && decide (m.cv < t.hi) then
          .load fun m => match t.arith p (m.cv + 1) with
          | .ok v => .store ({ · with cv := v }) ctuStepsEnd
          | _ => .panic
        else ctuStepsEnd) := by
        refine fun e k hk => .load fun k3 _ _ m3 hm3 => ?_
        split
        · refine .count fun k4 _ _ m4 hm4 => ?_
          obtain ⟨h1, h2⟩ := hm4
          rw [in_range ht (by have := (lo_hi ht).1; omega) (by omega) p]
          exact .store (fun k' hk' m hm => ⟨by show (0 : Int) ≤ m4.cv + 1; omega, by show m4.cv + 1 + (k' : Int) ≤ _; omega⟩) (fin _ _)
        · exact fin _ _
      unfold Steps.rising_edge
      split
      · exact .load fun k3 _ _ m3 _ => .store (fun _ _ _ h => h) (rest _ _ (by omega))
      · exact .store (fun _ _ _ h => h) (rest _ _ (by omega))
  exact call

/-- CTU, in both build profiles: if the value of the counter is below the largest one by at least the number of calls, no call panics, and every call counts at most once. -/
theorem C152_ctu_partial (t : IntTy) (ht : CounterTy t) (p : Profile) (s : CTUParams) (tasks : List (List CTUIn)) (h0 : 0 ≤ s.cv) (h : s.cv + tasks.flatten.length ≤ t.hi)
    (schedule : List Nat) :
    ∃ r, Steps.runTasks (tasks.map (Steps.task (ctuSteps t p))) schedule s = .ok r ∧ 0 ≤ r.2.cv ∧ r.2.cv ≤ s.cv + tasks.flatten.length := by
  generalize hn : tasks.flatten.length = n at h ⊢
  let ok : Nat → CTUParams → Prop := fun k m => 0 ≤ m.cv ∧ m.cv + k ≤ s.cv + n
  obtain ⟨r, hr, k', h1, h2⟩ := within_calls (ok := ok) (fun k m hm => ⟨hm.1, by have := hm.2; omega⟩) (fun _ => True) n (ctu_within ht p s.cv n h0 h) tasks (fun _ _ _ _ => trivial) (by omega) s
    ⟨h0, Int.le_refl _⟩ schedule
  exact ⟨r, hr, h1, by omega⟩

theorem ctd_within {t : IntTy} (ht : CounterTy t) (p : Profile) (l u : Int) (n : Nat) (hl : t.lo + n ≤ l) (hu : u ≤ t.hi) : ∀ (i : CTDIn) k, (l ≤ i.pv ∧ i.pv ≤ u) → k ≤ n →
    TaskWithin (fun k m => (l - n + k ≤ m.cv ∧ m.cv ≤ u) ∧ l ≤ m.pv ∧ m.pv ≤ u) 1 k (ctdSteps t p i) := by
  let ok : Nat → CTDParams → Prop := fun k m => (l - n + k ≤ m.cv ∧ m.cv ≤ u) ∧ l ≤ m.pv ∧ m.pv ≤ u
  have fin : ∀ b k, TaskWithin ok b k ctdStepsEnd := fun b k => .load fun _ _ _ _ _ => .store (fun _ _ _ h => h) .done
  have call : ∀ (i : CTDIn) k, (l ≤ i.pv ∧ i.pv ≤ u) → k ≤ n → TaskWithin ok 1 k (ctdSteps t p i) := by
    intro i k hi hk
    refine .store (fun _ _ _ h => h) (.store (fun _ _ _ h => h) (.store (fun _ _ _ h => ⟨h.1, hi⟩) (.load fun k1 hk1 _ m1 hm1 => ?_)))
    split
    · refine .load fun k2 hk2 _ m2 hm2 => ?_
      obtain ⟨_, h1, h2⟩ := hm2
      exact .store (fun k' hk' m hm => ⟨⟨by show l - n + (k' : Int) ≤ m2.pv; omega, h2⟩, hm.2⟩) (fin _ _)
    · refine .load fun k2 hk2 _ m2 hm2 => ?_
      have rest : ∀ e k, k ≤ n → TaskWithin ok 1 k (.load fun m => if e && decide (m.cv > t.lo) then
          .load fun m => match t.arith p (m.cv - 1) with
          | .ok v => .store ({ · with cv := v }) ctdStepsEnd
          | _ => .panic
        else ctdStepsEnd) := by
        refine fun e k hk => .load fun k3 _ _ m3 hm3 => ?_
        split
        · refine .count fun k4 _ _ m4 hm4 => ?_
          obtain ⟨⟨h1, h2⟩, _⟩ := hm4
          rw [in_range ht (by omega) (by omega) p]
          exact .store (fun k' hk' m hm => ⟨⟨by show l - n + (k' : Int) ≤ m4.cv - 1; omega, by show m4.cv - 1 ≤ u; omega⟩, hm.2⟩) (fin _ _)
        · exact fin _ _
      unfold Steps.rising_edge
      split
      · exact .load fun k3 _ _ m3 _ => .store (fun _ _ _ h => h) (rest _ _ (by omega))
      · exact .store (fun _ _ _ h => h) (rest _ _ (by omega))
  exact call

/-- CTD, in both build profiles: if the values of the counter and of PV are all at least `l` and at most `u`, and `l` is above the smallest value by at least the number of calls, no call
panics, and every call counts at most once. -/
theorem C152_ctd_partial (t : IntTy) (ht : CounterTy t) (p : Profile) (s : CTDParams) (tasks : List (List CTDIn)) (l u : Int) (hcv : l ≤ s.cv ∧ s.cv ≤ u) (hpv : l ≤ s.pv ∧ s.pv ≤ u)
    (hi : ∀ c ∈ tasks, ∀ i ∈ c, l ≤ i.pv ∧ i.pv ≤ u) (hl : t.lo + tasks.flatten.length ≤ l) (hu : u ≤ t.hi) (schedule : List Nat) :
    ∃ r, Steps.runTasks (tasks.map (Steps.task (ctdSteps t p))) schedule s = .ok r ∧ l - tasks.flatten.length ≤ r.2.cv ∧ r.2.cv ≤ u := by
  generalize hn : tasks.flatten.length = n at hl ⊢
  let ok : Nat → CTDParams → Prop := fun k m => (l - n + k ≤ m.cv ∧ m.cv ≤ u) ∧ l ≤ m.pv ∧ m.pv ≤ u
  obtain ⟨r, hr, k', ⟨h1, h2⟩, _⟩ := within_calls (ok := ok) (fun k m hm => ⟨⟨by have := hm.1.1; omega, hm.1.2⟩, hm.2⟩) (fun i => l ≤ i.pv ∧ i.pv ≤ u) n (ctd_within ht p l u n hl hu) tasks hi (by omega) s
    ⟨⟨by omega, hcv.2⟩, hpv⟩ schedule
  exact ⟨r, hr, by omega, h2⟩

theorem ctud_within {t : IntTy} (ht : CounterTy t) (p : Profile) (l u : Int) (n : Nat) (h0 : l ≤ 0 ∧ 0 ≤ u) (hl : t.lo + n ≤ l) (hu : u + n ≤ t.hi) : ∀ (i : CTUDIn) k, (l ≤ i.pv ∧ i.pv ≤ u) → k ≤ n →
    TaskWithin (fun k m => (l - n + k ≤ m.cv ∧ m.cv + k ≤ u + n) ∧ l ≤ m.pv ∧ m.pv ≤ u) 1 k (ctudSteps t p i) := by
  let ok : Nat → CTUDParams → Prop := fun k m => (l - n + k ≤ m.cv ∧ m.cv + k ≤ u + n) ∧ l ≤ m.pv ∧ m.pv ≤ u
  have fin : ∀ b k, TaskWithin ok b k ctudStepsEnd :=
    fun b k => .load fun _ _ _ _ _ => .load fun _ _ _ _ _ => .store (fun _ _ _ h => h) (.load fun _ _ _ _ _ => .store (fun _ _ _ h => h) .done)
  have call : ∀ (i : CTUDIn) k, (l ≤ i.pv ∧ i.pv ≤ u) → k ≤ n → TaskWithin ok 1 k (ctudSteps t p i) := by
    intro i k hi hk
    refine .store (fun _ _ _ h => h) (.store (fun _ _ _ h => h) (.store (fun _ _ _ h => h) (.store (fun _ _ _ h => h) (.store (fun _ _ _ h => ⟨h.1, hi⟩)
      (.load fun k1 hk1 _ m1 hm1 => ?_)))))
    split
    · exact .store (fun k' hk' m hm => ⟨⟨by show l - n + (k' : Int) ≤ 0; omega, by show (0 : Int) + k' ≤ _; omega⟩, hm.2⟩) (fin _ _)
    refine .load fun k2 hk2 _ m2 hm2 => ?_
    split
    · refine .load fun k2 hk2 _ m2 hm2 => ?_
      obtain ⟨_, h1, h2⟩ := hm2
      exact .store (fun k' hk' m hm => ⟨⟨by show l - n + (k' : Int) ≤ m2.pv; omega, by show m2.pv + (k' : Int) ≤ _; omega⟩, hm.2⟩) (fin _ _)
    have rest : ∀ up down k, k ≤ n → TaskWithin ok 1 k (if up && down then ctudStepsEnd
        else .load fun m => if up && decide (m.cv < t.hi) then
          .load fun m => match t.arith p (m.cv + 1) with
          | .ok v => .store ({ · with cv := v }) ctudStepsEnd
          | _ => .panic
        else .load fun m => if down && decide (m.cv > t.lo) then
          .load fun m => match t.arith p (m.cv - 1) with
          | .ok v => .store ({ · with cv := v }) ctudStepsEnd
          | _ => .panic
        else ctudStepsEnd) := by
      intro up down k hk
      split
      · exact fin _ _
      refine .load fun k3 _ _ m3 hm3 => ?_
      split
      · refine .count fun k4 _ _ m4 hm4 => ?_
        obtain ⟨⟨h1, h2⟩, _⟩ := hm4
        rw [in_range ht (by omega) (by omega) p]
        exact .store (fun k' hk' m hm => ⟨⟨by show l - n + (k' : Int) ≤ m4.cv + 1; omega, by show m4.cv + 1 + (k' : Int) ≤ _; omega⟩, hm.2⟩) (fin _ _)
      refine .load fun k3 _ _ m3 hm3 => ?_
      split
      · refine .count fun k4 _ _ m4 hm4 => ?_
        obtain ⟨⟨h1, h2⟩, _⟩ := hm4
        rw [in_range ht (by omega) (by omega) p]
        exact .store (fun k' hk' m hm => ⟨⟨by show l - n + (k' : Int) ≤ m4.cv - 1; omega, by show m4.cv - 1 + (k' : Int) ≤ _; omega⟩, hm.2⟩) (fin _ _)
      · exact fin _ _
    refine .load fun k3 _ _ m3 _ => ?_
    have second : ∀ up k, k ≤ n → TaskWithin ok 1 k (.load fun m => Steps.rising_edge (·.internal_down) ({ · with internal_down := · }) m.cd fun down =>
        if up && down then ctudStepsEnd
        else .load fun m => if up && decide (m.cv < t.hi) then
          .load fun m => match t.arith p (m.cv + 1) with
          | .ok v => .store ({ · with cv := v }) ctudStepsEnd
          | _ => .panic
        else .load fun m => if down && decide (m.cv > t.lo) then
          .load fun m => match t.arith p (m.cv - 1) with
          | .ok v => .store ({ · with cv := v }) ctudStepsEnd
          | _ => .panic
        else ctudStepsEnd) := by
      refine fun up k hk => .load fun k3 _ _ m3 _ => ?_
      unfold Steps.rising_edge
      split
      · exact .load fun k4 _ _ m4 _ => .store (fun _ _ _ h => h) (rest _ _ _ (by omega))
      · exact .store (fun _ _ _ h => h) (rest _ _ _ (by omega))
    show TaskWithin ok 1 k3 (Steps.rising_edge _ _ _ _)
    unfold Steps.rising_edge
    split
    · exact .load fun k4 _ _ m4 _ => .store (fun _ _ _ h => h) (second _ _ (by omega))
    · exact .store (fun _ _ _ h => h) (second _ _ (by omega))
  exact call

/-- CTUD, in both build profiles: if the values of the counter and of PV are all at least `l ≤ 0` and at most `u ≥ 0`, and `l` and `u` are away from the smallest and the largest value by at
least the number of calls, no call panics, and every call counts at most once. -/
theorem C152_ctud_partial (t : IntTy) (ht : CounterTy t) (p : Profile) (s : CTUDParams) (tasks : List (List CTUDIn)) (l u : Int) (h0 : l ≤ 0 ∧ 0 ≤ u) (hcv : l ≤ s.cv ∧ s.cv ≤ u)
    (hpv : l ≤ s.pv ∧ s.pv ≤ u) (hi : ∀ c ∈ tasks, ∀ i ∈ c, l ≤ i.pv ∧ i.pv ≤ u) (hl : t.lo + tasks.flatten.length ≤ l) (hu : u + tasks.flatten.length ≤ t.hi) (schedule : List Nat) :
    ∃ r, Steps.runTasks (tasks.map (Steps.task (ctudSteps t p))) schedule s = .ok r ∧ l - tasks.flatten.length ≤ r.2.cv ∧ r.2.cv ≤ u + tasks.flatten.length := by
  generalize hn : tasks.flatten.length = n at hl hu ⊢
  let ok : Nat → CTUDParams → Prop := fun k m => (l - n + k ≤ m.cv ∧ m.cv + k ≤ u + n) ∧ l ≤ m.pv ∧ m.pv ≤ u
  obtain ⟨r, hr, k', ⟨h1, h2⟩, _⟩ := within_calls (ok := ok) (fun k m hm => ⟨⟨by have := hm.1.1; omega, by have := hm.1.2; omega⟩, hm.2⟩) (fun i => l ≤ i.pv ∧ i.pv ≤ u) n (ctud_within ht p l u n h0 hl hu) tasks hi (by omega) s
    ⟨⟨by omega, by omega⟩, hpv⟩ schedule
  exact ⟨r, hr, by omega, by omega⟩

/-! ### The hypotheses are met -/

/-- Two tasks with two calls each of a CTU at 32763: the bound is reached, as every call counts. -/
example : (32763 : Int) + [[(⟨true, false, 9⟩ : CTUIn), ⟨false, false, 9⟩], [⟨true, false, 9⟩, ⟨false, false, 9⟩]].flatten.length ≤ IntTy.i16.hi := by decide

/-- The bound of `C152_ctu_partial` is exact: with one call more than that a call may panic. -/
example : Steps.runTasks ([[(⟨true, false, 0⟩ : CTUIn)], [⟨true, false, 0⟩]].map (Steps.task (ctuSteps .i16 .debug))) (turns 6 8 4 ++ [1, 1]) ⟨false, false, 0, true, 32766, ⟨false⟩⟩ = .panic := rfl

/-- Two calls of a CTU at 0 that both see the edge of CU: it has counted to 2 although only one edge came. -/
example : ((Steps.runTasks ([[(⟨true, false, 0⟩ : CTUIn)], [⟨true, false, 0⟩]].map (Steps.task (ctuSteps .i16 .debug))) (turns 6 8 4 ++ (List.replicate 9 1 ++ List.replicate 9 0)) CTUParams.default).bind
    fun r => .ok r.2.cv) = .ok 2 := rfl

/-- A CTD at 5 with PV = 10: `l = 5`, `u = 10`, and three calls. -/
example : ∃ s h, runFB (ctdCall .i16 .debug) CTDParams.default h = .ok s ∧ (5 ≤ s.cv ∧ s.cv ≤ 10) ∧ (5 ≤ s.pv ∧ s.pv ≤ 10) ∧ IntTy.i16.lo + 3 ≤ 5 ∧ (10 : Int) ≤ IntTy.i16.hi :=
  ⟨_, [⟨false, true, 6⟩, ⟨true, false, 10⟩], rfl, by decide, by decide, by decide, by decide⟩

/-- A CTUD at 6 with PV = 10: `l = 0`, `u = 10`, and three calls. -/
example : ∃ s h, runFB (ctudCall .i16 .debug) CTUDParams.default h = .ok s ∧ (0 ≤ s.cv ∧ s.cv ≤ 10) ∧ (0 ≤ s.pv ∧ s.pv ≤ 10) ∧ IntTy.i16.lo + 3 ≤ 0 ∧ (10 : Int) + 3 ≤ IntTy.i16.hi :=
  ⟨_, [⟨false, false, false, true, 5⟩, ⟨true, false, false, false, 10⟩], rfl, by decide, by decide, by decide, by decide⟩

/-- Two tasks that call a TON with IN = TRUE, load by load and store by store in turn; it is started and its output is FALSE. -/
example : ((Steps.runTasks ([[(⟨true, 100, 5, 5⟩ : TimerIn)], [⟨true, 100, 6, 6⟩]].map (Steps.task TON.steps)) ((List.range 30).map (· % 2)) TimerParams.default).bind
    fun r => .ok (r.2.start_time, r.2.output)) = .ok (some 6, false) := by decide

/-- A TP that is running. -/
example : ∃ s, runFB TP.call TimerParams.default [⟨true, 100, 0, 0⟩] = .ok s ∧ s.start_time.isSome := ⟨_, rfl, rfl⟩

/-- A TOF that is running, and its two tasks with IN = FALSE. -/
example : ∃ s, runFB TOF.call TimerParams.default [⟨true, 100, 0, 0⟩, ⟨false, 100, 1, 1⟩] = .ok s ∧ s.start_time.isSome ∧
    ((Steps.runTasks ([[(⟨false, 100, 50, 50⟩ : TimerIn)], [⟨false, 100, 150, 150⟩]].map (Steps.task TOF.steps)) ((List.range 30).map (· % 2)) s).bind fun r => .ok r.2.input) = .ok false :=
  ⟨_, rfl, rfl, by decide⟩

end Verif
