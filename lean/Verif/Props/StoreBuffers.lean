import Verif.Props.ManyCores
/-
C156: as C152, on processors whose cores delay their stores (x86): a core sees its own stores at once, the other cores see them later, in the same order.

`Steps.runCores` in Model/SharedInstance.lean.
-/
namespace Verif
open Spec

/-! ### Specification -/

/-- The cores at the beginning: each task makes the calls of one list, and no store is delayed. -/
def coresOf {S I : Type} (steps : I → Steps S) (tasks : List (List I)) : List (Steps.Core S) := tasks.map fun l => ⟨Steps.task steps l, []⟩

/-- Tasks may run on several cores that delay their stores: if their calls return in whatever order they take place one after the other, no call panics when their loads and
stores are mixed in any way and the stores are delayed by any time. -/
def ReturnsWithDelayedStores {S I : Type} (call : S → I → Res S) (steps : I → Steps S) (fresh : S) : Prop :=
  ∀ h s (tasks : List (List I)), runFB call fresh h = .ok s → (∀ l, l.Perm tasks.flatten → ∃ x, runFB call s l = .ok x) →
    ∀ schedule, ∃ r, Steps.runCores (coresOf steps tasks) schedule s = .ok r

/-! ### Stores that are not delayed -/

private theorem set_map {S : Type} (tasks : List (Steps S)) (i : Nat) (t : Steps S) :
    (tasks.map fun t => (⟨t, []⟩ : Steps.Core S)).set i ⟨t, []⟩ = (tasks.set i t).map fun t => (⟨t, []⟩ : Steps.Core S) := by
  rw [List.map_set]

/-- If every store reaches the memory before the next load or store of any task, the cores do what `Steps.runTasks` does: C152 is about a part of the schedules. -/
theorem C156_not_delayed {S : Type} : ∀ (schedule : List Nat) (tasks : List (Steps S)) (m : S),
    Steps.runCores (tasks.map fun t => ⟨t, []⟩) (schedule.flatMap fun i => [.step i, .write i]) m =
      (Steps.runTasks tasks schedule m).bind fun r => .ok (r.1.map fun t => ⟨t, []⟩, r.2)
  | [], _, _ => rfl
  | i :: schedule, tasks, m => by
    simp only [List.flatMap_cons, List.cons_append, List.nil_append]
    cases ht : tasks[i]? with
    | none =>
      simp only [Steps.runTasks, Steps.runCores, ht, List.getElem?_map, Option.map_none]
      exact C156_not_delayed schedule tasks m
    | some t =>
      have hl : i < tasks.length := (List.getElem?_eq_some_iff.1 ht).1
      simp only [Steps.runTasks, Steps.runCores, ht, List.getElem?_map, Option.map_some]
      cases t with
      | done =>
        simp only [Steps.Core.step, Steps.step, Res.bind_ok, set_map, List.getElem?_map, List.getElem?_set_self hl, Option.map_some]
        exact C156_not_delayed schedule _ m
      | panic => rfl
      | load next =>
        simp only [Steps.Core.step, Steps.Core.view, List.foldl_nil, Steps.step, Res.bind_ok, set_map, List.getElem?_map, List.getElem?_set_self hl, Option.map_some]
        exact C156_not_delayed schedule _ m
      | store f next =>
        simp only [Steps.Core.step, Steps.step, Res.bind_ok, List.nil_append]
        rw [List.getElem?_set_self (by simpa using hl)]
        simp only [List.set_set, set_map]
        exact C156_not_delayed schedule _ (f m)

private theorem on_many_cores {S I : Type} {call : S → I → Res S} {steps : I → Steps S} {fresh : S} (h : ReturnsWithDelayedStores call steps fresh) : ReturnsOnManyCores call steps fresh := by
  intro l s tasks hs hp schedule
  obtain ⟨r, hr⟩ := h l s tasks hs hp (schedule.flatMap fun i => [.step i, .write i])
  have := C156_not_delayed schedule (tasks.map (Steps.task steps)) s
  rw [List.map_map] at this
  rw [coresOf, show (fun l => (⟨Steps.task steps l, []⟩ : Steps.Core S)) = (fun t => ⟨t, []⟩) ∘ Steps.task steps from rfl, this] at hr
  obtain ⟨x, hx, _⟩ := Res.bind_eq_ok.1 hr
  exact ⟨x, hx⟩

/-- **C156 is false for counters (debug build) and timers**, as C152 is. -/
theorem C156_refuted :
    (∀ t, CounterTy t → ¬ ReturnsWithDelayedStores (ctuCall t .debug) (ctuSteps t .debug) CTUParams.default) ∧
    (∀ t, CounterTy t → ¬ ReturnsWithDelayedStores (ctdCall t .debug) (ctdSteps t .debug) CTDParams.default) ∧
    (∀ t, CounterTy t → ¬ ReturnsWithDelayedStores (ctudCall t .debug) (ctudSteps t .debug) CTUDParams.default) ∧
    ¬ ReturnsWithDelayedStores TP.call TP.steps TimerParams.default ∧
    ¬ ReturnsWithDelayedStores TON.call TON.steps TimerParams.default ∧
    ¬ ReturnsWithDelayedStores TOF.call TOF.steps TimerParams.default := by
  obtain ⟨h1, h2, h3, h4, h5, h6⟩ := C152_refuted
  exact ⟨fun t ht h => h1 t ht (on_many_cores h), fun t ht h => h2 t ht (on_many_cores h), fun t ht h => h3 t ht (on_many_cores h), fun h => h4 (on_many_cores h), fun h => h5 (on_many_cores h),
    fun h => h6 (on_many_cores h)⟩

/-! ### Rules -/

private theorem delayed_mono {S : Type} {R : S → S → Prop} : ∀ (pending : List (S → S)) (m m' : S), (∀ f ∈ pending, TaskAllowed R f) → R m m' →
    R (pending.foldl (fun m f => f m) m) (pending.foldl (fun m f => f m) m')
  | [], _, _, _, h => h
  | f :: pending, m, m', hp, h => delayed_mono pending _ _ (fun g hg => hp g (by simp [hg])) ((hp f (by simp) m).2 m' h)

private structure CoreFine {S : Type} (R : S → S → Prop) (m : S) (c : Steps.Core S) : Prop where
  pending : ∀ f ∈ c.pending, TaskAllowed R f
  rest : TaskFine R (c.view m) c.rest

private theorem fine_cores {S : Type} {R : S → S → Prop} (o : TaskOrder R) : ∀ (schedule : List Steps.Turn) (cores : List (Steps.Core S)) (m : S), (∀ c ∈ cores, CoreFine R m c) →
    ∃ r, Steps.runCores cores schedule m = .ok r
  | [], _, _, _ => ⟨_, rfl⟩
  | .step i :: schedule, cores, m, h => by
    cases hc : cores[i]? with
    | none =>
      simp only [Steps.runCores, hc]
      exact fine_cores o schedule cores m h
    | some c =>
      obtain ⟨hp, hr⟩ := h c (List.mem_of_getElem? hc)
      have : ∃ c', c.step m = .ok c' ∧ CoreFine R m c' := by
        obtain ⟨rest, pending⟩ := c
        cases hr with
        | done => exact ⟨_, rfl, hp, .done⟩
        | load h => exact ⟨_, rfl, hp, h _ (o.refl _)⟩
        | @store _ f next h h' =>
          refine ⟨_, rfl, fun g hg => ?_, ?_⟩
          · rcases List.mem_append.1 hg with hg | hg
            · exact hp g hg
            · rw [List.mem_singleton.1 hg]; exact h
          · show TaskFine R ((pending ++ [f]).foldl (fun m f => f m) m) next
            rw [List.foldl_append]
            exact h' _ (o.refl _)
      obtain ⟨c', h1, h2⟩ := this
      simp only [Steps.runCores, hc, h1, Res.bind_ok]
      refine fine_cores o schedule _ m fun x hx => ?_
      rcases List.mem_or_eq_of_mem_set hx with hx | rfl
      · exact h x hx
      · exact h2
  | .write i :: schedule, cores, m, h => by
    cases hc : cores[i]? with
    | none =>
      simp only [Steps.runCores, hc]
      exact fine_cores o schedule cores m h
    | some c =>
      obtain ⟨rest, pending⟩ := c
      cases pending with
      | nil =>
        simp only [Steps.runCores, hc]
        exact fine_cores o schedule cores m h
      | cons f pending =>
        obtain ⟨hp, hr⟩ := h _ (List.mem_of_getElem? hc)
        simp only [Steps.runCores, hc]
        refine fine_cores o schedule _ (f m) fun x hx => ?_
        rcases List.mem_or_eq_of_mem_set hx with hx | rfl
        · exact ⟨(h x hx).pending, (h x hx).rest.mono o (delayed_mono _ _ _ (h x hx).pending (hp f (by simp) m).1)⟩
        · exact ⟨fun g hg => hp g (by simp [show g ∈ pending from hg]), hr⟩

private theorem fine_core_calls {S I : Type} {R : S → S → Prop} (o : TaskOrder R) {steps : I → Steps S} {P : S → Prop} (hP : ∀ m m', P m → R m m' → P m') (C : I → Prop)
    (h : ∀ m i, P m → C i → TaskFine R m (steps i)) (tasks : List (List I)) (hC : ∀ l ∈ tasks, ∀ i ∈ l, C i) (s : S) (hs : P s) (schedule : List Steps.Turn) :
    ∃ r, Steps.runCores (coresOf steps tasks) schedule s = .ok r := by
  refine fine_cores o schedule _ s fun c hc => ?_
  obtain ⟨l, hl, rfl⟩ := List.mem_map.1 hc
  have : ∀ (l : List I), (∀ i ∈ l, C i) → ∀ m, P m → TaskFine R m (Steps.task steps l) := by
    intro l
    induction l with
    | nil => exact fun _ _ _ => .done
    | cons i l ih => exact fun hl m hm => (h m i hm (hl i (by simp))).andThen o fun m' hm' => ih (fun j hj => hl j (by simp [hj])) m' (hP m m' hm hm')
  exact ⟨fun _ h => absurd h (by simp), this l (hC l hl) s hs⟩

/-! ### Edge detection and latches -/

private theorem order_true {S : Type} : TaskOrder fun (_ _ : S) => True := ⟨fun _ => trivial, fun _ _ => trivial⟩

private theorem fine_store {S : Type} {m : S} {f : S → S} {next : Steps S} (h : ∀ m', TaskFine (fun _ _ => True) m' next) : TaskFine (fun _ _ => True) m (.store f next) :=
  .store (fun _ => ⟨trivial, fun _ _ => trivial⟩) fun _ _ => h _

private theorem fine_load {S : Type} {m : S} {next : S → Steps S} (h : ∀ m', TaskFine (fun _ _ => True) m' (next m')) : TaskFine (fun _ _ => True) m (.load next) := .load fun m' _ => h m'

private theorem with_delays {S I : Type} {call : S → I → Res S} {steps : I → Steps S} {fresh : S} (h : ∀ m i, TaskFine (fun _ _ => True) m (steps i)) : ReturnsWithDelayedStores call steps fresh :=
  fun _ s tasks _ _ schedule => fine_core_calls order_true (P := fun _ => True) (fun _ _ _ _ => trivial) (fun _ => True) (fun m i _ _ => h m i) tasks (fun _ _ _ _ => trivial) s trivial schedule

/-- **C156** for R_TRIG, F_TRIG, SR and RS. -/
theorem C156_flanks_latches :
    ReturnsWithDelayedStores R_TRIG.call R_TRIG.steps Trigger.default ∧
    ReturnsWithDelayedStores F_TRIG.call F_TRIG.steps Trigger.default ∧
    ReturnsWithDelayedStores SR.call SR.steps SetResetParams.default ∧
    ReturnsWithDelayedStores RS.call RS.steps SetResetParams.default := by
  refine ⟨with_delays fun m i => fine_store fun _ => fine_load fun m => ?_, with_delays fun m i => fine_store fun _ => fine_load fun m => ?_,
    with_delays fun m i => fine_store fun _ => fine_store fun _ => fine_load fun _ => fine_load fun _ => fine_load fun _ => fine_store fun _ => .done,
    with_delays fun m i => fine_store fun _ => fine_store fun _ => fine_load fun _ => fine_load fun _ => fine_load fun _ => fine_store fun _ => .done⟩
  · unfold Steps.rising_edge
    split
    · exact fine_load fun _ => fine_store fun _ => fine_store fun _ => .done
    · exact fine_store fun _ => fine_store fun _ => .done
  · unfold Steps.falling_edge
    split
    · exact fine_store fun _ => fine_store fun _ => .done
    · exact fine_load fun _ => fine_store fun _ => fine_store fun _ => .done

/-! ### Timers whose calls all have the same IN -/

/-- TON, whose tasks all call it with the same IN: no call panics, whatever the memory was. -/
theorem C156_ton_partial (s : TimerParams) (v : Bool) (tasks : List (List TimerIn)) (hv : ∀ l ∈ tasks, ∀ i ∈ l, i.input = v) (schedule : List Steps.Turn) :
    ∃ r, Steps.runCores (coresOf TON.steps tasks) schedule s = .ok r :=
  fine_core_calls (only_order v v) (P := fun _ => True) (fun _ _ _ _ => trivial) (fun i => i.input = v) (fun m i _ hi => ton_fine v m i hi) tasks hv s trivial schedule

/-- TOF, whose tasks all call it with the same IN: no call panics, whatever the memory was. -/
theorem C156_tof_partial (s : TimerParams) (v : Bool) (tasks : List (List TimerIn)) (hv : ∀ l ∈ tasks, ∀ i ∈ l, i.input = v) (schedule : List Steps.Turn) :
    ∃ r, Steps.runCores (coresOf TOF.steps tasks) schedule s = .ok r :=
  fine_core_calls (only_order v !v) (P := fun _ => True) (fun _ _ _ _ => trivial) (fun i => i.input = v) (fun m i _ hi => tof_fine v m i hi) tasks hv s trivial schedule

/-- TP that is running, whose tasks all call it with IN = TRUE: no call panics. -/
theorem C156_tp_partial (s : TimerParams) (hs : s.start_time.isSome) (tasks : List (List TimerIn)) (hv : ∀ l ∈ tasks, ∀ i ∈ l, i.input = true) (schedule : List Steps.Turn) :
    ∃ r, Steps.runCores (coresOf TP.steps tasks) schedule s = .ok r :=
  fine_core_calls (only_order true true) (P := fun m => m.start_time.isSome) (fun _ _ h h' => h'.2 rfl h) (fun i => i.input = true) (fun m i hm hi => tp_fine m hm i hi) tasks hv s hs schedule

/-! ### Counters that are far from their limits -/

private def Keeps {S : Type} (ok : Nat → S → Prop) (k : Nat) (pending : List (S → S)) : Prop := ∀ f ∈ pending, ∀ k', k' ≤ k → ∀ m, ok k' m → ok k' (f m)

private theorem Keeps.mono {S : Type} {ok : Nat → S → Prop} {k k' : Nat} {pending : List (S → S)} (h : Keeps ok k pending) (hk : k' ≤ k) : Keeps ok k' pending :=
  fun f hf x hx => h f hf x (Nat.le_trans hx hk)

private theorem Keeps.view {S : Type} {ok : Nat → S → Prop} {k : Nat} : ∀ (pending : List (S → S)) (m : S), Keeps ok k pending → ok k m → ok k (pending.foldl (fun m f => f m) m)
  | [], _, _, h => h
  | f :: pending, m, hp, h => Keeps.view pending (f m) (fun g hg => hp g (by simp [hg])) (hp f (by simp) k (Nat.le_refl _) m h)

private theorem set_same {α : Type} {l : List α} {i : Nat} {a : α} (h : l[i]? = some a) : l.set i a = l := by
  obtain ⟨hi, rfl⟩ := List.getElem?_eq_some_iff.1 h
  exact List.set_getElem_self hi

private theorem within_cores {S : Type} {ok : Nat → S → Prop} (less : ∀ k m, ok (k + 1) m → ok k m) : ∀ (schedule : List Steps.Turn) (cores : List (Steps.Core S)) (m : S) (k b : Nat),
    TasksWithin ok k (cores.map (·.rest)) b → (∀ c ∈ cores, Keeps ok k c.pending) → b ≤ k → ok k m → ∃ r, Steps.runCores cores schedule m = .ok r ∧ ∃ k', ok k' r.2
  | [], _, _, _, _, _, _, _, h => ⟨_, rfl, _, h⟩
  | .step i :: schedule, cores, m, k, b, h, hp, hb, hm => by
    cases hc : cores[i]? with
    | none =>
      simp only [Steps.runCores, hc]
      exact within_cores less schedule cores m k b h hp hb hm
    | some c =>
      obtain ⟨rest, pending⟩ := c
      have hpc := hp _ (List.mem_of_getElem? hc)
      have hv : ok k (pending.foldl (fun m f => f m) m) := Keeps.view pending m hpc hm
      obtain ⟨n, b0, h1, h2, h3⟩ := h.get _ b i rest (by rw [List.getElem?_map, hc]; rfl)
      have setp : ∀ k' (c' : Steps.Core S), k' ≤ k → Keeps ok k' c'.pending → ∀ c ∈ cores.set i c', Keeps ok k' c.pending := by
        intro k' c' hk hc' x hx
        rcases List.mem_or_eq_of_mem_set hx with hx | rfl
        · exact (hp x hx).mono hk
        · exact hc'
      have sett : ∀ c' : Steps.Core S, (cores.set i c').map (·.rest) = (cores.map (·.rest)).set i c'.rest := fun c' => List.map_set
      cases h2 with
      | done =>
        simp only [Steps.runCores, hc, Steps.Core.step, Res.bind_ok]
        exact within_cores less schedule _ _ k (n + b0) (by rw [sett]; exact h3 n k _ (Nat.le_refl _) .done) (setp k _ (Nat.le_refl _) hpc) (by omega) hm
      | @load _ _ next h2 =>
        simp only [Steps.runCores, hc, Steps.Core.step, Res.bind_ok]
        exact within_cores less schedule _ _ k (n + b0) (by rw [sett]; exact h3 n k _ (Nat.le_refl _) (h2 k (Nat.le_refl _) (by omega) _ hv)) (setp k _ (Nat.le_refl _) hpc) (by omega) hm
      | @count n' _ next h2 =>
        simp only [Steps.runCores, hc, Steps.Core.step, Res.bind_ok]
        obtain ⟨k', rfl⟩ : ∃ k', k = k' + 1 := ⟨k - 1, by omega⟩
        exact within_cores less schedule _ _ k' (n' + b0) (by rw [sett]; exact h3 n' k' _ (by omega) (h2 k' (Nat.le_refl _) (by omega) _ hv)) (setp k' _ (by omega) (hpc.mono (by omega)))
          (by omega) (less _ _ hm)
      | @store _ _ f next h2 h4 =>
        simp only [Steps.runCores, hc, Steps.Core.step, Res.bind_ok]
        refine within_cores less schedule _ _ k (n + b0) (by rw [sett]; exact h3 n k _ (Nat.le_refl _) h4) (setp k _ (Nat.le_refl _) fun g hg => ?_) (by omega) hm
        rcases List.mem_append.1 hg with hg | hg
        · exact hpc g hg
        · rw [List.mem_singleton.1 hg]; exact h2
  | .write i :: schedule, cores, m, k, b, h, hp, hb, hm => by
    cases hc : cores[i]? with
    | none =>
      simp only [Steps.runCores, hc]
      exact within_cores less schedule cores m k b h hp hb hm
    | some c =>
      obtain ⟨rest, pending⟩ := c
      cases pending with
      | nil =>
        simp only [Steps.runCores, hc]
        exact within_cores less schedule cores m k b h hp hb hm
      | cons f pending =>
        have hpc := hp _ (List.mem_of_getElem? hc)
        simp only [Steps.runCores, hc]
        refine within_cores less schedule _ (f m) k b ?_ (fun x hx => ?_) hb (hpc f (by simp) k (Nat.le_refl _) m hm)
        · rw [List.map_set, set_same (by rw [List.getElem?_map, hc]; rfl)]
          exact h
        · rcases List.mem_or_eq_of_mem_set hx with hx | rfl
          · exact hp x hx
          · exact fun g hg => hpc g (by simp [show g ∈ pending from hg])

private theorem within_core_calls {S I : Type} {ok : Nat → S → Prop} (less : ∀ k m, ok (k + 1) m → ok k m) {steps : I → Steps S} (C : I → Prop) (K : Nat)
    (h : ∀ i k, C i → k ≤ K → TaskWithin ok 1 k (steps i)) (tasks : List (List I)) (hC : ∀ l ∈ tasks, ∀ i ∈ l, C i) (hK : tasks.flatten.length ≤ K) (s : S) (hs : ok K s) (schedule : List Steps.Turn) :
    ∃ r, Steps.runCores (coresOf steps tasks) schedule s = .ok r ∧ ∃ k', ok k' r.2 := by
  have one : ∀ l : List I, (∀ i ∈ l, C i) → TaskWithin ok l.length K (Steps.task steps l) := by
    intro l
    induction l with
    | nil => exact fun _ => .done
    | cons i l ih =>
      intro hl
      rw [List.length_cons, Nat.add_comm]
      exact (h i K (hl i (by simp)) (Nat.le_refl _)).andThen (ih fun j hj => hl j (by simp [hj]))
  have all : ∀ tasks : List (List I), (∀ l ∈ tasks, ∀ i ∈ l, C i) → TasksWithin ok K ((coresOf steps tasks).map (·.rest)) tasks.flatten.length := by
    intro tasks
    induction tasks with
    | nil => exact fun _ => trivial
    | cons l ls ih =>
      intro hl
      exact ⟨l.length, ls.flatten.length, by simp, one l (hl l (by simp)), ih fun x hx => hl x (by simp [hx])⟩
  refine within_cores less schedule _ s K _ (all tasks hC) (fun c hc => ?_) hK hs
  obtain ⟨l, _, rfl⟩ := List.mem_map.1 hc
  exact fun _ h => absurd h (by simp)

/-- CTU, in both build profiles: if the value of the counter is below the largest one by at least the number of calls, no call panics, and every call counts at most once. -/
theorem C156_ctu_partial (t : IntTy) (ht : CounterTy t) (p : Profile) (s : CTUParams) (tasks : List (List CTUIn)) (h0 : 0 ≤ s.cv) (h : s.cv + tasks.flatten.length ≤ t.hi)
    (schedule : List Steps.Turn) :
    ∃ r, Steps.runCores (coresOf (ctuSteps t p) tasks) schedule s = .ok r ∧ 0 ≤ r.2.cv ∧ r.2.cv ≤ s.cv + tasks.flatten.length := by
  obtain ⟨r, hr, k', h1, h2⟩ := within_core_calls (fun k m hm => ⟨hm.1, by have := hm.2; omega⟩) (fun _ => True) _ (ctu_within ht p s.cv tasks.flatten.length h0 h) tasks
    (fun _ _ _ _ => trivial) (Nat.le_refl _) s ⟨h0, Int.le_refl _⟩ schedule
  exact ⟨r, hr, h1, by omega⟩

/-- CTD, in both build profiles: if the values of the counter and of PV are all at least `l` and at most `u`, and `l` is above the smallest value by at least the number of calls, no call
panics, and every call counts at most once. -/
theorem C156_ctd_partial (t : IntTy) (ht : CounterTy t) (p : Profile) (s : CTDParams) (tasks : List (List CTDIn)) (l u : Int) (hcv : l ≤ s.cv ∧ s.cv ≤ u) (hpv : l ≤ s.pv ∧ s.pv ≤ u)
    (hi : ∀ c ∈ tasks, ∀ i ∈ c, l ≤ i.pv ∧ i.pv ≤ u) (hl : t.lo + tasks.flatten.length ≤ l) (hu : u ≤ t.hi) (schedule : List Steps.Turn) :
    ∃ r, Steps.runCores (coresOf (ctdSteps t p) tasks) schedule s = .ok r ∧ l - tasks.flatten.length ≤ r.2.cv ∧ r.2.cv ≤ u := by
  obtain ⟨r, hr, k', ⟨h1, h2⟩, _⟩ := within_core_calls (fun k m hm => ⟨⟨by have := hm.1.1; omega, hm.1.2⟩, hm.2⟩) (fun i => l ≤ i.pv ∧ i.pv ≤ u) _
    (ctd_within ht p l u tasks.flatten.length hl hu) tasks hi (Nat.le_refl _) s ⟨⟨by omega, hcv.2⟩, hpv⟩ schedule
  exact ⟨r, hr, by omega, h2⟩

/-- CTUD, in both build profiles: if the values of the counter and of PV are all at least `l ≤ 0` and at most `u ≥ 0`, and `l` and `u` are away from the smallest and the largest value by at
least the number of calls, no call panics, and every call counts at most once. -/
theorem C156_ctud_partial (t : IntTy) (ht : CounterTy t) (p : Profile) (s : CTUDParams) (tasks : List (List CTUDIn)) (l u : Int) (h0 : l ≤ 0 ∧ 0 ≤ u) (hcv : l ≤ s.cv ∧ s.cv ≤ u)
    (hpv : l ≤ s.pv ∧ s.pv ≤ u) (hi : ∀ c ∈ tasks, ∀ i ∈ c, l ≤ i.pv ∧ i.pv ≤ u) (hl : t.lo + tasks.flatten.length ≤ l) (hu : u + tasks.flatten.length ≤ t.hi) (schedule : List Steps.Turn) :
    ∃ r, Steps.runCores (coresOf (ctudSteps t p) tasks) schedule s = .ok r ∧ l - tasks.flatten.length ≤ r.2.cv ∧ r.2.cv ≤ u + tasks.flatten.length := by
  obtain ⟨r, hr, k', ⟨h1, h2⟩, _⟩ := within_core_calls (fun k m hm => ⟨⟨by have := hm.1.1; omega, by have := hm.1.2; omega⟩, hm.2⟩) (fun i => l ≤ i.pv ∧ i.pv ≤ u) _
    (ctud_within ht p l u tasks.flatten.length h0 hl hu) tasks hi (Nat.le_refl _) s ⟨⟨by omega, by omega⟩, hpv⟩ schedule
  exact ⟨r, hr, by omega, by omega⟩

/-! ### What the delays add -/

private def isDone {S : Type} : Steps S → Bool
  | .done => true
  | _ => false

/-- All ways to mix what is left of two tasks, of at most `n` loads and stores, end in a memory that `P` is true of, or panic. -/
private def ends {S : Type} (P : S → Bool) : Nat → Steps S → Steps S → S → Bool
  | 0, a, b, m => isDone a && isDone b && P m
  | n + 1, a, b, m =>
    (isDone a && isDone b && P m) ||
    ((isDone a || (match a.step m with | .ok (a, m) => ends P n a b m | _ => true)) &&
      (isDone b || (match b.step m with | .ok (b, m) => ends P n a b m | _ => true)) && !(isDone a && isDone b))

private theorem ends_is {S : Type} {P : S → Bool} : ∀ (schedule : List Nat) (n : Nat) (a b : Steps S) (m m' : S), ends P n a b m = true →
    Steps.runTasks [a, b] schedule m = .ok ([.done, .done], m') → P m' = true
  | [], n, a, b, m, m', h, hr => by
    cases hr
    cases n <;> simpa [ends, isDone] using h
  | i :: schedule, n, a, b, m, m', h, hr => by
    have skip : Steps.runTasks [a, b] schedule m = .ok ([.done, .done], m') → P m' = true := ends_is schedule n a b m m' h
    rcases i with _ | _ | i
    · simp only [Steps.runTasks, List.getElem?_cons_zero, List.set_cons_zero] at hr
      by_cases hd : isDone a
      · cases a <;> simp [isDone] at hd
        exact skip hr
      · cases n with
        | zero => simp [ends, hd] at h
        | succ n =>
          obtain ⟨⟨a', x⟩, h1, h2⟩ := Res.bind_eq_ok.1 hr
          simp only [ends, hd, h1, Bool.false_and, Bool.false_or, Bool.and_eq_true] at h
          exact ends_is schedule n a' b x m' h.1.1 h2
    · simp only [Steps.runTasks, List.getElem?_cons_succ, List.getElem?_cons_zero, List.set_cons_succ, List.set_cons_zero] at hr
      by_cases hd : isDone b
      · cases b <;> simp [isDone] at hd
        exact skip hr
      · cases n with
        | zero => simp [ends, hd] at h
        | succ n =>
          obtain ⟨⟨b', x⟩, h1, h2⟩ := Res.bind_eq_ok.1 hr
          simp only [ends, hd, h1, Bool.and_false, Bool.false_and, Bool.false_or, Bool.and_eq_true] at h
          exact ends_is schedule n a b' x m' h.1.2 h2
    · simp only [Steps.runTasks, List.getElem?_cons_succ, List.getElem?_nil] at hr
      exact skip hr

/-- **Delayed stores have effects of their own.** One task asks a latch for its output, another one sets it twice. Cores that delay their stores may leave the latch reset, with SET = FALSE as if the
question had come last. Without delays, in no order of the loads and stores, this happens. -/
theorem C156_latch_forgets :
    (∃ schedule, Steps.runCores (coresOf SR.steps [[⟨false, false⟩], [⟨true, false⟩, ⟨true, false⟩]]) schedule SetResetParams.default =
      .ok ([⟨.done, []⟩, ⟨.done, []⟩], ⟨false, false, false⟩)) ∧
    ∀ schedule m, Steps.runTasks ([[⟨false, false⟩], [⟨true, false⟩, ⟨true, false⟩]].map (Steps.task SR.steps)) schedule SetResetParams.default = .ok ([.done, .done], m) → m ≠ ⟨false, false, false⟩ := by
  refine ⟨⟨List.replicate 6 (.step 0) ++ List.replicate 12 (.step 1) ++ List.replicate 6 (.write 1) ++ List.replicate 3 (.write 0), rfl⟩, fun schedule m h hm => ?_⟩
  have : (!decide (m = ⟨false, false, false⟩)) = true :=
    ends_is (P := fun m => !decide (m = (⟨false, false, false⟩ : SetResetParams))) schedule 18 _ _ SetResetParams.default m (by decide +kernel) h
  simp [hm] at this

/-! ### Examples -/

/-- Two tasks count one edge each of their own, with a CTU at 5 and far from its limits (as `C156_ctu_partial` requires); the stores of the first task reach the memory late, and the edge of the second one is lost. -/
example : (5 : Int) + [[(⟨true, false, 9⟩ : CTUIn)], [⟨false, false, 9⟩, ⟨true, false, 9⟩]].flatten.length ≤ IntTy.i16.hi ∧
    ((Steps.runCores (coresOf (ctuSteps .i16 .debug) [[(⟨true, false, 9⟩ : CTUIn)], [⟨false, false, 9⟩, ⟨true, false, 9⟩]])
      (List.replicate 20 (.step 0) ++ (List.replicate 40 (.step 1) ++ (List.replicate 40 (.write 1) ++ List.replicate 20 (.write 0)))) ⟨false, false, 0, true, 5, ⟨false⟩⟩).bind
      fun r => .ok r.2.cv) = .ok 6 := by decide +kernel

/-- Two tasks call a TON with IN = TRUE, all stores are delayed to the end: both have started it. -/
example : ((Steps.runCores (coresOf TON.steps [[(⟨true, 100, 5, 5⟩ : TimerIn)], [⟨true, 100, 6, 6⟩]])
      (List.replicate 20 (.step 0) ++ (List.replicate 20 (.step 1) ++ (List.replicate 20 (.write 0) ++ List.replicate 20 (.write 1)))) TimerParams.default).bind
    fun r => .ok (r.2.start_time, r.2.output)) = .ok (some 6, false) := by decide +kernel

/-- A TP that is running, whose two tasks call it with IN = TRUE. -/
example : ∃ s, runFB TP.call TimerParams.default [⟨true, 100, 0, 0⟩] = .ok s ∧ s.start_time.isSome ∧
    ((Steps.runCores (coresOf TP.steps [[(⟨true, 100, 50, 50⟩ : TimerIn)], [⟨true, 100, 150, 150⟩]])
      (List.replicate 20 (.step 0) ++ (List.replicate 20 (.step 1) ++ (List.replicate 20 (.write 1) ++ List.replicate 20 (.write 0)))) s).bind fun r => .ok r.2.output) = .ok true :=
  ⟨_, rfl, rfl, by decide +kernel⟩

end Verif
