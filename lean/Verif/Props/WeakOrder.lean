import Verif.Model.WeakMemory
import Verif.Props.StoreBuffers
/-
C159: as C156, on processors whose cores also change the order of their loads and stores.

`Steps.Reaches` in Model/WeakMemory.lean.
-/
namespace Verif
open Spec

/-! ### Specification -/

/-- A task that has come to a panic. -/
def SomePanic {S : Type} (cores : List (Steps.Core S)) : Prop := ∃ c ∈ cores, c.rest = .panic

/-- Tasks may run on several cores that change the order of their loads and stores: if their calls return in whatever order they take place one after the other, no call panics. -/
def ReturnsInWeakOrder {S I : Type} (call : S → I → Res S) (steps : I → Steps S) (fresh : S) : Prop :=
  ∀ h s (tasks : List (List I)), runFB call fresh h = .ok s → (∀ l, l.Perm tasks.flatten → ∃ x, runFB call s l = .ok x) →
    ∀ cores memory, Steps.Reaches (coresOf steps tasks) s cores memory → ¬ SomePanic cores

/-! ### Cores that only delay their stores -/

private theorem set_same' {α : Type} {l : List α} {i : Nat} {a : α} (h : l[i]? = some a) : l.set i a = l := by
  obtain ⟨hi, rfl⟩ := List.getElem?_eq_some_iff.1 h
  exact List.set_getElem_self hi

private theorem delayed_from {S : Type} (start : List (Steps.Core S)) (s : S) : ∀ (schedule : List Steps.Turn) (cores : List (Steps.Core S)) (m : S) (older : List S),
    Steps.Reaches start s cores (m :: older) →
    (∀ r, Steps.runCores cores schedule m = .ok r → ∃ older, Steps.Reaches start s r.1 (r.2 :: older)) ∧
    (Steps.runCores cores schedule m = .panic → ∃ cores memory, Steps.Reaches start s cores memory ∧ SomePanic cores)
  | [], cores, m, older, h => ⟨fun r hr => (by cases hr; exact ⟨older, h⟩), fun hr => (by cases hr)⟩
  | .step i :: schedule, cores, m, older, h => by
    cases hc : cores[i]? with
    | none =>
      simp only [Steps.runCores, hc]
      exact delayed_from start s schedule cores m older h
    | some c =>
      obtain ⟨rest, pending⟩ := c
      simp only [Steps.runCores, hc]
      cases rest with
      | done =>
        simp only [Steps.Core.step, Res.bind_ok, set_same' hc]
        exact delayed_from start s schedule cores m older h
      | panic => exact ⟨fun r hr => (by cases hr), fun _ => ⟨cores, _, h, _, List.mem_of_getElem? hc, rfl⟩⟩
      | load next => exact delayed_from start s schedule _ m older (.load h hc List.mem_cons_self)
      | store f next => exact delayed_from start s schedule _ m older (.store h hc)
  | .write i :: schedule, cores, m, older, h => by
    cases hc : cores[i]? with
    | none =>
      simp only [Steps.runCores, hc]
      exact delayed_from start s schedule cores m older h
    | some c =>
      obtain ⟨rest, pending⟩ := c
      cases pending with
      | nil =>
        simp only [Steps.runCores, hc]
        exact delayed_from start s schedule cores m older h
      | cons f pending =>
        simp only [Steps.runCores, hc]
        exact delayed_from start s schedule _ (f m) (m :: older) (.write (front := []) h hc)

/-- Everything that cores that only delay their stores do (C156) is included. -/
theorem C159_delayed {S : Type} (cores : List (Steps.Core S)) (s : S) (schedule : List Steps.Turn) :
    (∀ r, Steps.runCores cores schedule s = .ok r → ∃ older, Steps.Reaches cores s r.1 (r.2 :: older)) ∧
    (Steps.runCores cores schedule s = .panic → ∃ cores' memory, Steps.Reaches cores s cores' memory ∧ SomePanic cores') :=
  delayed_from cores s schedule cores s [] .start

private theorem no_ub {S : Type} : ∀ (schedule : List Steps.Turn) (cores : List (Steps.Core S)) (m : S), Steps.runCores cores schedule m ≠ .ub
  | [], _, _ => fun h => nomatch h
  | .step i :: schedule, cores, m => by
    cases hc : cores[i]? with
    | none => simp only [Steps.runCores, hc]; exact no_ub schedule cores m
    | some c =>
      obtain ⟨rest, pending⟩ := c
      simp only [Steps.runCores, hc]
      cases rest with
      | panic => exact fun h => nomatch h
      | _ => exact no_ub schedule _ m
  | .write i :: schedule, cores, m => by
    cases hc : cores[i]? with
    | none => simp only [Steps.runCores, hc]; exact no_ub schedule cores m
    | some c =>
      obtain ⟨rest, pending⟩ := c
      cases pending with
      | nil => simp only [Steps.runCores, hc]; exact no_ub schedule cores m
      | cons f pending => simp only [Steps.runCores, hc]; exact no_ub schedule _ (f m)

private theorem with_delays_of {S I : Type} {call : S → I → Res S} {steps : I → Steps S} {fresh : S} (h : ReturnsInWeakOrder call steps fresh) :
    ReturnsWithDelayedStores call steps fresh := by
  intro l s tasks hs hp schedule
  cases hr : Steps.runCores (coresOf steps tasks) schedule s with
  | ok r => exact ⟨r, rfl⟩
  | panic =>
    obtain ⟨c, m, h1, h2⟩ := (C159_delayed _ s schedule).2 hr
    exact absurd h2 (h l s tasks hs hp c m h1)
  | ub => exact absurd hr (no_ub schedule _ s)

/-- **C159 is false for counters (debug build) and timers**, as C156 is. -/
theorem C159_refuted :
    (∀ t, CounterTy t → ¬ ReturnsInWeakOrder (ctuCall t .debug) (ctuSteps t .debug) CTUParams.default) ∧
    (∀ t, CounterTy t → ¬ ReturnsInWeakOrder (ctdCall t .debug) (ctdSteps t .debug) CTDParams.default) ∧
    (∀ t, CounterTy t → ¬ ReturnsInWeakOrder (ctudCall t .debug) (ctudSteps t .debug) CTUDParams.default) ∧
    ¬ ReturnsInWeakOrder TP.call TP.steps TimerParams.default ∧
    ¬ ReturnsInWeakOrder TON.call TON.steps TimerParams.default ∧
    ¬ ReturnsInWeakOrder TOF.call TOF.steps TimerParams.default := by
  obtain ⟨h1, h2, h3, h4, h5, h6⟩ := C156_refuted
  exact ⟨fun t ht h => h1 t ht (with_delays_of h), fun t ht h => h2 t ht (with_delays_of h), fun t ht h => h3 t ht (with_delays_of h), fun h => h4 (with_delays_of h),
    fun h => h5 (with_delays_of h), fun h => h6 (with_delays_of h)⟩

/-! ### Edge detection and latches -/

/-- What is left of a task cannot panic, whatever its loads see. -/
private inductive Safe {S : Type} : Steps S → Prop
  | done : Safe .done
  | load {next} : (∀ m, Safe (next m)) → Safe (.load next)
  | store {f next} : Safe next → Safe (.store f next)

private theorem Safe.andThen {S : Type} {a b : Steps S} (ha : Safe a) (hb : Safe b) : Safe (a.andThen b) := by
  induction ha with
  | done => exact hb
  | load _ ih => exact .load ih
  | store _ ih => exact .store ih

private theorem safe_reaches {S : Type} {start cores : List (Steps.Core S)} {s : S} {memory : List S} (h : ∀ c ∈ start, Safe c.rest)
    (hr : Steps.Reaches start s cores memory) : ∀ c ∈ cores, Safe c.rest := by
  induction hr with
  | start => exact h
  | load _ hc _ ih =>
    intro c hm
    rcases List.mem_or_eq_of_mem_set hm with hm | rfl
    · exact ih c hm
    · have := ih _ (List.mem_of_getElem? hc)
      cases this with | load h => exact h _
  | store _ hc ih =>
    intro c hm
    rcases List.mem_or_eq_of_mem_set hm with hm | rfl
    · exact ih c hm
    · have := ih _ (List.mem_of_getElem? hc)
      cases this with | store h => exact h
  | write _ hc ih =>
    intro c hm
    rcases List.mem_or_eq_of_mem_set hm with hm | rfl
    · exact ih c hm
    · have := ih _ (List.mem_of_getElem? hc)
      exact this

private theorem safe_returns {S I : Type} {call : S → I → Res S} {steps : I → Steps S} {fresh : S} (h : ∀ i, Safe (steps i)) : ReturnsInWeakOrder call steps fresh := by
  intro _ s tasks _ _ cores memory hr ⟨c, hc, hp⟩
  have task : ∀ l : List I, Safe (Steps.task steps l) := by
    intro l
    induction l with
    | nil => exact .done
    | cons i l ih => exact (h i).andThen ih
  have := safe_reaches (fun c hc => by obtain ⟨l, _, rfl⟩ := List.mem_map.1 hc; exact task l) hr c hc
  rw [hp] at this
  cases this

/-- **C159** for R_TRIG, F_TRIG, SR and RS. -/
theorem C159_flanks_latches :
    ReturnsInWeakOrder R_TRIG.call R_TRIG.steps Trigger.default ∧
    ReturnsInWeakOrder F_TRIG.call F_TRIG.steps Trigger.default ∧
    ReturnsInWeakOrder SR.call SR.steps SetResetParams.default ∧
    ReturnsInWeakOrder RS.call RS.steps SetResetParams.default := by
  refine ⟨safe_returns fun i => .store (.load fun m => ?_), safe_returns fun i => .store (.load fun m => ?_),
    safe_returns fun i => .store (.store (.load fun _ => .load fun _ => .load fun _ => .store .done)),
    safe_returns fun i => .store (.store (.load fun _ => .load fun _ => .load fun _ => .store .done))⟩
  · unfold Steps.rising_edge
    split
    · exact .load fun _ => .store (.store .done)
    · exact .store (.store .done)
  · unfold Steps.falling_edge
    split
    · exact .store (.store .done)
    · exact .load fun _ => .store (.store .done)

private theorem safe_rising {S : Type} {get : S → Signal} {set : S → Signal → S} {v : Bool} {next : Bool → Steps S} (h : ∀ e, Safe (next e)) : Safe (Steps.rising_edge get set v next) := by
  unfold Steps.rising_edge
  split
  · exact .load fun _ => .store (h _)
  · exact .store (h _)

private theorem safe_release {S : Type} {t : IntTy} {x : Int} {f : Int → Steps S} (h : ∀ v, Safe (f v)) :
    Safe (match t.arith .release x with | .ok v => f v | _ => .panic) := by
  have : ∃ v, t.arith .release x = .ok v := by
    unfold IntTy.arith
    split
    · exact ⟨_, rfl⟩
    · exact ⟨_, rfl⟩
  obtain ⟨v, hv⟩ := this
  rw [hv]
  exact h v

private theorem safe_ite {S : Type} {c : Prop} [Decidable c] {a b : Steps S} (ha : Safe a) (hb : Safe b) : Safe (if c then a else b) := by
  split
  · exact ha
  · exact hb

/-- **C159** for counters in a release build (whose values may jump, C152_release_refuted). -/
theorem C159_release (t : IntTy) :
    ReturnsInWeakOrder (ctuCall t .release) (ctuSteps t .release) CTUParams.default ∧
    ReturnsInWeakOrder (ctdCall t .release) (ctdSteps t .release) CTDParams.default ∧
    ReturnsInWeakOrder (ctudCall t .release) (ctudSteps t .release) CTUDParams.default := by
  have u : Safe ctuStepsEnd := .load fun _ => .load fun _ => .store .done
  have d : Safe ctdStepsEnd := .load fun _ => .store .done
  have ud : Safe ctudStepsEnd := .load fun _ => .load fun _ => .store (.load fun _ => .store .done)
  refine ⟨safe_returns fun i => .store (.store (.store (.load fun _ => safe_ite (.store u) (.load fun _ => safe_rising fun _ => .load fun _ => safe_ite (.load fun _ => safe_release fun _ => .store u) u)))),
    safe_returns fun i => .store (.store (.store (.load fun _ => safe_ite (.load fun _ => .store d) (.load fun _ => safe_rising fun _ => .load fun _ =>
      safe_ite (.load fun _ => safe_release fun _ => .store d) d)))),
    safe_returns fun i => .store (.store (.store (.store (.store (.load fun _ => safe_ite (.store ud) (.load fun _ => safe_ite (.load fun _ => .store ud)
      (.load fun _ => safe_rising fun _ => .load fun _ => safe_rising fun _ => safe_ite ud (.load fun _ => safe_ite (.load fun _ => safe_release fun _ => .store ud)
        (.load fun _ => safe_ite (.load fun _ => safe_release fun _ => .store ud) ud)))))))))⟩

/-! ### Counters that are far from their limits -/

private def Kept {S : Type} (ok : Nat → S → Prop) (k : Nat) (pending : List (S → S)) : Prop := ∀ f ∈ pending, ∀ k', k' ≤ k → ∀ m, ok k' m → ok k' (f m)

private theorem Kept.mono {S : Type} {ok : Nat → S → Prop} {k k' : Nat} {pending : List (S → S)} (h : Kept ok k pending) (hk : k' ≤ k) : Kept ok k' pending :=
  fun f hf x hx => h f hf x (Nat.le_trans hx hk)

private theorem Kept.view {S : Type} {ok : Nat → S → Prop} {k : Nat} : ∀ (pending : List (S → S)) (m : S), Kept ok k pending → ok k m → ok k (pending.foldl (fun m f => f m) m)
  | [], _, _, h => h
  | f :: pending, m, hp, h => Kept.view pending (f m) (fun g hg => hp g (by simp [hg])) (hp f (by simp) k (Nat.le_refl _) m h)

private theorem within_reaches {S : Type} {ok : Nat → S → Prop} (less : ∀ k m, ok (k + 1) m → ok k m) {start cores : List (Steps.Core S)} {s : S} {memory : List S} {k₀ b₀ : Nat}
    (h : TasksWithin ok k₀ (start.map (·.rest)) b₀) (hp : ∀ c ∈ start, Kept ok k₀ c.pending) (hb : b₀ ≤ k₀) (hs : ok k₀ s) (hr : Steps.Reaches start s cores memory) :
    ∃ k b, TasksWithin ok k (cores.map (·.rest)) b ∧ (∀ c ∈ cores, Kept ok k c.pending) ∧ b ≤ k ∧ ∀ m ∈ memory, ok k m := by
  induction hr with
  | start => exact ⟨k₀, b₀, h, hp, hb, fun m hm => by rw [List.mem_singleton.1 hm]; exact hs⟩
  | @load cores memory i next pending m _ hc hm ih =>
    obtain ⟨k, b, i1, i2, i3, i4⟩ := ih
    obtain ⟨n, b0, h1, h2, h3⟩ := i1.get _ b i _ (by rw [List.getElem?_map, hc]; rfl)
    have hpc := i2 _ (List.mem_of_getElem? hc)
    have hv : ok k (Steps.Core.view ⟨.done, pending⟩ m) := Kept.view pending m hpc (i4 m hm)
    cases h2 with
    | load h2 =>
      refine ⟨k, n + b0, by rw [List.map_set]; exact h3 n k _ (Nat.le_refl _) (h2 k (Nat.le_refl _) (by omega) _ hv), fun c hc' => ?_, by omega, i4⟩
      rcases List.mem_or_eq_of_mem_set hc' with hc' | rfl
      · exact i2 c hc'
      · exact hpc
    | @count n' _ _ h2 =>
      obtain ⟨k', rfl⟩ : ∃ k', k = k' + 1 := ⟨k - 1, by omega⟩
      refine ⟨k', n' + b0, by rw [List.map_set]; exact h3 n' k' _ (by omega) (h2 k' (Nat.le_refl _) (by omega) _ hv), fun c hc' => ?_, by omega, fun m hm => less _ _ (i4 m hm)⟩
      rcases List.mem_or_eq_of_mem_set hc' with hc' | rfl
      · exact (i2 c hc').mono (by omega)
      · exact hpc.mono (by omega)
  | @store cores memory i f next pending _ hc ih =>
    obtain ⟨k, b, i1, i2, i3, i4⟩ := ih
    obtain ⟨n, b0, h1, h2, h3⟩ := i1.get _ b i _ (by rw [List.getElem?_map, hc]; rfl)
    have hpc := i2 _ (List.mem_of_getElem? hc)
    cases h2 with
    | store h2 h4 =>
      refine ⟨k, n + b0, by rw [List.map_set]; exact h3 n k _ (Nat.le_refl _) h4, fun c hc' => ?_, by omega, i4⟩
      rcases List.mem_or_eq_of_mem_set hc' with hc' | rfl
      · exact i2 c hc'
      · intro g hg
        rcases List.mem_append.1 hg with hg | hg
        · exact hpc g hg
        · rw [List.mem_singleton.1 hg]; exact h2
  | @write cores m older i rest front f back _ hc ih =>
    obtain ⟨k, b, i1, i2, i3, i4⟩ := ih
    have hpc := i2 _ (List.mem_of_getElem? hc)
    refine ⟨k, b, by rw [List.map_set, set_same' (by rw [List.getElem?_map, hc]; rfl)]; exact i1, fun c hc' => ?_, i3, fun x hx => ?_⟩
    · rcases List.mem_or_eq_of_mem_set hc' with hc' | rfl
      · exact i2 c hc'
      · exact fun g hg => hpc g (by rcases List.mem_append.1 hg with hg | hg <;> simp [hg])
    · rcases List.mem_cons.1 hx with rfl | hx
      · exact hpc f (by simp) k (Nat.le_refl _) m (i4 m (by simp))
      · exact i4 x hx

private theorem within_calls_reach {S I : Type} {ok : Nat → S → Prop} (less : ∀ k m, ok (k + 1) m → ok k m) {steps : I → Steps S} (C : I → Prop) (K : Nat)
    (h : ∀ i k, C i → k ≤ K → TaskWithin ok 1 k (steps i)) (tasks : List (List I)) (hC : ∀ l ∈ tasks, ∀ i ∈ l, C i) (hK : tasks.flatten.length ≤ K) (s : S) (hs : ok K s)
    {cores : List (Steps.Core S)} {memory : List S} (hr : Steps.Reaches (coresOf steps tasks) s cores memory) :
    ¬ SomePanic cores ∧ ∃ k', ∀ m ∈ memory, ok k' m := by
  have one : ∀ l : List I, (∀ i ∈ l, C i) → TaskWithin ok l.length K (Steps.task steps l) := by
    intro l
    induction l with
    | nil => exact fun _ => .done
    | cons i l ih =>
      intro hl
      rw [List.length_cons, Nat.add_comm]
      exact (h i K (hl i (by simp)) (Nat.le_refl _)).andThen (ih fun j hj => hl j (by simp [hj]))
  have all : ∀ tasks : List (List I), (∀ l ∈ tasks, ∀ i ∈ l, C i) → TasksWithin ok K ((coresOf steps tasks).map (·.rest)) tasks.flatten.length := by
    intro tasks
    induction tasks with
    | nil => exact fun _ => trivial
    | cons l ls ih =>
      intro hl
      exact ⟨l.length, ls.flatten.length, by simp, one l (hl l (by simp)), ih fun x hx => hl x (by simp [hx])⟩
  obtain ⟨k, b, i1, -, -, i4⟩ := within_reaches less (all tasks hC) (fun c hc => by obtain ⟨l, _, rfl⟩ := List.mem_map.1 hc; exact fun _ h => absurd h (by simp)) hK hs hr
  refine ⟨fun ⟨c, hc, hp⟩ => ?_, k, i4⟩
  obtain ⟨i, hi⟩ := List.getElem?_of_mem hc
  obtain ⟨n, b0, -, h2, -⟩ := i1.get _ b i _ (by rw [List.getElem?_map, hi]; rfl)
  have h2 : TaskWithin ok n k c.rest := h2
  rw [hp] at h2
  cases h2

/-- CTU, in both build profiles: if the value of the counter is below the largest one by at least the number of calls, no call panics, and every call counts at most once. -/
theorem C159_ctu_partial (t : IntTy) (ht : CounterTy t) (p : Profile) (s : CTUParams) (tasks : List (List CTUIn)) (h0 : 0 ≤ s.cv) (h : s.cv + tasks.flatten.length ≤ t.hi)
    (cores : List (Steps.Core CTUParams)) (memory : List CTUParams) (hr : Steps.Reaches (coresOf (ctuSteps t p) tasks) s cores memory) :
    ¬ SomePanic cores ∧ ∀ m ∈ memory, 0 ≤ m.cv ∧ m.cv ≤ s.cv + tasks.flatten.length := by
  obtain ⟨h1, k', h2⟩ := within_calls_reach (fun k m hm => ⟨hm.1, by have := hm.2; omega⟩) (fun _ => True) _ (ctu_within ht p s.cv tasks.flatten.length h0 h) tasks
    (fun _ _ _ _ => trivial) (Nat.le_refl _) s ⟨h0, Int.le_refl _⟩ hr
  exact ⟨h1, fun m hm => ⟨(h2 m hm).1, by have := (h2 m hm).2; omega⟩⟩

/-- CTD, in both build profiles: if the values of the counter and of PV are all at least `l` and at most `u`, and `l` is above the smallest value by at least the number of calls, no call
panics, and every call counts at most once. -/
theorem C159_ctd_partial (t : IntTy) (ht : CounterTy t) (p : Profile) (s : CTDParams) (tasks : List (List CTDIn)) (l u : Int) (hcv : l ≤ s.cv ∧ s.cv ≤ u) (hpv : l ≤ s.pv ∧ s.pv ≤ u)
    (hi : ∀ c ∈ tasks, ∀ i ∈ c, l ≤ i.pv ∧ i.pv ≤ u) (hl : t.lo + tasks.flatten.length ≤ l) (hu : u ≤ t.hi)
    (cores : List (Steps.Core CTDParams)) (memory : List CTDParams) (hr : Steps.Reaches (coresOf (ctdSteps t p) tasks) s cores memory) :
    ¬ SomePanic cores ∧ ∀ m ∈ memory, l - tasks.flatten.length ≤ m.cv ∧ m.cv ≤ u := by
  obtain ⟨h1, k', h2⟩ := within_calls_reach (fun k m hm => ⟨⟨by have := hm.1.1; omega, hm.1.2⟩, hm.2⟩) (fun i => l ≤ i.pv ∧ i.pv ≤ u) _
    (ctd_within ht p l u tasks.flatten.length hl hu) tasks hi (Nat.le_refl _) s ⟨⟨by omega, hcv.2⟩, hpv⟩ hr
  exact ⟨h1, fun m hm => ⟨by have := (h2 m hm).1.1; omega, (h2 m hm).1.2⟩⟩

/-- CTUD, in both build profiles: if the values of the counter and of PV are all at least `l ≤ 0` and at most `u ≥ 0`, and `l` and `u` are away from the smallest and the largest value by at
least the number of calls, no call panics, and every call counts at most once. -/
theorem C159_ctud_partial (t : IntTy) (ht : CounterTy t) (p : Profile) (s : CTUDParams) (tasks : List (List CTUDIn)) (l u : Int) (h0 : l ≤ 0 ∧ 0 ≤ u) (hcv : l ≤ s.cv ∧ s.cv ≤ u)
    (hpv : l ≤ s.pv ∧ s.pv ≤ u) (hi : ∀ c ∈ tasks, ∀ i ∈ c, l ≤ i.pv ∧ i.pv ≤ u) (hl : t.lo + tasks.flatten.length ≤ l) (hu : u + tasks.flatten.length ≤ t.hi)
    (cores : List (Steps.Core CTUDParams)) (memory : List CTUDParams) (hr : Steps.Reaches (coresOf (ctudSteps t p) tasks) s cores memory) :
    ¬ SomePanic cores ∧ ∀ m ∈ memory, l - tasks.flatten.length ≤ m.cv ∧ m.cv ≤ u + tasks.flatten.length := by
  obtain ⟨h1, k', h2⟩ := within_calls_reach (fun k m hm => ⟨⟨by have := hm.1.1; omega, by have := hm.1.2; omega⟩, hm.2⟩) (fun i => l ≤ i.pv ∧ i.pv ≤ u) _
    (ctud_within ht p l u tasks.flatten.length h0 hl hu) tasks hi (Nat.le_refl _) s ⟨⟨by omega, by omega⟩, hpv⟩ hr
  exact ⟨h1, fun m hm => ⟨by have := (h2 m hm).1.1; omega, by have := (h2 m hm).1.2; omega⟩⟩

/-! ### Examples -/

/-- R_TRIG on one core: Q and the edge memory reach the memory before CLK does. -/
example : Steps.Reaches (coresOf R_TRIG.steps [[true]]) Trigger.default [⟨.done, [({ · with clk := true })]⟩]
    [⟨false, true, ⟨true⟩⟩, ⟨false, true, ⟨false⟩⟩, Trigger.default] := by
  have h0 : Steps.Reaches (coresOf R_TRIG.steps [[true]]) Trigger.default _ _ := .start
  have h1 := Steps.Reaches.store (i := 0) h0 rfl
  have h2 := Steps.Reaches.load (i := 0) h1 rfl List.mem_cons_self
  have h3 := Steps.Reaches.load (i := 0) h2 rfl List.mem_cons_self
  have h4 := Steps.Reaches.store (i := 0) h3 rfl
  have h5 := Steps.Reaches.store (i := 0) h4 rfl
  have h6 := Steps.Reaches.write (i := 0) (front := [fun t : Trigger => { t with clk := true }, fun t => { t with internal := ⟨true⟩ }]) (back := []) h5 rfl
  exact Steps.Reaches.write (i := 0) (front := [fun t : Trigger => { t with clk := true }]) (back := []) h6 rfl

/-- Two tasks and a CTU that is far from its limits (as `C159_ctu_partial` requires), with stores of the first task on their way: the second task goes on from the memory as it was at the beginning. -/
example : (0 : Int) ≤ (⟨false, false, 0, true, 5, ⟨false⟩⟩ : CTUParams).cv ∧ (5 : Int) + [[(⟨true, false, 9⟩ : CTUIn)], [⟨false, false, 9⟩]].flatten.length ≤ IntTy.i16.hi ∧
    ∃ r, Steps.runCores (coresOf (ctuSteps .i16 .debug) [[(⟨true, false, 9⟩ : CTUIn)], [⟨false, false, 9⟩]]) (List.replicate 20 (.step 0) ++ List.replicate 20 (.write 0) ++ List.replicate 20 (.step 1))
      ⟨false, false, 0, true, 5, ⟨false⟩⟩ = .ok r ∧ r.2.cv = 6 := by
  refine ⟨by decide, by decide, ?_⟩
  generalize hr : Steps.runCores _ _ _ = x
  cases x with
  | ok r =>
    refine ⟨r, rfl, ?_⟩
    have : (Res.ok r).bind (fun r => Res.ok r.2.cv) = .ok 6 := by rw [← hr]; decide +kernel
    exact Res.ok.inj this
  | panic =>
    have : (Res.panic : Res (List (Steps.Core CTUParams) × CTUParams)).bind (fun r => Res.ok r.2.cv) = .ok 6 := by rw [← hr]; decide +kernel
    cases this
  | ub =>
    have : (Res.ub : Res (List (Steps.Core CTUParams) × CTUParams)).bind (fun r => Res.ok r.2.cv) = .ok 6 := by rw [← hr]; decide +kernel
    cases this

end Verif
