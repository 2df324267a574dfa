import Verif.Props.KeptInputs
/-
C186: outputs between calls, and the order of calls of different instances.
-/
namespace Verif.Abi

private theorem names : ∀ b ∈ functionBlocks, ∀ (i : Nat) (e : Section × String × VTy), b.vars[i]? = some e → b.var e.2.1 = i := by
  have h : ∀ b ∈ functionBlocks, ((List.range b.vars.length).all fun i => match b.vars[i]? with
      | some e => decide (b.var e.2.1 = i)
      | none => true) = true := by decide +kernel
  intro b hb i e hv
  have hi : i < b.vars.length := (List.getElem?_eq_some_iff.1 hv).1
  have := List.all_eq_true.1 (h b hb) i (List.mem_range.2 hi)
  rw [hv] at this
  simpa using this

/-- What the instance holds at the end of a run, and what is read of it. -/
private theorem ran_alone {mc : Machine} {p : Profile} {xs : List Instance} {steps : List Step} {m : Mem} (H : Ran mc p xs steps m) {k : Nat} {x : Instance}
    (hk : xs[k]? = some x) : ∃ vs, alone p x.block (x.block.fields.map (·.2.zero)) (eventsOf k steps) = .ok vs ∧
      ∀ n v, x.Reads mc m n v ↔ (∃ e ∈ x.block.vars, e.2.1 = n ∧ e.1 ≠ .local) ∧ vs[x.block.var n]? = some v := by
  obtain ⟨m0, hz, hr⟩ := H.run
  have hb := H.separate.1 x (List.mem_of_getElem? hk)
  have hz0 : ∀ (k : Nat) x, xs[k]? = some x → Holds mc x m0 (((xs[k]?).map fun x : Instance => x.block.fields.map (·.2.zero)).getD []) := by
    intro k x hk
    rw [hk]
    exact C145_zeroed mc H.machine x (H.separate.1 x (List.mem_of_getElem? hk)) m0 (hz x (List.mem_of_getElem? hk)) H.zero
  obtain ⟨g1, g2⟩ := C145_independent mc H.machine p xs H.separate m0 _ hz0 steps H.proper
  obtain ⟨vs, hvs⟩ := g1.1 ⟨m, hr⟩ k x hk
  have g3 := g2 m hr k x vs hk hvs
  rw [hk] at hvs
  simp only [Option.map_some, Option.getD_some] at hvs
  refine ⟨vs, hvs, fun n v => ?_⟩
  unfold Instance.Reads
  refine and_congr_right ?_
  rintro ⟨e, he, hen, hes⟩
  obtain ⟨i, hi⟩ := List.mem_iff_getElem?.1 he
  have hvar := names x.block hb i _ hi
  rw [hen] at hvar
  obtain ⟨w, a1, a2⟩ := g3 i e.1 e.2.1 e.2.2 hi hes
  rw [hvar, a1, a2]
  constructor
  · intro h; cases h; rfl
  · intro h; cases h; rfl

private theorem events_append (k : Nat) (a b : List Step) : eventsOf k (a ++ b) = eventsOf k a ++ eventsOf k b := by
  simp [eventsOf, List.filterMap_append]

private theorem mem_events {k : Nat} {e : Event} {steps : List Step} (h : e ∈ eventsOf k steps) : Step.on k e ∈ steps := by
  obtain ⟨s, hs, h⟩ := List.mem_filterMap.1 h
  cases s with
  | on j e' =>
    simp only at h
    split at h
    · rename_i hj; cases h; subst hj; exact hs
    · cases h
  | other f => cases h

private theorem alone_held {p : Profile} {b : FunctionBlock} {i : Nat} (es : List Event) :
    ∀ (vs vs' : List Val), (∀ e ∈ es, ∃ j v, e = .assign j v ∧ j ≠ i) → alone p b vs es = .ok vs' → vs'[i]? = vs[i]? := by
  induction es with
  | nil => intro vs vs' _ e; cases e; rfl
  | cons ev es ih =>
    intro vs vs' hes e
    have e : (ev :: es).foldlM (Event.alone p b) vs = .ok vs' := e
    rw [List.foldlM_cons] at e
    obtain ⟨ws, e1, e2⟩ := Res.bind_eq_ok.1 e
    obtain ⟨j, v, rfl, hj⟩ := hes ev List.mem_cons_self
    cases e1
    rw [ih _ _ (fun e he => hes e (List.mem_cons_of_mem _ he)) e2, List.getElem?_set]
    simp [hj]

/-- **C186**: as long as an instance is not called, each of its outputs reads as before, whatever is written into its inputs and whatever is done with other
instances. -/
theorem C186_held (mc : Machine) (p : Profile) (xs : List Instance) (before after : List Step) (m m' : Mem) (H : Ran mc p xs before m)
    (H' : Ran mc p xs (before ++ after) m') (k : Nat) (x : Instance) (hk : xs[k]? = some x) (hnot : ∀ t1 t2, Step.on k (.call t1 t2) ∉ after)
    (n : String) (t : VTy) (hn : (.output, n, t) ∈ x.block.vars) (v : Val) (hv : x.Reads mc m n v) : x.Reads mc m' n v := by
  obtain ⟨vs, e1, r1⟩ := ran_alone H hk
  obtain ⟨vs', e2, r2⟩ := ran_alone H' hk
  obtain ⟨g1, g2⟩ := (r1 n v).1 hv
  refine (r2 n v).2 ⟨g1, ?_⟩
  rw [events_append, alone_append, e1, Res.bind_ok] at e2
  obtain ⟨i, hi⟩ := List.mem_iff_getElem?.1 hn
  have hvar : x.block.var n = i := names x.block (H.separate.1 x (List.mem_of_getElem? hk)) i _ hi
  rw [hvar] at g2 ⊢
  rw [← g2]
  refine alone_held _ _ _ (fun e he => ?_) e2
  have hmem := mem_events he
  cases e with
  | call t1 t2 => exact absurd hmem (hnot t1 t2)
  | assign j w =>
    refine ⟨j, w, rfl, ?_⟩
    rintro rfl
    obtain ⟨n', t', h1, -⟩ := H'.proper _ (List.mem_append_right _ hmem) x hk
    rw [hi] at h1
    cases h1

/-- **C186**: two programs that do the same with each instance, in whatever order they change from instance to instance and whatever they do besides, both run
to their ends or both do not, and every variable of every instance reads the same. -/
theorem C186_order (mc : Machine) (p : Profile) (xs : List Instance) (steps steps' : List Step) (m : Mem) (H : Ran mc p xs steps m)
    (hp : ∀ s ∈ steps', s.Proper mc xs) (same : ∀ k, k < xs.length → eventsOf k steps' = eventsOf k steps) :
    ∃ m', Ran mc p xs steps' m' ∧ ∀ (k : Nat) (x : Instance) n v, xs[k]? = some x → (x.Reads mc m' n v ↔ x.Reads mc m n v) := by
  obtain ⟨m0, hz, hr⟩ := H.run
  have hz0 : ∀ (k : Nat) x, xs[k]? = some x → Holds mc x m0 (((xs[k]?).map fun x : Instance => x.block.fields.map (·.2.zero)).getD []) := by
    intro k x hk
    rw [hk]
    exact C145_zeroed mc H.machine x (H.separate.1 x (List.mem_of_getElem? hk)) m0 (hz x (List.mem_of_getElem? hk)) H.zero
  obtain ⟨f1, -⟩ := C145_independent mc H.machine p xs H.separate m0 _ hz0 steps' hp
  obtain ⟨m', hm'⟩ := f1.2 fun k x hk => by
    obtain ⟨vs, hvs, -⟩ := ran_alone H hk
    refine ⟨vs, ?_⟩
    rw [same k (List.getElem?_eq_some_iff.1 hk).1, hk]
    exact hvs
  have H' : Ran mc p xs steps' m' := ⟨H.machine, H.zero, H.separate, hp, m0, hz, hm'⟩
  refine ⟨m', H', fun k x n v hk => ?_⟩
  obtain ⟨vs, e1, r1⟩ := ran_alone H hk
  obtain ⟨vs', e2, r2⟩ := ran_alone H' hk
  rw [same k (List.getElem?_eq_some_iff.1 hk).1, e1] at e2
  cases e2
  rw [r1, r2]

private def first : List Step := [.on 0 (two[0].set "CU" (.bool true)), .on 0 (.call 0 0)]
private def then' : List Step := [.on 1 (two[1].set "IN" (.bool true)), .on 0 (two[0].set "PV" (.int 7)), .on 1 (.call 10 10), .other id]
private def reordered : List Step :=
  [.on 1 (two[1].set "IN" (.bool true)), .on 0 (two[0].set "CU" (.bool true)), .on 1 (.call 10 10), .on 0 (.call 0 0), .on 0 (two[0].set "PV" (.int 7))]

private theorem proper : ∀ s ∈ first ++ then' ++ reordered, s.Proper pc two := by
  intro s hs
  simp only [first, then', reordered, List.cons_append, List.nil_append, List.mem_cons, List.not_mem_nil, or_false] at hs
  have h0 : two[0]? = some ⟨named "CTU", 100⟩ := rfl
  have h1 : two[1]? = some ⟨named "TON", 112⟩ := rfl
  rcases hs with rfl | rfl | rfl | rfl | rfl | rfl | rfl | rfl | rfl | rfl | rfl
  · intro x hx; rw [h0] at hx; cases hx; exact ⟨"CU", .BOOL, rfl, trivial⟩
  · exact ⟨by decide, by decide⟩
  · intro x hx; rw [h1] at hx; cases hx; exact ⟨"IN", .BOOL, rfl, trivial⟩
  · intro x hx; rw [h0] at hx; cases hx; exact ⟨"PV", .INT, rfl, show IntTy.i16.InRange 7 by decide⟩
  · exact ⟨by decide, by decide⟩
  · intro m x a _ _; rfl
  · intro x hx; rw [h1] at hx; cases hx; exact ⟨"IN", .BOOL, rfl, trivial⟩
  · intro x hx; rw [h0] at hx; cases hx; exact ⟨"CU", .BOOL, rfl, trivial⟩
  · exact ⟨by decide, by decide⟩
  · exact ⟨by decide, by decide⟩
  · intro x hx; rw [h0] at hx; cases hx; exact ⟨"PV", .INT, rfl, show IntTy.i16.InRange 7 by decide⟩

/-- A counter that has counted to 1 (PV = 0, so Q is TRUE) is not called any more. Its CV stays, and Q, although PV is now 7. -/
example : ∃ m m', Ran pc .debug two first m ∧ Ran pc .debug two (first ++ then') m' ∧ (∀ t1 t2, Step.on 0 (.call t1 t2) ∉ then') ∧
    two[0].Reads pc m "CV" (.int 1) ∧ two[0].Reads pc m "Q" (.bool true) ∧ two[0].Reads pc m' "CV" (.int 1) ∧ two[0].Reads pc m' "Q" (.bool true) := by
  have hin : ∀ t1 t2, Step.on 0 (.call t1 t2) ∉ then' := by
    intro t1 t2 h
    simp [then', Instance.set] at h
  have r1 : ∃ m, Ran pc .debug two first m ∧ two[0].Reads pc m "CV" (.int 1) ∧ two[0].Reads pc m "Q" (.bool true) :=
    ⟨_, ⟨pc_ok, rfl, two_ok.1, fun s hs => proper s (by simp [hs]), (fun _ => 0), fun _ _ _ _ => rfl, rfl⟩,
      ⟨⟨(.output, "CV", .elem .INT), by decide, rfl, by decide⟩, rfl⟩, ⟨⟨(.output, "Q", .elem .BOOL), by decide, rfl, by decide⟩, rfl⟩⟩
  have r2 : ∃ m, Ran pc .debug two (first ++ then') m :=
    ⟨_, ⟨pc_ok, rfl, two_ok.1, fun s hs => proper s (List.mem_append_left _ hs), (fun _ => 0), fun _ _ _ _ => rfl, rfl⟩⟩
  obtain ⟨m, H, a, b⟩ := r1
  obtain ⟨m', H'⟩ := r2
  exact ⟨m, m', H, H', hin, a, b, C186_held _ _ _ _ _ _ _ H H' 0 _ rfl hin _ (.elem .INT) (by decide) _ a,
    C186_held _ _ _ _ _ _ _ H H' 0 _ rfl hin _ (.elem .BOOL) (by decide) _ b⟩

/-- The steps in another order. -/
example : (∀ k, k < two.length → eventsOf k reordered = eventsOf k (first ++ then')) ∧ reordered ≠ first ++ then' ∧ ∀ s ∈ reordered, s.Proper pc two := by
  refine ⟨fun k hk => ?_, fun h => ?_, fun s hs => proper s (List.mem_append_right _ hs)⟩
  · rcases k with _ | _ | k
    · rfl
    · rfl
    · simp [two] at hk; omega
  · have := congrArg List.length h
    simp [reordered, first, then'] at this

end Verif.Abi
