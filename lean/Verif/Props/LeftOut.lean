import Verif.Props.KeptInputs
/-
C187: what the outputs of function blocks read in a program that may leave inputs out of its calls.
-/
namespace Verif.Abi

namespace Spec
/-- The calls of an instance, each with the inputs that are in force in it (written for this call or before); `write` is what writing a variable does to
the inputs. -/
def callsOf {I : Type} (write : I → Nat → Val → I) : I → List Event → List (I × Nat × Nat)
  | _, [] => []
  | i, .assign j v :: es => callsOf write (write i j v) es
  | i, .call t1 t2 :: es => (i, t1, t2) :: callsOf write i es

/-- A BOOL input after the variable number `j` has been written. -/
def boolIn (x : Instance) (n : String) (j : Nat) (v : Val) (old : Bool) : Bool :=
  if j = x.block.var n then match v with | .bool b => b | _ => old else old
/-- An input of a type of numbers. -/
def intIn (x : Instance) (n : String) (j : Nat) (v : Val) (old : Int) : Int :=
  if j = x.block.var n then match v with | .int b => b | _ => old else old
end Spec

open Verif.Abi.Spec Verif.Spec

private theorem val_of {t : STy} {v : Val} (h : Val.Of t.rep v) : (t = .BOOL ∧ ∃ b, v = .bool b) ∨ (t ≠ .BOOL ∧ ∃ x, v = .int x) := by
  cases t <;> cases v <;> simp [STy.rep, Val.Of] at h ⊢

/-- A block as a state machine on a structure `S` with inputs `I`. -/
private structure Block (p : Profile) (b : FunctionBlock) (S I : Type) where
  vals : S → List Val
  native : S → Nat → Nat → Res S
  inp : S → I
  setIn : S → I → S
  write : I → Nat → Val → I
  call_eq : ∀ s t1 t2, Event.alone p b (vals s) (.call t1 t2) = (do let s' ← native s t1 t2; pure (vals s'))
  assign_eq : ∀ s j v n t, b.vars[j]? = some (.input, n, .elem t) → Val.Of t.rep v → (vals s).set j v = vals (setIn s (write (inp s) j v))
  kept : ∀ s s' t1 t2, native s t1 t2 = .ok s' → inp s' = inp s
  set_set : ∀ s i j, setIn (setIn s i) j = setIn s j
  inp_set : ∀ s i, inp (setIn s i) = i
  set_inp : ∀ s, setIn s (inp s) = s

private theorem run_set {p : Profile} {b : FunctionBlock} {S I : Type} (M : Block p b S I) (l : List (I × Nat × Nat)) (s s' : S) (i : I)
    (h : runFB (fun s (c : I × Nat × Nat) => M.native (M.setIn s c.1) c.2.1 c.2.2) (M.setIn s i) l = .ok s') :
    ∃ s'', runFB (fun s (c : I × Nat × Nat) => M.native (M.setIn s c.1) c.2.1 c.2.2) s l = .ok s'' ∧ ∀ j, M.setIn s'' j = M.setIn s' j := by
  cases l with
  | nil =>
    cases h
    exact ⟨s, rfl, fun j => (M.set_set s i j).symm⟩
  | cons c l =>
    refine ⟨s', ?_, fun _ => rfl⟩
    rw [← h]
    simp only [runFB, List.foldlM_cons, M.set_set]

private theorem run_events {p : Profile} {b : FunctionBlock} {S I : Type} (M : Block p b S I) (es : List Event) :
    ∀ s vs, (∀ j v, Event.assign j v ∈ es → ∃ n t, b.vars[j]? = some (.input, n, .elem t) ∧ Val.Of t.rep v) → alone p b (M.vals s) es = .ok vs →
      ∃ s', runFB (fun s (c : I × Nat × Nat) => M.native (M.setIn s c.1) c.2.1 c.2.2) s (callsOf M.write (M.inp s) es) = .ok s' ∧
        ∃ i, vs = M.vals (M.setIn s' i) := by
  induction es with
  | nil =>
    intro s vs _ e
    cases e
    exact ⟨s, rfl, M.inp s, by rw [M.set_inp]⟩
  | cons ev es ih =>
    intro s vs hp e
    have hp' : ∀ j v, Event.assign j v ∈ es → ∃ n t, b.vars[j]? = some (.input, n, .elem t) ∧ Val.Of t.rep v :=
      fun j v h => hp j v (List.mem_cons_of_mem _ h)
    have e : (ev :: es).foldlM (Event.alone p b) (M.vals s) = .ok vs := e
    rw [List.foldlM_cons] at e
    obtain ⟨ws, e1, e2⟩ := Res.bind_eq_ok.1 e
    cases ev with
    | assign j v =>
      obtain ⟨n, t, h1, h2⟩ := hp j v List.mem_cons_self
      cases e1
      rw [M.assign_eq s j v n t h1 h2] at e2
      obtain ⟨s', g1, i, g2⟩ := ih _ _ hp' e2
      rw [M.inp_set] at g1
      obtain ⟨s'', k1, k2⟩ := run_set M _ _ _ _ g1
      exact ⟨s'', k1, i, by rw [k2, g2]⟩
    | call t1 t2 =>
      rw [M.call_eq] at e1
      obtain ⟨s1, n1, e1⟩ := Res.bind_eq_ok.1 e1
      cases e1
      obtain ⟨s', g1, i, g2⟩ := ih _ _ hp' e2
      refine ⟨s', ?_, i, g2⟩
      rw [M.kept _ _ _ _ n1] at g1
      show ((M.inp s, t1, t2) :: callsOf M.write (M.inp s) es).foldlM _ s = _
      rw [List.foldlM_cons]
      simp only [M.set_inp, n1, Res.bind_ok]
      exact g1

private theorem runFB_map {S I J : Type} (call : S → I → Res S) (f : J → I) (h : List J) :
    ∀ s, runFB (fun s j => call s (f j)) s h = runFB call s (h.map f) := by
  induction h with
  | nil => intro s; rfl
  | cons j h ih =>
    intro s
    simp only [runFB, List.map_cons, List.foldlM_cons] at *
    cases call s (f j) with
    | ok s' => exact ih s'
    | panic => rfl
    | ub => rfl

private theorem mem_events {k : Nat} {e : Event} {steps : List Step} (h : e ∈ eventsOf k steps) : Step.on k e ∈ steps := by
  obtain ⟨s, hs, h⟩ := List.mem_filterMap.1 h
  cases s with
  | on j e' =>
    simp only at h
    split at h
    · rename_i hj; cases h; subst hj; exact hs
    · cases h
  | other f => cases h

private theorem reads {mc : Machine} {p : Profile} {xs : List Instance} {steps : List Step} {m : Mem} {x : Instance} {k : Nat} (H : Ran mc p xs steps m)
    (hk : xs[k]? = some x) {S I : Type} (M : Block p x.block S I) (s0 : S) (h0 : x.block.fields.map (·.2.zero) = M.vals s0) :
    ∃ s, runFB (fun s (c : I × Nat × Nat) => M.native (M.setIn s c.1) c.2.1 c.2.2) s0 (callsOf M.write (M.inp s0) (eventsOf k steps)) = .ok s ∧
      ∀ i sec n t v, x.block.vars[i]? = some (sec, n, t) → sec ≠ .local → x.block.var n = i → (∀ j, (M.vals (M.setIn s j))[i]? = some v) →
        x.Reads mc m n v := by
  obtain ⟨m0, hz, hr⟩ := H.run
  have hz0 : ∀ (k : Nat) x, xs[k]? = some x → Holds mc x m0 (((xs[k]?).map fun x : Instance => x.block.fields.map (·.2.zero)).getD []) := by
    intro k x hk
    rw [hk]
    exact C145_zeroed mc H.machine x (H.separate.1 x (List.mem_of_getElem? hk)) m0 (hz x (List.mem_of_getElem? hk)) H.zero
  obtain ⟨g1, g2⟩ := C145_independent mc H.machine p xs H.separate m0 _ hz0 steps H.proper
  obtain ⟨vs, hvs⟩ := g1.1 ⟨m, hr⟩ k x hk
  have g3 := g2 m hr k x vs hk hvs
  rw [hk] at hvs
  simp only [Option.map_some, Option.getD_some, h0] at hvs
  obtain ⟨s, e1, i', e2⟩ := run_events M _ _ _ (fun j v h => H.proper _ (mem_events h) x hk) hvs
  refine ⟨s, e1, ?_⟩
  intro i sec n t v hi hsec hn hv
  obtain ⟨v', hv', hr'⟩ := g3 i sec n t hi hsec
  rw [e2, hv i'] at hv'
  cases hv'
  refine ⟨⟨_, List.mem_of_getElem? hi, rfl, hsec⟩, ?_⟩
  rw [hn]; exact hr'

/-- **C187, R_TRIG.** -/
theorem C187_r_trig (mc : Machine) (p : Profile) (xs : List Instance) (steps : List Step) (m : Mem) (H : Ran mc p xs steps m) (k : Nat)
    (x : Instance) (hk : xs[k]? = some x) (hn : x.block.name ∈ ["R_TRIG"]) :
    ∃ s, runFB R_TRIG.call Trigger.default ((callsOf (fun (i : Bool) j v => (boolIn x "CLK" j v i : Bool)) false (eventsOf k steps)).map (fun c : Bool × Nat × Nat => c.1)) = .ok s ∧
      x.Reads mc m "Q" (.bool s.output) := by
  have table : ∀ b ∈ functionBlocks, b.name ∈ ["R_TRIG"] → Code.of b.name = some .rtrig ∧ b.fields.map (·.2.zero) = triggerVals Trigger.default ∧
      b.vars.map (fun v => (v.1, v.2.1, decide (v.2.2 = .elem .BOOL))) = [(.input, "CLK", true), (.output, "Q", true), (.local, "M", true)] ∧ b.var "CLK" = 0 ∧ b.var "Q" = 1 := by
    decide +kernel
  obtain ⟨hcode, hzero, hshape, v0, v1⟩ := table x.block (H.separate.1 x (List.mem_of_getElem? hk)) hn
  have at' : ∀ (i : Nat) sec n y, ([(.input, "CLK", true), (.output, "Q", true), (.local, "M", true)] : List (Section × String × Bool))[i]? = some (sec, n, y) → ∃ t, x.block.vars[i]? = some (sec, n, t) := by
    intro i sec n y hi
    rw [← hshape, List.getElem?_map] at hi
    obtain ⟨⟨a, b, t⟩, h1, h2⟩ := Option.map_eq_some_iff.1 hi
    cases h2
    exact ⟨t, h1⟩
  let M : Block p x.block Trigger (Bool) := {
    vals := triggerVals
    native := fun s _ _ => .ok (R_TRIG s)
    inp := fun s => s.clk
    setIn := fun s i => { s with clk := i }
    write := fun i j v => boolIn x "CLK" j v i
    call_eq := fun s t1 t2 => by simp only [Event.alone, hcode]; rfl
    assign_eq := by
      intro s j v n t hj hv
      have hsh := congrArg (fun l => l[j]?) hshape
      simp only [List.getElem?_map, hj, Option.map_some] at hsh
      rcases j with _ | _ | _ | j
      · rcases val_of hv with ⟨-, y, rfl⟩ | ⟨ht, -⟩
        · simp [triggerVals, boolIn, v0]
        · simp at hsh; exact absurd hsh.2 ht
      · simp at hsh
      · simp at hsh
      · simp at hsh
    kept := by
      intro s s' t1 t2 h
      cases h; rfl
    set_set := fun _ _ _ => rfl
    inp_set := fun _ _ => rfl
    set_inp := fun _ => rfl }
  obtain ⟨s, hs, hread⟩ := reads H hk M Trigger.default hzero
  refine ⟨s, (runFB_map R_TRIG.call (fun c : Bool × Nat × Nat => c.1) _ _).symm.trans hs, ?_⟩
  · obtain ⟨t, ht⟩ := at' 1 _ _ _ rfl
    exact hread _ _ _ _ _ ht (by decide) v1 fun _ => rfl

/-- **C187, F_TRIG.** -/
theorem C187_f_trig (mc : Machine) (p : Profile) (xs : List Instance) (steps : List Step) (m : Mem) (H : Ran mc p xs steps m) (k : Nat)
    (x : Instance) (hk : xs[k]? = some x) (hn : x.block.name ∈ ["F_TRIG"]) :
    ∃ s, runFB F_TRIG.call Trigger.default ((callsOf (fun (i : Bool) j v => (boolIn x "CLK" j v i : Bool)) false (eventsOf k steps)).map (fun c : Bool × Nat × Nat => c.1)) = .ok s ∧
      x.Reads mc m "Q" (.bool s.output) := by
  have table : ∀ b ∈ functionBlocks, b.name ∈ ["F_TRIG"] → Code.of b.name = some .ftrig ∧ b.fields.map (·.2.zero) = triggerVals Trigger.default ∧
      b.vars.map (fun v => (v.1, v.2.1, decide (v.2.2 = .elem .BOOL))) = [(.input, "CLK", true), (.output, "Q", true), (.local, "M", true)] ∧ b.var "CLK" = 0 ∧ b.var "Q" = 1 := by
    decide +kernel
  obtain ⟨hcode, hzero, hshape, v0, v1⟩ := table x.block (H.separate.1 x (List.mem_of_getElem? hk)) hn
  have at' : ∀ (i : Nat) sec n y, ([(.input, "CLK", true), (.output, "Q", true), (.local, "M", true)] : List (Section × String × Bool))[i]? = some (sec, n, y) → ∃ t, x.block.vars[i]? = some (sec, n, t) := by
    intro i sec n y hi
    rw [← hshape, List.getElem?_map] at hi
    obtain ⟨⟨a, b, t⟩, h1, h2⟩ := Option.map_eq_some_iff.1 hi
    cases h2
    exact ⟨t, h1⟩
  let M : Block p x.block Trigger (Bool) := {
    vals := triggerVals
    native := fun s _ _ => .ok (F_TRIG s)
    inp := fun s => s.clk
    setIn := fun s i => { s with clk := i }
    write := fun i j v => boolIn x "CLK" j v i
    call_eq := fun s t1 t2 => by simp only [Event.alone, hcode]; rfl
    assign_eq := by
      intro s j v n t hj hv
      have hsh := congrArg (fun l => l[j]?) hshape
      simp only [List.getElem?_map, hj, Option.map_some] at hsh
      rcases j with _ | _ | _ | j
      · rcases val_of hv with ⟨-, y, rfl⟩ | ⟨ht, -⟩
        · simp [triggerVals, boolIn, v0]
        · simp at hsh; exact absurd hsh.2 ht
      · simp at hsh
      · simp at hsh
      · simp at hsh
    kept := by
      intro s s' t1 t2 h
      cases h; rfl
    set_set := fun _ _ _ => rfl
    inp_set := fun _ _ => rfl
    set_inp := fun _ => rfl }
  obtain ⟨s, hs, hread⟩ := reads H hk M Trigger.default hzero
  refine ⟨s, (runFB_map F_TRIG.call (fun c : Bool × Nat × Nat => c.1) _ _).symm.trans hs, ?_⟩
  · obtain ⟨t, ht⟩ := at' 1 _ _ _ rfl
    exact hread _ _ _ _ _ ht (by decide) v1 fun _ => rfl

/-- **C187, SR.** -/
theorem C187_sr (mc : Machine) (p : Profile) (xs : List Instance) (steps : List Step) (m : Mem) (H : Ran mc p xs steps m) (k : Nat)
    (x : Instance) (hk : xs[k]? = some x) (hn : x.block.name ∈ ["SR"]) :
    ∃ s, runFB SR.call SetResetParams.default ((callsOf (fun (i : LatchIn) j v => (⟨boolIn x "SET1" j v i.set, boolIn x "RESET" j v i.reset⟩ : LatchIn)) ⟨false, false⟩ (eventsOf k steps)).map (fun c : LatchIn × Nat × Nat => c.1)) = .ok s ∧
      x.Reads mc m "Q1" (.bool s.output) := by
  have table : ∀ b ∈ functionBlocks, b.name ∈ ["SR"] → Code.of b.name = some .sr ∧ b.fields.map (·.2.zero) = latchVals SetResetParams.default ∧
      b.vars.map (fun v => (v.1, v.2.1, decide (v.2.2 = .elem .BOOL))) = [(.input, "SET1", true), (.input, "RESET", true), (.output, "Q1", true)] ∧ b.var "SET1" = 0 ∧ b.var "RESET" = 1 ∧ b.var "Q1" = 2 := by
    decide +kernel
  obtain ⟨hcode, hzero, hshape, v0, v1, v2⟩ := table x.block (H.separate.1 x (List.mem_of_getElem? hk)) hn
  have at' : ∀ (i : Nat) sec n y, ([(.input, "SET1", true), (.input, "RESET", true), (.output, "Q1", true)] : List (Section × String × Bool))[i]? = some (sec, n, y) → ∃ t, x.block.vars[i]? = some (sec, n, t) := by
    intro i sec n y hi
    rw [← hshape, List.getElem?_map] at hi
    obtain ⟨⟨a, b, t⟩, h1, h2⟩ := Option.map_eq_some_iff.1 hi
    cases h2
    exact ⟨t, h1⟩
  let M : Block p x.block SetResetParams (LatchIn) := {
    vals := latchVals
    native := fun s _ _ => .ok (SR s)
    inp := fun s => ⟨s.set, s.reset⟩
    setIn := fun s i => { s with set := i.set, reset := i.reset }
    write := fun i j v => ⟨boolIn x "SET1" j v i.set, boolIn x "RESET" j v i.reset⟩
    call_eq := fun s t1 t2 => by simp only [Event.alone, hcode]; rfl
    assign_eq := by
      intro s j v n t hj hv
      have hsh := congrArg (fun l => l[j]?) hshape
      simp only [List.getElem?_map, hj, Option.map_some] at hsh
      rcases j with _ | _ | _ | j
      · rcases val_of hv with ⟨-, y, rfl⟩ | ⟨ht, -⟩
        · simp [latchVals, boolIn, v0, v1]
        · simp at hsh; exact absurd hsh.2 ht
      · rcases val_of hv with ⟨-, y, rfl⟩ | ⟨ht, -⟩
        · simp [latchVals, boolIn, v0, v1]
        · simp at hsh; exact absurd hsh.2 ht
      · simp at hsh
      · simp at hsh
    kept := by
      intro s s' t1 t2 h
      cases h; rfl
    set_set := fun _ _ _ => rfl
    inp_set := fun _ _ => rfl
    set_inp := fun _ => rfl }
  obtain ⟨s, hs, hread⟩ := reads H hk M SetResetParams.default hzero
  refine ⟨s, (runFB_map SR.call (fun c : LatchIn × Nat × Nat => c.1) _ _).symm.trans hs, ?_⟩
  · obtain ⟨t, ht⟩ := at' 2 _ _ _ rfl
    exact hread _ _ _ _ _ ht (by decide) v2 fun _ => rfl

/-- **C187, RS.** -/
theorem C187_rs (mc : Machine) (p : Profile) (xs : List Instance) (steps : List Step) (m : Mem) (H : Ran mc p xs steps m) (k : Nat)
    (x : Instance) (hk : xs[k]? = some x) (hn : x.block.name ∈ ["RS"]) :
    ∃ s, runFB RS.call SetResetParams.default ((callsOf (fun (i : LatchIn) j v => (⟨boolIn x "SET" j v i.set, boolIn x "RESET1" j v i.reset⟩ : LatchIn)) ⟨false, false⟩ (eventsOf k steps)).map (fun c : LatchIn × Nat × Nat => c.1)) = .ok s ∧
      x.Reads mc m "Q1" (.bool s.output) := by
  have table : ∀ b ∈ functionBlocks, b.name ∈ ["RS"] → Code.of b.name = some .rs ∧ b.fields.map (·.2.zero) = latchVals SetResetParams.default ∧
      b.vars.map (fun v => (v.1, v.2.1, decide (v.2.2 = .elem .BOOL))) = [(.input, "SET", true), (.input, "RESET1", true), (.output, "Q1", true)] ∧ b.var "SET" = 0 ∧ b.var "RESET1" = 1 ∧ b.var "Q1" = 2 := by
    decide +kernel
  obtain ⟨hcode, hzero, hshape, v0, v1, v2⟩ := table x.block (H.separate.1 x (List.mem_of_getElem? hk)) hn
  have at' : ∀ (i : Nat) sec n y, ([(.input, "SET", true), (.input, "RESET1", true), (.output, "Q1", true)] : List (Section × String × Bool))[i]? = some (sec, n, y) → ∃ t, x.block.vars[i]? = some (sec, n, t) := by
    intro i sec n y hi
    rw [← hshape, List.getElem?_map] at hi
    obtain ⟨⟨a, b, t⟩, h1, h2⟩ := Option.map_eq_some_iff.1 hi
    cases h2
    exact ⟨t, h1⟩
  let M : Block p x.block SetResetParams (LatchIn) := {
    vals := latchVals
    native := fun s _ _ => .ok (RS s)
    inp := fun s => ⟨s.set, s.reset⟩
    setIn := fun s i => { s with set := i.set, reset := i.reset }
    write := fun i j v => ⟨boolIn x "SET" j v i.set, boolIn x "RESET1" j v i.reset⟩
    call_eq := fun s t1 t2 => by simp only [Event.alone, hcode]; rfl
    assign_eq := by
      intro s j v n t hj hv
      have hsh := congrArg (fun l => l[j]?) hshape
      simp only [List.getElem?_map, hj, Option.map_some] at hsh
      rcases j with _ | _ | _ | j
      · rcases val_of hv with ⟨-, y, rfl⟩ | ⟨ht, -⟩
        · simp [latchVals, boolIn, v0, v1]
        · simp at hsh; exact absurd hsh.2 ht
      · rcases val_of hv with ⟨-, y, rfl⟩ | ⟨ht, -⟩
        · simp [latchVals, boolIn, v0, v1]
        · simp at hsh; exact absurd hsh.2 ht
      · simp at hsh
      · simp at hsh
    kept := by
      intro s s' t1 t2 h
      cases h; rfl
    set_set := fun _ _ _ => rfl
    inp_set := fun _ _ => rfl
    set_inp := fun _ => rfl }
  obtain ⟨s, hs, hread⟩ := reads H hk M SetResetParams.default hzero
  refine ⟨s, (runFB_map RS.call (fun c : LatchIn × Nat × Nat => c.1) _ _).symm.trans hs, ?_⟩
  · obtain ⟨t, ht⟩ := at' 2 _ _ _ rfl
    exact hread _ _ _ _ _ ht (by decide) v2 fun _ => rfl

/-- **C187, the up counters.** -/
theorem C187_ctu (mc : Machine) (p : Profile) (xs : List Instance) (steps : List Step) (m : Mem) (H : Ran mc p xs steps m) (k : Nat)
    (x : Instance) (hk : xs[k]? = some x) (t : IntTy) (hn : (x.block.name, t) ∈ ctuNames) :
    ∃ s, runFB (ctuCall t p) CTUParams.default ((callsOf (fun (i : CTUIn) j v => (⟨boolIn x "CU" j v i.cu, boolIn x "R" j v i.r, intIn x "PV" j v i.pv⟩ : CTUIn)) ⟨false, false, 0⟩ (eventsOf k steps)).map (fun c : CTUIn × Nat × Nat => c.1)) = .ok s ∧
      x.Reads mc m "Q" (.bool s.q) ∧ x.Reads mc m "CV" (.int s.cv) := by
  have table : ∀ b ∈ functionBlocks, ∀ e ∈ ctuNames, b.name = e.1 →
      (∃ r ∈ [RTy.i16, .i32, .u32, .i64, .u64], Code.of b.name = some (.ctu r) ∧ r.intTy = e.2) ∧ b.fields.map (·.2.zero) = ctuVals CTUParams.default ∧
      b.vars.map (fun v => (v.1, v.2.1, decide (v.2.2 = .elem .BOOL))) = [(.input, "CU", true), (.input, "R", true), (.input, "PV", false), (.output, "Q", true), (.output, "CV", false), (.local, "M", true)] ∧ b.var "CU" = 0 ∧ b.var "R" = 1 ∧ b.var "PV" = 2 ∧ b.var "Q" = 3 ∧ b.var "CV" = 4 := by
    decide +kernel
  obtain ⟨⟨r, -, hcode, rfl⟩, hzero, hshape, v0, v1, v2, v3, v4⟩ := table x.block (H.separate.1 x (List.mem_of_getElem? hk)) _ hn rfl
  have at' : ∀ (i : Nat) sec n y, ([(.input, "CU", true), (.input, "R", true), (.input, "PV", false), (.output, "Q", true), (.output, "CV", false), (.local, "M", true)] : List (Section × String × Bool))[i]? = some (sec, n, y) → ∃ t, x.block.vars[i]? = some (sec, n, t) := by
    intro i sec n y hi
    rw [← hshape, List.getElem?_map] at hi
    obtain ⟨⟨a, b, t⟩, h1, h2⟩ := Option.map_eq_some_iff.1 hi
    cases h2
    exact ⟨t, h1⟩
  let M : Block p x.block CTUParams (CTUIn) := {
    vals := ctuVals
    native := fun s _ _ => ctu r.intTy p s
    inp := fun s => ⟨s.cu, s.r, s.pv⟩
    setIn := fun s i => { s with cu := i.cu, r := i.r, pv := i.pv }
    write := fun i j v => ⟨boolIn x "CU" j v i.cu, boolIn x "R" j v i.r, intIn x "PV" j v i.pv⟩
    call_eq := fun s t1 t2 => by simp only [Event.alone, hcode]; rfl
    assign_eq := by
      intro s j v n t hj hv
      have hsh := congrArg (fun l => l[j]?) hshape
      simp only [List.getElem?_map, hj, Option.map_some] at hsh
      rcases j with _ | _ | _ | _ | _ | _ | j
      · rcases val_of hv with ⟨-, y, rfl⟩ | ⟨ht, -⟩
        · simp [ctuVals, boolIn, intIn, v0, v1, v2]
        · simp at hsh; exact absurd hsh.2 ht
      · rcases val_of hv with ⟨-, y, rfl⟩ | ⟨ht, -⟩
        · simp [ctuVals, boolIn, intIn, v0, v1, v2]
        · simp at hsh; exact absurd hsh.2 ht
      · rcases val_of hv with ⟨ht, -⟩ | ⟨-, y, rfl⟩
        · simp at hsh; exact absurd ht hsh.2
        · simp [ctuVals, boolIn, intIn, v0, v1, v2]
      · simp at hsh
      · simp at hsh
      · simp at hsh
      · simp at hsh
    kept := by
      intro s s' t1 t2 h
      obtain ⟨h1, h2, h3⟩ := ctu_kept h; simp [h1, h2, h3]
    set_set := fun _ _ _ => rfl
    inp_set := fun _ _ => rfl
    set_inp := fun _ => rfl }
  obtain ⟨s, hs, hread⟩ := reads H hk M CTUParams.default hzero
  refine ⟨s, (runFB_map (ctuCall r.intTy p) (fun c : CTUIn × Nat × Nat => c.1) _ _).symm.trans hs, ?_, ?_⟩
  · obtain ⟨t, ht⟩ := at' 3 _ _ _ rfl
    exact hread _ _ _ _ _ ht (by decide) v3 fun _ => rfl
  · obtain ⟨t, ht⟩ := at' 4 _ _ _ rfl
    exact hread _ _ _ _ _ ht (by decide) v4 fun _ => rfl

/-- **C187, the down counters.** -/
theorem C187_ctd (mc : Machine) (p : Profile) (xs : List Instance) (steps : List Step) (m : Mem) (H : Ran mc p xs steps m) (k : Nat)
    (x : Instance) (hk : xs[k]? = some x) (t : IntTy) (hn : (x.block.name, t) ∈ ctdNames) :
    ∃ s, runFB (ctdCall t p) CTDParams.default ((callsOf (fun (i : CTDIn) j v => (⟨boolIn x "CD" j v i.cd, boolIn x "LD" j v i.ld, intIn x "PV" j v i.pv⟩ : CTDIn)) ⟨false, false, 0⟩ (eventsOf k steps)).map (fun c : CTDIn × Nat × Nat => c.1)) = .ok s ∧
      x.Reads mc m "Q" (.bool s.q) ∧ x.Reads mc m "CV" (.int s.cv) := by
  have table : ∀ b ∈ functionBlocks, ∀ e ∈ ctdNames, b.name = e.1 →
      (∃ r ∈ [RTy.i16, .i32, .u32, .i64, .u64], Code.of b.name = some (.ctd r) ∧ r.intTy = e.2) ∧ b.fields.map (·.2.zero) = ctdVals CTDParams.default ∧
      b.vars.map (fun v => (v.1, v.2.1, decide (v.2.2 = .elem .BOOL))) = [(.input, "CD", true), (.input, "LD", true), (.input, "PV", false), (.output, "Q", true), (.output, "CV", false), (.local, "M", true)] ∧ b.var "CD" = 0 ∧ b.var "LD" = 1 ∧ b.var "PV" = 2 ∧ b.var "Q" = 3 ∧ b.var "CV" = 4 := by
    decide +kernel
  obtain ⟨⟨r, -, hcode, rfl⟩, hzero, hshape, v0, v1, v2, v3, v4⟩ := table x.block (H.separate.1 x (List.mem_of_getElem? hk)) _ hn rfl
  have at' : ∀ (i : Nat) sec n y, ([(.input, "CD", true), (.input, "LD", true), (.input, "PV", false), (.output, "Q", true), (.output, "CV", false), (.local, "M", true)] : List (Section × String × Bool))[i]? = some (sec, n, y) → ∃ t, x.block.vars[i]? = some (sec, n, t) := by
    intro i sec n y hi
    rw [← hshape, List.getElem?_map] at hi
    obtain ⟨⟨a, b, t⟩, h1, h2⟩ := Option.map_eq_some_iff.1 hi
    cases h2
    exact ⟨t, h1⟩
  let M : Block p x.block CTDParams (CTDIn) := {
    vals := ctdVals
    native := fun s _ _ => ctd r.intTy p s
    inp := fun s => ⟨s.cd, s.ld, s.pv⟩
    setIn := fun s i => { s with cd := i.cd, ld := i.ld, pv := i.pv }
    write := fun i j v => ⟨boolIn x "CD" j v i.cd, boolIn x "LD" j v i.ld, intIn x "PV" j v i.pv⟩
    call_eq := fun s t1 t2 => by simp only [Event.alone, hcode]; rfl
    assign_eq := by
      intro s j v n t hj hv
      have hsh := congrArg (fun l => l[j]?) hshape
      simp only [List.getElem?_map, hj, Option.map_some] at hsh
      rcases j with _ | _ | _ | _ | _ | _ | j
      · rcases val_of hv with ⟨-, y, rfl⟩ | ⟨ht, -⟩
        · simp [ctdVals, boolIn, intIn, v0, v1, v2]
        · simp at hsh; exact absurd hsh.2 ht
      · rcases val_of hv with ⟨-, y, rfl⟩ | ⟨ht, -⟩
        · simp [ctdVals, boolIn, intIn, v0, v1, v2]
        · simp at hsh; exact absurd hsh.2 ht
      · rcases val_of hv with ⟨ht, -⟩ | ⟨-, y, rfl⟩
        · simp at hsh; exact absurd ht hsh.2
        · simp [ctdVals, boolIn, intIn, v0, v1, v2]
      · simp at hsh
      · simp at hsh
      · simp at hsh
      · simp at hsh
    kept := by
      intro s s' t1 t2 h
      obtain ⟨h1, h2, h3⟩ := ctd_kept h; simp [h1, h2, h3]
    set_set := fun _ _ _ => rfl
    inp_set := fun _ _ => rfl
    set_inp := fun _ => rfl }
  obtain ⟨s, hs, hread⟩ := reads H hk M CTDParams.default hzero
  refine ⟨s, (runFB_map (ctdCall r.intTy p) (fun c : CTDIn × Nat × Nat => c.1) _ _).symm.trans hs, ?_, ?_⟩
  · obtain ⟨t, ht⟩ := at' 3 _ _ _ rfl
    exact hread _ _ _ _ _ ht (by decide) v3 fun _ => rfl
  · obtain ⟨t, ht⟩ := at' 4 _ _ _ rfl
    exact hread _ _ _ _ _ ht (by decide) v4 fun _ => rfl

/-- **C187, the counters in both directions.** -/
theorem C187_ctud (mc : Machine) (p : Profile) (xs : List Instance) (steps : List Step) (m : Mem) (H : Ran mc p xs steps m) (k : Nat)
    (x : Instance) (hk : xs[k]? = some x) (t : IntTy) (hn : (x.block.name, t) ∈ ctudNames) :
    ∃ s, runFB (ctudCall t p) CTUDParams.default ((callsOf (fun (i : CTUDIn) j v => (⟨boolIn x "CU" j v i.cu, boolIn x "CD" j v i.cd, boolIn x "R" j v i.r, boolIn x "LD" j v i.ld, intIn x "PV" j v i.pv⟩ : CTUDIn)) ⟨false, false, false, false, 0⟩ (eventsOf k steps)).map (fun c : CTUDIn × Nat × Nat => c.1)) = .ok s ∧
      x.Reads mc m "QU" (.bool s.qu) ∧ x.Reads mc m "QD" (.bool s.qd) ∧ x.Reads mc m "CV" (.int s.cv) := by
  have table : ∀ b ∈ functionBlocks, ∀ e ∈ ctudNames, b.name = e.1 →
      (∃ r ∈ [RTy.i16, .i32, .u32, .i64, .u64], Code.of b.name = some (.ctud r) ∧ r.intTy = e.2) ∧ b.fields.map (·.2.zero) = ctudVals CTUDParams.default ∧
      b.vars.map (fun v => (v.1, v.2.1, decide (v.2.2 = .elem .BOOL))) = [(.input, "CU", true), (.input, "CD", true), (.input, "R", true), (.input, "LD", true), (.input, "PV", false), (.output, "QU", true), (.output, "QD", true), (.output, "CV", false), (.local, "MU", true), (.local, "MD", true)] ∧ b.var "CU" = 0 ∧ b.var "CD" = 1 ∧ b.var "R" = 2 ∧ b.var "LD" = 3 ∧ b.var "PV" = 4 ∧ b.var "QU" = 5 ∧ b.var "QD" = 6 ∧ b.var "CV" = 7 := by
    decide +kernel
  obtain ⟨⟨r, -, hcode, rfl⟩, hzero, hshape, v0, v1, v2, v3, v4, v5, v6, v7⟩ := table x.block (H.separate.1 x (List.mem_of_getElem? hk)) _ hn rfl
  have at' : ∀ (i : Nat) sec n y, ([(.input, "CU", true), (.input, "CD", true), (.input, "R", true), (.input, "LD", true), (.input, "PV", false), (.output, "QU", true), (.output, "QD", true), (.output, "CV", false), (.local, "MU", true), (.local, "MD", true)] : List (Section × String × Bool))[i]? = some (sec, n, y) → ∃ t, x.block.vars[i]? = some (sec, n, t) := by
    intro i sec n y hi
    rw [← hshape, List.getElem?_map] at hi
    obtain ⟨⟨a, b, t⟩, h1, h2⟩ := Option.map_eq_some_iff.1 hi
    cases h2
    exact ⟨t, h1⟩
  let M : Block p x.block CTUDParams (CTUDIn) := {
    vals := ctudVals
    native := fun s _ _ => ctud r.intTy p s
    inp := fun s => ⟨s.cu, s.cd, s.r, s.ld, s.pv⟩
    setIn := fun s i => { s with cu := i.cu, cd := i.cd, r := i.r, ld := i.ld, pv := i.pv }
    write := fun i j v => ⟨boolIn x "CU" j v i.cu, boolIn x "CD" j v i.cd, boolIn x "R" j v i.r, boolIn x "LD" j v i.ld, intIn x "PV" j v i.pv⟩
    call_eq := fun s t1 t2 => by simp only [Event.alone, hcode]; rfl
    assign_eq := by
      intro s j v n t hj hv
      have hsh := congrArg (fun l => l[j]?) hshape
      simp only [List.getElem?_map, hj, Option.map_some] at hsh
      rcases j with _ | _ | _ | _ | _ | _ | _ | _ | _ | _ | j
      · rcases val_of hv with ⟨-, y, rfl⟩ | ⟨ht, -⟩
        · simp [ctudVals, boolIn, intIn, v0, v1, v2, v3, v4]
        · simp at hsh; exact absurd hsh.2 ht
      · rcases val_of hv with ⟨-, y, rfl⟩ | ⟨ht, -⟩
        · simp [ctudVals, boolIn, intIn, v0, v1, v2, v3, v4]
        · simp at hsh; exact absurd hsh.2 ht
      · rcases val_of hv with ⟨-, y, rfl⟩ | ⟨ht, -⟩
        · simp [ctudVals, boolIn, intIn, v0, v1, v2, v3, v4]
        · simp at hsh; exact absurd hsh.2 ht
      · rcases val_of hv with ⟨-, y, rfl⟩ | ⟨ht, -⟩
        · simp [ctudVals, boolIn, intIn, v0, v1, v2, v3, v4]
        · simp at hsh; exact absurd hsh.2 ht
      · rcases val_of hv with ⟨ht, -⟩ | ⟨-, y, rfl⟩
        · simp at hsh; exact absurd ht hsh.2
        · simp [ctudVals, boolIn, intIn, v0, v1, v2, v3, v4]
      · simp at hsh
      · simp at hsh
      · simp at hsh
      · simp at hsh
      · simp at hsh
      · simp at hsh
    kept := by
      intro s s' t1 t2 h
      obtain ⟨h1, h2, h3, h4, h5⟩ := ctud_kept h; simp [h1, h2, h3, h4, h5]
    set_set := fun _ _ _ => rfl
    inp_set := fun _ _ => rfl
    set_inp := fun _ => rfl }
  obtain ⟨s, hs, hread⟩ := reads H hk M CTUDParams.default hzero
  refine ⟨s, (runFB_map (ctudCall r.intTy p) (fun c : CTUDIn × Nat × Nat => c.1) _ _).symm.trans hs, ?_, ?_, ?_⟩
  · obtain ⟨t, ht⟩ := at' 5 _ _ _ rfl
    exact hread _ _ _ _ _ ht (by decide) v5 fun _ => rfl
  · obtain ⟨t, ht⟩ := at' 6 _ _ _ rfl
    exact hread _ _ _ _ _ ht (by decide) v6 fun _ => rfl
  · obtain ⟨t, ht⟩ := at' 7 _ _ _ rfl
    exact hread _ _ _ _ _ ht (by decide) v7 fun _ => rfl

/-- **C187, TP.** -/
theorem C187_tp (mc : Machine) (p : Profile) (xs : List Instance) (steps : List Step) (m : Mem) (H : Ran mc p xs steps m) (k : Nat)
    (x : Instance) (hk : xs[k]? = some x) (hn : x.block.name ∈ ["TP", "TP_TIME", "TP_LTIME"]) :
    ∃ s, runFB TP.call TimerParams.default ((callsOf (fun (i : Bool × Int) j v => (⟨boolIn x "IN" j v i.1, intIn x "PT" j v i.2⟩ : Bool × Int)) ⟨false, 0⟩ (eventsOf k steps)).map (fun c : (Bool × Int) × Nat × Nat => ⟨c.1.1, c.1.2, c.2.1, c.2.2⟩)) = .ok s ∧
      x.Reads mc m "Q" (.bool s.output) ∧ x.Reads mc m "ET" (.int s.elapsed_time) := by
  have table : ∀ b ∈ functionBlocks, b.name ∈ ["TP", "TP_TIME", "TP_LTIME"] → Code.of b.name = some .tp ∧ b.fields.map (·.2.zero) = timerVals TimerParams.default ∧
      b.vars.map (fun v => (v.1, v.2.1, decide (v.2.2 = .elem .BOOL))) = [(.input, "IN", true), (.input, "PT", false), (.output, "Q", true), (.output, "ET", false), (.local, "__signal__", true), (.local, "__BUFFER__", false)] ∧ b.var "IN" = 0 ∧ b.var "PT" = 1 ∧ b.var "Q" = 2 ∧ b.var "ET" = 3 := by
    decide +kernel
  obtain ⟨hcode, hzero, hshape, v0, v1, v2, v3⟩ := table x.block (H.separate.1 x (List.mem_of_getElem? hk)) hn
  have at' : ∀ (i : Nat) sec n y, ([(.input, "IN", true), (.input, "PT", false), (.output, "Q", true), (.output, "ET", false), (.local, "__signal__", true), (.local, "__BUFFER__", false)] : List (Section × String × Bool))[i]? = some (sec, n, y) → ∃ t, x.block.vars[i]? = some (sec, n, t) := by
    intro i sec n y hi
    rw [← hshape, List.getElem?_map] at hi
    obtain ⟨⟨a, b, t⟩, h1, h2⟩ := Option.map_eq_some_iff.1 hi
    cases h2
    exact ⟨t, h1⟩
  let M : Block p x.block TimerParams (Bool × Int) := {
    vals := timerVals
    native := fun s t1 t2 => TP s t1 t2
    inp := fun s => ⟨s.input, s.preset_time⟩
    setIn := fun s i => { s with input := i.1, preset_time := i.2 }
    write := fun i j v => ⟨boolIn x "IN" j v i.1, intIn x "PT" j v i.2⟩
    call_eq := fun s t1 t2 => by simp only [Event.alone, hcode]; rfl
    assign_eq := by
      intro s j v n t hj hv
      have hsh := congrArg (fun l => l[j]?) hshape
      simp only [List.getElem?_map, hj, Option.map_some] at hsh
      rcases j with _ | _ | _ | _ | _ | _ | j
      · rcases val_of hv with ⟨-, y, rfl⟩ | ⟨ht, -⟩
        · simp [timerVals, boolIn, intIn, v0, v1]
        · simp at hsh; exact absurd hsh.2 ht
      · rcases val_of hv with ⟨ht, -⟩ | ⟨-, y, rfl⟩
        · simp at hsh; exact absurd ht hsh.2
        · simp [timerVals, boolIn, intIn, v0, v1]
      · simp at hsh
      · simp at hsh
      · simp at hsh
      · simp at hsh
      · simp at hsh
    kept := by
      intro s s' t1 t2 h
      obtain ⟨h1, h2⟩ := tp_kept h; simp [h1, h2]
    set_set := fun _ _ _ => rfl
    inp_set := fun _ _ => rfl
    set_inp := fun _ => rfl }
  obtain ⟨s, hs, hread⟩ := reads H hk M TimerParams.default hzero
  refine ⟨s, (runFB_map TP.call (fun c : (Bool × Int) × Nat × Nat => ⟨c.1.1, c.1.2, c.2.1, c.2.2⟩) _ _).symm.trans hs, ?_, ?_⟩
  · obtain ⟨t, ht⟩ := at' 2 _ _ _ rfl
    exact hread _ _ _ _ _ ht (by decide) v2 fun _ => rfl
  · obtain ⟨t, ht⟩ := at' 3 _ _ _ rfl
    exact hread _ _ _ _ _ ht (by decide) v3 fun _ => rfl

/-- **C187, TON.** -/
theorem C187_ton (mc : Machine) (p : Profile) (xs : List Instance) (steps : List Step) (m : Mem) (H : Ran mc p xs steps m) (k : Nat)
    (x : Instance) (hk : xs[k]? = some x) (hn : x.block.name ∈ ["TON", "TON_TIME", "TON_LTIME"]) :
    ∃ s, runFB TON.call TimerParams.default ((callsOf (fun (i : Bool × Int) j v => (⟨boolIn x "IN" j v i.1, intIn x "PT" j v i.2⟩ : Bool × Int)) ⟨false, 0⟩ (eventsOf k steps)).map (fun c : (Bool × Int) × Nat × Nat => ⟨c.1.1, c.1.2, c.2.1, c.2.2⟩)) = .ok s ∧
      x.Reads mc m "Q" (.bool s.output) ∧ x.Reads mc m "ET" (.int s.elapsed_time) := by
  have table : ∀ b ∈ functionBlocks, b.name ∈ ["TON", "TON_TIME", "TON_LTIME"] → Code.of b.name = some .ton ∧ b.fields.map (·.2.zero) = timerVals TimerParams.default ∧
      b.vars.map (fun v => (v.1, v.2.1, decide (v.2.2 = .elem .BOOL))) = [(.input, "IN", true), (.input, "PT", false), (.output, "Q", true), (.output, "ET", false), (.local, "__signal__", true), (.local, "__BUFFER__", false)] ∧ b.var "IN" = 0 ∧ b.var "PT" = 1 ∧ b.var "Q" = 2 ∧ b.var "ET" = 3 := by
    decide +kernel
  obtain ⟨hcode, hzero, hshape, v0, v1, v2, v3⟩ := table x.block (H.separate.1 x (List.mem_of_getElem? hk)) hn
  have at' : ∀ (i : Nat) sec n y, ([(.input, "IN", true), (.input, "PT", false), (.output, "Q", true), (.output, "ET", false), (.local, "__signal__", true), (.local, "__BUFFER__", false)] : List (Section × String × Bool))[i]? = some (sec, n, y) → ∃ t, x.block.vars[i]? = some (sec, n, t) := by
    intro i sec n y hi
    rw [← hshape, List.getElem?_map] at hi
    obtain ⟨⟨a, b, t⟩, h1, h2⟩ := Option.map_eq_some_iff.1 hi
    cases h2
    exact ⟨t, h1⟩
  let M : Block p x.block TimerParams (Bool × Int) := {
    vals := timerVals
    native := fun s t1 t2 => TON s t1 t2
    inp := fun s => ⟨s.input, s.preset_time⟩
    setIn := fun s i => { s with input := i.1, preset_time := i.2 }
    write := fun i j v => ⟨boolIn x "IN" j v i.1, intIn x "PT" j v i.2⟩
    call_eq := fun s t1 t2 => by simp only [Event.alone, hcode]; rfl
    assign_eq := by
      intro s j v n t hj hv
      have hsh := congrArg (fun l => l[j]?) hshape
      simp only [List.getElem?_map, hj, Option.map_some] at hsh
      rcases j with _ | _ | _ | _ | _ | _ | j
      · rcases val_of hv with ⟨-, y, rfl⟩ | ⟨ht, -⟩
        · simp [timerVals, boolIn, intIn, v0, v1]
        · simp at hsh; exact absurd hsh.2 ht
      · rcases val_of hv with ⟨ht, -⟩ | ⟨-, y, rfl⟩
        · simp at hsh; exact absurd ht hsh.2
        · simp [timerVals, boolIn, intIn, v0, v1]
      · simp at hsh
      · simp at hsh
      · simp at hsh
      · simp at hsh
      · simp at hsh
    kept := by
      intro s s' t1 t2 h
      obtain ⟨h1, h2⟩ := ton_kept h; simp [h1, h2]
    set_set := fun _ _ _ => rfl
    inp_set := fun _ _ => rfl
    set_inp := fun _ => rfl }
  obtain ⟨s, hs, hread⟩ := reads H hk M TimerParams.default hzero
  refine ⟨s, (runFB_map TON.call (fun c : (Bool × Int) × Nat × Nat => ⟨c.1.1, c.1.2, c.2.1, c.2.2⟩) _ _).symm.trans hs, ?_, ?_⟩
  · obtain ⟨t, ht⟩ := at' 2 _ _ _ rfl
    exact hread _ _ _ _ _ ht (by decide) v2 fun _ => rfl
  · obtain ⟨t, ht⟩ := at' 3 _ _ _ rfl
    exact hread _ _ _ _ _ ht (by decide) v3 fun _ => rfl

/-- **C187, TOF.** -/
theorem C187_tof (mc : Machine) (p : Profile) (xs : List Instance) (steps : List Step) (m : Mem) (H : Ran mc p xs steps m) (k : Nat)
    (x : Instance) (hk : xs[k]? = some x) (hn : x.block.name ∈ ["TOF", "TOF_TIME", "TOF_LTIME"]) :
    ∃ s, runFB TOF.call TimerParams.default ((callsOf (fun (i : Bool × Int) j v => (⟨boolIn x "IN" j v i.1, intIn x "PT" j v i.2⟩ : Bool × Int)) ⟨false, 0⟩ (eventsOf k steps)).map (fun c : (Bool × Int) × Nat × Nat => ⟨c.1.1, c.1.2, c.2.1, c.2.2⟩)) = .ok s ∧
      x.Reads mc m "Q" (.bool s.output) ∧ x.Reads mc m "ET" (.int s.elapsed_time) := by
  have table : ∀ b ∈ functionBlocks, b.name ∈ ["TOF", "TOF_TIME", "TOF_LTIME"] → Code.of b.name = some .tof ∧ b.fields.map (·.2.zero) = timerVals TimerParams.default ∧
      b.vars.map (fun v => (v.1, v.2.1, decide (v.2.2 = .elem .BOOL))) = [(.input, "IN", true), (.input, "PT", false), (.output, "Q", true), (.output, "ET", false), (.local, "__signal__", true), (.local, "__BUFFER__", false)] ∧ b.var "IN" = 0 ∧ b.var "PT" = 1 ∧ b.var "Q" = 2 ∧ b.var "ET" = 3 := by
    decide +kernel
  obtain ⟨hcode, hzero, hshape, v0, v1, v2, v3⟩ := table x.block (H.separate.1 x (List.mem_of_getElem? hk)) hn
  have at' : ∀ (i : Nat) sec n y, ([(.input, "IN", true), (.input, "PT", false), (.output, "Q", true), (.output, "ET", false), (.local, "__signal__", true), (.local, "__BUFFER__", false)] : List (Section × String × Bool))[i]? = some (sec, n, y) → ∃ t, x.block.vars[i]? = some (sec, n, t) := by
    intro i sec n y hi
    rw [← hshape, List.getElem?_map] at hi
    obtain ⟨⟨a, b, t⟩, h1, h2⟩ := Option.map_eq_some_iff.1 hi
    cases h2
    exact ⟨t, h1⟩
  let M : Block p x.block TimerParams (Bool × Int) := {
    vals := timerVals
    native := fun s t1 t2 => TOF s t1 t2
    inp := fun s => ⟨s.input, s.preset_time⟩
    setIn := fun s i => { s with input := i.1, preset_time := i.2 }
    write := fun i j v => ⟨boolIn x "IN" j v i.1, intIn x "PT" j v i.2⟩
    call_eq := fun s t1 t2 => by simp only [Event.alone, hcode]; rfl
    assign_eq := by
      intro s j v n t hj hv
      have hsh := congrArg (fun l => l[j]?) hshape
      simp only [List.getElem?_map, hj, Option.map_some] at hsh
      rcases j with _ | _ | _ | _ | _ | _ | j
      · rcases val_of hv with ⟨-, y, rfl⟩ | ⟨ht, -⟩
        · simp [timerVals, boolIn, intIn, v0, v1]
        · simp at hsh; exact absurd hsh.2 ht
      · rcases val_of hv with ⟨ht, -⟩ | ⟨-, y, rfl⟩
        · simp at hsh; exact absurd ht hsh.2
        · simp [timerVals, boolIn, intIn, v0, v1]
      · simp at hsh
      · simp at hsh
      · simp at hsh
      · simp at hsh
      · simp at hsh
    kept := by
      intro s s' t1 t2 h
      obtain ⟨h1, h2⟩ := tof_kept h; simp [h1, h2]
    set_set := fun _ _ _ => rfl
    inp_set := fun _ _ => rfl
    set_inp := fun _ => rfl }
  obtain ⟨s, hs, hread⟩ := reads H hk M TimerParams.default hzero
  refine ⟨s, (runFB_map TOF.call (fun c : (Bool × Int) × Nat × Nat => ⟨c.1.1, c.1.2, c.2.1, c.2.2⟩) _ _).symm.trans hs, ?_, ?_⟩
  · obtain ⟨t, ht⟩ := at' 2 _ _ _ rfl
    exact hread _ _ _ _ _ ht (by decide) v2 fun _ => rfl
  · obtain ⟨t, ht⟩ := at' 3 _ _ _ rfl
    exact hread _ _ _ _ _ ht (by decide) v3 fun _ => rfl

/-- **C187 with C11**: the Q of a TON is TRUE iff IN is in force as TRUE in the last call and has been in every call since one that is more than the PT in
force ago, whichever inputs the calls leave out. -/
theorem C187_ton_delay (mc : Machine) (p : Profile) (xs : List Instance) (steps : List Step) (m : Mem) (H : Ran mc p xs steps m) (k : Nat)
    (x : Instance) (hk : xs[k]? = some x) (hn : x.block.name ∈ ["TON", "TON_TIME", "TON_LTIME"]) (h : List TimerIn) (i : TimerIn) (hp : PresetOk [i])
    (he : (callsOf (fun (i : Bool × Int) j v => (⟨boolIn x "IN" j v i.1, intIn x "PT" j v i.2⟩ : Bool × Int)) ⟨false, 0⟩ (eventsOf k steps)).map
      (fun c : (Bool × Int) × Nat × Nat => (⟨c.1.1, c.1.2, c.2.1, c.2.2⟩ : TimerIn)) = h ++ [i]) :
    ∃ q, x.Reads mc m "Q" (.bool q) ∧
      (q = true ↔ i.input = true ∧ ∃ pre first run, TrueRun h pre first run ∧ elapsed2 first i > i.pt) := by
  obtain ⟨s, hs, hq, -⟩ := C187_ton mc p xs steps m H k x hk hn
  rw [he] at hs
  obtain ⟨s', hs', hq'⟩ := C11_ton_output h i hp
  have : (Res.ok s : Res TimerParams) = .ok s' := hs.symm.trans hs'
  cases this
  exact ⟨_, hq, hq'⟩

/-- A CTU whose PV is written once, and a TON whose PT is. -/
private def once : List Step :=
  [.on 0 (two[0].set "PV" (.int 2)), .on 1 (two[1].set "PT" (.int 5)), .on 0 (two[0].set "CU" (.bool true)), .on 0 (.call 0 0), .on 1 (two[1].set "IN" (.bool true)),
   .on 1 (.call 10 10), .on 0 (two[0].set "CU" (.bool false)), .on 0 (.call 0 0), .on 1 (.call 20 20)]

/-- It runs, and these are the calls. -/
example : (∃ m, Ran pc .debug two once m) ∧ ("CTU", IntTy.i16) ∈ ctuNames ∧ two[0].block.name = "CTU" ∧ two[1].block.name = "TON" ∧
    (callsOf (fun (i : CTUIn) j v => (⟨boolIn two[0] "CU" j v i.cu, boolIn two[0] "R" j v i.r, intIn two[0] "PV" j v i.pv⟩ : CTUIn)) ⟨false, false, 0⟩ (eventsOf 0 once)) =
      [(⟨true, false, 2⟩, 0, 0), (⟨false, false, 2⟩, 0, 0)] ∧
    (callsOf (fun (i : Bool × Int) j v => (⟨boolIn two[1] "IN" j v i.1, intIn two[1] "PT" j v i.2⟩ : Bool × Int)) ⟨false, 0⟩ (eventsOf 1 once)) =
      [((true, 5), 10, 10), ((true, 5), 20, 20)] := by
  refine ⟨⟨_, ⟨pc_ok, rfl, two_ok.1, ?_, (fun _ => 0), fun _ _ _ _ => rfl, rfl⟩⟩, by decide, rfl, rfl, by decide, by decide⟩
  intro s hs
  simp only [once, List.mem_cons, List.not_mem_nil, or_false] at hs
  have h0 : two[0]? = some ⟨named "CTU", 100⟩ := rfl
  have h1 : two[1]? = some ⟨named "TON", 112⟩ := rfl
  rcases hs with rfl | rfl | rfl | rfl | rfl | rfl | rfl | rfl | rfl
  · intro x hx; rw [h0] at hx; cases hx; exact ⟨"PV", .INT, rfl, show IntTy.i16.InRange 2 by decide⟩
  · intro x hx; rw [h1] at hx; cases hx; exact ⟨"PT", .TIME, rfl, show IntTy.i64.InRange 5 by decide⟩
  · intro x hx; rw [h0] at hx; cases hx; exact ⟨"CU", .BOOL, rfl, trivial⟩
  · exact ⟨by decide, by decide⟩
  · intro x hx; rw [h1] at hx; cases hx; exact ⟨"IN", .BOOL, rfl, trivial⟩
  · exact ⟨by decide, by decide⟩
  · intro x hx; rw [h0] at hx; cases hx; exact ⟨"CU", .BOOL, rfl, trivial⟩
  · exact ⟨by decide, by decide⟩
  · exact ⟨by decide, by decide⟩

end Verif.Abi
