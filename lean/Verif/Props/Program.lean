import Verif.Props.Memory
import Verif.Props.Timers
import Verif.Spec.Program
/-
C146: what a whole program, working on bytes in memory, reads in the variables of its function blocks.
-/
namespace Verif.Abi
open Spec

private theorem runFB_map {S I J : Type} (call : S → I → Res S) (f : J → I) (h : List J) :
    ∀ s, runFB (fun s j => call s (f j)) s h = runFB call s (h.map f) := by
  induction h with
  | nil => intro s; rfl
  | cons j h ih =>
    intro s
    simp only [runFB, List.map_cons, List.foldlM_cons] at *
    cases call s (f j) with
    | ok s' => exact ih s'
    | panic => rfl
    | ub => rfl

private theorem reads_of_ran {mc : Machine} {p : Profile} {xs : List Instance} {steps : List Step} {m : Mem} {x : Instance} {k : Nat}
    (H : Ran mc p xs steps m) (hk : xs[k]? = some x) {S I : Type} (vals : S → List Val) (call : S → I → Res S) (s0 : S)
    (cycle : I → List Event) (h : List I) (h0 : x.block.fields.map (·.2.zero) = vals s0)
    (hc : ∀ s i, alone p x.block (vals s) (cycle i) = (do let s' ← call s i; pure (vals s')))
    (he : eventsOf k steps = h.flatMap cycle) :
    ∃ s, runFB call s0 h = .ok s ∧ ∀ i sec n t v, x.block.vars[i]? = some (sec, n, t) → sec ≠ .local → x.block.var n = i →
      (vals s)[i]? = some v → x.Reads mc m n v := by
  obtain ⟨m0, hz, hr⟩ := H.run
  have hz0 : ∀ (k : Nat) x, xs[k]? = some x → Holds mc x m0 (((xs[k]?).map fun x : Instance => x.block.fields.map (·.2.zero)).getD []) := by
    intro k x hk
    rw [hk]
    exact C145_zeroed mc H.machine x (H.separate.1 x (List.mem_of_getElem? hk)) m0 (hz x (List.mem_of_getElem? hk)) H.zero
  obtain ⟨g1, g2⟩ := C145_independent mc H.machine p xs H.separate m0 _ hz0 steps H.proper
  obtain ⟨vs, hvs⟩ := g1.1 ⟨m, hr⟩ k x hk
  have g3 := g2 m hr k x vs hk hvs
  rw [hk, he] at hvs
  simp only [Option.map_some, Option.getD_some, h0] at hvs
  rw [flat_run p x.block vals call cycle hc] at hvs
  obtain ⟨s, e1, e2⟩ := Res.bind_eq_ok.1 hvs
  refine ⟨s, e1, ?_⟩
  intro i sec n t v hi hsec hn hv
  obtain ⟨v', hv', hr'⟩ := g3 i sec n t hi hsec
  have : vals s = vs := Res.ok.inj e2
  rw [← this, hv] at hv'
  cases hv'
  refine ⟨⟨_, List.mem_of_getElem? hi, rfl, hsec⟩, ?_⟩
  rw [hn]; exact hr'

/-- **C146, R_TRIG: Q is the output of the history of its calls.** -/
theorem C146_r_trig (mc : Machine) (p : Profile) (xs : List Instance) (steps : List Step) (m : Mem) (H : Ran mc p xs steps m) (k : Nat)
    (x : Instance) (hk : xs[k]? = some x) (hn : x.block.name ∈ ["R_TRIG"]) (h : List (Bool × Nat × Nat))
    (he : eventsOf k steps = h.flatMap fun i => [x.set "CLK" (.bool i.1), .call i.2.1 i.2.2]) :
    ∃ s, runFB R_TRIG.call Trigger.default (h.map (·.1)) = .ok s ∧ x.Reads mc m "Q" (.bool s.output) := by
  have table : ∀ b ∈ functionBlocks, b.name ∈ ["R_TRIG"] → Code.of b.name = some .rtrig ∧ b.fields.map (·.2.zero) = triggerVals Trigger.default ∧
      b.vars.map (fun v => (v.1, v.2.1)) = [(.input, "CLK"), (.output, "Q"), (.local, "M")] ∧ b.var "CLK" = 0 ∧ b.var "Q" = 1 := by
    decide +kernel
  obtain ⟨hcode, hzero, hshape, v0, v1⟩ := table x.block (H.separate.1 x (List.mem_of_getElem? hk)) hn
  have at' : ∀ (i : Nat) sec n, ([(.input, "CLK"), (.output, "Q"), (.local, "M")] : List (Section × String))[i]? = some (sec, n) → ∃ t, x.block.vars[i]? = some (sec, n, t) := by
    intro i sec n hi
    rw [← hshape, List.getElem?_map] at hi
    obtain ⟨⟨a, b, t⟩, h1, h2⟩ := Option.map_eq_some_iff.1 hi
    cases h2
    exact ⟨t, h1⟩
  obtain ⟨s, hs, hread⟩ := reads_of_ran H hk triggerVals (fun s (i : Bool × Nat × Nat) => R_TRIG.call s i.1) Trigger.default _ h hzero (by
    intro s i
    simp only [Instance.set, v0, alone, List.foldlM_cons, List.foldlM_nil, Event.alone, hcode, Res.bind_ok, bind_pure,
      List.set, triggerVals]
    rfl) he
  rw [runFB_map R_TRIG.call (fun i : Bool × Nat × Nat => i.1)] at hs
  refine ⟨s, hs, ?_⟩
  · obtain ⟨t, ht⟩ := at' 1 _ _ rfl
    exact hread _ _ _ _ _ ht (by decide) v1 rfl

/-- **C146, F_TRIG.** -/
theorem C146_f_trig (mc : Machine) (p : Profile) (xs : List Instance) (steps : List Step) (m : Mem) (H : Ran mc p xs steps m) (k : Nat)
    (x : Instance) (hk : xs[k]? = some x) (hn : x.block.name ∈ ["F_TRIG"]) (h : List (Bool × Nat × Nat))
    (he : eventsOf k steps = h.flatMap fun i => [x.set "CLK" (.bool i.1), .call i.2.1 i.2.2]) :
    ∃ s, runFB F_TRIG.call Trigger.default (h.map (·.1)) = .ok s ∧ x.Reads mc m "Q" (.bool s.output) := by
  have table : ∀ b ∈ functionBlocks, b.name ∈ ["F_TRIG"] → Code.of b.name = some .ftrig ∧ b.fields.map (·.2.zero) = triggerVals Trigger.default ∧
      b.vars.map (fun v => (v.1, v.2.1)) = [(.input, "CLK"), (.output, "Q"), (.local, "M")] ∧ b.var "CLK" = 0 ∧ b.var "Q" = 1 := by
    decide +kernel
  obtain ⟨hcode, hzero, hshape, v0, v1⟩ := table x.block (H.separate.1 x (List.mem_of_getElem? hk)) hn
  have at' : ∀ (i : Nat) sec n, ([(.input, "CLK"), (.output, "Q"), (.local, "M")] : List (Section × String))[i]? = some (sec, n) → ∃ t, x.block.vars[i]? = some (sec, n, t) := by
    intro i sec n hi
    rw [← hshape, List.getElem?_map] at hi
    obtain ⟨⟨a, b, t⟩, h1, h2⟩ := Option.map_eq_some_iff.1 hi
    cases h2
    exact ⟨t, h1⟩
  obtain ⟨s, hs, hread⟩ := reads_of_ran H hk triggerVals (fun s (i : Bool × Nat × Nat) => F_TRIG.call s i.1) Trigger.default _ h hzero (by
    intro s i
    simp only [Instance.set, v0, alone, List.foldlM_cons, List.foldlM_nil, Event.alone, hcode, Res.bind_ok, bind_pure,
      List.set, triggerVals]
    rfl) he
  rw [runFB_map F_TRIG.call (fun i : Bool × Nat × Nat => i.1)] at hs
  refine ⟨s, hs, ?_⟩
  · obtain ⟨t, ht⟩ := at' 1 _ _ rfl
    exact hread _ _ _ _ _ ht (by decide) v1 rfl

/-- **C146, SR.** -/
theorem C146_sr (mc : Machine) (p : Profile) (xs : List Instance) (steps : List Step) (m : Mem) (H : Ran mc p xs steps m) (k : Nat)
    (x : Instance) (hk : xs[k]? = some x) (hn : x.block.name ∈ ["SR"]) (h : List (LatchIn × Nat × Nat))
    (he : eventsOf k steps = h.flatMap fun i => [x.set "SET1" (.bool i.1.set), x.set "RESET" (.bool i.1.reset), .call i.2.1 i.2.2]) :
    ∃ s, runFB SR.call SetResetParams.default (h.map (·.1)) = .ok s ∧ x.Reads mc m "Q1" (.bool s.output) := by
  have table : ∀ b ∈ functionBlocks, b.name ∈ ["SR"] → Code.of b.name = some .sr ∧ b.fields.map (·.2.zero) = latchVals SetResetParams.default ∧
      b.vars.map (fun v => (v.1, v.2.1)) = [(.input, "SET1"), (.input, "RESET"), (.output, "Q1")] ∧ b.var "SET1" = 0 ∧ b.var "RESET" = 1 ∧ b.var "Q1" = 2 := by
    decide +kernel
  obtain ⟨hcode, hzero, hshape, v0, v1, v2⟩ := table x.block (H.separate.1 x (List.mem_of_getElem? hk)) hn
  have at' : ∀ (i : Nat) sec n, ([(.input, "SET1"), (.input, "RESET"), (.output, "Q1")] : List (Section × String))[i]? = some (sec, n) → ∃ t, x.block.vars[i]? = some (sec, n, t) := by
    intro i sec n hi
    rw [← hshape, List.getElem?_map] at hi
    obtain ⟨⟨a, b, t⟩, h1, h2⟩ := Option.map_eq_some_iff.1 hi
    cases h2
    exact ⟨t, h1⟩
  obtain ⟨s, hs, hread⟩ := reads_of_ran H hk latchVals (fun s (i : LatchIn × Nat × Nat) => SR.call s i.1) SetResetParams.default _ h hzero (by
    intro s i
    simp only [Instance.set, v0, v1, alone, List.foldlM_cons, List.foldlM_nil, Event.alone, hcode, Res.bind_ok, bind_pure,
      List.set, latchVals]
    rfl) he
  rw [runFB_map SR.call (fun i : LatchIn × Nat × Nat => i.1)] at hs
  refine ⟨s, hs, ?_⟩
  · obtain ⟨t, ht⟩ := at' 2 _ _ rfl
    exact hread _ _ _ _ _ ht (by decide) v2 rfl

/-- **C146, RS.** -/
theorem C146_rs (mc : Machine) (p : Profile) (xs : List Instance) (steps : List Step) (m : Mem) (H : Ran mc p xs steps m) (k : Nat)
    (x : Instance) (hk : xs[k]? = some x) (hn : x.block.name ∈ ["RS"]) (h : List (LatchIn × Nat × Nat))
    (he : eventsOf k steps = h.flatMap fun i => [x.set "SET" (.bool i.1.set), x.set "RESET1" (.bool i.1.reset), .call i.2.1 i.2.2]) :
    ∃ s, runFB RS.call SetResetParams.default (h.map (·.1)) = .ok s ∧ x.Reads mc m "Q1" (.bool s.output) := by
  have table : ∀ b ∈ functionBlocks, b.name ∈ ["RS"] → Code.of b.name = some .rs ∧ b.fields.map (·.2.zero) = latchVals SetResetParams.default ∧
      b.vars.map (fun v => (v.1, v.2.1)) = [(.input, "SET"), (.input, "RESET1"), (.output, "Q1")] ∧ b.var "SET" = 0 ∧ b.var "RESET1" = 1 ∧ b.var "Q1" = 2 := by
    decide +kernel
  obtain ⟨hcode, hzero, hshape, v0, v1, v2⟩ := table x.block (H.separate.1 x (List.mem_of_getElem? hk)) hn
  have at' : ∀ (i : Nat) sec n, ([(.input, "SET"), (.input, "RESET1"), (.output, "Q1")] : List (Section × String))[i]? = some (sec, n) → ∃ t, x.block.vars[i]? = some (sec, n, t) := by
    intro i sec n hi
    rw [← hshape, List.getElem?_map] at hi
    obtain ⟨⟨a, b, t⟩, h1, h2⟩ := Option.map_eq_some_iff.1 hi
    cases h2
    exact ⟨t, h1⟩
  obtain ⟨s, hs, hread⟩ := reads_of_ran H hk latchVals (fun s (i : LatchIn × Nat × Nat) => RS.call s i.1) SetResetParams.default _ h hzero (by
    intro s i
    simp only [Instance.set, v0, v1, alone, List.foldlM_cons, List.foldlM_nil, Event.alone, hcode, Res.bind_ok, bind_pure,
      List.set, latchVals]
    rfl) he
  rw [runFB_map RS.call (fun i : LatchIn × Nat × Nat => i.1)] at hs
  refine ⟨s, hs, ?_⟩
  · obtain ⟨t, ht⟩ := at' 2 _ _ rfl
    exact hread _ _ _ _ _ ht (by decide) v2 rfl

/-- **C146, up counters of every type.** -/
theorem C146_ctu (mc : Machine) (p : Profile) (xs : List Instance) (steps : List Step) (m : Mem) (H : Ran mc p xs steps m) (k : Nat)
    (x : Instance) (hk : xs[k]? = some x) (t : IntTy) (hn : (x.block.name, t) ∈ ctuNames) (h : List (CTUIn × Nat × Nat))
    (he : eventsOf k steps = h.flatMap fun i => [x.set "CU" (.bool i.1.cu), x.set "R" (.bool i.1.r), x.set "PV" (.int i.1.pv), .call i.2.1 i.2.2]) :
    ∃ s, runFB (ctuCall t p) CTUParams.default (h.map (·.1)) = .ok s ∧ x.Reads mc m "Q" (.bool s.q) ∧ x.Reads mc m "CV" (.int s.cv) := by
  have table : ∀ b ∈ functionBlocks, ∀ e ∈ ctuNames, b.name = e.1 →
      (∃ r ∈ [RTy.i16, .i32, .u32, .i64, .u64], Code.of b.name = some (.ctu r) ∧ r.intTy = e.2) ∧ b.fields.map (·.2.zero) = ctuVals CTUParams.default ∧
      b.vars.map (fun v => (v.1, v.2.1)) = [(.input, "CU"), (.input, "R"), (.input, "PV"), (.output, "Q"), (.output, "CV"), (.local, "M")] ∧ b.var "CU" = 0 ∧ b.var "R" = 1 ∧ b.var "PV" = 2 ∧ b.var "Q" = 3 ∧ b.var "CV" = 4 := by
    decide +kernel
  obtain ⟨⟨r, -, hcode, hr⟩, hzero, hshape, v0, v1, v2, v3, v4⟩ :=
    table x.block (H.separate.1 x (List.mem_of_getElem? hk)) _ hn rfl
  simp only at hr
  have at' : ∀ (i : Nat) sec n, ([(.input, "CU"), (.input, "R"), (.input, "PV"), (.output, "Q"), (.output, "CV"), (.local, "M")] : List (Section × String))[i]? = some (sec, n) → ∃ t, x.block.vars[i]? = some (sec, n, t) := by
    intro i sec n hi
    rw [← hshape, List.getElem?_map] at hi
    obtain ⟨⟨a, b, t⟩, h1, h2⟩ := Option.map_eq_some_iff.1 hi
    cases h2
    exact ⟨t, h1⟩
  obtain ⟨s, hs, hread⟩ := reads_of_ran H hk ctuVals (fun s (i : CTUIn × Nat × Nat) => (ctuCall t p) s i.1) CTUParams.default _ h hzero (by
    intro s i
    simp only [Instance.set, v0, v1, v2, alone, List.foldlM_cons, List.foldlM_nil, Event.alone, hcode, Res.bind_ok, bind_pure,
      List.set, ctuVals, ← hr]
    rfl) he
  rw [runFB_map (ctuCall t p) (fun i : CTUIn × Nat × Nat => i.1)] at hs
  refine ⟨s, hs, ?_, ?_⟩
  · obtain ⟨t, ht⟩ := at' 3 _ _ rfl
    exact hread _ _ _ _ _ ht (by decide) v3 rfl
  · obtain ⟨t, ht⟩ := at' 4 _ _ rfl
    exact hread _ _ _ _ _ ht (by decide) v4 rfl

/-- **C146, down counters of every type.** -/
theorem C146_ctd (mc : Machine) (p : Profile) (xs : List Instance) (steps : List Step) (m : Mem) (H : Ran mc p xs steps m) (k : Nat)
    (x : Instance) (hk : xs[k]? = some x) (t : IntTy) (hn : (x.block.name, t) ∈ ctdNames) (h : List (CTDIn × Nat × Nat))
    (he : eventsOf k steps = h.flatMap fun i => [x.set "CD" (.bool i.1.cd), x.set "LD" (.bool i.1.ld), x.set "PV" (.int i.1.pv), .call i.2.1 i.2.2]) :
    ∃ s, runFB (ctdCall t p) CTDParams.default (h.map (·.1)) = .ok s ∧ x.Reads mc m "Q" (.bool s.q) ∧ x.Reads mc m "CV" (.int s.cv) := by
  have table : ∀ b ∈ functionBlocks, ∀ e ∈ ctdNames, b.name = e.1 →
      (∃ r ∈ [RTy.i16, .i32, .u32, .i64, .u64], Code.of b.name = some (.ctd r) ∧ r.intTy = e.2) ∧ b.fields.map (·.2.zero) = ctdVals CTDParams.default ∧
      b.vars.map (fun v => (v.1, v.2.1)) = [(.input, "CD"), (.input, "LD"), (.input, "PV"), (.output, "Q"), (.output, "CV"), (.local, "M")] ∧ b.var "CD" = 0 ∧ b.var "LD" = 1 ∧ b.var "PV" = 2 ∧ b.var "Q" = 3 ∧ b.var "CV" = 4 := by
    decide +kernel
  obtain ⟨⟨r, -, hcode, hr⟩, hzero, hshape, v0, v1, v2, v3, v4⟩ :=
    table x.block (H.separate.1 x (List.mem_of_getElem? hk)) _ hn rfl
  simp only at hr
  have at' : ∀ (i : Nat) sec n, ([(.input, "CD"), (.input, "LD"), (.input, "PV"), (.output, "Q"), (.output, "CV"), (.local, "M")] : List (Section × String))[i]? = some (sec, n) → ∃ t, x.block.vars[i]? = some (sec, n, t) := by
    intro i sec n hi
    rw [← hshape, List.getElem?_map] at hi
    obtain ⟨⟨a, b, t⟩, h1, h2⟩ := Option.map_eq_some_iff.1 hi
    cases h2
    exact ⟨t, h1⟩
  obtain ⟨s, hs, hread⟩ := reads_of_ran H hk ctdVals (fun s (i : CTDIn × Nat × Nat) => (ctdCall t p) s i.1) CTDParams.default _ h hzero (by
    intro s i
    simp only [Instance.set, v0, v1, v2, alone, List.foldlM_cons, List.foldlM_nil, Event.alone, hcode, Res.bind_ok, bind_pure,
      List.set, ctdVals, ← hr]
    rfl) he
  rw [runFB_map (ctdCall t p) (fun i : CTDIn × Nat × Nat => i.1)] at hs
  refine ⟨s, hs, ?_, ?_⟩
  · obtain ⟨t, ht⟩ := at' 3 _ _ rfl
    exact hread _ _ _ _ _ ht (by decide) v3 rfl
  · obtain ⟨t, ht⟩ := at' 4 _ _ rfl
    exact hread _ _ _ _ _ ht (by decide) v4 rfl

/-- **C146, counters in both directions, of every type.** -/
theorem C146_ctud (mc : Machine) (p : Profile) (xs : List Instance) (steps : List Step) (m : Mem) (H : Ran mc p xs steps m) (k : Nat)
    (x : Instance) (hk : xs[k]? = some x) (t : IntTy) (hn : (x.block.name, t) ∈ ctudNames) (h : List (CTUDIn × Nat × Nat))
    (he : eventsOf k steps = h.flatMap fun i => [x.set "CU" (.bool i.1.cu), x.set "CD" (.bool i.1.cd), x.set "R" (.bool i.1.r), x.set "LD" (.bool i.1.ld), x.set "PV" (.int i.1.pv), .call i.2.1 i.2.2]) :
    ∃ s, runFB (ctudCall t p) CTUDParams.default (h.map (·.1)) = .ok s ∧ x.Reads mc m "QU" (.bool s.qu) ∧ x.Reads mc m "QD" (.bool s.qd) ∧ x.Reads mc m "CV" (.int s.cv) := by
  have table : ∀ b ∈ functionBlocks, ∀ e ∈ ctudNames, b.name = e.1 →
      (∃ r ∈ [RTy.i16, .i32, .u32, .i64, .u64], Code.of b.name = some (.ctud r) ∧ r.intTy = e.2) ∧ b.fields.map (·.2.zero) = ctudVals CTUDParams.default ∧
      b.vars.map (fun v => (v.1, v.2.1)) = [(.input, "CU"), (.input, "CD"), (.input, "R"), (.input, "LD"), (.input, "PV"), (.output, "QU"), (.output, "QD"), (.output, "CV"), (.local, "MU"), (.local, "MD")] ∧ b.var "CU" = 0 ∧ b.var "CD" = 1 ∧ b.var "R" = 2 ∧ b.var "LD" = 3 ∧ b.var "PV" = 4 ∧ b.var "QU" = 5 ∧ b.var "QD" = 6 ∧ b.var "CV" = 7 := by
    decide +kernel
  obtain ⟨⟨r, -, hcode, hr⟩, hzero, hshape, v0, v1, v2, v3, v4, v5, v6, v7⟩ :=
    table x.block (H.separate.1 x (List.mem_of_getElem? hk)) _ hn rfl
  simp only at hr
  have at' : ∀ (i : Nat) sec n, ([(.input, "CU"), (.input, "CD"), (.input, "R"), (.input, "LD"), (.input, "PV"), (.output, "QU"), (.output, "QD"), (.output, "CV"), (.local, "MU"), (.local, "MD")] : List (Section × String))[i]? = some (sec, n) → ∃ t, x.block.vars[i]? = some (sec, n, t) := by
    intro i sec n hi
    rw [← hshape, List.getElem?_map] at hi
    obtain ⟨⟨a, b, t⟩, h1, h2⟩ := Option.map_eq_some_iff.1 hi
    cases h2
    exact ⟨t, h1⟩
  obtain ⟨s, hs, hread⟩ := reads_of_ran H hk ctudVals (fun s (i : CTUDIn × Nat × Nat) => (ctudCall t p) s i.1) CTUDParams.default _ h hzero (by
    intro s i
    simp only [Instance.set, v0, v1, v2, v3, v4, alone, List.foldlM_cons, List.foldlM_nil, Event.alone, hcode, Res.bind_ok, bind_pure,
      List.set, ctudVals, ← hr]
    rfl) he
  rw [runFB_map (ctudCall t p) (fun i : CTUDIn × Nat × Nat => i.1)] at hs
  refine ⟨s, hs, ?_, ?_, ?_⟩
  · obtain ⟨t, ht⟩ := at' 5 _ _ rfl
    exact hread _ _ _ _ _ ht (by decide) v5 rfl
  · obtain ⟨t, ht⟩ := at' 6 _ _ rfl
    exact hread _ _ _ _ _ ht (by decide) v6 rfl
  · obtain ⟨t, ht⟩ := at' 7 _ _ rfl
    exact hread _ _ _ _ _ ht (by decide) v7 rfl

/-- **C146, TP.** -/
theorem C146_tp (mc : Machine) (p : Profile) (xs : List Instance) (steps : List Step) (m : Mem) (H : Ran mc p xs steps m) (k : Nat)
    (x : Instance) (hk : xs[k]? = some x) (hn : x.block.name ∈ ["TP", "TP_TIME", "TP_LTIME"]) (h : List (TimerIn))
    (he : eventsOf k steps = h.flatMap fun i => [x.set "IN" (.bool i.input), x.set "PT" (.int i.pt), .call i.t1 i.t2]) :
    ∃ s, runFB TP.call TimerParams.default h = .ok s ∧ x.Reads mc m "Q" (.bool s.output) ∧ x.Reads mc m "ET" (.int s.elapsed_time) := by
  have table : ∀ b ∈ functionBlocks, b.name ∈ ["TP", "TP_TIME", "TP_LTIME"] → Code.of b.name = some .tp ∧ b.fields.map (·.2.zero) = timerVals TimerParams.default ∧
      b.vars.map (fun v => (v.1, v.2.1)) = [(.input, "IN"), (.input, "PT"), (.output, "Q"), (.output, "ET"), (.local, "__signal__"), (.local, "__BUFFER__")] ∧ b.var "IN" = 0 ∧ b.var "PT" = 1 ∧ b.var "Q" = 2 ∧ b.var "ET" = 3 := by
    decide +kernel
  obtain ⟨hcode, hzero, hshape, v0, v1, v2, v3⟩ := table x.block (H.separate.1 x (List.mem_of_getElem? hk)) hn
  have at' : ∀ (i : Nat) sec n, ([(.input, "IN"), (.input, "PT"), (.output, "Q"), (.output, "ET"), (.local, "__signal__"), (.local, "__BUFFER__")] : List (Section × String))[i]? = some (sec, n) → ∃ t, x.block.vars[i]? = some (sec, n, t) := by
    intro i sec n hi
    rw [← hshape, List.getElem?_map] at hi
    obtain ⟨⟨a, b, t⟩, h1, h2⟩ := Option.map_eq_some_iff.1 hi
    cases h2
    exact ⟨t, h1⟩
  obtain ⟨s, hs, hread⟩ := reads_of_ran H hk timerVals (TP.call) TimerParams.default _ h hzero (by
    intro s i
    simp only [Instance.set, v0, v1, alone, List.foldlM_cons, List.foldlM_nil, Event.alone, hcode, Res.bind_ok, bind_pure,
      List.set, timerVals]
    rfl) he
  refine ⟨s, hs, ?_, ?_⟩
  · obtain ⟨t, ht⟩ := at' 2 _ _ rfl
    exact hread _ _ _ _ _ ht (by decide) v2 rfl
  · obtain ⟨t, ht⟩ := at' 3 _ _ rfl
    exact hread _ _ _ _ _ ht (by decide) v3 rfl

/-- **C146, TON.** -/
theorem C146_ton (mc : Machine) (p : Profile) (xs : List Instance) (steps : List Step) (m : Mem) (H : Ran mc p xs steps m) (k : Nat)
    (x : Instance) (hk : xs[k]? = some x) (hn : x.block.name ∈ ["TON", "TON_TIME", "TON_LTIME"]) (h : List (TimerIn))
    (he : eventsOf k steps = h.flatMap fun i => [x.set "IN" (.bool i.input), x.set "PT" (.int i.pt), .call i.t1 i.t2]) :
    ∃ s, runFB TON.call TimerParams.default h = .ok s ∧ x.Reads mc m "Q" (.bool s.output) ∧ x.Reads mc m "ET" (.int s.elapsed_time) := by
  have table : ∀ b ∈ functionBlocks, b.name ∈ ["TON", "TON_TIME", "TON_LTIME"] → Code.of b.name = some .ton ∧ b.fields.map (·.2.zero) = timerVals TimerParams.default ∧
      b.vars.map (fun v => (v.1, v.2.1)) = [(.input, "IN"), (.input, "PT"), (.output, "Q"), (.output, "ET"), (.local, "__signal__"), (.local, "__BUFFER__")] ∧ b.var "IN" = 0 ∧ b.var "PT" = 1 ∧ b.var "Q" = 2 ∧ b.var "ET" = 3 := by
    decide +kernel
  obtain ⟨hcode, hzero, hshape, v0, v1, v2, v3⟩ := table x.block (H.separate.1 x (List.mem_of_getElem? hk)) hn
  have at' : ∀ (i : Nat) sec n, ([(.input, "IN"), (.input, "PT"), (.output, "Q"), (.output, "ET"), (.local, "__signal__"), (.local, "__BUFFER__")] : List (Section × String))[i]? = some (sec, n) → ∃ t, x.block.vars[i]? = some (sec, n, t) := by
    intro i sec n hi
    rw [← hshape, List.getElem?_map] at hi
    obtain ⟨⟨a, b, t⟩, h1, h2⟩ := Option.map_eq_some_iff.1 hi
    cases h2
    exact ⟨t, h1⟩
  obtain ⟨s, hs, hread⟩ := reads_of_ran H hk timerVals (TON.call) TimerParams.default _ h hzero (by
    intro s i
    simp only [Instance.set, v0, v1, alone, List.foldlM_cons, List.foldlM_nil, Event.alone, hcode, Res.bind_ok, bind_pure,
      List.set, timerVals]
    rfl) he
  refine ⟨s, hs, ?_, ?_⟩
  · obtain ⟨t, ht⟩ := at' 2 _ _ rfl
    exact hread _ _ _ _ _ ht (by decide) v2 rfl
  · obtain ⟨t, ht⟩ := at' 3 _ _ rfl
    exact hread _ _ _ _ _ ht (by decide) v3 rfl

/-- **C146, TOF.** -/
theorem C146_tof (mc : Machine) (p : Profile) (xs : List Instance) (steps : List Step) (m : Mem) (H : Ran mc p xs steps m) (k : Nat)
    (x : Instance) (hk : xs[k]? = some x) (hn : x.block.name ∈ ["TOF", "TOF_TIME", "TOF_LTIME"]) (h : List (TimerIn))
    (he : eventsOf k steps = h.flatMap fun i => [x.set "IN" (.bool i.input), x.set "PT" (.int i.pt), .call i.t1 i.t2]) :
    ∃ s, runFB TOF.call TimerParams.default h = .ok s ∧ x.Reads mc m "Q" (.bool s.output) ∧ x.Reads mc m "ET" (.int s.elapsed_time) := by
  have table : ∀ b ∈ functionBlocks, b.name ∈ ["TOF", "TOF_TIME", "TOF_LTIME"] → Code.of b.name = some .tof ∧ b.fields.map (·.2.zero) = timerVals TimerParams.default ∧
      b.vars.map (fun v => (v.1, v.2.1)) = [(.input, "IN"), (.input, "PT"), (.output, "Q"), (.output, "ET"), (.local, "__signal__"), (.local, "__BUFFER__")] ∧ b.var "IN" = 0 ∧ b.var "PT" = 1 ∧ b.var "Q" = 2 ∧ b.var "ET" = 3 := by
    decide +kernel
  obtain ⟨hcode, hzero, hshape, v0, v1, v2, v3⟩ := table x.block (H.separate.1 x (List.mem_of_getElem? hk)) hn
  have at' : ∀ (i : Nat) sec n, ([(.input, "IN"), (.input, "PT"), (.output, "Q"), (.output, "ET"), (.local, "__signal__"), (.local, "__BUFFER__")] : List (Section × String))[i]? = some (sec, n) → ∃ t, x.block.vars[i]? = some (sec, n, t) := by
    intro i sec n hi
    rw [← hshape, List.getElem?_map] at hi
    obtain ⟨⟨a, b, t⟩, h1, h2⟩ := Option.map_eq_some_iff.1 hi
    cases h2
    exact ⟨t, h1⟩
  obtain ⟨s, hs, hread⟩ := reads_of_ran H hk timerVals (TOF.call) TimerParams.default _ h hzero (by
    intro s i
    simp only [Instance.set, v0, v1, alone, List.foldlM_cons, List.foldlM_nil, Event.alone, hcode, Res.bind_ok, bind_pure,
      List.set, timerVals]
    rfl) he
  refine ⟨s, hs, ?_, ?_⟩
  · obtain ⟨t, ht⟩ := at' 2 _ _ rfl
    exact hread _ _ _ _ _ ht (by decide) v2 rfl
  · obtain ⟨t, ht⟩ := at' 3 _ _ rfl
    exact hread _ _ _ _ _ ht (by decide) v3 rfl

/-- **C146 with C11**: in memory, whatever else the program does, the Q of a TON is TRUE iff IN is TRUE and has been TRUE in
every call since one that is more than PT ago. -/
theorem C146_ton_delay (mc : Machine) (p : Profile) (xs : List Instance) (steps : List Step) (m : Mem) (H : Ran mc p xs steps m)
    (k : Nat) (x : Instance) (hk : xs[k]? = some x) (hn : x.block.name ∈ ["TON", "TON_TIME", "TON_LTIME"]) (h : List TimerIn)
    (i : TimerIn) (hp : PresetOk [i])
    (he : eventsOf k steps = (h ++ [i]).flatMap fun i => [x.set "IN" (.bool i.input), x.set "PT" (.int i.pt), .call i.t1 i.t2]) :
    ∃ q, x.Reads mc m "Q" (.bool q) ∧
      (q = true ↔ i.input = true ∧ ∃ pre first run, TrueRun h pre first run ∧ elapsed2 first i > i.pt) := by
  obtain ⟨s, hs, hq, -⟩ := C146_ton mc p xs steps m H k x hk hn _ he
  obtain ⟨s', hs', hq'⟩ := C11_ton_output h i hp
  have : (Res.ok s : Res TimerParams) = .ok s' := hs.symm.trans hs'
  cases this
  exact ⟨_, hq, hq'⟩

/-- The program of the example: two cycles of the timer and one of the counter, mixed. -/
private def mixed : List Step :=
  [.on 0 (two[0].set "CU" (.bool true)), .on 1 (two[1].set "IN" (.bool true)), .on 0 (two[0].set "R" (.bool false)),
   .on 1 (two[1].set "PT" (.int 5)), .on 1 (.call 10 10), .on 0 (two[0].set "PV" (.int 1)), .other id, .on 0 (.call 0 0),
   .on 1 (two[1].set "IN" (.bool true)), .on 1 (two[1].set "PT" (.int 5)), .on 1 (.call 20 21)]

/-- It runs, and does with its two instances what the theorems require. -/
example : (∃ m, Ran pc .debug two mixed m) ∧
    (eventsOf 0 mixed = [((⟨true, false, 1⟩ : CTUIn), 0, 0)].flatMap fun i =>
      [two[0].set "CU" (.bool i.1.cu), two[0].set "R" (.bool i.1.r), two[0].set "PV" (.int i.1.pv), .call i.2.1 i.2.2]) ∧
    (eventsOf 1 mixed = [(⟨true, 5, 10, 10⟩ : TimerIn), ⟨true, 5, 20, 21⟩].flatMap fun i =>
      [two[1].set "IN" (.bool i.input), two[1].set "PT" (.int i.pt), .call i.t1 i.t2]) ∧
    ("CTU", IntTy.i16) ∈ ctuNames ∧ two[0].block.name = "CTU" ∧ two[1].block.name = "TON" := by
  refine ⟨⟨_, ⟨pc_ok, rfl, two_ok.1, ?_, (fun _ => 0), fun _ _ _ _ => rfl, rfl⟩⟩, rfl, rfl, by decide, rfl, rfl⟩
  intro s hs
  simp only [mixed, List.mem_cons, List.not_mem_nil, or_false] at hs
  have h0 : two[0]? = some ⟨named "CTU", 100⟩ := rfl
  have h1 : two[1]? = some ⟨named "TON", 112⟩ := rfl
  rcases hs with rfl | rfl | rfl | rfl | rfl | rfl | rfl | rfl | rfl | rfl | rfl
  · intro x hx; rw [h0] at hx; cases hx; exact ⟨"CU", .BOOL, rfl, trivial⟩
  · intro x hx; rw [h1] at hx; cases hx; exact ⟨"IN", .BOOL, rfl, trivial⟩
  · intro x hx; rw [h0] at hx; cases hx; exact ⟨"R", .BOOL, rfl, trivial⟩
  · intro x hx; rw [h1] at hx; cases hx; exact ⟨"PT", .TIME, rfl, show IntTy.i64.InRange 5 by decide⟩
  · exact ⟨by decide, by decide⟩
  · intro x hx; rw [h0] at hx; cases hx; exact ⟨"PV", .INT, rfl, show IntTy.i16.InRange 1 by decide⟩
  · intro m x a _ _; rfl
  · exact ⟨by decide, by decide⟩
  · intro x hx; rw [h1] at hx; cases hx; exact ⟨"IN", .BOOL, rfl, trivial⟩
  · intro x hx; rw [h1] at hx; cases hx; exact ⟨"PT", .TIME, rfl, show IntTy.i64.InRange 5 by decide⟩
  · exact ⟨by decide, by decide⟩

end Verif.Abi
