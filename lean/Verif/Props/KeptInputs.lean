import Verif.Props.Program
/-
C185: inputs that a call leaves out keep what the program has written into them.
-/
namespace Verif.Abi

namespace Spec
/-- What the program has written last into the variable number `i`, or `v` if it has not. -/
def written (i : Nat) (v : Val) : List Event → Val
  | [] => v
  | .assign j w :: es => written i (if j = i then w else v) es
  | .call _ _ :: es => written i v es
end Spec

open Verif.Abi.Spec Verif.Spec

/-! ### The native code does not change inputs -/

private def inputs : Code → Nat
  | .rtrig | .ftrig => 1
  | .sr | .rs => 2
  | .ctu _ | .ctd _ => 3
  | .ctud _ => 5
  | .tp | .ton | .tof => 2

private theorem table_inputs : ∀ b ∈ functionBlocks, ∃ c, Code.of b.name = some c ∧
    ∀ (i : Nat) (n : String) (t : VTy), b.vars[i]? = some (.input, n, t) → i < inputs c := by
  have h : ∀ b ∈ functionBlocks, (match Code.of b.name with
      | some c => (List.range b.vars.length).all fun i => match b.vars[i]? with
        | some (s, _, _) => s != .input || decide (i < inputs c)
        | none => true
      | none => false) = true := by decide +kernel
  intro b hb
  have := h b hb
  split at this
  · rename_i c hc
    refine ⟨c, hc, fun i n t hv => ?_⟩
    have hi : i < b.vars.length := (List.getElem?_eq_some_iff.1 hv).1
    have := List.all_eq_true.1 this i (List.mem_range.2 hi)
    rw [hv] at this
    simpa using this
  · cases this

private theorem table_names : ∀ b ∈ functionBlocks, ∀ (i : Nat) (e : Section × String × VTy), b.vars[i]? = some e → b.var e.2.1 = i := by
  have h : ∀ b ∈ functionBlocks, ((List.range b.vars.length).all fun i => match b.vars[i]? with
      | some e => decide (b.var e.2.1 = i)
      | none => true) = true := by decide +kernel
  intro b hb i e hv
  have hi : i < b.vars.length := (List.getElem?_eq_some_iff.1 hv).1
  have := List.all_eq_true.1 (h b hb) i (List.mem_range.2 hi)
  rw [hv] at this
  simpa using this

private theorem table_zero : ∀ b ∈ functionBlocks, ∀ (i : Nat) (s : Section) (n : String) (t : STy), b.vars[i]? = some (s, n, .elem t) → s = .input →
    (b.fields.map (·.2.zero))[i]? = some t.rep.zero ∧ Val.Of t.rep t.rep.zero := by
  have h : ∀ b ∈ functionBlocks, ((List.range b.vars.length).all fun i => match b.vars[i]? with
      | some (s, _, .elem t) => s != .input || (decide (b.fields[i]?.map (·.2) = some t.rep) && decide (t.rep ∈ [RTy.bool, .i16, .i32, .u32, .i64, .u64]))
      | _ => true) = true := by decide +kernel
  intro b hb i s n t hv hs
  have hi : i < b.vars.length := (List.getElem?_eq_some_iff.1 hv).1
  have := List.all_eq_true.1 (h b hb) i (List.mem_range.2 hi)
  rw [hv] at this
  simp only [hs, bne_self_eq_false, Bool.false_or, Bool.and_eq_true, decide_eq_true_eq] at this
  obtain ⟨h1, h2⟩ := this
  constructor
  · rw [List.getElem?_map]
    cases hf : b.fields[i]? with
    | none => rw [hf] at h1; cases h1
    | some g =>
      rw [hf] at h1
      simp only [Option.map_some, Option.some.injEq] at h1 ⊢
      rw [h1]
  · generalize t.rep = r at h2
    simp only [List.mem_cons, List.not_mem_nil, or_false] at h2
    rcases h2 with rfl | rfl | rfl | rfl | rfl | rfl
    · trivial
    · exact (by decide : IntTy.i16.InRange 0)
    · exact (by decide : IntTy.i32.InRange 0)
    · exact (by decide : IntTy.u32.InRange 0)
    · exact (by decide : IntTy.i64.InRange 0)
    · exact (by decide : IntTy.u64.InRange 0)

private theorem ite_cases {α : Type} {c : Prop} [Decidable c] {a b r : α} (h : (if c then a else b) = r) : a = r ∨ b = r := by
  by_cases hc : c
  · rw [if_pos hc] at h; exact .inl h
  · rw [if_neg hc] at h; exact .inr h

/-- The inputs of the two are the same. -/
def SameIn (s s' : TimerParams) : Prop := s'.input = s.input ∧ s'.preset_time = s.preset_time

private theorem update_same (s : TimerParams) (t : Nat) : SameIn s (s.update_elapsed_time t) := by
  unfold TimerParams.update_elapsed_time
  split <;> exact ⟨rfl, rfl⟩

private theorem ite_same {c : Prop} [Decidable c] {s a b : TimerParams} (ha : SameIn s a) (hb : SameIn s b) : SameIn s (if c then a else b) := by
  split <;> assumption

theorem tp_kept {s s' : TimerParams} {t1 t2 : Nat} (e : TP s t1 t2 = .ok s') : SameIn s s' := by
  unfold TP at e
  rcases ite_cases e with e | e
  · simp only [TimerParams.input_falling_edge] at e
    rcases ite_cases e with e | e
    · cases e; exact update_same s t1
    · cases e
      exact ite_same (s := s) (update_same s t1) (update_same s t1)
  · simp only [TimerParams.input_rising_edge] at e
    rcases ite_cases e with e | e
    · cases e; exact ⟨rfl, rfl⟩
    · cases e

theorem ton_kept {s s' : TimerParams} {t1 t2 : Nat} (e : TON s t1 t2 = .ok s') : SameIn s s' := by
  unfold TON at e
  rcases ite_cases e with e | e
  · rcases ite_cases e with e | e
    · cases e; exact update_same s t1
    · simp only [TimerParams.input_rising_edge] at e
      rcases ite_cases e with e | e
      · cases e; exact ⟨rfl, rfl⟩
      · cases e; exact ⟨rfl, rfl⟩
  · cases e; exact ⟨rfl, rfl⟩

theorem tof_kept {s s' : TimerParams} {t1 t2 : Nat} (e : TOF s t1 t2 = .ok s') : SameIn s s' := by
  unfold TOF at e
  rcases ite_cases e with e | e
  · simp only [TimerParams.input_rising_edge] at e
    cases e
    exact ite_same (s := s) ⟨rfl, rfl⟩ ⟨rfl, rfl⟩
  · simp only [TimerParams.input_falling_edge] at e
    rcases ite_cases e with e | e
    · cases e; exact ⟨rfl, rfl⟩
    · rcases ite_cases e with e | e
      · cases e; exact update_same { s with input_edge := (s.input_edge.falling_edge s.input).2 } _
      · cases e; exact ⟨rfl, rfl⟩

theorem ctu_kept {t : IntTy} {p : Profile} {s s' : CTUParams} (e : ctu t p s = .ok s') : s'.cu = s.cu ∧ s'.r = s.r ∧ s'.pv = s.pv := by
  unfold ctu at e
  rcases ite_cases e with e | e
  · cases e; exact ⟨rfl, rfl, rfl⟩
  · simp only [CTUParams.r_edge] at e
    rcases ite_cases e with e | e
    · simp only [CTUParams.inc] at e
      obtain ⟨u, hu, e⟩ := Res.bind_eq_ok.1 e
      obtain ⟨cv, hcv, hu⟩ := Res.bind_eq_ok.1 hu
      cases hu; cases e
      exact ⟨rfl, rfl, rfl⟩
    · cases e; exact ⟨rfl, rfl, rfl⟩

theorem ctd_kept {t : IntTy} {p : Profile} {s s' : CTDParams} (e : ctd t p s = .ok s') : s'.cd = s.cd ∧ s'.ld = s.ld ∧ s'.pv = s.pv := by
  unfold ctd at e
  rcases ite_cases e with e | e
  · cases e; exact ⟨rfl, rfl, rfl⟩
  · simp only [CTDParams.r_edge] at e
    rcases ite_cases e with e | e
    · simp only [CTDParams.dec] at e
      obtain ⟨u, hu, e⟩ := Res.bind_eq_ok.1 e
      obtain ⟨cv, hcv, hu⟩ := Res.bind_eq_ok.1 hu
      cases hu; cases e
      exact ⟨rfl, rfl, rfl⟩
    · cases e; exact ⟨rfl, rfl, rfl⟩

theorem ctud_kept {t : IntTy} {p : Profile} {s s' : CTUDParams} (e : ctud t p s = .ok s') :
    s'.cu = s.cu ∧ s'.cd = s.cd ∧ s'.r = s.r ∧ s'.ld = s.ld ∧ s'.pv = s.pv := by
  unfold ctud at e
  rcases ite_cases e with e | e
  · cases e; exact ⟨rfl, rfl, rfl, rfl, rfl⟩
  · rcases ite_cases e with e | e
    · cases e; exact ⟨rfl, rfl, rfl, rfl, rfl⟩
    · simp only [CTUDParams.cu_r_edge, CTUDParams.cd_r_edge] at e
      rcases ite_cases e with e | e
      · rcases ite_cases e with e | e
        · simp only [CTUDParams.inc] at e
          obtain ⟨u, hu, e⟩ := Res.bind_eq_ok.1 e
          obtain ⟨cv, hcv, hu⟩ := Res.bind_eq_ok.1 hu
          cases hu; cases e
          exact ⟨rfl, rfl, rfl, rfl, rfl⟩
        · rcases ite_cases e with e | e
          · simp only [CTUDParams.dec] at e
            obtain ⟨u, hu, e⟩ := Res.bind_eq_ok.1 e
            obtain ⟨cv, hcv, hu⟩ := Res.bind_eq_ok.1 hu
            cases hu; cases e
            exact ⟨rfl, rfl, rfl, rfl, rfl⟩
          · cases e; exact ⟨rfl, rfl, rfl, rfl, rfl⟩
      · cases e; exact ⟨rfl, rfl, rfl, rfl, rfl⟩

private theorem below5 {P : Nat → Prop} (h0 : P 0) (h1 : P 1) (h2 : P 2) (h3 : P 3) (h4 : P 4) : ∀ i, i < 5 → P i := by
  intro i hi
  rcases i with _ | _ | _ | _ | _ | i <;> first | assumption | omega
private theorem below3 {P : Nat → Prop} (h0 : P 0) (h1 : P 1) (h2 : P 2) : ∀ i, i < 3 → P i := by
  intro i hi
  rcases i with _ | _ | _ | i <;> first | assumption | omega
private theorem below2 {P : Nat → Prop} (h0 : P 0) (h1 : P 1) : ∀ i, i < 2 → P i := by
  intro i hi
  rcases i with _ | _ | i <;> first | assumption | omega
private theorem below1 {P : Nat → Prop} (h0 : P 0) : ∀ i, i < 1 → P i := by
  intro i hi
  rcases i with _ | i <;> first | assumption | omega

private theorem some_bool {a b : Bool} (h : a = b) : some (Val.bool a) = some (Val.bool b) := by rw [h]
private theorem some_int {a b : Int} (h : a = b) : some (Val.int a) = some (Val.int b) := by rw [h]

private theorem run_kept {p : Profile} {c : Code} {vs vs' : List Val} {t1 t2 : Nat} (e : c.run p vs t1 t2 = .ok vs') :
    ∀ i, i < inputs c → vs'[i]? = vs[i]? := by
  unfold Code.run at e
  split at e
  · cases e; exact below1 rfl
  · cases e; exact below1 rfl
  · cases e; exact below2 rfl rfl
  · cases e; exact below2 rfl rfl
  · obtain ⟨s, hs, e⟩ := Res.bind_eq_ok.1 e
    cases e
    obtain ⟨h1, h2, h3⟩ := ctu_kept hs
    exact below3 (some_bool h1) (some_bool h2) (some_int h3)
  · obtain ⟨s, hs, e⟩ := Res.bind_eq_ok.1 e
    cases e
    obtain ⟨h1, h2, h3⟩ := ctd_kept hs
    exact below3 (some_bool h1) (some_bool h2) (some_int h3)
  · obtain ⟨s, hs, e⟩ := Res.bind_eq_ok.1 e
    cases e
    obtain ⟨h1, h2, h3, h4, h5⟩ := ctud_kept hs
    exact below5 (some_bool h1) (some_bool h2) (some_bool h3) (some_bool h4) (some_int h5)
  · obtain ⟨s, hs, e⟩ := Res.bind_eq_ok.1 e
    cases e
    obtain ⟨h1, h2⟩ := tp_kept hs
    exact below2 (some_bool h1) (some_int h2)
  · obtain ⟨s, hs, e⟩ := Res.bind_eq_ok.1 e
    cases e
    obtain ⟨h1, h2⟩ := ton_kept hs
    exact below2 (some_bool h1) (some_int h2)
  · obtain ⟨s, hs, e⟩ := Res.bind_eq_ok.1 e
    cases e
    obtain ⟨h1, h2⟩ := tof_kept hs
    exact below2 (some_bool h1) (some_int h2)
  · cases e

private theorem alone_kept {p : Profile} {b : FunctionBlock} {c : Code} (hc : Code.of b.name = some c) {i : Nat} (hi : i < inputs c) (es : List Event) :
    ∀ (vs vs' : List Val) (v : Val), vs[i]? = some v → alone p b vs es = .ok vs' → vs'[i]? = some (written i v es) := by
  induction es with
  | nil =>
    intro vs vs' v hv e
    cases e
    exact hv
  | cons ev es ih =>
    intro vs vs' v hv e
    have e : (ev :: es).foldlM (Event.alone p b) vs = .ok vs' := e
    rw [List.foldlM_cons] at e
    obtain ⟨ws, e1, e2⟩ := Res.bind_eq_ok.1 e
    cases ev with
    | assign j w =>
      cases e1
      refine ih _ _ _ ?_ e2
      have hl := (List.getElem?_eq_some_iff.1 hv).1
      rw [List.getElem?_set]
      by_cases hj : j = i
      · subst hj; simp [hl]
      · simp [hj, hv]
    | call t1 t2 =>
      simp only [Event.alone, hc] at e1
      exact ih _ _ _ ((run_kept e1 i hi).trans hv) e2

/-- **C185**: an input of an instance reads as what the program has written into it last, or as FALSE or 0 if it has written nothing, whatever calls of this and
of other instances have taken place since then. -/
theorem C185_kept (mc : Machine) (p : Profile) (xs : List Instance) (steps : List Step) (m : Mem) (H : Ran mc p xs steps m) (k : Nat)
    (x : Instance) (hk : xs[k]? = some x) (n : String) (t : STy) (hn : (.input, n, .elem t) ∈ x.block.vars) :
    x.Reads mc m n (written (x.block.var n) t.rep.zero (eventsOf k steps)) := by
  obtain ⟨m0, hz, hr⟩ := H.run
  have hb := H.separate.1 x (List.mem_of_getElem? hk)
  have hz0 : ∀ (k : Nat) x, xs[k]? = some x → Holds mc x m0 (((xs[k]?).map fun x : Instance => x.block.fields.map (·.2.zero)).getD []) := by
    intro k x hk
    rw [hk]
    exact C145_zeroed mc H.machine x (H.separate.1 x (List.mem_of_getElem? hk)) m0 (hz x (List.mem_of_getElem? hk)) H.zero
  obtain ⟨g1, g2⟩ := C145_independent mc H.machine p xs H.separate m0 _ hz0 steps H.proper
  obtain ⟨vs, hvs⟩ := g1.1 ⟨m, hr⟩ k x hk
  have g3 := g2 m hr k x vs hk hvs
  obtain ⟨i, hi⟩ := List.mem_iff_getElem?.1 hn
  have hvar := table_names x.block hb i _ hi
  simp only at hvar
  obtain ⟨c, hc, hin⟩ := table_inputs x.block hb
  rw [hk] at hvs
  simp only [Option.map_some, Option.getD_some] at hvs
  have := alone_kept hc (hin i _ _ hi) _ _ _ _ (table_zero x.block hb i _ n t hi rfl).1 hvs
  obtain ⟨v, hv, hread⟩ := g3 i _ _ _ hi (by decide)
  rw [this] at hv
  cases hv
  refine ⟨⟨_, hn, rfl, fun h => (by cases h)⟩, ?_⟩
  rw [hvar]
  exact hread

private theorem written_of {t : STy} {i : Nat} (es : List Event) :
    ∀ v, Val.Of t.rep v → (∀ w, Event.assign i w ∈ es → Val.Of t.rep w) → Val.Of t.rep (written i v es) := by
  induction es with
  | nil => intro v hv _; exact hv
  | cons e es ih =>
    intro v hv hw
    cases e with
    | assign j w =>
      refine ih _ ?_ fun w h => hw w (List.mem_cons_of_mem _ h)
      split
      · rename_i hj; subst hj; exact hw w List.mem_cons_self
      · exact hv
    | call t1 t2 => exact ih v hv fun w h => hw w (List.mem_cons_of_mem _ h)

private theorem events_append (k : Nat) (a b : List Step) : eventsOf k (a ++ b) = eventsOf k a ++ eventsOf k b := by
  simp [eventsOf, List.filterMap_append]

private theorem mem_events {k : Nat} {e : Event} {steps : List Step} (h : e ∈ eventsOf k steps) : Step.on k e ∈ steps := by
  obtain ⟨s, hs, h⟩ := List.mem_filterMap.1 h
  cases s with
  | on j e' =>
    simp only at h
    split at h
    · rename_i hj; cases h; subst hj; exact hs
    · cases h
  | other f => cases h

/-- **C185**: leaving an input out is the same as writing into it once more what was written into it last: a program in which this is done at any place runs
to its end as well, and every variable of every instance reads the same. -/
theorem C185_left_out (mc : Machine) (p : Profile) (xs : List Instance) (before after : List Step) (m : Mem) (H : Ran mc p xs (before ++ after) m) (k : Nat)
    (x : Instance) (hk : xs[k]? = some x) (n : String) (t : STy) (hn : (.input, n, .elem t) ∈ x.block.vars) :
    ∃ m', Ran mc p xs (before ++ .on k (x.set n (written (x.block.var n) t.rep.zero (eventsOf k before))) :: after) m' ∧
      ∀ (j : Nat) (y : Instance) n' v, xs[j]? = some y → y.Reads mc m n' v → y.Reads mc m' n' v := by
  obtain ⟨m0, hz, hr⟩ := H.run
  have hb := H.separate.1 x (List.mem_of_getElem? hk)
  have hz0 : ∀ (k : Nat) x, xs[k]? = some x → Holds mc x m0 (((xs[k]?).map fun x : Instance => x.block.fields.map (·.2.zero)).getD []) := by
    intro k x hk
    rw [hk]
    exact C145_zeroed mc H.machine x (H.separate.1 x (List.mem_of_getElem? hk)) m0 (hz x (List.mem_of_getElem? hk)) H.zero
  obtain ⟨i, hi⟩ := List.mem_iff_getElem?.1 hn
  have hvar := table_names x.block hb i _ hi
  simp only at hvar
  obtain ⟨c, hc, hin⟩ := table_inputs x.block hb
  obtain ⟨hzi, hzo⟩ := table_zero x.block hb i _ n t hi rfl
  rw [hvar]
  have hset : ∀ v, x.set n v = .assign i v := fun v => by rw [Instance.set, hvar]
  rw [hset]
  have hval : Val.Of t.rep (written i t.rep.zero (eventsOf k before)) := by
    refine written_of _ _ hzo fun w hw => ?_
    obtain ⟨n', t', h1, h2⟩ := H.proper _ (List.mem_append_left _ (mem_events hw)) x hk
    rw [hi] at h1
    cases h1
    exact h2
  have hproper : ∀ s ∈ before ++ .on k (.assign i (written i t.rep.zero (eventsOf k before))) :: after, s.Proper mc xs := by
    intro s hs
    rcases List.mem_append.1 hs with h | h
    · exact H.proper s (List.mem_append_left _ h)
    · rcases List.mem_cons.1 h with rfl | h
      · intro y hy
        rw [hk] at hy
        cases hy
        exact ⟨n, t, hi, hval⟩
      · exact H.proper s (List.mem_append_right _ h)
  obtain ⟨g1, g2⟩ := C145_independent mc H.machine p xs H.separate m0 _ hz0 (before ++ after) H.proper
  obtain ⟨f1, f2⟩ := C145_independent mc H.machine p xs H.separate m0 _ hz0 _ hproper
  have same : ∀ (j : Nat) y vs, xs[j]? = some y →
      alone p y.block (((xs[j]?).map fun x : Instance => x.block.fields.map (·.2.zero)).getD []) (eventsOf j (before ++ after)) = .ok vs →
      alone p y.block (((xs[j]?).map fun x : Instance => x.block.fields.map (·.2.zero)).getD [])
        (eventsOf j (before ++ .on k (.assign i (written i t.rep.zero (eventsOf k before))) :: after)) = .ok vs := by
    intro j y vs hj hvs
    by_cases hjk : j = k
    · subst hjk
      rw [hk] at hj
      cases hj
      rw [hk] at hvs ⊢
      simp only [Option.map_some, Option.getD_some] at hvs ⊢
      have hcons : eventsOf j (.on j (.assign i (written i t.rep.zero (eventsOf j before))) :: after) =
          .assign i (written i t.rep.zero (eventsOf j before)) :: eventsOf j after := by simp [eventsOf]
      rw [events_append, hcons, alone_append]
      rw [events_append, alone_append] at hvs
      obtain ⟨ws, e1, e2⟩ := Res.bind_eq_ok.1 hvs
      rw [e1, Res.bind_ok]
      have hw := alone_kept hc (hin i _ _ hi) _ _ _ _ hzi e1
      have hsame : ws.set i (written i t.rep.zero (eventsOf j before)) = ws := by
        obtain ⟨hl, hg⟩ := List.getElem?_eq_some_iff.1 hw
        rw [← hg]
        exact List.set_getElem_self hl
      show (Event.assign i _ :: eventsOf j after).foldlM (Event.alone p x.block) ws = _
      rw [List.foldlM_cons]
      simp only [Event.alone, hsame, Res.bind_ok]
      exact e2
    · have hcons : eventsOf j (.on k (.assign i (written i t.rep.zero (eventsOf k before))) :: after) = eventsOf j after := by
        simp [eventsOf, Ne.symm hjk]
      rw [events_append, hcons, ← events_append]
      exact hvs
  obtain ⟨m', hm'⟩ := f1.2 fun j y hj => by
    obtain ⟨vs, hvs⟩ := g1.1 ⟨m, hr⟩ j y hj
    exact ⟨vs, same j y vs hj hvs⟩
  refine ⟨m', ⟨H.machine, H.zero, H.separate, hproper, m0, hz, hm'⟩, ?_⟩
  rintro j y n' v hj ⟨⟨e, he, hen, hes⟩, hread⟩
  obtain ⟨i', hi'⟩ := List.mem_iff_getElem?.1 he
  have hby := H.separate.1 y (List.mem_of_getElem? hj)
  have hvar' := table_names y.block hby i' _ hi'
  rw [hen] at hvar'
  obtain ⟨vs, hvs⟩ := g1.1 ⟨m, hr⟩ j y hj
  obtain ⟨v1, a1, a2⟩ := g2 m hr j y vs hj hvs i' e.1 e.2.1 e.2.2 hi' hes
  obtain ⟨v2, b1, b2⟩ := f2 m' hm' j y vs hj (same j y vs hj hvs) i' e.1 e.2.1 e.2.2 hi' hes
  refine ⟨⟨e, he, hen, hes⟩, ?_⟩
  rw [hvar'] at hread ⊢
  rw [a2] at hread
  cases hread
  rw [a1] at b1
  cases b1
  exact b2

/-- A CTU whose PV is written once and whose CU alone is written in the later calls. -/
private def onlyCu : List Step :=
  [.on 0 (two[0].set "PV" (.int 2)), .on 0 (two[0].set "CU" (.bool true)), .on 0 (.call 0 0), .on 0 (two[0].set "CU" (.bool false)), .on 0 (.call 0 0),
   .on 0 (two[0].set "CU" (.bool true)), .on 0 (.call 0 0)]

/-- It runs, PV and R are kept, and Q is TRUE after the second edge. -/
example : ∃ m, Ran pc .debug two onlyCu m ∧ (.input, "PV", .elem .INT) ∈ two[0].block.vars ∧
    written (two[0].block.var "PV") STy.INT.rep.zero (eventsOf 0 onlyCu) = .int 2 ∧ written (two[0].block.var "R") STy.BOOL.rep.zero (eventsOf 0 onlyCu) = .bool false ∧
    two[0].Reads pc m "Q" (.bool true) := by
  refine ⟨_, ⟨pc_ok, rfl, two_ok.1, ?_, (fun _ => 0), fun _ _ _ _ => rfl, rfl⟩, by decide, by decide, by decide, ?_⟩
  · intro s hs
    simp only [onlyCu, List.mem_cons, List.not_mem_nil, or_false] at hs
    have h0 : two[0]? = some ⟨named "CTU", 100⟩ := rfl
    rcases hs with rfl | rfl | rfl | rfl | rfl | rfl | rfl
    · intro x hx; rw [h0] at hx; cases hx; exact ⟨"PV", .INT, rfl, show IntTy.i16.InRange 2 by decide⟩
    · intro x hx; rw [h0] at hx; cases hx; exact ⟨"CU", .BOOL, rfl, trivial⟩
    · exact ⟨by decide, by decide⟩
    · intro x hx; rw [h0] at hx; cases hx; exact ⟨"CU", .BOOL, rfl, trivial⟩
    · exact ⟨by decide, by decide⟩
    · intro x hx; rw [h0] at hx; cases hx; exact ⟨"CU", .BOOL, rfl, trivial⟩
    · exact ⟨by decide, by decide⟩
  · exact ⟨⟨(.output, "Q", .elem .BOOL), by decide, rfl, by decide⟩, rfl⟩

end Verif.Abi
