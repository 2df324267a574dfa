import Verif.Props.Scan
/-
C107: relations between the function blocks: TOF and TON, F_TRIG and R_TRIG, RS and SR are duals, CTUD contains CTU and CTD,
and an edge detector in front of a counter changes nothing.
-/
namespace Verif
open Spec TimerParams

/-- Two blocks run side by side: a relation that every pair of calls keeps holds after every history. -/
private theorem side_by_side {S S' I I' : Type} {call : S → I → Res S} {call' : S' → I' → Res S'} {f : I → I'}
    {R : S → S' → Prop} {ok : I → Prop}
    (step : ∀ s s' i, ok i → R s s' → ∃ t t', call s i = .ok t ∧ call' s' (f i) = .ok t' ∧ R t t') :
    ∀ (h : List I) s s', (∀ i ∈ h, ok i) → R s s' → ∃ t t', runFB call s h = .ok t ∧ runFB call' s' (h.map f) = .ok t' ∧ R t t' := by
  intro h
  induction h with
  | nil => intro s s' _ hr; exact ⟨s, s', rfl, rfl, hr⟩
  | cons i h ih =>
    intro s s' hok hr
    obtain ⟨t, t', e, e', hr'⟩ := step s s' i (hok i (by simp)) hr
    obtain ⟨u, u', g, g', hr''⟩ := ih t t' (fun j hj => hok j (by simp [hj])) hr'
    exact ⟨u, u', by simp [e, g], by simp [e', g'], hr''⟩

/-! ### Timers -/

/-- The call with the opposite input, at the same time and with the same preset. -/
def TimerIn.invert (i : TimerIn) : TimerIn := { i with input := !i.input }

/-- The states of a TOF and of a TON on inverted inputs. -/
private def Dual (s s' : TimerParams) : Prop :=
  s.output = !s'.output ∧ s.elapsed_time = s'.elapsed_time ∧ s.start_time = s'.start_time ∧
    s.input_edge.current_value = !s'.input_edge.current_value ∧
    (s.input_edge.current_value = true → s.start_time = none ∧ s.elapsed_time = 0)

private theorem dual_step (s s' : TimerParams) (i : TimerIn) (_ : True) (h : Dual s s') :
    ∃ t t', TOF.call s i = .ok t ∧ TON.call s' i.invert = .ok t' ∧ Dual t t' := by
  obtain ⟨inp, pt, out, et, ⟨e⟩, st⟩ := s
  obtain ⟨inp', pt', out', et', ⟨e'⟩, st'⟩ := s'
  obtain ⟨h1, h2, h3, h4, h5⟩ := h
  simp only at h1 h2 h3 h4 h5
  subst h1 h2 h3 h4
  obtain ⟨b, p, t1, t2⟩ := i
  cases b <;> cases e' <;> cases st <;>
    simp_all [TOF.call, TON.call, TOF, TON, TimerIn.invert, is_running, input_rising_edge, input_falling_edge,
      Signal.rising_edge, Signal.falling_edge, finish, reset, start, update_elapsed_time, get_run_time,
      is_in_preset_range, Signal.set, Dual]

private theorem tof_lead (lead : List TimerIn) (h : ∀ x ∈ lead, x.input = false) :
    ∃ s, runFB TOF.call TimerParams.default lead = .ok s ∧ s.output = false ∧ s.elapsed_time = 0 ∧ s.start_time = none ∧
      s.input_edge.current_value = false := by
  revert h
  refine snoc_induction ?_ ?_ lead
  · intro _; exact ⟨_, rfl, rfl, rfl, rfl, rfl⟩
  · intro l a ih h
    obtain ⟨s, e, h1, h2, h3, h4⟩ := ih (fun x hx => h x (by simp [hx]))
    rw [runFB_snoc_ok e]
    have ha := h a (by simp)
    obtain ⟨inp, pt, out, et, ⟨e⟩, st⟩ := s
    simp only at h1 h2 h3 h4
    subst h1 h2 h3 h4
    simp [TOF.call, TOF, ha, input_falling_edge, Signal.falling_edge, is_running, finish, Signal.set]

/-- **C107**, timers. Calls with IN = FALSE before the first IN = TRUE do nothing to a TOF; from the first call with IN = TRUE on, a
TOF shows the opposite output and the same elapsed time as a TON that is called at the same times with the inverted input. -/
theorem C107_tof_is_dual_of_ton (lead rest : List TimerIn) (i : TimerIn) (hl : ∀ x ∈ lead, x.input = false)
    (hi : i.input = true) :
    ∃ tof ton, runFB TOF.call TimerParams.default (lead ++ i :: rest) = .ok tof ∧
      runFB TON.call TimerParams.default ((i :: rest).map TimerIn.invert) = .ok ton ∧
      tof.output = !ton.output ∧ tof.elapsed_time = ton.elapsed_time := by
  obtain ⟨s, e, h1, h2, h3, h4⟩ := tof_lead lead hl
  have first : ∃ t t', TOF.call s i = .ok t ∧ TON.call TimerParams.default i.invert = .ok t' ∧ Dual t t' := by
    obtain ⟨inp, pt, out, et, ⟨e⟩, st⟩ := s
    simp only at h1 h2 h3 h4
    subst h1 h2 h3 h4
    obtain ⟨b, p, t1, t2⟩ := i
    simp only at hi
    subst hi
    simp [TOF.call, TON.call, TOF, TON, TimerIn.invert, input_rising_edge, Signal.rising_edge, finish, reset, Signal.set,
      TimerParams.default, Signal.default, Dual]
  obtain ⟨t, t', c, c', hd⟩ := first
  obtain ⟨u, u', g, g', hd'⟩ := side_by_side (ok := fun _ => True) dual_step rest t t' (by simp) hd
  refine ⟨u, u', ?_, by simp [c', g'], hd'.1, hd'.2.1⟩
  rw [runFB_append, e]
  simp [c, g]

/-- A TOF with PT = 5 that is still on at 14 and off at 16; the TON with the inverted input is off and then on. -/
example :
    outputs TOF.call TimerParams.default (·.output) [⟨false, 5, 1, 1⟩, ⟨true, 5, 9, 9⟩, ⟨false, 5, 10, 10⟩, ⟨false, 5, 14, 14⟩] = .ok true ∧
    outputs TON.call TimerParams.default (·.output) [⟨false, 5, 9, 9⟩, ⟨true, 5, 10, 10⟩, ⟨true, 5, 14, 14⟩] = .ok false ∧
    outputs TOF.call TimerParams.default (·.output) [⟨false, 5, 1, 1⟩, ⟨true, 5, 9, 9⟩, ⟨false, 5, 10, 10⟩, ⟨false, 5, 16, 16⟩] = .ok false ∧
    outputs TON.call TimerParams.default (·.output) [⟨false, 5, 9, 9⟩, ⟨true, 5, 10, 10⟩, ⟨true, 5, 16, 16⟩] = .ok true := by
  decide

/-- Before the first IN = TRUE the two differ: a new TOF is off, a TON with the inverted input is on after PT. -/
example :
    outputs TOF.call TimerParams.default (·.output) [⟨false, 5, 1, 1⟩, ⟨false, 5, 9, 9⟩] = .ok false ∧
    outputs TON.call TimerParams.default (·.output) [⟨true, 5, 1, 1⟩, ⟨true, 5, 9, 9⟩] = .ok true := by decide

/-! ### Edges and latches -/

/-- **C107**, edges: from the second call on, F_TRIG shows what an R_TRIG shows on the inverted input. (In the first call F_TRIG never
fires, see C02.) -/
theorem C107_f_trig_is_dual_of_r_trig (c d : Bool) (h : List Bool) :
    ∃ f r, runFB F_TRIG.call Trigger.default (c :: h ++ [d]) = .ok f ∧
      runFB R_TRIG.call Trigger.default ((c :: h ++ [d]).map (!·)) = .ok r ∧ f.output = r.output := by
  have step : ∀ (s s' : Trigger) (i : Bool), True → s.internal.current_value = (!s'.internal.current_value) →
      ∃ t t', F_TRIG.call s i = .ok t ∧ R_TRIG.call s' (!i) = .ok t' ∧ t.internal.current_value = !t'.internal.current_value := by
    rintro ⟨a, b, ⟨e⟩⟩ ⟨a', b', ⟨e'⟩⟩ i _ h
    simp [F_TRIG.call, R_TRIG.call, F_TRIG, R_TRIG, Signal.falling_edge, Signal.rising_edge]
  obtain ⟨t, t', e, e', hr⟩ := side_by_side (ok := fun _ => True) step h
    (F_TRIG { Trigger.default with clk := c }) (R_TRIG { Trigger.default with clk := !c }) (by simp)
    (by simp [F_TRIG, R_TRIG, Signal.falling_edge, Signal.rising_edge])
  obtain ⟨u, u', g, g', -⟩ := step t t' d trivial hr
  refine ⟨u, u', ?_, ?_, ?_⟩
  · simp only [List.cons_append, runFB_cons, F_TRIG.call, Res.bind_ok]
    rw [runFB_snoc_ok e, g]
  · simp only [List.cons_append, List.map_cons, List.map_append, List.map_nil, runFB_cons, R_TRIG.call, Res.bind_ok]
    rw [runFB_snoc_ok e', g']
  · obtain ⟨a, b, ⟨v⟩⟩ := t
    obtain ⟨a', b', ⟨v'⟩⟩ := t'
    simp only at hr
    subst hr
    simp only [F_TRIG.call, F_TRIG, Signal.falling_edge, Res.ok.injEq] at g
    simp only [R_TRIG.call, R_TRIG, Signal.rising_edge, Res.ok.injEq] at g'
    rw [← g, ← g']
    simp

/-- The call of the other latch: set and reset exchanged. -/
def LatchIn.swap (i : LatchIn) : LatchIn := ⟨i.reset, i.set⟩

/-- **C107**, latches: once an input has been TRUE in some call, RS is the opposite of SR with set and reset exchanged. -/
theorem C107_rs_is_dual_of_sr (h rest : List LatchIn) (i : LatchIn) (hi : i.set = true ∨ i.reset = true) :
    ∃ rs sr, runFB RS.call SetResetParams.default (h ++ i :: rest) = .ok rs ∧
      runFB SR.call SetResetParams.default ((h ++ i :: rest).map LatchIn.swap) = .ok sr ∧ rs.output = !sr.output := by
  have pre : ∃ s s', runFB RS.call SetResetParams.default h = .ok s ∧
      runFB SR.call SetResetParams.default (h.map LatchIn.swap) = .ok s' ∧ (s.output = true → s'.output = false) := by
    refine side_by_side (ok := fun _ => True)
      (R := fun (s s' : SetResetParams) => s.output = true → s'.output = false) ?_ h _ _ (by simp)
      (by simp [SetResetParams.default])
    rintro ⟨a, b, o⟩ ⟨a', b', o'⟩ ⟨x, y⟩ _
    revert a b o a' b' o' x y; simp [RS.call, SR.call, RS, SR, LatchIn.swap]
  obtain ⟨s, s', e, e', hr⟩ := pre
  have key : (RS { s with set := i.set, reset := i.reset }).output
      = !(SR { s' with set := i.swap.set, reset := i.swap.reset }).output := by
    obtain ⟨a, b, o⟩ := s
    obtain ⟨a', b', o'⟩ := s'
    obtain ⟨x, y⟩ := i
    revert hr hi; revert o o' x y; simp [RS, SR, LatchIn.swap]
  obtain ⟨t, t', g, g', hr'⟩ := side_by_side (call := RS.call) (call' := SR.call) (f := LatchIn.swap) (ok := fun _ => True)
    (R := fun (s s' : SetResetParams) => s.output = !s'.output) (by
      rintro ⟨a, b, o⟩ ⟨a', b', o'⟩ ⟨x, y⟩ _
      revert o o' x y; simp [RS.call, SR.call, RS, SR, LatchIn.swap]) rest _ _ (by simp) key
  refine ⟨t, t', ?_, ?_, hr'⟩
  · rw [runFB_append, e]; simp only [runFB_cons, RS.call, Res.bind_ok]; exact g
  · rw [List.map_append, runFB_append, e']; simp only [List.map_cons, runFB_cons, SR.call, Res.bind_ok]; exact g'

example : outputs RS.call SetResetParams.default (·.output) [⟨false, true⟩, ⟨false, false⟩, ⟨true, true⟩] = .ok false ∧
    outputs SR.call SetResetParams.default (·.output) [⟨true, false⟩, ⟨false, false⟩, ⟨true, true⟩] = .ok true := by decide

/-! ### Counters -/

/-- **C107**, CTUD as CTU: an up-down counter whose CD and LD stay FALSE counts as an up counter does, whatever the types' range and
the build; if one aborts so does the other. -/
theorem C107_ctud_is_ctu (t : IntTy) (p : Profile) (h : List CTUIn) :
    outputs (ctudCall t p) CTUDParams.default (fun s => (s.qu, s.cv)) (h.map fun i => ⟨i.cu, false, i.r, false, i.pv⟩) =
      outputs (ctuCall t p) CTUParams.default (fun s => (s.q, s.cv)) h := by
  have gen : ∀ (h : List CTUIn) (s : CTUDParams) (s' : CTUParams), s.cv = s'.cv → s.internal_up = s'.internal → s.qu = s'.q →
      outputs (ctudCall t p) s (fun s => (s.qu, s.cv)) (h.map fun i => ⟨i.cu, false, i.r, false, i.pv⟩) =
        outputs (ctuCall t p) s' (fun s => (s.q, s.cv)) h := by
    intro h
    induction h with
    | nil => intro s s' h1 _ h3; simp [outputs, h1, h3]
    | cons i h ih =>
      intro s s' h1 h2 _
      obtain ⟨i1, i2, i3⟩ := i
      obtain ⟨a1, a2, a3, a4, a5, a6, a7, cv, ⟨e⟩, ⟨d⟩⟩ := s
      obtain ⟨b1, b2, b3, b4, cv', ⟨e'⟩⟩ := s'
      simp only at h1 h2
      subst h1
      have h2 : e = e' := by simpa using h2
      subst h2
      simp only [outputs, List.map_cons, runFB_cons] at ih ⊢
      have cont : ∀ (x : Res CTUDParams) (y : Res CTUParams),
          ((∃ s s', x = .ok s ∧ y = .ok s' ∧ s.cv = s'.cv ∧ s.internal_up = s'.internal ∧ s.qu = s'.q) ∨
            (x = .panic ∧ y = .panic) ∨ (x = .ub ∧ y = .ub)) →
          ((x >>= fun s' => runFB (ctudCall t p) s' (h.map fun i => ⟨i.cu, false, i.r, false, i.pv⟩)) >>=
              fun s => Res.ok (s.qu, s.cv)) =
            ((y >>= fun s' => runFB (ctuCall t p) s' h) >>= fun s => Res.ok (s.q, s.cv)) := by
        rintro x y (⟨s, s', rfl, rfl, h1, h2, h3⟩ | ⟨rfl, rfl⟩ | ⟨rfl, rfl⟩)
        · exact ih s s' h1 h2 h3
        · rfl
        · rfl
      apply cont
      unfold ctudCall ctud ctuCall ctu
      cases i2
      · simp only [CTUDParams.cu_r_edge, CTUDParams.cd_r_edge, CTUParams.r_edge, Signal.rising_edge, Bool.false_eq_true,
          ↓reduceIte, Bool.false_and, Bool.and_false, Bool.not_false, CTUDParams.inc, CTUParams.inc]
        generalize t.arith p (cv + 1) = next
        by_cases hr : cv < t.hi <;> cases i1 <;> cases e <;> cases next <;>
          simp [hr, CTUDParams.update_qu, CTUDParams.update_qd, CTUParams.update_q]
      · simp [CTUDParams.reset, CTUParams.reset, CTUDParams.update_qu, CTUDParams.update_qd, CTUParams.update_q]
  exact gen h _ _ rfl rfl rfl

/-- **C107**, CTUD as CTD: an up-down counter whose CU and R stay FALSE counts as a down counter does. -/
theorem C107_ctud_is_ctd (t : IntTy) (p : Profile) (h : List CTDIn) :
    outputs (ctudCall t p) CTUDParams.default (fun s => (s.qd, s.cv)) (h.map fun i => ⟨false, i.cd, false, i.ld, i.pv⟩) =
      outputs (ctdCall t p) CTDParams.default (fun s => (s.q, s.cv)) h := by
  have gen : ∀ (h : List CTDIn) (s : CTUDParams) (s' : CTDParams), s.cv = s'.cv → s.internal_down = s'.internal → s.qd = s'.q →
      outputs (ctudCall t p) s (fun s => (s.qd, s.cv)) (h.map fun i => ⟨false, i.cd, false, i.ld, i.pv⟩) =
        outputs (ctdCall t p) s' (fun s => (s.q, s.cv)) h := by
    intro h
    induction h with
    | nil => intro s s' h1 _ h3; simp [outputs, h1, h3]
    | cons i h ih =>
      intro s s' h1 h2 _
      obtain ⟨i1, i2, i3⟩ := i
      obtain ⟨a1, a2, a3, a4, a5, a6, a7, cv, ⟨d⟩, ⟨e⟩⟩ := s
      obtain ⟨b1, b2, b3, b4, cv', ⟨e'⟩⟩ := s'
      simp only at h1 h2
      subst h1
      have h2 : e = e' := by simpa using h2
      subst h2
      simp only [outputs, List.map_cons, runFB_cons] at ih ⊢
      have cont : ∀ (x : Res CTUDParams) (y : Res CTDParams),
          ((∃ s s', x = .ok s ∧ y = .ok s' ∧ s.cv = s'.cv ∧ s.internal_down = s'.internal ∧ s.qd = s'.q) ∨
            (x = .panic ∧ y = .panic) ∨ (x = .ub ∧ y = .ub)) →
          ((x >>= fun s' => runFB (ctudCall t p) s' (h.map fun i => ⟨false, i.cd, false, i.ld, i.pv⟩)) >>=
              fun s => Res.ok (s.qd, s.cv)) =
            ((y >>= fun s' => runFB (ctdCall t p) s' h) >>= fun s => Res.ok (s.q, s.cv)) := by
        rintro x y (⟨s, s', rfl, rfl, h1, h2, h3⟩ | ⟨rfl, rfl⟩ | ⟨rfl, rfl⟩)
        · exact ih s s' h1 h2 h3
        · rfl
        · rfl
      apply cont
      unfold ctudCall ctud ctdCall ctd
      cases i2
      · simp only [CTUDParams.cu_r_edge, CTUDParams.cd_r_edge, CTDParams.r_edge, Signal.rising_edge, Bool.false_eq_true,
          ↓reduceIte, Bool.false_and, Bool.not_false, CTUDParams.dec, CTDParams.dec]
        generalize t.arith p (cv - 1) = next
        by_cases hr : cv > t.lo <;> cases i1 <;> cases e <;> cases next <;>
          simp [hr, CTUDParams.update_qu, CTUDParams.update_qd, CTDParams.update_q]
      · simp [CTUDParams.load, CTDParams.load, CTUDParams.update_qu, CTUDParams.update_qd, CTDParams.update_q]
  exact gen h _ _ rfl rfl rfl

/-- An R_TRIG in front of the CU input of a CTU, as a user would write it: `trig(CLK := cu); ctu(CU := trig.Q, R := FALSE, PV := pv)`. -/
def edgeThenCount (t : IntTy) (p : Profile) (s : Trigger × CTUParams) (i : Bool × Int) : Res (Trigger × CTUParams) := do
  let trig ← R_TRIG.call s.1 i.1
  let ctu ← ctuCall t p s.2 ⟨trig.output, false, i.2⟩
  pure (trig, ctu)

/-- **C107**, composition: an edge detector in front of an up counter that is not reset changes nothing. -/
theorem C107_edge_before_counter (t : IntTy) (p : Profile) (h : List (Bool × Int)) :
    outputs (edgeThenCount t p) (Trigger.default, CTUParams.default) (fun s => (s.2.q, s.2.cv)) h =
      outputs (ctuCall t p) CTUParams.default (fun s => (s.q, s.cv)) (h.map fun i => ⟨i.1, false, i.2⟩) := by
  have gen : ∀ (h : List (Bool × Int)) (r : Trigger) (s s' : CTUParams), s.cv = s'.cv → s.q = s'.q →
      s.internal.current_value = r.output → s'.internal = r.internal → (r.output = true → r.internal.current_value = true) →
      outputs (edgeThenCount t p) (r, s) (fun s => (s.2.q, s.2.cv)) h =
        outputs (ctuCall t p) s' (fun s => (s.q, s.cv)) (h.map fun i => ⟨i.1, false, i.2⟩) := by
    intro h
    induction h with
    | nil => intro r s s' h1 h2 _ _ _; simp [outputs, h1, h2]
    | cons i h ih =>
      intro r s s' h1 _ h3 h4 h5
      obtain ⟨i1, i2⟩ := i
      obtain ⟨c, o, ⟨v⟩⟩ := r
      obtain ⟨a1, a2, a3, a4, cv, ⟨e⟩⟩ := s
      obtain ⟨b1, b2, b3, b4, cv', ⟨e'⟩⟩ := s'
      simp only at h1 h3 h5
      subst h1 h3
      have h4 : e' = v := by simpa using h4
      subst h4
      simp only [outputs, List.map_cons, runFB_cons] at ih ⊢
      have cont : ∀ (x : Res (Trigger × CTUParams)) (y : Res CTUParams),
          ((∃ s s', x = .ok s ∧ y = .ok s' ∧ s.2.cv = s'.cv ∧ s.2.q = s'.q ∧ s.2.internal.current_value = s.1.output ∧
              s'.internal = s.1.internal ∧ (s.1.output = true → s.1.internal.current_value = true)) ∨
            (x = .panic ∧ y = .panic) ∨ (x = .ub ∧ y = .ub)) →
          ((x >>= fun s' => runFB (edgeThenCount t p) s' h) >>= fun s => Res.ok (s.2.q, s.2.cv)) =
            ((y >>= fun s' => runFB (ctuCall t p) s' (h.map fun i => ⟨i.1, false, i.2⟩)) >>=
              fun s => Res.ok (s.q, s.cv)) := by
        rintro x y (⟨⟨r, s⟩, s', rfl, rfl, h1, h2, h3, h4, h5⟩ | ⟨rfl, rfl⟩ | ⟨rfl, rfl⟩)
        · exact ih r s s' h1 h2 h3 h4 h5
        · rfl
        · rfl
      apply cont
      clear cont ih
      unfold edgeThenCount ctuCall ctu R_TRIG.call R_TRIG
      simp only [CTUParams.r_edge, Signal.rising_edge, Bool.false_eq_true, ↓reduceIte, CTUParams.inc, Res.bind_ok]
      generalize t.arith p (cv + 1) = next
      by_cases hr : cv < t.hi <;> cases i1 <;> cases e <;> cases e' <;> cases next <;>
        first
        | (simp at h5; done)
        | simp [hr, CTUParams.update_q]
  exact gen h _ _ _ rfl rfl rfl rfl (by simp [Trigger.default])

/-- With resets it does: the counter's own edge memory does not follow CU while R is TRUE (C10), the R_TRIG's does. -/
example :
    outputs (ctuCall .i16 .debug) CTUParams.default (·.cv) [⟨true, true, 5⟩, ⟨true, false, 5⟩] = .ok 1 ∧
    outputs R_TRIG.call Trigger.default (·.output) [true, true] = .ok false ∧
    outputs (ctuCall .i16 .debug) CTUParams.default (·.cv) [⟨true, true, 5⟩, ⟨false, false, 5⟩] = .ok 0 := by decide +kernel

example : outputs (edgeThenCount .i16 .debug) (Trigger.default, CTUParams.default) (·.2.cv)
    [(true, 2), (true, 2), (false, 2), (true, 2)] = .ok 2 := by decide +kernel

example : outputs (ctudCall .i16 .debug) CTUDParams.default (fun s => (s.qu, s.cv))
      [⟨true, false, false, false, 2⟩, ⟨false, false, false, false, 2⟩, ⟨true, false, false, false, 2⟩] = .ok (true, 2) ∧
    outputs (ctuCall .i16 .debug) CTUParams.default (fun s => (s.q, s.cv)) [⟨true, false, 2⟩, ⟨false, false, 2⟩, ⟨true, false, 2⟩]
      = .ok (true, 2) := by decide +kernel

end Verif
