import Verif.Props.Timers
import Verif.Props.Scan
/-
C117: two on-delays in series, `t1(IN := x, PT := T1); t2(IN := t1.Q, PT := T2);`, under every schedule of scans.
-/
namespace Verif
open Spec TimerParams

namespace Spec

/-- One scan of the program: the input and the clock readings of the two timers. -/
structure ChainIn where
  input : Bool
  a1 : Nat
  a2 : Nat
  b1 : Nat
  b2 : Nat

/-- The clock never goes backwards, within a scan and from scan to scan. -/
def ChainClock (h : List ChainIn) : Prop := (h.flatMap fun c => [c.a1, c.a2, c.b1, c.b2]).Pairwise (· ≤ ·)

/-- From the beginning of a scan to the end of the next scan it takes at most `D`. -/
def ChainPeriod (D : Nat) (h : List ChainIn) : Prop := ∀ a x y b, h = a ++ x :: y :: b → y.b2 ≤ x.a1 + D

end Spec

/-- One scan of the program `t1(IN := x, PT := T1); t2(IN := t1.Q, PT := T2);` (two calls of `TON`, src/timers.rs:109-131). -/
def delayChain (T1 T2 : Int) (s : TimerParams × TimerParams) (c : ChainIn) : Res (TimerParams × TimerParams) := do
  let s1 ← TON.call s.1 ⟨c.input, T1, c.a1, c.a2⟩
  let s2 ← TON.call s.2 ⟨s1.output, T2, c.b1, c.b2⟩
  pure (s1, s2)

/-- `t2.Q` after the scans `h`, or how the program ended. -/
def delayed (T1 T2 : Int) (h : List ChainIn) : Res Bool :=
  outputs (delayChain T1 T2) (TimerParams.default, TimerParams.default) (·.2.output) h

/-! ### A timer is its start time -/

/-- The start time after a call of TON with the input `input` and the first clock reading `c1`. -/
def tonNext (st : Option Nat) (input : Bool) (c1 : Nat) : Option Nat :=
  if input then some (st.getD c1) else none

/-- The output of TON in a call with the second clock reading `c2`. -/
def tonQ (T : Int) (st : Option Nat) (input : Bool) (c2 : Nat) : Bool :=
  match st with
  | some t0 => input && decide (T < ((c2 - t0 : Nat) : Int))
  | none => false

/-- A TON instance whose start time is `st`. -/
def TonIs (s : TimerParams) (st : Option Nat) : Prop :=
  s.start_time = st ∧ (st = none → s.input_edge.current_value = false)

theorem ton_is {T : Int} (hT : 0 ≤ T ∧ T < 2 ^ 63) {s : TimerParams} {st : Option Nat} (h : TonIs s st) (b : Bool) (c1 c2 : Nat) :
    ∃ s', TON.call s ⟨b, T, c1, c2⟩ = .ok s' ∧ TonIs s' (tonNext st b c1) ∧ s'.output = tonQ T st b c2 := by
  obtain ⟨h1, h2⟩ := h
  have hw := wrap_pt hT
  cases b
  · refine ⟨_, by simp [TON.call, TON]; rfl, ?_, ?_⟩
    · simp [TonIs, tonNext, finish, reset, Signal.set]
    · cases st <;> simp [tonQ, finish]
  · cases st with
    | none =>
      refine ⟨_, by simp [TON.call, TON, is_running, h1, input_rising_edge, Signal.rising_edge, h2]; rfl, ?_, ?_⟩
      · simp [TonIs, tonNext, finish, start]
      · simp [tonQ, finish]
    | some t0 =>
      refine ⟨_, by simp [TON.call, TON, is_running, h1]; rfl, ?_, ?_⟩
      · simp [TonIs, tonNext, finish, update_elapsed_time, get_run_time]
      · simp [tonQ, finish, update_elapsed_time, get_run_time, is_in_preset_range, hw]
        by_cases hlt : T < ((c2 - t0 : Nat) : Int)
        · simp [hlt]
        · simp [hlt]; omega

/-- The start times of the two timers after a scan. -/
private def chainNext (T1 : Int) (p : Option Nat × Option Nat) (c : ChainIn) : Option Nat × Option Nat :=
  (tonNext p.1 c.input c.a1, tonNext p.2 (tonQ T1 p.1 c.input c.a2) c.b1)

private def phase (T1 : Int) (h : List ChainIn) : Option Nat × Option Nat := h.foldl (chainNext T1) (none, none)

private theorem chain_is {T1 T2 : Int} (h1 : 0 ≤ T1 ∧ T1 < 2 ^ 63) (h2 : 0 ≤ T2 ∧ T2 < 2 ^ 63) (h : List ChainIn) :
    ∃ s, runFB (delayChain T1 T2) (TimerParams.default, TimerParams.default) h = .ok s ∧
      TonIs s.1 (phase T1 h).1 ∧ TonIs s.2 (phase T1 h).2 := by
  refine snoc_induction ?_ ?_ h
  · exact ⟨_, rfl, ⟨rfl, fun _ => rfl⟩, ⟨rfl, fun _ => rfl⟩⟩
  · intro h c ih
    obtain ⟨s, e, i1, i2⟩ := ih
    obtain ⟨s1, e1, j1, q1⟩ := ton_is h1 i1 c.input c.a1 c.a2
    obtain ⟨s2, e2, j2, q2⟩ := ton_is h2 i2 s1.output c.b1 c.b2
    rw [runFB_snoc_ok e, phase, List.foldl_append]
    refine ⟨(s1, s2), by simp [delayChain, e1, e2], ?_, ?_⟩
    · exact j1
    · rw [q1] at j2; exact j2

private theorem delayed_snoc {T1 T2 : Int} (h1 : 0 ≤ T1 ∧ T1 < 2 ^ 63) (h2 : 0 ≤ T2 ∧ T2 < 2 ^ 63) (h : List ChainIn) (c : ChainIn) :
    delayed T1 T2 (h ++ [c]) = .ok (tonQ T2 (phase T1 h).2 (tonQ T1 (phase T1 h).1 c.input c.a2) c.b2) := by
  obtain ⟨s, e, i1, i2⟩ := chain_is h1 h2 h
  obtain ⟨s1, e1, j1, q1⟩ := ton_is h1 i1 c.input c.a1 c.a2
  obtain ⟨s2, e2, j2, q2⟩ := ton_is h2 i2 s1.output c.b1 c.b2
  unfold delayed outputs
  rw [runFB_snoc_ok e]
  unfold delayChain
  rw [e1, Res.bind_ok, e2, Res.bind_ok, ← q1, ← q2]
  rfl

/-! ### C117 -/

theorem chainClock_snoc {h : List ChainIn} {c : ChainIn} (hc : ChainClock (h ++ [c])) :
    ChainClock h ∧ c.a1 ≤ c.a2 ∧ c.a2 ≤ c.b1 ∧ c.b1 ≤ c.b2 ∧ ∀ d ∈ h, d.a1 ≤ d.a2 ∧ d.a2 ≤ d.b1 ∧ d.b1 ≤ d.b2 ∧ d.b2 ≤ c.a1 := by
  have hc' := hc
  unfold ChainClock at hc' ⊢
  rw [List.flatMap_append] at hc'
  obtain ⟨h1, h2, h3⟩ := List.pairwise_append.1 hc'
  simp only [List.flatMap_cons, List.flatMap_nil, List.append_nil, List.pairwise_cons, List.mem_cons] at h2 h3
  refine ⟨h1, h2.1 _ (.inl rfl), h2.2.1 _ (.inl rfl), h2.2.2.1 _ (.inl rfl), ?_⟩
  intro d hd
  obtain ⟨a, b, rfl⟩ := List.append_of_mem hd
  simp only [List.flatMap_append, List.flatMap_cons, List.pairwise_append, List.pairwise_cons, List.cons_append, List.nil_append,
    List.mem_cons] at h1
  refine ⟨h1.2.1.1 _ (.inl rfl), h1.2.1.2.1 _ (.inl rfl), h1.2.1.2.2.1 _ (.inl rfl), h3 _ ?_ _ (.inl rfl)⟩
  simp

private theorem safe_inv {T1 : Int} (h1 : 0 ≤ T1 ∧ T1 < 2 ^ 63) (h : List ChainIn) : ChainClock h →
    (∀ t, (phase T1 h).1 = some t → ∃ pre first run, h = pre ++ first :: run ∧ (∀ c ∈ first :: run, c.input = true) ∧
      t = first.a1) ∧
    (∀ u, (phase T1 h).2 = some u → ∃ t, (phase T1 h).1 = some t ∧ T1 < (u : Int) - t ∧ ∃ d ∈ h, u = d.b1) := by
  refine snoc_induction ?_ ?_ h
  · intro _
    exact ⟨fun t h => by simp [phase] at h, fun u h => by simp [phase] at h⟩
  · intro h c ih hc
    obtain ⟨hc', c1, c2, c3, hd⟩ := chainClock_snoc hc
    obtain ⟨i1, i2⟩ := ih hc'
    rw [phase, List.foldl_append]
    change (∀ t, (chainNext T1 (phase T1 h) c).1 = some t → _) ∧ ∀ u, (chainNext T1 (phase T1 h) c).2 = some u → ∃ t,
      (chainNext T1 (phase T1 h) c).1 = some t ∧ _
    generalize hp : phase T1 h = p at *
    obtain ⟨p1, p2⟩ := p
    simp only [chainNext, tonNext, tonQ] at *
    cases hci : c.input
    · refine ⟨fun t ht => by simp at ht, fun u hu => ?_⟩
      cases p1 <;> simp at hu
    · cases p1 with
      | none =>
        refine ⟨fun t ht => ⟨h, c, [], by simp, by simpa using hci, by simpa using ht.symm⟩, fun u hu => by simp at hu⟩
      | some t0 =>
        obtain ⟨pre, first, run, e, hr, ht0⟩ := i1 t0 rfl
        refine ⟨fun t ht => ⟨pre, first, run ++ [c], by simp [e], ?_, ?_⟩, fun u hu => ⟨t0, by simp, ?_⟩⟩
        · intro d hd
          rcases List.mem_append.1 (show d ∈ (first :: run) ++ [c] by simpa using hd) with hd | hd
          · exact hr d hd
          · simp only [List.mem_singleton] at hd; rw [hd, hci]
        · simp at ht; omega
        · cases p2 with
          | none =>
            by_cases hq : T1 < ((c.a2 - t0 : Nat) : Int)
            · simp [hq] at hu
              have hf := (hd first (by rw [e]; simp)).2.2
              have hf' := (hd first (by rw [e]; simp)).1
              exact ⟨by omega, c, by simp, hu.symm⟩
            · simp [hq] at hu
          | some u0 =>
            obtain ⟨t, ht, hlt, d, hdm, hdu⟩ := i2 u0 rfl
            simp at ht hu
            exact ⟨by omega, d, by simp [hdm], by omega⟩

/-- **C117**: the program never aborts; the output is TRUE only after the input has been TRUE for more than `T1 + T2`. -/
theorem C117_not_early (T1 T2 : Int) (h1 : 0 ≤ T1 ∧ T1 < 2 ^ 63) (h2 : 0 ≤ T2 ∧ T2 < 2 ^ 63) (h : List ChainIn) (y : ChainIn)
    (hc : ChainClock (h ++ [y])) :
    ∃ q, delayed T1 T2 (h ++ [y]) = .ok q ∧ (q = true → ∃ pre first run, h = pre ++ first :: run ∧
      (∀ c ∈ first :: run ++ [y], c.input = true) ∧ (y.b2 : Int) - first.a1 > T1 + T2) := by
  rw [delayed_snoc h1 h2]
  refine ⟨_, rfl, fun hq => ?_⟩
  obtain ⟨hc', c1, c2, c3, hd⟩ := chainClock_snoc hc
  obtain ⟨i1, i2⟩ := safe_inv h1 h hc'
  revert hq i1 i2
  generalize phase T1 h = p
  obtain ⟨p1, p2⟩ := p
  intro hq i1 i2
  cases p2 with
  | none => simp [tonQ] at hq
  | some u =>
    obtain ⟨t, ht, hlt, -⟩ := i2 u rfl
    obtain ⟨pre, first, run, e, hr, rfl⟩ := i1 t ht
    simp only at ht
    subst ht
    simp [tonQ] at hq
    refine ⟨pre, first, run, e, ?_, by omega⟩
    intro c hcm
    rcases List.mem_append.1 hcm with hcm | hcm
    · exact hr c hcm
    · simp only [List.mem_singleton] at hcm; rw [hcm]; exact hq.1.1

/-- What holds after the scan `l` of a run of scans with the input TRUE that began at `f`. -/
private def LiveInv (T1 : Int) (D f : Nat) (l : ChainIn) (p : Option Nat × Option Nat) : Prop :=
  ∃ t, p.1 = some t ∧ t ≤ f ∧
    ((∃ u, p.2 = some u ∧ (u : Int) ≤ f + T1 + D ∧ T1 < ((l.a2 - t : Nat) : Int)) ∨ (p.2 = none ∧ (l.a1 : Int) ≤ f + T1))

private theorem live_step {T1 : Int} (h1 : 0 ≤ T1 ∧ T1 < 2 ^ 63) {D f : Nat} {l c : ChainIn} {p : Option Nat × Option Nat}
    (h : LiveInv T1 D f l p) (hc : c.input = true) (hl : l.a1 ≤ l.a2 ∧ l.a2 ≤ c.a1 ∧ c.a1 ≤ c.a2 ∧ c.a2 ≤ c.b1 ∧ c.b1 ≤ c.b2)
    (hD : c.b2 ≤ l.a1 + D) : LiveInv T1 D f c (chainNext T1 p c) := by
  obtain ⟨p1, p2⟩ := p
  obtain ⟨t, rfl, htf, h | h⟩ := h
  · obtain ⟨u, rfl, hu, ht⟩ := h
    have : T1 < ((c.a2 - t : Nat) : Int) := by omega
    exact ⟨t, by simp [chainNext, tonNext, hc], htf, .inl ⟨u, by simp [chainNext, tonNext, tonQ, hc, this], hu, this⟩⟩
  · obtain ⟨rfl, hla⟩ := h
    by_cases hq : T1 < ((c.a2 - t : Nat) : Int)
    · exact ⟨t, by simp [chainNext, tonNext, hc], htf, .inl ⟨c.b1, by simp [chainNext, tonNext, tonQ, hc, hq], by omega, hq⟩⟩
    · exact ⟨t, by simp [chainNext, tonNext, hc], htf, .inr ⟨by simp [chainNext, tonNext, tonQ, hq], by omega⟩⟩

private theorem clock_pair2 {l c : ChainIn} {q : List ChainIn} (hc : ChainClock (l :: c :: q)) :
    ChainClock (c :: q) ∧ l.a1 ≤ l.a2 ∧ l.a2 ≤ l.b1 ∧ l.b1 ≤ l.b2 ∧ l.b2 ≤ c.a1 ∧ c.a1 ≤ c.a2 ∧ c.a2 ≤ c.b1 ∧ c.b1 ≤ c.b2 := by
  simp only [ChainClock, List.flatMap_cons, List.cons_append, List.nil_append, List.pairwise_cons, List.mem_cons] at hc ⊢
  exact ⟨hc.2.2.2.2, hc.1 _ (.inl rfl), hc.2.1 _ (.inl rfl), hc.2.2.1 _ (.inl rfl), hc.2.2.2.1 _ (.inl rfl),
    hc.2.2.2.2.1 _ (.inl rfl), hc.2.2.2.2.2.1 _ (.inl rfl), hc.2.2.2.2.2.2.1 _ (.inl rfl)⟩

private theorem live_run {T1 : Int} (h1 : 0 ≤ T1 ∧ T1 < 2 ^ 63) {D f : Nat} (y : ChainIn) : ∀ (q : List ChainIn) (l : ChainIn)
    (p : Option Nat × Option Nat), LiveInv T1 D f l p → (∀ c ∈ q, c.input = true) → ChainClock (l :: q ++ [y]) →
    ChainPeriod D (l :: q ++ [y]) →
    ∃ l', LiveInv T1 D f l' (q.foldl (chainNext T1) p) ∧ l'.a1 ≤ l'.a2 ∧ l'.a2 ≤ y.a1 ∧ y.a1 ≤ y.a2 ∧ y.a2 ≤ y.b1 ∧ y.b1 ≤ y.b2 ∧
      y.b2 ≤ l'.a1 + D := by
  intro q
  induction q with
  | nil =>
    intro l p h _ hc hD
    have := clock_pair2 hc
    exact ⟨l, h, by omega, by omega, by omega, by omega, by omega, hD [] l y [] rfl⟩
  | cons c q ih =>
    intro l p h hin hc hD
    have := clock_pair2 hc
    refine ih c _ (live_step h1 h (hin c (by simp)) (by omega) (hD [] l c (q ++ [y]) rfl)) (fun d hd => hin d (by simp [hd]))
      this.1 fun a x z b e => hD (l :: a) x z b (by rw [List.cons_append, List.cons_append, ← List.cons_append, e]; rfl)

/-- **C117**: with scans of at most `D`, the output is TRUE in every scan that ends more than `T1 + T2 + D` after the beginning of
a scan since which the input has been TRUE. -/
theorem C117_not_late (T1 T2 : Int) (h1 : 0 ≤ T1 ∧ T1 < 2 ^ 63) (h2 : 0 ≤ T2 ∧ T2 < 2 ^ 63) (D : Nat)
    (pre : List ChainIn) (first : ChainIn) (run : List ChainIn) (y : ChainIn) (hc : ChainClock (pre ++ first :: run ++ [y]))
    (hD : ChainPeriod D (first :: run ++ [y])) (hin : ∀ c ∈ first :: run ++ [y], c.input = true)
    (hlong : (y.b2 : Int) - first.a1 > T1 + T2 + D) : delayed T1 T2 (pre ++ first :: run ++ [y]) = .ok true := by
  have hfi := hin first (by simp)
  have hpre : ChainClock (pre ++ [first]) ∧ ChainClock (first :: run ++ [y]) := by
    constructor
    · rw [show pre ++ first :: run ++ [y] = (pre ++ [first]) ++ (run ++ [y]) by simp] at hc
      unfold ChainClock at hc ⊢
      rw [List.flatMap_append] at hc
      exact (List.pairwise_append.1 hc).1
    · rw [List.append_assoc] at hc
      unfold ChainClock at hc ⊢
      rw [List.flatMap_append] at hc
      exact (List.pairwise_append.1 hc).2.1
  have hfirst : first.b1 ≤ first.a1 + D := by
    cases run with
    | nil => have := clock_pair2 hpre.2; have := hD [] first y [] rfl; omega
    | cons c run => have := clock_pair2 hpre.2; have := hD [] first c (run ++ [y]) rfl; omega
  have hstart : LiveInv T1 D first.a1 first (phase T1 (pre ++ [first])) := by
    obtain ⟨hcp, c1, c2, c3, hd⟩ := chainClock_snoc hpre.1
    obtain ⟨i1, i2⟩ := safe_inv h1 pre hcp
    rw [phase, List.foldl_append]
    change LiveInv T1 D first.a1 first (chainNext T1 (phase T1 pre) first)
    revert i1 i2
    generalize phase T1 pre = p
    obtain ⟨p1, p2⟩ := p
    intro i1 i2
    cases p1 with
    | none => exact ⟨first.a1, by simp [chainNext, tonNext, hfi], by omega, .inr ⟨by simp [chainNext, tonNext, tonQ], by omega⟩⟩
    | some t =>
      obtain ⟨pre', f', run', e, -, rfl⟩ := i1 t rfl
      have hf' := hd f' (by rw [e]; simp)
      refine ⟨f'.a1, by simp [chainNext, tonNext, hfi], by omega, ?_⟩
      by_cases hq : T1 < ((first.a2 - f'.a1 : Nat) : Int)
      · left
        cases p2 with
        | none => exact ⟨first.b1, by simp [chainNext, tonNext, tonQ, hfi, hq], by omega, hq⟩
        | some u =>
          refine ⟨u, by simp [chainNext, tonNext, tonQ, hfi, hq], ?_, hq⟩
          obtain ⟨-, -, -, d, hdm, hdu⟩ := i2 u rfl
          have := hd d hdm
          omega
      · right
        exact ⟨by simp [chainNext, tonNext, tonQ, hq], by omega⟩
  obtain ⟨l', ⟨t, e1, htf, hl⟩, hc1, hc2, hc3, hc4, hc5, hDy⟩ := live_run h1 (D := D) y run first _ hstart
    (fun c hcm => hin c (by simp [hcm])) hpre.2 hD
  have hy := hin y (by simp)
  rw [delayed_snoc h1 h2]
  have ep : phase T1 (pre ++ first :: run) = run.foldl (chainNext T1) (phase T1 (pre ++ [first])) := by
    rw [show pre ++ first :: run = (pre ++ [first]) ++ run by simp, phase, List.foldl_append]; rfl
  rw [ep]
  revert e1 hl
  generalize run.foldl (chainNext T1) (phase T1 (pre ++ [first])) = p
  obtain ⟨p1, p2⟩ := p
  intro e1 hl
  simp only at e1
  subst e1
  rcases hl with ⟨u, hu, hul, hq⟩ | ⟨hu, hla⟩
  · simp only at hu
    subst hu
    have hq' : T1 < ((y.a2 - t : Nat) : Int) := by omega
    have hq2 : T2 < ((y.b2 - u : Nat) : Int) := by omega
    simp [tonQ, hy, hq', hq2]
  · omega

/-- T1 = 3, T2 = 5, scans every 2: the input is TRUE from 2 on, `t1.Q` from 6 on, `t2.Q` from 12 on. -/
example :
    ChainClock [⟨false, 0, 0, 0, 0⟩, ⟨true, 2, 2, 2, 2⟩, ⟨true, 4, 4, 4, 4⟩, ⟨true, 6, 6, 6, 6⟩, ⟨true, 8, 8, 8, 8⟩, ⟨true, 10, 10, 10, 10⟩] ∧
    delayed 3 5 [⟨false, 0, 0, 0, 0⟩, ⟨true, 2, 2, 2, 2⟩, ⟨true, 4, 4, 4, 4⟩, ⟨true, 6, 6, 6, 6⟩, ⟨true, 8, 8, 8, 8⟩,
      ⟨true, 10, 10, 10, 10⟩] = .ok false ∧
    delayed 3 5 [⟨false, 0, 0, 0, 0⟩, ⟨true, 2, 2, 2, 2⟩, ⟨true, 4, 4, 4, 4⟩, ⟨true, 6, 6, 6, 6⟩, ⟨true, 8, 8, 8, 8⟩,
      ⟨true, 10, 10, 10, 10⟩, ⟨true, 12, 12, 12, 12⟩] = .ok true := by
  refine ⟨by unfold ChainClock; decide, by decide⟩

/-- The period of at most 2 of such scans. -/
example : ChainPeriod 2 [⟨true, 2, 2, 2, 2⟩, ⟨true, 4, 4, 4, 4⟩, ⟨true, 6, 6, 6, 6⟩] := by
  intro a x y b e
  match a, e with
  | [], e => simp at e; obtain ⟨rfl, rfl, -⟩ := e; decide
  | [_], e => simp at e; obtain ⟨-, rfl, rfl, -⟩ := e; decide
  | [_, _], e => simp at e
  | _ :: _ :: _ :: _, e => simp at e

end Verif
