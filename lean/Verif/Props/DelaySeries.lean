import Verif.Props.Reversing
import Mathlib.Data.Nat.Find
import Mathlib.Tactic.Ring
import Mathlib.Tactic.Positivity
import Mathlib.Tactic.ByContra
/-
C170: any number of on-delays, or of off-delays, in series, under every schedule of scans.
-/
namespace Verif
open Spec TimerParams

namespace Spec

/-- The clock readings of a program that calls `n` timers in every scan, one after the other: timer `i` reads the clock twice in
scan `k`.  The clock never goes backwards. -/
def SeriesClock (n : Nat) (clk : Nat → Nat → Nat × Nat) : Prop :=
  ∀ k i, i < n → (clk k i).1 ≤ (clk k i).2 ∧ (∀ j, i < j → j < n → (clk k i).2 ≤ (clk k j).1) ∧
    ∀ l j, k < l → j < n → (clk k i).2 ≤ (clk l j).1

/-- From the beginning of a scan to the end of the next scan it takes at most `D`. -/
def SeriesPeriod (n D : Nat) (clk : Nat → Nat → Nat × Nat) : Prop := ∀ k i, i < n → (clk (k + 1) i).2 ≤ (clk k 0).1 + D

end Spec

/-- One scan of `t1(IN := x, PT := T1); t2(IN := t1.Q, PT := T2); ...`: the instances afterwards and the last output.  `call` is a
call of one timer (src/timers.rs:109-131, 155-188). -/
def seriesScan (call : TimerParams → TimerIn → Res TimerParams) :
    List Int → List TimerParams → Bool → (Nat → Nat × Nat) → Res (List TimerParams × Bool)
  | T :: Ts, s :: ss, x, clk => do
    let s ← call s ⟨x, T, (clk 0).1, (clk 0).2⟩
    let r ← seriesScan call Ts ss s.output fun i => clk (i + 1)
    pure (s :: r.1, r.2)
  | _, _, x, _ => pure ([], x)

/-- The instances after `k` scans, starting with new ones. -/
def seriesRun (call : TimerParams → TimerIn → Res TimerParams) (Ts : List Int) (x : Nat → Bool) (clk : Nat → Nat → Nat × Nat) :
    Nat → Res (List TimerParams)
  | 0 => pure (Ts.map fun _ => TimerParams.default)
  | k + 1 => do
    let ss ← seriesRun call Ts x clk k
    let r ← seriesScan call Ts ss (x k) (clk k)
    pure r.1

/-- The last output in scan `k`, or how the program ended. -/
def seriesQ (call : TimerParams → TimerIn → Res TimerParams) (Ts : List Int) (x : Nat → Bool) (clk : Nat → Nat → Nat × Nat) (k : Nat) :
    Res Bool := do
  let ss ← seriesRun call Ts x clk k
  let r ← seriesScan call Ts ss (x k) (clk k)
  pure r.2

/-! ### Both kinds of delays at once -/

/-- A delay that lets the level `v` pass late: TON with `v = TRUE`, TOF with `v = FALSE`. -/
private structure Delay (v : Bool) (call : TimerParams → TimerIn → Res TimerParams) where
  σ : Type
  init : σ
  next : σ → Bool → Nat → σ
  q : Int → σ → Bool → Nat → Bool
  Is : TimerParams → σ → Prop
  start : Is TimerParams.default init
  step : ∀ {T : Int}, 0 ≤ T ∧ T < 2 ^ 63 → ∀ {s st}, Is s st → ∀ b c1 c2,
    ∃ s', call s ⟨b, T, c1, c2⟩ = .ok s' ∧ Is s' (next st b c1) ∧ s'.output = q T st b c2

private def Delay.state {v call} (d : Delay v call) (x : Nat → Bool) (c1 : Nat → Nat) : Nat → d.σ
  | 0 => d.init
  | k + 1 => d.next (d.state x c1 k) (x k) (c1 k)

/-- The outputs of the first timer. -/
private def Delay.out {v call} (d : Delay v call) (T : Int) (x : Nat → Bool) (clk : Nat → Nat → Nat × Nat) (k : Nat) : Bool :=
  d.q T (d.state x (fun k => (clk k 0).1) k) (x k) (clk k 0).2

private def rest (clk : Nat → Nat → Nat × Nat) : Nat → Nat → Nat × Nat := fun k i => clk k (i + 1)

/-- The outputs of the last timer. -/
private def Delay.outs {v call} (d : Delay v call) : List Int → (Nat → Bool) → (Nat → Nat → Nat × Nat) → Nat → Bool
  | [], x, _ => x
  | T :: Ts, x, clk => d.outs Ts (d.out T x clk) (rest clk)

private def Delay.All {v call} (d : Delay v call) : List Int → (Nat → Bool) → (Nat → Nat → Nat × Nat) → Nat → List TimerParams → Prop
  | [], _, _, _, ss => ss = []
  | T :: Ts, x, clk, k, ss => ∃ s ss', ss = s :: ss' ∧ d.Is s (d.state x (fun k => (clk k 0).1) k) ∧
      d.All Ts (d.out T x clk) (rest clk) k ss'

private theorem Delay.scan {v call} (d : Delay v call) (Ts : List Int) (hT : ∀ T ∈ Ts, 0 ≤ T ∧ T < 2 ^ 63) (x : Nat → Bool)
    (clk : Nat → Nat → Nat × Nat) (k : Nat) (ss : List TimerParams) (h : d.All Ts x clk k ss) :
    ∃ ss', seriesScan call Ts ss (x k) (clk k) = .ok (ss', d.outs Ts x clk k) ∧ d.All Ts x clk (k + 1) ss' := by
  induction Ts generalizing x clk ss with
  | nil => exact ⟨[], by simp [seriesScan, Delay.outs], rfl⟩
  | cons T Ts ih =>
    obtain ⟨s, ss', rfl, hs, hall⟩ := h
    obtain ⟨s', e, hs', hq⟩ := d.step (hT T (by simp)) hs (x k) (clk k 0).1 (clk k 0).2
    obtain ⟨ss'', e', hall'⟩ := ih (fun T h => hT T (by simp [h])) (d.out T x clk) (rest clk) ss' hall
    refine ⟨s' :: ss'', ?_, s', ss'', rfl, hs', hall'⟩
    unfold seriesScan
    rw [e, Res.bind_ok, hq]
    rw [show seriesScan call Ts ss' (d.q T (d.state x (fun k => (clk k 0).1) k) (x k) (clk k 0).2) (fun i => clk k (i + 1)) = _
      from e', Res.bind_ok]
    rfl

private theorem Delay.run {v call} (d : Delay v call) (Ts : List Int) (hT : ∀ T ∈ Ts, 0 ≤ T ∧ T < 2 ^ 63) (x : Nat → Bool)
    (clk : Nat → Nat → Nat × Nat) (k : Nat) : ∃ ss, seriesRun call Ts x clk k = .ok ss ∧ d.All Ts x clk k ss := by
  induction k with
  | zero =>
    refine ⟨_, rfl, ?_⟩
    induction Ts generalizing x clk with
    | nil => rfl
    | cons T Ts ih => exact ⟨_, _, rfl, d.start, ih (fun T h => hT T (by simp [h])) _ _⟩
  | succ k ih =>
    obtain ⟨ss, e, h⟩ := ih
    obtain ⟨ss', e', h'⟩ := d.scan Ts hT x clk k ss h
    exact ⟨ss', by rw [seriesRun, e, Res.bind_ok, e']; rfl, h'⟩

private theorem Delay.series {v call} (d : Delay v call) (Ts : List Int) (hT : ∀ T ∈ Ts, 0 ≤ T ∧ T < 2 ^ 63) (x : Nat → Bool)
    (clk : Nat → Nat → Nat × Nat) (k : Nat) : seriesQ call Ts x clk k = .ok (d.outs Ts x clk k) := by
  obtain ⟨ss, e, h⟩ := d.run Ts hT x clk k
  obtain ⟨ss', e', _⟩ := d.scan Ts hT x clk k ss h
  unfold seriesQ
  rw [e, Res.bind_ok, e']; rfl

/-- What one timer does. -/
private structure Delay.Works {v call} (d : Delay v call) : Prop where
  /-- The output has the level only when the input has it. -/
  follows : ∀ T x clk k, d.out T x clk k = v → x k = v
  /-- It has it only after the input had it for more than `T`; the input had it at most since scan `lo`. -/
  early : ∀ T x clk k lo, SeriesClock 1 clk → (lo ≠ 0 → x (lo - 1) = !v) → (v = false → lo ≠ 0) → lo ≤ k → d.out T x clk k = v →
    ∃ j, lo ≤ j ∧ j < k ∧ (∀ i, j ≤ i → i ≤ k → x i = v) ∧ ((clk k 0).2 : Int) - (clk j 0).1 > T
  /-- It has it if the input had it for more than `T`. -/
  late : ∀ T x clk f k, SeriesClock 1 clk → f < k → (∀ i, f ≤ i → i ≤ k → x i = v) → ((clk k 0).2 : Int) - (clk f 0).1 > T →
    d.out T x clk k = v

private theorem clock_one {n : Nat} {clk : Nat → Nat → Nat × Nat} (h : SeriesClock (n + 1) clk) : SeriesClock 1 clk := fun k i hi =>
  ⟨(h k i (by omega)).1, fun j hij hj => by omega, fun l j hl hj => (h k i (by omega)).2.2 l j hl (by omega)⟩

private theorem clock_rest {n : Nat} {clk : Nat → Nat → Nat × Nat} (h : SeriesClock (n + 1) clk) : SeriesClock n (rest clk) :=
  fun k i hi => ⟨(h k (i + 1) (by omega)).1, fun j hij hj => (h k (i + 1) (by omega)).2.1 (j + 1) (by omega) (by omega),
    fun l j hl hj => (h k (i + 1) (by omega)).2.2 l (j + 1) hl (by omega)⟩

private theorem Delay.Works.all_follow {v call} {d : Delay v call} (w : d.Works) (Ts : List Int) (x : Nat → Bool)
    (clk : Nat → Nat → Nat × Nat) (k : Nat) (h : d.outs Ts x clk k = v) : x k = v := by
  induction Ts generalizing x clk with
  | nil => exact h
  | cons T Ts ih => exact w.follows T x clk k (ih _ _ h)

private theorem Delay.Works.all_early {v call} {d : Delay v call} (w : d.Works) (T : Int) (Ts : List Int) (x : Nat → Bool)
    (clk : Nat → Nat → Nat × Nat) (k lo : Nat) (hc : SeriesClock (Ts.length + 1) clk) (h1 : lo ≠ 0 → x (lo - 1) = !v)
    (h2 : v = false → lo ≠ 0) (hk : lo ≤ k) (h : d.outs (T :: Ts) x clk k = v) :
    ∃ j, lo ≤ j ∧ j < k ∧ (∀ i, j ≤ i → i ≤ k → x i = v) ∧ ((clk k Ts.length).2 : Int) - (clk j 0).1 > T + Ts.sum := by
  induction Ts generalizing T x clk with
  | nil => simpa using w.early T x clk k lo (clock_one hc) h1 h2 hk h
  | cons T' Ts ih =>
    have hc1 := clock_one hc
    obtain ⟨j, a1, a2, a3, a4⟩ := ih T' (d.out T x clk) (rest clk) (clock_rest hc) (fun h0 => by
      have hx := h1 h0
      cases hv : d.out T x clk (lo - 1) == v
      · revert hv; cases v <;> cases d.out T x clk (lo - 1) <;> simp
      · have := w.follows T x clk (lo - 1) (by simpa using hv)
        rw [hx] at this; cases v <;> simp at this) h
    obtain ⟨j', b1, b2, b3, b4⟩ := w.early T x clk j lo hc1 h1 h2 a1 (a3 j (by omega) (by omega))
    refine ⟨j', b1, by omega, fun i hi hik => ?_, ?_⟩
    · rcases Nat.le_total i j with hij | hij
      · exact b3 i hi hij
      · exact w.follows T x clk i (a3 i hij hik)
    · have := (hc j 0 (by simp)).2.1 1 (by omega) (by simp)
      have e : (rest clk k Ts.length) = clk k (Ts.length + 1) := rfl
      have e' : rest clk j 0 = clk j 1 := rfl
      rw [e, e'] at a4
      simp only [List.length_cons, List.sum_cons]
      omega

private theorem sum_nonneg (Ts : List Int) (h : ∀ T ∈ Ts, 0 ≤ T) : 0 ≤ Ts.sum := by
  induction Ts with
  | nil => exact Int.le_refl _
  | cons T Ts ih =>
    have := h T (by simp)
    have := ih fun T h' => h T (by simp [h'])
    rw [List.sum_cons]; omega

private theorem Delay.Works.all_late {v call} {d : Delay v call} (w : d.Works) (D : Nat) (T : Int) (Ts : List Int)
    (hT : 0 ≤ T ∧ ∀ T' ∈ Ts, 0 ≤ T') (x : Nat → Bool) (clk : Nat → Nat → Nat × Nat) (f k : Nat) (hc : SeriesClock (Ts.length + 1) clk)
    (hD : SeriesPeriod (Ts.length + 1) D clk) (hf : f < k) (hx : ∀ i, f ≤ i → i ≤ k → x i = v)
    (hl : ((clk k Ts.length).2 : Int) - (clk f 0).1 > T + Ts.sum + Ts.length * D) : d.outs (T :: Ts) x clk k = v := by
  induction Ts generalizing T x clk f with
  | nil => exact w.late T x clk f k (clock_one hc) hf hx (by simpa using hl)
  | cons T' Ts ih =>
    have hsum : 0 ≤ Ts.sum := sum_nonneg Ts fun y hy => hT.2 y (by simp [hy])
    have hT' := hT.2 T' (by simp)
    simp only [List.length_cons, List.sum_cons] at hl hc hD
    have hpos : (0 : Int) ≤ (Ts.length : Int) * D := by positivity
    have hexp : ((Ts.length + 1 : Nat) : Int) * D = (Ts.length : Int) * D + D := by push_cast; ring
    rw [hexp] at hl
    -- the first scan in which the first timer has the level
    have hex : ∃ g, f < g ∧ ((clk g 0).2 : Int) - (clk f 0).1 > T := by
      refine ⟨k, hf, ?_⟩
      obtain ⟨k', rfl⟩ : ∃ k', k = k' + 1 := ⟨k - 1, by omega⟩
      have h1 := hD k' (Ts.length + 1) (by omega)
      have h2 := (hc k' 0 (by omega)).1
      have h3 := (hc k' 0 (by omega)).2.2 (k' + 1) 0 (by omega) (by omega)
      have h4 := (hc (k' + 1) 0 (by omega)).1
      omega
    classical
    obtain ⟨g, ⟨hg1, hg2⟩, hmin⟩ : ∃ g, (f < g ∧ ((clk g 0).2 : Int) - (clk f 0).1 > T) ∧
        ∀ g', f < g' → g' < g → ¬ ((clk g' 0).2 : Int) - (clk f 0).1 > T :=
      ⟨Nat.find hex, Nat.find_spec hex, fun g' h1 h2 h3 => Nat.find_min hex h2 ⟨h1, h3⟩⟩
    obtain ⟨g', rfl⟩ : ∃ g', g = g' + 1 := ⟨g - 1, by omega⟩
    have hprev : ((clk g' 0).1 : Int) ≤ (clk f 0).1 + T := by
      rcases Nat.lt_or_ge f g' with h | h
      · have := hmin g' h (by omega)
        have := (hc g' 0 (by omega)).1
        omega
      · have : g' = f := by omega
        subst this; omega
    have hlast := hD g' (Ts.length + 1) (by omega)
    have hone := hD g' 1 (by omega)
    have hone' := (hc (g' + 1) 1 (by omega)).1
    have hgk : g' + 1 < k := by
      rcases Nat.lt_or_ge (g' + 1) k with h | h
      · exact h
      · exfalso
        rcases Nat.eq_or_lt_of_le h with h | h
        · rw [h] at hl; omega
        · have := (hc k (Ts.length + 1) (by omega)).2.2 (g' + 1) (Ts.length + 1) h (by omega)
          have := (hc (g' + 1) (Ts.length + 1) (by omega)).1
          omega
    refine ih T' ⟨hT', fun y hy => hT.2 y (by simp [hy])⟩ (d.out T x clk) (rest clk) (g' + 1) (clock_rest hc) ?_ hgk ?_ ?_
    · intro l i hi
      have h1 := hD l (i + 1) (by omega)
      have h2 := (hc l 0 (by omega)).1
      have h3 := (hc l 0 (by omega)).2.1 1 (by omega) (by omega)
      show (clk (l + 1) (i + 1)).2 ≤ (clk l 1).1 + D
      omega
    · intro i h1 h2
      refine w.late T x clk f i (clock_one hc) (by omega) (fun j hj hj' => hx j hj (by omega)) ?_
      rcases Nat.eq_or_lt_of_le h1 with h | h
      · rw [← h]; exact hg2
      · have a := (hc (g' + 1) 0 (by omega)).2.2 i 0 h (by omega)
        have b := (hc i 0 (by omega)).1
        omega
    · show ((clk k (Ts.length + 1)).2 : Int) - (clk (g' + 1) 1).1 > T' + Ts.sum + Ts.length * D
      omega

/-! ### On-delays -/

private abbrev onDelay : Delay true TON.call where
  σ := Option Nat
  init := none
  next := tonNext
  q := tonQ
  Is := TonIs
  start := ⟨rfl, fun _ => rfl⟩
  step hT _ _ h b c1 c2 := ton_is hT h b c1 c2

private theorem on_state (x : Nat → Bool) (c1 : Nat → Nat) (k t : Nat) (h : onDelay.state x c1 k = some t) :
    ∃ j, j < k ∧ t = c1 j ∧ ∀ i, j ≤ i → i < k → x i = true := by
  induction k generalizing t with
  | zero => cases h
  | succ k ih =>
    have h : tonNext (onDelay.state x c1 k) (x k) (c1 k) = some t := h
    unfold tonNext at h
    cases hx : x k
    · rw [hx] at h; cases h
    · rw [hx, if_pos rfl, Option.some.injEq] at h
      cases hs : onDelay.state x c1 k with
      | none =>
        rw [hs] at h
        exact ⟨k, by omega, h.symm, fun i h1 h2 => by rw [show i = k by omega]; exact hx⟩
      | some t0 =>
        rw [hs] at h
        obtain ⟨j, a, b, c⟩ := ih t0 hs
        exact ⟨j, by omega, by rw [← b]; exact h.symm, fun i h1 h2 => by
          rcases Nat.lt_or_ge i k with h | h
          · exact c i h1 h
          · rw [show i = k by omega]; exact hx⟩

private theorem on_started (x : Nat → Bool) (c1 : Nat → Nat) (hm : ∀ i j, i ≤ j → c1 i ≤ c1 j) (f k : Nat) (hf : f < k)
    (hx : ∀ i, f ≤ i → i < k → x i = true) : ∃ t, onDelay.state x c1 k = some t ∧ t ≤ c1 f := by
  induction k with
  | zero => omega
  | succ k ih =>
    have hk := hx k (by omega) (by omega)
    show ∃ t, tonNext (onDelay.state x c1 k) (x k) (c1 k) = some t ∧ t ≤ c1 f
    rw [hk]
    refine ⟨_, rfl, ?_⟩
    rcases Nat.lt_or_ge f k with h | h
    · obtain ⟨t, e, ht⟩ := ih h fun i a b => hx i a (by omega)
      rw [e]; exact ht
    · have : f = k := by omega
      subst this
      cases hs : onDelay.state x c1 f with
      | none => exact Nat.le_refl _
      | some t =>
        obtain ⟨j, a, b, _⟩ := on_state x c1 f t hs
        show t ≤ c1 f
        rw [b]; exact hm _ _ (by omega)

private theorem mono_first {clk : Nat → Nat → Nat × Nat} (h : SeriesClock 1 clk) (i j : Nat) (hij : i ≤ j) :
    (clk i 0).1 ≤ (clk j 0).1 := by
  rcases Nat.eq_or_lt_of_le hij with e | e
  · rw [e]
  · have := (h i 0 (by omega)).1
    have := (h i 0 (by omega)).2.2 j 0 e (by omega)
    omega

private theorem first_second {clk : Nat → Nat → Nat × Nat} (h : SeriesClock 1 clk) (i j : Nat) (hij : i ≤ j) :
    (clk i 0).1 ≤ (clk j 0).2 := Nat.le_trans (mono_first h i j hij) (h j 0 (by omega)).1

private theorem on_works : onDelay.Works where
  follows T x clk k h := by
    have h : tonQ T _ (x k) _ = true := h
    unfold tonQ at h
    split at h
    · simp at h; exact h.1
    · cases h
  early T x clk k lo hc h1 _ hk h := by
    have h : tonQ T (onDelay.state x (fun k => (clk k 0).1) k) (x k) (clk k 0).2 = true := h
    unfold tonQ at h
    split at h
    · next t0 hs =>
      simp only [Bool.and_eq_true, decide_eq_true_eq] at h
      obtain ⟨j, a, b, c⟩ := on_state _ _ _ _ hs
      have hle := first_second hc j k (by omega)
      have hall : ∀ i, j ≤ i → i ≤ k → x i = true := fun i a b => by
        rcases Nat.lt_or_ge i k with h' | h'
        · exact c i a h'
        · rw [show i = k by omega]; exact h.1
      refine ⟨j, ?_, a, hall, by omega⟩
      by_contra hlo
      have := hall (lo - 1) (by omega) (by omega)
      rw [h1 (by omega)] at this
      cases this
    · cases h
  late T x clk f k hc hf hx hl := by
    obtain ⟨t, e, ht⟩ := on_started x (fun k => (clk k 0).1) (mono_first hc) f k hf fun i a b => hx i a (by omega)
    show tonQ T (onDelay.state x (fun k => (clk k 0).1) k) (x k) (clk k 0).2 = true
    have := first_second hc f k (by omega)
    rw [e, hx k (by omega) (by omega)]
    show (true && decide (T < (((clk k 0).2 - t : Nat) : Int))) = true
    rw [Bool.true_and, decide_eq_true_eq]
    omega

/-! ### Off-delays -/

private abbrev offDelay : Delay false TOF.call where
  σ := Bool × Option Nat
  init := (false, none)
  next := tofNext
  q := tofQ
  Is := TofIs
  start := ⟨rfl, rfl⟩
  step hT _ _ h b c1 c2 := tof_is hT h b c1 c2

private theorem off_last (x : Nat → Bool) (c1 : Nat → Nat) (k : Nat) : (offDelay.state x c1 (k + 1)).1 = x k := rfl

/-- Once the input has been TRUE and is FALSE, the timer started when it became FALSE. -/
private theorem off_state (x : Nat → Bool) (c1 : Nat → Nat) (k lo : Nat) (h0 : lo ≠ 0) (hlo : x (lo - 1) = true) (hk : lo < k)
    (hx : x (k - 1) = false) : ∃ j, lo ≤ j ∧ j < k ∧ (offDelay.state x c1 k).2 = some (c1 j) ∧ ∀ i, j ≤ i → i < k → x i = false := by
  induction k with
  | zero => omega
  | succ k ih =>
    have hx : x k = false := hx
    have e : (offDelay.state x c1 (k + 1)).2 = (tofNext (offDelay.state x c1 k) (x k) (c1 k)).2 := rfl
    rw [e, hx]
    show ∃ j, lo ≤ j ∧ j < k + 1 ∧ (if (offDelay.state x c1 k).1 = true then some (c1 k) else (offDelay.state x c1 k).2) = some (c1 j) ∧ _
    obtain ⟨k', rfl⟩ : ∃ k', k = k' + 1 := ⟨k - 1, by omega⟩
    rw [off_last]
    cases hp : x k'
    · have hlt : lo < k' + 1 := by
        rcases Nat.lt_or_ge lo (k' + 1) with h | h
        · exact h
        · rw [show lo - 1 = k' by omega, hp] at hlo; cases hlo
      obtain ⟨j, a, b, c, d⟩ := ih hlt hp
      refine ⟨j, a, by omega, by simpa using c, fun i h1 h2 => ?_⟩
      rcases Nat.lt_or_ge i (k' + 1) with h | h
      · exact d i h1 h
      · rw [show i = k' + 1 by omega]; exact hx
    · exact ⟨k' + 1, by omega, by omega, by simp, fun i h1 h2 => by rw [show i = k' + 1 by omega]; exact hx⟩

private theorem off_started (x : Nat → Bool) (c1 : Nat → Nat) (hm : ∀ i j, i ≤ j → c1 i ≤ c1 j) (f k : Nat) (hf : f < k)
    (hx : ∀ i, f ≤ i → i < k → x i = false) : ∀ t, (offDelay.state x c1 k).2 = some t → t ≤ c1 f := by
  have old : ∀ k t, (offDelay.state x c1 k).2 = some t → ∃ j, j < k ∧ t = c1 j := by
    intro k
    induction k with
    | zero => intro t h; cases h
    | succ k ih =>
      intro t h
      have h : (tofNext (offDelay.state x c1 k) (x k) (c1 k)).2 = some t := h
      simp only [tofNext] at h
      split at h
      · split at h
        · obtain ⟨j, a, b⟩ := ih t h; exact ⟨j, by omega, b⟩
        · cases h
      · split at h
        · exact ⟨k, by omega, (Option.some.inj h).symm⟩
        · obtain ⟨j, a, b⟩ := ih t h; exact ⟨j, by omega, b⟩
  induction k with
  | zero => omega
  | succ k ih =>
    intro t h
    rcases Nat.lt_or_ge f k with hlt | hge
    · have h : (tofNext (offDelay.state x c1 k) (x k) (c1 k)).2 = some t := h
      obtain ⟨k', rfl⟩ : ∃ k', k = k' + 1 := ⟨k - 1, by omega⟩
      simp only [tofNext, hx (k' + 1) (by omega) (by omega), off_last, hx k' (by omega) (by omega), Bool.false_eq_true, if_false] at h
      exact ih hlt (fun i a b => hx i a (by omega)) t h
    · obtain ⟨j, a, b⟩ := old _ _ h
      rw [b]; exact hm _ _ (by omega)

private theorem off_works : offDelay.Works where
  follows T x clk k h := by
    have h : tofQ T _ (x k) _ = false := h
    simp only [tofQ, Bool.or_eq_false_iff] at h
    exact h.1.1
  early T x clk k lo hc h1 h2 hk h := by
    have h0 := h2 rfl
    have hlo := h1 h0
    have h : tofQ T (offDelay.state x (fun k => (clk k 0).1) k) (x k) (clk k 0).2 = false := h
    simp only [tofQ, Bool.or_eq_false_iff] at h
    obtain ⟨⟨hx, hp⟩, hq⟩ := h
    obtain ⟨k', rfl⟩ : ∃ k', k = k' + 1 := ⟨k - 1, by omega⟩
    rw [off_last] at hp
    have hlt : lo < k' + 1 := by
      rcases Nat.lt_or_ge lo (k' + 1) with h | h
      · exact h
      · rw [show lo - 1 = k' by omega, hp] at hlo; cases hlo
    obtain ⟨j, a, b, c, e⟩ := off_state x (fun k => (clk k 0).1) (k' + 1) lo h0 hlo hlt hp
    rw [c] at hq
    have := first_second hc j (k' + 1) (by omega)
    simp only [decide_eq_false_iff_not] at hq
    refine ⟨j, a, b, fun i h1 h2 => ?_, by omega⟩
    rcases Nat.lt_or_ge i (k' + 1) with h | h
    · exact e i h1 h
    · rw [show i = k' + 1 by omega]; exact hx
  late T x clk f k hc hf hx hl := by
    have key := off_started x (fun k => (clk k 0).1) (mono_first hc) f k hf fun i a b => hx i a (by omega)
    show tofQ T (offDelay.state x (fun k => (clk k 0).1) k) (x k) (clk k 0).2 = false
    have := first_second hc f k (by omega)
    obtain ⟨k', rfl⟩ : ∃ k', k = k' + 1 := ⟨k - 1, by omega⟩
    simp only [tofQ, hx (k' + 1) (by omega) (by omega), off_last, hx k' (by omega) (by omega), Bool.false_or]
    split
    · next t ht =>
      have := key t ht
      simp only [decide_eq_false_iff_not]
      omega
    · rfl

/-! ### C170 -/

/-- **C170**, on-delays: the program never aborts, and the output is TRUE only after the input has been TRUE for more than the sum
of the preset times. -/
theorem C170_on_not_early (Ts : List Int) (hne : Ts ≠ []) (hT : ∀ T ∈ Ts, 0 ≤ T ∧ T < 2 ^ 63) (x : Nat → Bool)
    (clk : Nat → Nat → Nat × Nat) (hc : SeriesClock Ts.length clk) (k : Nat) :
    ∃ q, seriesQ TON.call Ts x clk k = .ok q ∧ (q = true → ∃ j, j < k ∧ (∀ i, j ≤ i → i ≤ k → x i = true) ∧
      ((clk k (Ts.length - 1)).2 : Int) - (clk j 0).1 > Ts.sum) := by
  refine ⟨_, onDelay.series Ts hT x clk k, fun hq => ?_⟩
  obtain ⟨T, Ts, rfl⟩ := List.exists_cons_of_ne_nil hne
  obtain ⟨j, _, a, b, c⟩ := on_works.all_early T Ts x clk k 0 hc (fun h => absurd rfl h) (fun h => by cases h) (by omega) hq
  exact ⟨j, a, b, by simpa using c⟩

/-- **C170**, on-delays: with scans of at most `D`, the output is TRUE in every scan that ends more than the sum of the preset
times, and `D` for every timer but one, after the beginning of a scan since which the input has been TRUE. -/
theorem C170_on_not_late (Ts : List Int) (hne : Ts ≠ []) (hT : ∀ T ∈ Ts, 0 ≤ T ∧ T < 2 ^ 63) (x : Nat → Bool)
    (clk : Nat → Nat → Nat × Nat) (hc : SeriesClock Ts.length clk) (D : Nat) (hD : SeriesPeriod Ts.length D clk) (f k : Nat)
    (hf : f < k) (hx : ∀ i, f ≤ i → i ≤ k → x i = true)
    (hl : ((clk k (Ts.length - 1)).2 : Int) - (clk f 0).1 > Ts.sum + (Ts.length - 1 : Nat) * D) :
    seriesQ TON.call Ts x clk k = .ok true := by
  rw [onDelay.series Ts hT x clk k]
  obtain ⟨T, Ts, rfl⟩ := List.exists_cons_of_ne_nil hne
  exact congrArg Res.ok (on_works.all_late D T Ts ⟨(hT T (by simp)).1, fun T' h => (hT T' (by simp [h])).1⟩ x clk f k hc hD hf hx
    (by simpa using hl))

/-- **C170**, off-delays: the program never aborts; the output is TRUE whenever the input is, and once the input has been TRUE, in
scan `l`, the output is FALSE only after the input has been FALSE for more than the sum of the preset times. -/
theorem C170_off_not_early (Ts : List Int) (hne : Ts ≠ []) (hT : ∀ T ∈ Ts, 0 ≤ T ∧ T < 2 ^ 63) (x : Nat → Bool)
    (clk : Nat → Nat → Nat × Nat) (hc : SeriesClock Ts.length clk) (l k : Nat) (hx : x l = true) (hl : l ≤ k) :
    ∃ q, seriesQ TOF.call Ts x clk k = .ok q ∧ (q = false → ∃ j, l < j ∧ j < k ∧ (∀ i, j ≤ i → i ≤ k → x i = false) ∧
      ((clk k (Ts.length - 1)).2 : Int) - (clk j 0).1 > Ts.sum) := by
  refine ⟨_, offDelay.series Ts hT x clk k, fun hq => ?_⟩
  obtain ⟨T, Ts, rfl⟩ := List.exists_cons_of_ne_nil hne
  have hlk : l < k := by
    rcases Nat.eq_or_lt_of_le hl with h | h
    · have := off_works.all_follow (T :: Ts) x clk k hq
      rw [← h, hx] at this; cases this
    · exact h
  obtain ⟨j, h, a, b, c⟩ := off_works.all_early T Ts x clk k (l + 1) hc (fun _ => hx) (fun _ => by omega) (by omega) hq
  exact ⟨j, by omega, a, b, by simpa using c⟩

/-- **C170**, off-delays: with scans of at most `D`, the output is FALSE in every scan that ends more than the sum of the preset
times, and `D` for every timer but one, after the beginning of a scan since which the input has been FALSE. -/
theorem C170_off_not_late (Ts : List Int) (hne : Ts ≠ []) (hT : ∀ T ∈ Ts, 0 ≤ T ∧ T < 2 ^ 63) (x : Nat → Bool)
    (clk : Nat → Nat → Nat × Nat) (hc : SeriesClock Ts.length clk) (D : Nat) (hD : SeriesPeriod Ts.length D clk) (f k : Nat)
    (hf : f < k) (hx : ∀ i, f ≤ i → i ≤ k → x i = false)
    (hl : ((clk k (Ts.length - 1)).2 : Int) - (clk f 0).1 > Ts.sum + (Ts.length - 1 : Nat) * D) :
    seriesQ TOF.call Ts x clk k = .ok false := by
  rw [offDelay.series Ts hT x clk k]
  obtain ⟨T, Ts, rfl⟩ := List.exists_cons_of_ne_nil hne
  exact congrArg Res.ok (off_works.all_late D T Ts ⟨(hT T (by simp)).1, fun T' h => (hT T' (by simp [h])).1⟩ x clk f k hc hD hf hx
    (by simpa using hl))

-- Three delays of 10, 20 and 5 ns, scans of 4 ns; the input is TRUE in the scans 2 to 14 only.
example : SeriesClock 3 (fun k i => (4 * k + i, 4 * k + i)) ∧ SeriesPeriod 3 6 (fun k i => (4 * k + i, 4 * k + i)) := by
  constructor
  · intro k i hi
    refine ⟨Nat.le_refl _, fun j _ _ => ?_, fun l j _ _ => ?_⟩ <;> dsimp only <;> omega
  · intro k i hi
    dsimp only; omega
example : (List.range 28).map (seriesQ TON.call [10, 20, 5] (fun k => decide (2 ≤ k ∧ k ≤ 14)) fun k i => (4 * k + i, 4 * k + i)) =
    (List.range 28).map (fun k => .ok (decide (13 ≤ k ∧ k ≤ 14))) := by decide +kernel
example : (List.range 28).map (seriesQ TOF.call [10, 20, 5] (fun k => decide (2 ≤ k ∧ k ≤ 14)) fun k i => (4 * k + i, 4 * k + i)) =
    (List.range 28).map (fun k => .ok (decide (2 ≤ k ∧ k ≤ 25))) := by decide +kernel

end Verif
