import Verif.Props.Counters
import Mathlib.Data.List.Chain
/-
C165: the position of a rotary encoder with two tracks, counted by a CTUD.
-/
namespace Verif
open Spec

namespace Spec

/-- Track A of an encoder at the position `x`, counted in quarters of a cycle: FALSE, TRUE, TRUE, FALSE. -/
def trackA (x : Int) : Bool := x % 4 = 1 || x % 4 = 2
/-- Track B, a quarter of a cycle later: FALSE, FALSE, TRUE, TRUE. -/
def trackB (x : Int) : Bool := x % 4 = 2 || x % 4 = 3

/-- The cycles up to the position `x`: a cycle begins where track A rises, between `4 * n` and `4 * n + 1`. -/
def cycles (x : Int) : Int := (x + 3) / 4

end Spec

/-- The blocks of the program. -/
structure Encoder where
  rise : Trigger
  fall : Trigger
  counter : CTUDParams
  deriving DecidableEq, Repr

/-- New instances. -/
def Encoder.fresh : Encoder := ⟨Trigger.default, Trigger.default, CTUDParams.default⟩

/-- `rise(CLK := A); fall(CLK := A); counter(CU := rise.Q AND NOT B, CD := fall.Q AND NOT B, R := FALSE, LD := FALSE, PV := 0);` (src/flanks.rs:19-29, src/counters.rs:289-382). -/
def Encoder.scan (t : IntTy) (p : Profile) (e : Encoder) (tracks : Bool × Bool) : Res Encoder := do
  let rise ← R_TRIG.call e.rise tracks.1
  let fall ← F_TRIG.call e.fall tracks.1
  let counter ← ctudCall t p e.counter ⟨rise.output && !tracks.2, fall.output && !tracks.2, false, false, 0⟩
  pure ⟨rise, fall, counter⟩

/-- The blocks after scans at the positions. -/
def Encoder.at (t : IntTy) (p : Profile) (xs : List Int) : Res Encoder :=
  runFB (Encoder.scan t p) Encoder.fresh (xs.map fun x => (trackA x, trackB x))

/-- Between two scans the encoder moves by one quarter of a cycle at most. -/
def Slow (xs : List Int) : Prop := xs.IsChain fun x y => y - x ≤ 1 ∧ x - y ≤ 1

/-- The counter shows the cycles since the first scan, if it can. -/
def CountsCycles (t : IntTy) (p : Profile) : Prop :=
  ∀ (first : Int) (xs : List Int), Slow (first :: xs) → (∀ x ∈ first :: xs, t.InRange (cycles x - cycles first)) →
    ∃ e, Encoder.at t p (first :: xs) = .ok e ∧ e.counter.cv = cycles ((first :: xs).getLast (by simp)) - cycles first

private structure Inv (base : Int) (x : Int) (e : Encoder) : Prop where
  rise : e.rise.internal.current_value = trackA x
  fall : e.fall.internal.current_value = trackA x
  up : e.counter.internal_up.current_value = true → trackA x = true
  down : e.counter.internal_down.current_value = true → trackA x = false
  cv : e.counter.cv = cycles x - base

private theorem count {t : IntTy} (p : Profile) (c : CTUDParams) (cu cd : Bool) (hu : cu = true → c.internal_up.current_value = false)
    (hd : cd = true → c.internal_down.current_value = false) (hn : cu = true → cd = false)
    (hr : t.InRange (c.cv + if cu then 1 else if cd then -1 else 0)) :
    ∃ c', ctudCall t p c ⟨cu, cd, false, false, 0⟩ = .ok c' ∧ c'.cv = c.cv + (if cu then 1 else if cd then -1 else 0) ∧
      c'.internal_up.current_value = cu ∧ c'.internal_down.current_value = cd := by
  obtain ⟨_, _, _, _, _, _, _, cv, ⟨u⟩, ⟨d⟩⟩ := c
  dsimp only at *
  cases cu with
  | true =>
    obtain rfl := hu rfl
    obtain rfl := hn rfl
    simp only [if_true] at hr
    have hlt : cv < t.hi := by have := hr.2; omega
    cases d <;> simp [ctudCall, ctud, CTUDParams.cu_r_edge, CTUDParams.cd_r_edge, Signal.rising_edge, CTUDParams.inc, IntTy.arith, CTUDParams.update_qu,
      CTUDParams.update_qd, hlt, hr]
  | false =>
    cases cd with
    | true =>
      obtain rfl := hd rfl
      simp only [Bool.false_eq_true, if_false, if_true] at hr ⊢
      rw [show cv + -1 = cv - 1 by omega] at hr ⊢
      have hlt : t.lo < cv := by have := hr.1; omega
      cases u <;> simp [ctudCall, ctud, CTUDParams.cu_r_edge, CTUDParams.cd_r_edge, Signal.rising_edge, CTUDParams.dec, IntTy.arith, CTUDParams.update_qu,
        CTUDParams.update_qd, hlt, hr]
    | false =>
      cases u <;> cases d <;> simp [ctudCall, ctud, CTUDParams.cu_r_edge, CTUDParams.cd_r_edge, Signal.rising_edge, CTUDParams.update_qu, CTUDParams.update_qd]

/-- One scan: what the edge detectors and the counter make of the tracks. -/
private theorem scan_eq {t : IntTy} (p : Profile) (e : Encoder) (a a' b : Bool) (hr : e.rise.internal.current_value = a) (hf : e.fall.internal.current_value = a)
    (hu : e.counter.internal_up.current_value = true → a = true) (hd : e.counter.internal_down.current_value = true → a = false)
    (hrange : t.InRange (e.counter.cv + if a' && !a && !b then 1 else if !a' && a && !b then -1 else 0)) :
    ∃ e', Encoder.scan t p e (a', b) = .ok e' ∧ e'.rise.internal.current_value = a' ∧ e'.fall.internal.current_value = a' ∧
      e'.counter.internal_up.current_value = (a' && !a && !b) ∧ e'.counter.internal_down.current_value = (!a' && a && !b) ∧
      e'.counter.cv = e.counter.cv + if a' && !a && !b then 1 else if !a' && a && !b then -1 else 0 := by
  have h1 : (R_TRIG { e.rise with clk := a' }).output = (a' && !a) := by
    simp only [R_TRIG, Signal.rising_edge, hr]; cases a <;> cases a' <;> rfl
  have h2 : (F_TRIG { e.fall with clk := a' }).output = (!a' && a) := by
    simp only [F_TRIG, Signal.falling_edge, hf]; cases a <;> cases a' <;> rfl
  obtain ⟨c', hc, hcv, hup, hdown⟩ := count p e.counter (a' && !a && !b) (!a' && a && !b)
    (fun h => by cases hx : e.counter.internal_up.current_value with
      | false => rfl
      | true => rw [hu hx] at h; simp at h)
    (fun h => by cases hx : e.counter.internal_down.current_value with
      | false => rfl
      | true => rw [hd hx] at h; simp at h)
    (fun h => by cases a <;> cases a' <;> simp_all) hrange
  refine ⟨⟨R_TRIG { e.rise with clk := a' }, F_TRIG { e.fall with clk := a' }, c'⟩, ?_, rfl, rfl, hup, hdown, hcv⟩
  unfold Encoder.scan R_TRIG.call F_TRIG.call
  simp only [Res.bind_ok, h1, h2]
  rw [hc]; rfl

private theorem tracks (x : Int) : (x % 4 = 0 ∧ trackA x = false ∧ trackB x = false) ∨ (x % 4 = 1 ∧ trackA x = true ∧ trackB x = false) ∨
    (x % 4 = 2 ∧ trackA x = true ∧ trackB x = true) ∨ (x % 4 = 3 ∧ trackA x = false ∧ trackB x = true) := by
  unfold trackA trackB
  have : x % 4 = 0 ∨ x % 4 = 1 ∨ x % 4 = 2 ∨ x % 4 = 3 := by omega
  rcases this with h | h | h | h <;> simp [h]

private theorem step {t : IntTy} (p : Profile) {base x y : Int} {e : Encoder} (hi : Inv base x e) (hxy : y - x ≤ 1) (hyx : x - y ≤ 1)
    (hr : t.InRange (cycles y - base)) : ∃ e', Encoder.scan t p e (trackA y, trackB y) = .ok e' ∧ Inv base y e' := by
  have change : e.counter.cv + (if trackA y && !trackA x && !trackB y then 1 else if !trackA y && trackA x && !trackB y then -1 else 0) = cycles y - base := by
    rw [hi.cv]
    unfold cycles
    rcases tracks x with ⟨h1, h2, h3⟩ | ⟨h1, h2, h3⟩ | ⟨h1, h2, h3⟩ | ⟨h1, h2, h3⟩ <;>
      rcases tracks y with ⟨h4, h5, h6⟩ | ⟨h4, h5, h6⟩ | ⟨h4, h5, h6⟩ | ⟨h4, h5, h6⟩ <;> simp only [h2, h5, h6] <;> simp <;> omega
  obtain ⟨e', h, h1, h2, h3, h4, h5⟩ := scan_eq p e (trackA x) (trackA y) (trackB y) hi.rise hi.fall hi.up hi.down (by rw [change]; exact hr)
  exact ⟨e', h, h1, h2, fun h => by rw [h3] at h; cases hy : trackA y <;> simp_all, fun h => by rw [h4] at h; cases hy : trackA y <;> simp_all, by rw [h5, change]⟩

private theorem steps {t : IntTy} (p : Profile) (base : Int) : ∀ (xs : List Int) (x : Int) (e : Encoder), Inv base x e → Slow (x :: xs) → (∀ y ∈ xs, t.InRange (cycles y - base)) →
    ∃ e', runFB (Encoder.scan t p) e (xs.map fun x => (trackA x, trackB x)) = .ok e' ∧ Inv base ((x :: xs).getLast (by simp)) e'
  | [], _, e, hi, _, _ => ⟨e, rfl, hi⟩
  | y :: xs, x, e, hi, hs, hr => by
    obtain ⟨⟨h1, h2⟩, hs'⟩ := List.isChain_cons_cons.1 hs
    obtain ⟨e1, he1, hi1⟩ := step p hi h1 h2 (hr y List.mem_cons_self)
    obtain ⟨e', he', hi'⟩ := steps p base xs y e1 hi1 hs' fun z hz => hr z (List.mem_cons_of_mem _ hz)
    exact ⟨e', by rw [List.map_cons, runFB_cons, he1, Res.bind_ok, he'], hi'⟩

/-- **C165**, exactly: if the encoder moves by a quarter of a cycle at most between two scans, the counter shows the cycles since the first scan, one more if the first scan was in the first quarter of a
cycle (A is TRUE and B is FALSE there, which the edge detector takes for an edge). -/
theorem C165_exact (t : IntTy) (p : Profile) (first : Int) (xs : List Int) (hs : Slow (first :: xs))
    (hr : ∀ x ∈ first :: xs, t.InRange (cycles x - cycles first + if first % 4 = 1 then 1 else 0)) :
    ∃ e, Encoder.at t p (first :: xs) = .ok e ∧ e.counter.cv = cycles ((first :: xs).getLast (by simp)) - cycles first + if first % 4 = 1 then 1 else 0 := by
  have h0 := hr first List.mem_cons_self
  obtain ⟨e, h, h1, h2, h3, h4, h5⟩ := scan_eq (t := t) p Encoder.fresh false (trackA first) (trackB first) rfl rfl (fun h => by cases h) (fun _ => rfl) (by
    show t.InRange (0 + _)
    rcases tracks first with ⟨h1, h2, h3⟩ | ⟨h1, h2, h3⟩ | ⟨h1, h2, h3⟩ | ⟨h1, h2, h3⟩ <;> simp [h1, h2, h3] at h0 ⊢ <;> exact h0)
  have hi : Inv (cycles first - if first % 4 = 1 then 1 else 0) first e := by
    refine ⟨h1, h2, fun h => by rw [h3] at h; cases hy : trackA first <;> simp_all, fun h => by rw [h4] at h; cases hy : trackA first <;> simp_all, ?_⟩
    rw [h5]
    show 0 + _ = _
    rcases tracks first with ⟨h1, h2, h3⟩ | ⟨h1, h2, h3⟩ | ⟨h1, h2, h3⟩ | ⟨h1, h2, h3⟩ <;> simp [h1, h2, h3] <;> omega
  obtain ⟨e', he', hi'⟩ := steps (t := t) p _ xs first e hi hs fun y hy => by
    have := hr y (List.mem_cons_of_mem _ hy)
    rwa [show cycles y - (cycles first - if first % 4 = 1 then 1 else 0) = cycles y - cycles first + if first % 4 = 1 then 1 else 0 by omega]
  refine ⟨e', ?_, ?_⟩
  · rw [Encoder.at, List.map_cons, runFB_cons, h, Res.bind_ok, he']
  · rw [hi'.cv]; omega

/-- **C165**, what holds: the counter shows the cycles since the first scan, unless that was in the first quarter of a cycle.  However often the encoder goes to and fro, nothing is lost: four times the count
is the distance from the first position up to less than a cycle. -/
theorem C165_partial (t : IntTy) (p : Profile) (first : Int) (hf : first % 4 ≠ 1) (xs : List Int) (hs : Slow (first :: xs))
    (hr : ∀ x ∈ first :: xs, t.InRange (cycles x - cycles first)) :
    ∃ e, Encoder.at t p (first :: xs) = .ok e ∧ e.counter.cv = cycles ((first :: xs).getLast (by simp)) - cycles first ∧
      let distance := (first :: xs).getLast (by simp) - first
      distance - 4 < 4 * e.counter.cv ∧ 4 * e.counter.cv < distance + 4 := by
  obtain ⟨e, he, hcv⟩ := C165_exact t p first xs hs (fun x hx => by rw [if_neg hf, Int.add_zero]; exact hr x hx)
  rw [if_neg hf, Int.add_zero] at hcv
  refine ⟨e, he, hcv, ?_⟩
  rw [hcv]
  unfold cycles
  dsimp only
  omega

/-- **C165 is false of the code**, if the encoder stands in the first quarter of a cycle when the program starts: it counts one cycle too many. -/
theorem C165_refuted (t : IntTy) (ht : CounterTy t) (p : Profile) : ¬ CountsCycles t p := by
  intro h
  obtain ⟨e, he, hcv⟩ := h 1 [] (List.isChain_singleton _) (by
    intro x hx
    cases List.mem_singleton.1 hx
    rcases ht with rfl | rfl | rfl | rfl | rfl <;> decide)
  obtain ⟨e', he', hcv'⟩ := C165_exact t p 1 [] (List.isChain_singleton _) (by
    intro x hx
    cases List.mem_singleton.1 hx
    rcases ht with rfl | rfl | rfl | rfl | rfl <;> decide)
  rw [he] at he'
  cases Res.ok.inj he'
  rw [hcv] at hcv'
  revert hcv'
  decide

/-- An encoder that moves by two quarters between two scans is not followed: a whole cycle forwards in two such steps counts nothing (unsigned counters) or one cycle backwards (signed counters). -/
theorem C165_too_fast (t : IntTy) (ht : CounterTy t) (p : Profile) :
    cycles 4 - cycles 0 = 1 ∧ ∃ e, Encoder.at t p [0, 2, 4] = .ok e ∧ e.counter.cv = if t = .u32 ∨ t = .u64 then 0 else -1 := by
  refine ⟨by decide, ?_⟩
  rcases ht with rfl | rfl | rfl | rfl | rfl <;> cases p <;> exact ⟨_, rfl, by decide⟩

/-! ### Cases -/

-- forwards, shivering at the edge of the second cycle, and on
private def trip : List Int := [1, 2, 3, 4, 5, 4, 5, 4, 5, 6, 7, 8, 9]

example : Slow (0 :: trip) := by unfold trip Slow; decide
example : ∀ x ∈ (0 : Int) :: trip, IntTy.i16.InRange (cycles x - cycles 0) := by decide
example : (match Encoder.at .i16 .debug (0 :: trip) with | .ok e => some e.counter.cv | _ => none) = some 3 := by decide
example : (match Encoder.at .i16 .debug (0 :: trip ++ [8, 7, 6, 5, 4, 3, 2, 1, 0, -1, -2, -3, -4]) with | .ok e => some e.counter.cv | _ => none) = some (-1) := by decide
example : (match Encoder.at .i16 .debug [1] with | .ok e => some e.counter.cv | _ => none) = some 1 := by decide

end Verif
