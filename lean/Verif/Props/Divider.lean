import Verif.Props.Counters
import Verif.Props.Scan
/-
C118: a counter that resets itself, `ctu(CU := x, R := ctu.Q, PV := N)`, gives one pulse in every N edges.
-/
namespace Verif
open Spec

namespace Spec

/-- Whenever the signal goes to FALSE it stays FALSE for at least two scans. -/
def LongGaps (h : List Bool) : Prop := ∀ a b, h ≠ a ++ [true, false, true] ++ b

/-- The last scan of `h ++ [x]` has a rising edge, and the number of rising edges so far is a multiple of `N`. -/
def EveryNth (N : Int) (h : List Bool) (x : Bool) : Prop :=
  risingEdges false (h ++ [x]) = risingEdges false h + 1 ∧ N ∣ (risingEdges false (h ++ [x]) : Int)

end Spec

/-- One scan of the program `ctu(CU := x, R := ctu.Q, PV := N)` (a call of `CTU`, src/counters.rs:37-47). -/
def divider (t : IntTy) (p : Profile) (N : Int) (s : CTUParams) (x : Bool) : Res CTUParams := ctuCall t p s ⟨x, s.q, N⟩

/-- `ctu.Q` after the scans `h`, or how the program ended. -/
def divided (t : IntTy) (p : Profile) (N : Int) (h : List Bool) : Res Bool :=
  outputs (divider t p N) CTUParams.default (·.q) h

/-- The program gives a pulse in every scan with an `N`-th edge, and only there. -/
def DividesBy (t : IntTy) (p : Profile) (N : Int) (h : List Bool) : Prop :=
  ∀ a x b, h = a ++ x :: b → ∃ q, divided t p N (a ++ [x]) = .ok q ∧ (q = true ↔ EveryNth N a x)

/-- **C118 is false of the code** when the signal is FALSE for one scan only: every edge is the first of one, but the second one
falls into the scan after the reset and is lost. -/
theorem C118_refuted (p : Profile) : ¬ ∀ h, DividesBy .i16 p 1 h := by
  intro H
  obtain ⟨q, hq, h⟩ := H [true, false, true] [true, false] true [] rfl
  have : divided .i16 p 1 [true, false, true] = .ok false := by cases p <;> decide
  rw [show [true, false] ++ [true] = [true, false, true] from rfl, this] at hq
  obtain rfl := Res.ok.inj hq
  exact absurd (h.2 ⟨by decide, by decide⟩) (by decide)

theorem edges_snoc : ∀ (h : List Bool) (b x : Bool), risingEdges b (h ++ [x]) =
    risingEdges b h + if !((h.getLast?).getD b) && x then 1 else 0
  | [], b, x => by simp [risingEdges]
  | y :: h, b, x => by
    rw [List.cons_append, risingEdges, edges_snoc h y x, risingEdges, Nat.add_assoc]
    congr 3
    cases h with
    | nil => rfl
    | cons z h => simp [List.getLast?_cons_cons]; cases hz : (z :: h).getLast? with
      | none => simp at hz
      | some w => simp

/-- Normal operation, the scan of a pulse, and the scan after it if the signal is FALSE by then. -/
private def DivInv (N : Int) (h : List Bool) (s : CTUParams) : Prop :=
  (s.q = false ∧ s.cv = (risingEdges false h : Int) % N ∧ s.internal.current_value = (h.getLast?).getD false) ∨
  (s.q = true ∧ N ∣ (risingEdges false h : Int) ∧ s.internal.current_value = true ∧ ∃ a, h = a ++ [true]) ∨
  (s.q = false ∧ s.cv = 0 ∧ N ∣ (risingEdges false h : Int) ∧ s.internal.current_value = true ∧ ∃ a, h = a ++ [true, false])

private theorem mod_succ {N E : Int} (hN : 1 ≤ N) :
    (E % N + 1 = N ∧ N ∣ E + 1) ∨ (E % N + 1 < N ∧ (E + 1) % N = E % N + 1 ∧ ¬ N ∣ E + 1) := by
  have h1 := Int.emod_nonneg E (show N ≠ 0 by omega)
  have h2 := Int.emod_lt_of_pos E (show 0 < N by omega)
  have h3 := Int.mul_ediv_add_emod E N
  rcases (show E % N + 1 < N ∨ N ≤ E % N + 1 by omega) with h | h
  · right
    have h4 : (E + 1) % N = E % N + 1 := by
      rw [Int.add_emod]
      by_cases hN1 : N = 1
      · omega
      · rw [Int.emod_eq_of_lt (a := 1) (by omega) (by omega), Int.emod_eq_of_lt (by omega) h]
    refine ⟨h, h4, fun hd => ?_⟩
    have := Int.emod_eq_zero_of_dvd hd
    omega
  · left
    refine ⟨by omega, ⟨E / N + 1, ?_⟩⟩
    rw [Int.mul_add, Int.mul_one]; omega

private theorem div_step {t : IntTy} {p : Profile} {N : Int} (hN : 1 ≤ N) (hr : t.InRange N) (hlo : t.lo ≤ 0) {h : List Bool} {s : CTUParams}
    (hi : DivInv N h s) (x : Bool) (hg : LongGaps (h ++ [x])) :
    ∃ s', divider t p N s x = .ok s' ∧ DivInv N (h ++ [x]) s' ∧ (s'.q = true ↔ EveryNth N h x) := by
  obtain ⟨cu, r, pv, q, cv, ⟨e⟩⟩ := s
  unfold EveryNth
  have hs := edges_snoc h false x
  rcases hi with ⟨h1, h2, h3⟩ | ⟨h1, h2, h3, a, h4⟩ | ⟨h1, h2, h3, h4, a, h5⟩
  · simp only at h1 h2 h3
    subst h1
    have hb1 := Int.emod_nonneg (risingEdges false h : Int) (show N ≠ 0 by omega)
    have hb2 := Int.emod_lt_of_pos (risingEdges false h : Int) (show 0 < N by omega)
    rw [divider, ctu_run]
    simp only
    rw [← h3] at hs
    have hu : (x && (e ^^ x)) = (!e && x) := by cases e <;> cases x <;> rfl
    rw [hu]
    by_cases hue : (!e && x) = true
    · rw [hue, if_pos rfl] at hs
      have hx : x = true := by cases x <;> simp at hue ⊢
      rw [hue, Bool.true_and, if_pos (by have := hr.2; simp; omega)]
      have hin : t.InRange (cv + 1) := ⟨by omega, by have := hr.2; omega⟩
      rw [CTUParams.inc]
      simp only [IntTy.arith, hin, if_true, Res.bind_ok]
      refine ⟨_, rfl, ?_, ?_⟩
      · rcases mod_succ (E := (risingEdges false h : Int)) hN with ⟨g1, g2⟩ | ⟨g1, g2, g3⟩
        · right; left
          rw [hs, hx]
          refine ⟨by simp [CTUParams.update_q]; omega, g2, rfl, h, rfl⟩
        · left
          rw [hs]
          refine ⟨by simp [CTUParams.update_q]; omega, ?_, by simp [CTUParams.update_q]⟩
          simp only [CTUParams.update_q]
          rw [h2, ← g2]; rfl
      · rw [hs]
        rcases mod_succ (E := (risingEdges false h : Int)) hN with ⟨g1, g2⟩ | ⟨g1, g2, g3⟩
        · exact ⟨fun _ => ⟨rfl, g2⟩, fun _ => by simp [CTUParams.update_q]; omega⟩
        · constructor
          · intro hq; simp [CTUParams.update_q] at hq; omega
          · intro hq; exact absurd hq.2 g3
    · rw [if_neg hue] at hs
      rw [Bool.eq_false_iff.2 hue, Bool.false_and, if_neg (by simp)]
      refine ⟨_, rfl, ?_, ?_⟩
      · left
        rw [hs]
        exact ⟨by simp [CTUParams.update_q]; omega, h2, by simp [CTUParams.update_q]⟩
      · rw [hs]
        constructor
        · intro hq; simp [CTUParams.update_q] at hq; omega
        · intro hq; omega
  · simp only at h1 h3
    subst h1 h3
    subst h4
    have hs' : risingEdges false (a ++ [true] ++ [x]) = risingEdges false (a ++ [true]) := by rw [hs]; simp
    refine ⟨CTUParams.update_q ⟨x, true, N, true, 0, ⟨true⟩⟩, rfl, ?_, ?_⟩
    · cases x
      · right; right
        rw [hs']
        refine ⟨by simp [CTUParams.update_q]; omega, rfl, h2, rfl, a, by simp⟩
      · left
        rw [hs']
        refine ⟨by simp [CTUParams.update_q]; omega, ?_, by simp [CTUParams.update_q]⟩
        show (0 : Int) = _
        rw [Int.emod_eq_zero_of_dvd h2]
    · rw [hs']
      constructor
      · intro hq; simp [CTUParams.update_q] at hq; omega
      · intro hq; omega
  · simp only at h1 h2 h4
    subst h1 h2 h4
    subst h5
    cases x
    · have hs' : risingEdges false (a ++ [true, false] ++ [false]) = risingEdges false (a ++ [true, false]) := by rw [hs]; simp
      refine ⟨CTUParams.update_q ⟨false, false, N, false, 0, ⟨false⟩⟩, rfl, ?_, ?_⟩
      · left
        rw [hs']
        refine ⟨by simp [CTUParams.update_q]; omega, ?_, by simp [CTUParams.update_q]⟩
        show (0 : Int) = _
        rw [Int.emod_eq_zero_of_dvd h3]
      · rw [hs']
        constructor
        · intro hq; simp [CTUParams.update_q] at hq; omega
        · intro hq; omega
    · exact (hg a [] (by simp)).elim

/-- **C118**: the self-resetting counter never aborts and is TRUE exactly in the scans with the `N`-th, `2·N`-th, ... edge, if the signal
stays FALSE for at least two scans whenever it goes to FALSE.  (The general claim is false, see `C118_refuted`.) -/
theorem C118_partial {t : IntTy} (ht : CounterTy t) (p : Profile) (N : Int) (hN : 1 ≤ N) (hr : t.InRange N) (h : List Bool)
    (hg : LongGaps h) : DividesBy t p N h := by
  have hlo : t.lo ≤ 0 := by rcases ht with rfl | rfl | rfl | rfl | rfl <;> decide
  have inv : ∀ a : List Bool, LongGaps a → ∃ s, runFB (divider t p N) CTUParams.default a = .ok s ∧ DivInv N a s := by
    intro a
    refine snoc_induction ?_ ?_ a
    · intro _
      exact ⟨_, rfl, .inl ⟨rfl, by simp [CTUParams.default, risingEdges], rfl⟩⟩
    · intro a x ih ha
      obtain ⟨s, e, hi⟩ := ih fun c d hcd => ha c (d ++ [x]) (by rw [hcd]; simp)
      obtain ⟨s', e', hi', -⟩ := div_step (p := p) hN hr hlo hi x ha
      exact ⟨s', by rw [runFB_snoc_ok e, e'], hi'⟩
  rintro a x b rfl
  have hax : LongGaps (a ++ [x]) := fun c d hcd => hg c (d ++ b) (by
    rw [show a ++ x :: b = (a ++ [x]) ++ b by simp, hcd]; simp)
  obtain ⟨s, e, hi⟩ := inv a fun c d hcd => hax c (d ++ [x]) (by rw [hcd]; simp)
  obtain ⟨s', e', -, hq⟩ := div_step (p := p) hN hr hlo hi x hax
  refine ⟨s'.q, ?_, hq⟩
  unfold divided outputs
  rw [runFB_snoc_ok e, e']
  rfl

/-- A divider by two: the 2nd and the 4th edge give a pulse. -/
example : LongGaps [true, false, false, true, true, false, false, true, false, false, true] ∧
    divided .i16 .debug 2 [true] = .ok false ∧ divided .i16 .debug 2 [true, false, false, true] = .ok true ∧
    divided .i16 .debug 2 [true, false, false, true, true] = .ok false ∧
    divided .i16 .debug 2 [true, false, false, true, true, false, false, true] = .ok false ∧
    divided .i16 .debug 2 [true, false, false, true, true, false, false, true, false, false, true] = .ok true := by
  refine ⟨?_, by decide⟩
  intro a b e
  match a, e with
  | [], e => simp at e
  | [_], e => simp at e
  | [_, _], e => simp at e
  | [_, _, _], e => simp at e
  | [_, _, _, _], e => simp at e
  | [_, _, _, _, _], e => simp at e
  | [_, _, _, _, _, _], e => simp at e
  | [_, _, _, _, _, _, _], e => simp at e
  | [_, _, _, _, _, _, _, _], e => simp at e
  | _ :: _ :: _ :: _ :: _ :: _ :: _ :: _ :: _ :: l, e =>
    have := congrArg List.length e
    simp only [List.length_append, List.length_cons, List.length_nil] at this
    omega

/-! ### Signals of any form -/

/-- One scan without reset. -/
private theorem div_one {t : IntTy} {p : Profile} {N : Int} (hr : t.InRange N) (hlo : t.lo ≤ 0) {s : CTUParams} (hq : s.q = false)
    (h0 : 0 ≤ s.cv) (hlt : s.cv < N) (x : Bool) :
    ∃ s', divider t p N s x = .ok s' ∧ s'.internal.current_value = x ∧
      s'.cv = s.cv + (if !s.internal.current_value && x then 1 else 0) ∧ s'.q = decide (N ≤ s'.cv) := by
  obtain ⟨cu, r, pv, q, cv, ⟨e⟩⟩ := s
  simp only at hq h0 hlt ⊢
  subst hq
  rw [divider, ctu_run]
  simp only
  have hu : (x && (e ^^ x)) = (!e && x) := by cases e <;> cases x <;> rfl
  rw [hu]
  by_cases hue : (!e && x) = true
  · rw [hue, Bool.true_and, if_pos (by have := hr.2; simp; omega)]
    have hin : t.InRange (cv + 1) := ⟨by omega, by have := hr.2; omega⟩
    rw [CTUParams.inc]
    simp only [IntTy.arith, hin, if_true, Res.bind_ok]
    exact ⟨_, rfl, rfl, rfl, rfl⟩
  · rw [Bool.eq_false_iff.2 hue, Bool.false_and, if_neg (by simp)]
    refine ⟨_, rfl, rfl, ?_, rfl⟩
    simp [CTUParams.update_q]

/-- The scan after a pulse: the counter starts again, and the signal of this scan is not looked at. -/
private theorem div_reset {t : IntTy} {p : Profile} {N : Int} (hN : 1 ≤ N) {s : CTUParams} (hq : s.q = true) (x : Bool) :
    ∃ s', divider t p N s x = .ok s' ∧ s'.internal = s.internal ∧ s'.cv = 0 ∧ s'.q = false := by
  obtain ⟨cu, r, pv, q, cv, ⟨e⟩⟩ := s
  simp only at hq
  subst hq
  exact ⟨CTUParams.update_q ⟨x, true, N, true, 0, ⟨e⟩⟩, rfl, rfl, rfl, by simp [CTUParams.update_q]; omega⟩

/-- A round of counting, from the state with the count 0 to the scan with the `N`-th edge. -/
private theorem div_round {t : IntTy} {p : Profile} {N : Int} (hr : t.InRange N) (hlo : t.lo ≤ 0) : ∀ (r : List Bool)
    (s : CTUParams), s.q = false → 0 ≤ s.cv → s.cv + risingEdges s.internal.current_value r < N → s.cv < N →
    ∃ s', runFB (divider t p N) s r = .ok s' ∧ s'.q = false ∧ s'.cv = s.cv + risingEdges s.internal.current_value r ∧
      s'.internal.current_value = (r.getLast?).getD s.internal.current_value := by
  intro r
  induction r with
  | nil => intro s hq _ _ _; exact ⟨s, rfl, hq, by simp [risingEdges], rfl⟩
  | cons x r ih =>
    intro s hq h0 hE hlt
    obtain ⟨s', e, hm, hcv, hq'⟩ := div_one (p := p) hr hlo hq h0 hlt x
    rw [risingEdges] at hE ⊢
    have hs : 0 ≤ s'.cv ∧ s'.cv < N ∧ s'.cv + risingEdges x r < N := by
      by_cases hu : (!s.internal.current_value && x) = true
      · rw [if_pos hu] at hcv hE; push_cast at hE; omega
      · rw [if_neg hu] at hcv hE; push_cast at hE; omega
    obtain ⟨s'', e', hq'', hcv'', hm''⟩ := ih s' (by rw [hq']; simp; omega) hs.1 (by rw [hm]; exact hs.2.2) hs.2.1
    refine ⟨s'', ?_, hq'', ?_, ?_⟩
    · rw [runFB, List.foldlM_cons, e]; exact e'
    · rw [hcv'', hcv, hm]; push_cast; split <;> simp <;> omega
    · rw [hm'', hm]
      cases r with
      | nil => rfl
      | cons z r => simp [List.getLast?_cons_cons]; cases hz : (z :: r).getLast? with
        | none => simp at hz
        | some w => simp

/-- The last scan of a round. -/
private theorem div_round_snoc {t : IntTy} {p : Profile} {N : Int} (hN : 1 ≤ N) (hr : t.InRange N) (hlo : t.lo ≤ 0) (r : List Bool)
    (y : Bool) (s : CTUParams) (hq : s.q = false) (h0 : s.cv = 0) (hE : (risingEdges s.internal.current_value r : Int) < N) :
    ∃ s', runFB (divider t p N) s (r ++ [y]) = .ok s' ∧
      s'.q = decide (N ≤ risingEdges s.internal.current_value (r ++ [y])) := by
  obtain ⟨s', e, hq', hcv, hm⟩ := div_round (p := p) hr hlo r s hq (by omega) (by omega) (by omega)
  obtain ⟨s'', e', _, hcv', hq''⟩ := div_one (p := p) hr hlo hq' (by omega) (by omega) y
  refine ⟨s'', by rw [runFB_snoc_ok e, e'], ?_⟩
  rw [hq'', hcv', edges_snoc, hcv, hm, h0]
  congr 2
  push_cast
  split <;> simp

/-- In every scan of the program: the counter is below `N` without a pulse, or there is a pulse and the signal is TRUE. -/
private theorem div_inv {t : IntTy} {p : Profile} {N : Int} (hN : 1 ≤ N) (hr : t.InRange N) (hlo : t.lo ≤ 0) (h : List Bool) :
    ∃ s, runFB (divider t p N) CTUParams.default h = .ok s ∧
      (s.q = false ∧ 0 ≤ s.cv ∧ s.cv < N ∨ s.q = true ∧ s.internal.current_value = true) := by
  refine snoc_induction ?_ ?_ h
  · exact ⟨_, rfl, .inl ⟨rfl, by decide, by show (0 : Int) < N; omega⟩⟩
  · rintro h x ⟨s, e, hs⟩
    rw [runFB_snoc_ok e]
    rcases hs with ⟨h1, h2, h3⟩ | ⟨h1, h2⟩
    · obtain ⟨s', e', hm, hcv, hq⟩ := div_one (p := p) hr hlo h1 h2 h3 x
      refine ⟨s', e', ?_⟩
      by_cases hu : (!s.internal.current_value && x) = true
      · rw [if_pos hu] at hcv
        by_cases hN' : N ≤ s'.cv
        · exact .inr ⟨by rw [hq]; simpa using hN', by rw [hm]; cases x <;> simp at hu ⊢⟩
        · exact .inl ⟨by rw [hq]; simpa using hN', by omega, by omega⟩
      · rw [if_neg hu] at hcv
        exact .inl ⟨by rw [hq]; simp; omega, by omega, by omega⟩
    · obtain ⟨s', e', hm, hcv, hq⟩ := div_reset (t := t) (p := p) hN h1 x
      exact ⟨s', e', .inl ⟨hq, by omega, by omega⟩⟩

/-- **C118, what holds for every signal.**  From the beginning, the output is FALSE until the scan with the `N`-th edge and TRUE in
that scan.  After a scan with a pulse, the output is FALSE in the next scan `x`, whose signal is not looked at; then counting starts
again as if the signal had been TRUE, and the output is FALSE until the scan with the `N`-th edge after that and TRUE in it. -/
theorem C118_any_signal_partial {t : IntTy} (ht : CounterTy t) (p : Profile) (N : Int) (hN : 1 ≤ N) (hr : t.InRange N) :
    (∀ r y, (risingEdges false r : Int) < N →
      divided t p N (r ++ [y]) = .ok (decide ((risingEdges false (r ++ [y]) : Int) = N))) ∧
    (∀ h x, divided t p N h = .ok true → divided t p N (h ++ [x]) = .ok false ∧
      ∀ r y, (risingEdges true r : Int) < N →
        divided t p N (h ++ x :: r ++ [y]) = .ok (decide ((risingEdges true (r ++ [y]) : Int) = N))) := by
  have hlo : t.lo ≤ 0 := by rcases ht with rfl | rfl | rfl | rfl | rfl <;> decide
  have key : ∀ (b : Bool) (r : List Bool) (y : Bool), (risingEdges b r : Int) < N →
      (N ≤ risingEdges b (r ++ [y]) ↔ (risingEdges b (r ++ [y]) : Int) = N) := by
    intro b r y hlt
    rw [edges_snoc]
    split <;> push_cast <;> omega
  refine ⟨fun r y hlt => ?_, fun h x hh => ?_⟩
  · obtain ⟨s, e, hq⟩ := div_round_snoc (p := p) hN hr hlo r y CTUParams.default rfl rfl hlt
    rw [divided, outputs, e, Res.bind_ok, hq]
    show Res.ok (decide (N ≤ (risingEdges false (r ++ [y]) : Int))) = _
    rw [decide_eq_decide.2 (key false r y hlt)]
  · obtain ⟨s, e, hs⟩ := div_inv (p := p) hN hr hlo h
    rw [divided, outputs, e, Res.bind_ok] at hh
    have hq : s.q = true := Res.ok.inj hh
    have hm : s.internal.current_value = true := by
      rcases hs with hs | hs
      · rw [hq] at hs; cases hs.1
      · exact hs.2
    obtain ⟨s', e', hm', hcv, hq'⟩ := div_reset (t := t) (p := p) hN hq x
    have e2 : runFB (divider t p N) CTUParams.default (h ++ [x]) = .ok s' := by rw [runFB_snoc_ok e, e']
    refine ⟨by rw [divided, outputs, e2, Res.bind_ok, hq'], fun r y hlt => ?_⟩
    obtain ⟨s'', e'', hq''⟩ := div_round_snoc (p := p) hN hr hlo r y s' hq' hcv (by rw [hm', hm]; exact hlt)
    rw [hm', hm] at hq''
    have e3 : h ++ x :: r ++ [y] = (h ++ [x]) ++ (r ++ [y]) := by simp
    have e4 : runFB (divider t p N) CTUParams.default ((h ++ [x]) ++ (r ++ [y])) = .ok s'' := by
      rw [runFB, List.foldlM_append]
      change (runFB (divider t p N) CTUParams.default (h ++ [x]) >>= fun s => runFB (divider t p N) s (r ++ [y])) = _
      rw [e2]; exact e''
    rw [e3, divided, outputs, e4, Res.bind_ok, hq'', decide_eq_decide.2 (key true r y hlt)]

/-- The edge in the scan after the pulse is lost, the one after that is counted. -/
example : divided .i16 .debug 1 [true] = .ok true ∧ divided .i16 .debug 1 [true, false, true] = .ok false ∧
    divided .i16 .debug 1 [true, false, true, false, true] = .ok true := by decide

end Verif
