import Verif.Model.Counters
import Verif.Spec.FunctionBlocks
import Verif.Proofs.Lists
/-
C06-C10: counters.  `t` ranges over the counter types, `p` over the build profiles,
the history over all lists of inputs.
-/
namespace Verif
open Spec

/-- Bounds every counter type satisfies. -/
private theorem counter_bounds {t : IntTy} (ht : CounterTy t) : t.lo ≤ 0 ∧ 0 < t.hi := by
  rcases ht with rfl | rfl | rfl | rfl | rfl <;> decide

/-- A history splits at the last call satisfying `b`: everything up to and including that
call (nothing, if there is none), and the calls after it. This shows that the hypotheses of the
theorems below cover every history. -/
theorem exists_last_split {α : Type} (b : α → Bool) (h : List α) :
    ∃ pre post, h = pre ++ post ∧ (pre = [] ∨ ∃ pre' x, pre = pre' ++ [x] ∧ b x = true) ∧
      ∀ y ∈ post, b y = false := by
  refine snoc_induction ?_ ?_ h
  · exact ⟨[], [], rfl, .inl rfl, by simp⟩
  · rintro h c ⟨pre, post, rfl, hp, hq⟩
    cases hb : b c
    · refine ⟨pre, post ++ [c], by simp, hp, ?_⟩
      intro y hy
      rcases List.mem_append.1 hy with hy | hy
      · exact hq y hy
      · have : y = c := by simpa using hy
        rwa [this]
    · exact ⟨pre ++ post ++ [c], [], by simp, .inr ⟨_, _, rfl, hb⟩, by simp⟩

private theorem risingEdges_snoc (l : List Bool) (x : Bool) : ∀ b,
    risingEdges b (l ++ [x]) =
      risingEdges b l + (if !(l.getLast?.getD b) && x then 1 else 0) := by
  induction l with
  | nil => intro b; simp [risingEdges]
  | cons a l ih =>
    intro b
    simp only [List.cons_append, risingEdges, ih a]
    cases l <;> simp [List.getLast?_cons] <;> omega

/-! ### CTU -/

/-- The CTU instance after the history `h`. -/
abbrev ctuAfter (t : IntTy) (p : Profile) (h : List CTUIn) : Res CTUParams :=
  runFB (ctuCall t p) CTUParams.default h

/-- CU in the most recent call of `h` that had R = FALSE (FALSE if there is none): the level
an edge is measured against. -/
def ctuLevel (h : List CTUIn) : Bool :=
  (((h.filter fun x => !x.r).getLast?).map (·.cu)).getD false

private theorem ctuLevel_snoc (h : List CTUIn) (i : CTUIn) :
    ctuLevel (h ++ [i]) = if i.r then ctuLevel h else i.cu := by
  cases hr : i.r <;> simp [ctuLevel, List.filter_append, hr]

private theorem ctu_step {t : IntTy} (ht : CounterTy t) (p : Profile) (s : CTUParams) (i : CTUIn)
    (hs : t.InRange s.cv) :
    ctuCall t p s i = .ok
      { cu := i.cu, r := i.r, pv := i.pv,
        q := decide ((if i.r then 0
          else if i.cu && !s.internal.current_value then min (s.cv + 1) t.hi else s.cv) ≥ i.pv),
        cv := if i.r then 0
          else if i.cu && !s.internal.current_value then min (s.cv + 1) t.hi else s.cv,
        internal := if i.r then s.internal else ⟨i.cu⟩ } := by
  have hb := counter_bounds ht
  cases hr : i.r
  · by_cases hlt : s.cv < t.hi
    · have hin : t.InRange (s.cv + 1) := ⟨by have := hs.1; omega, by omega⟩
      have hmin : min (s.cv + 1) t.hi = s.cv + 1 := by omega
      cases hc : i.cu <;> cases hv : s.internal.current_value <;>
        simp [ctuCall, ctu, CTUParams.r_edge, Signal.rising_edge, CTUParams.inc, IntTy.arith,
          CTUParams.update_q, hr, hlt, hin, hmin, hc, hv]
    · have hmin : min (s.cv + 1) t.hi = s.cv := by have := hs.2; omega
      cases hc : i.cu <;> cases hv : s.internal.current_value <;>
        simp [ctuCall, ctu, CTUParams.r_edge, Signal.rising_edge,
          CTUParams.update_q, hr, hlt, hmin, hc, hv]
  · simp [ctuCall, ctu, CTUParams.reset, CTUParams.update_q, hr]

private theorem ctu_inv {t : IntTy} (ht : CounterTy t) (p : Profile) (h : List CTUIn) :
    ∃ s, ctuAfter t p h = .ok s ∧ t.InRange s.cv ∧ 0 ≤ s.cv ∧
      s.internal.current_value = ctuLevel h := by
  have hb := counter_bounds ht
  refine snoc_induction ?_ ?_ h
  · exact ⟨_, rfl, ⟨by simp [CTUParams.default]; omega, by simp [CTUParams.default]; omega⟩,
      by simp [CTUParams.default], rfl⟩
  · rintro h i ⟨s, hs, hr, h0, hv⟩
    refine ⟨_, by rw [ctuAfter, runFB_snoc_ok hs]; exact ctu_step ht p s i hr, ?_⟩
    simp only [ctuLevel_snoc, IntTy.InRange]
    have := hr.1; have := hr.2
    refine ⟨?_, ?_, ?_⟩
    · (repeat' split) <;> omega
    · (repeat' split) <;> omega
    · split <;> simp [hv]

private theorem ctu_edges {t : IntTy} (ht : CounterTy t) (p : Profile) (pre post : List CTUIn)
    (hpre : pre = [] ∨ ∃ pre' x, pre = pre' ++ [x] ∧ x.r = true)
    (hpost : ∀ x ∈ post, x.r = false) :
    ∃ s, ctuAfter t p (pre ++ post) = .ok s ∧ t.InRange s.cv ∧
      s.internal.current_value = (post.getLast?.map (·.cu)).getD (ctuLevel pre) ∧
      s.cv = min (risingEdges (ctuLevel pre) (post.map (·.cu)) : Int) t.hi := by
  have hb := counter_bounds ht
  revert hpost
  refine snoc_induction (P := fun post => (∀ x ∈ post, x.r = false) →
    ∃ s, ctuAfter t p (pre ++ post) = .ok s ∧ t.InRange s.cv ∧
      s.internal.current_value = (post.getLast?.map (·.cu)).getD (ctuLevel pre) ∧
      s.cv = min (risingEdges (ctuLevel pre) (post.map (·.cu)) : Int) t.hi) ?_ ?_ post
  · intro _
    have hz : min 0 t.hi = 0 := by omega
    rcases hpre with rfl | ⟨pre', x, rfl, hx⟩
    · exact ⟨_, rfl, ⟨by simp [CTUParams.default]; omega, by simp [CTUParams.default]; omega⟩,
        rfl, by simp [risingEdges, CTUParams.default, hz]⟩
    · obtain ⟨s, hs, hr, h0, hv⟩ := ctu_inv ht p pre'
      refine ⟨_, by rw [ctuAfter, List.append_nil, runFB_snoc_ok hs]
                    exact ctu_step ht p s x hr, ?_⟩
      simp only [hx, if_true, IntTy.InRange, ctuLevel_snoc]
      refine ⟨⟨by omega, by omega⟩, by simpa using hv, by simp [risingEdges, hz]⟩
  · intro post i ih hpost
    obtain ⟨s, hs, hr, hv, hcv⟩ := ih (fun x hx => hpost x (by simp [hx]))
    have hir : i.r = false := hpost i (by simp)
    refine ⟨_, by rw [ctuAfter, ← List.append_assoc, runFB_snoc_ok hs]
                  exact ctu_step ht p s i hr, ?_⟩
    simp only [hir, Bool.false_eq_true, if_false, List.map_append, List.map_cons, List.map_nil,
      risingEdges_snoc, hv, hcv, IntTy.InRange, List.getLast?_map]
    refine ⟨?_, by simp, ?_⟩
    · have := hr.1; have := hr.2
      split <;> omega
    · cases i.cu <;> cases (post.getLast?.map (·.cu)).getD (ctuLevel pre) <;>
        simp <;> omega

/-- **C06.** After any history — `pre` up to the last call with R = TRUE, `post` after it —
CV is the number of CU rising edges in `post`, capped at the largest value of the type. The
level before the first call of `post` is CU in the last call with R = FALSE. -/
theorem C06_ctu_counts_rising_edges {t : IntTy} (ht : CounterTy t) (p : Profile)
    (pre post : List CTUIn)
    (hpre : pre = [] ∨ ∃ pre' x, pre = pre' ++ [x] ∧ x.r = true)
    (hpost : ∀ x ∈ post, x.r = false) :
    ∃ s, ctuAfter t p (pre ++ post) = .ok s ∧
      s.cv = min (risingEdges (ctuLevel pre) (post.map (·.cu)) : Int) t.hi := by
  obtain ⟨s, h1, _, _, h2⟩ := ctu_edges ht p pre post hpre hpost
  exact ⟨s, h1, h2⟩

/-- The hypotheses of C06 are met by every history. -/
example (h : List CTUIn) : ∃ pre post, h = pre ++ post ∧
    (pre = [] ∨ ∃ pre' x, pre = pre' ++ [x] ∧ x.r = true) ∧ ∀ x ∈ post, x.r = false :=
  exists_last_split _ h

/-- **C07.** No history makes a CTU call panic (overflow included); CV stays in the range of
the type and, after every call, Q = (CV >= PV of that call). -/
theorem C07_ctu_q_and_no_overflow {t : IntTy} (ht : CounterTy t) (p : Profile)
    (h : List CTUIn) (i : CTUIn) :
    ∃ s, ctuAfter t p (h ++ [i]) = .ok s ∧ t.InRange s.cv ∧ (s.q = true ↔ s.cv ≥ i.pv) := by
  obtain ⟨s, hs, hr, h0, hv⟩ := ctu_inv ht p h
  obtain ⟨s', hs', hr', -, -⟩ := ctu_inv ht p (h ++ [i])
  refine ⟨s', hs', hr', ?_⟩
  rw [ctuAfter, runFB_snoc_ok hs, ctu_step ht p s i hr] at hs'
  simp only [Res.ok.injEq] at hs'
  subst hs'
  simp

/-- Saturation happens: an INT counter at 32767 that sees another edge stays there. -/
example : ctuCall .i16 .debug ⟨false, false, 0, true, 32767, ⟨false⟩⟩ ⟨true, false, 5⟩ =
    .ok ⟨true, false, 5, true, 32767, ⟨true⟩⟩ := by decide

/-! ### CTD -/

/-- The CTD instance after the history `h`. -/
abbrev ctdAfter (t : IntTy) (p : Profile) (h : List CTDIn) : Res CTDParams :=
  runFB (ctdCall t p) CTDParams.default h

/-- CD in the most recent call of `h` that had LD = FALSE (FALSE if there is none). -/
def ctdLevel (h : List CTDIn) : Bool :=
  (((h.filter fun x => !x.ld).getLast?).map (·.cd)).getD false

private theorem ctdLevel_snoc (h : List CTDIn) (i : CTDIn) :
    ctdLevel (h ++ [i]) = if i.ld then ctdLevel h else i.cd := by
  cases hr : i.ld <;> simp [ctdLevel, List.filter_append, hr]

private theorem ctd_step {t : IntTy} (ht : CounterTy t) (p : Profile) (s : CTDParams) (i : CTDIn)
    (hs : t.InRange s.cv) :
    ctdCall t p s i = .ok
      { cd := i.cd, ld := i.ld, pv := i.pv,
        q := decide ((if i.ld then i.pv
          else if i.cd && !s.internal.current_value then max (s.cv - 1) t.lo else s.cv) ≤ 0),
        cv := if i.ld then i.pv
          else if i.cd && !s.internal.current_value then max (s.cv - 1) t.lo else s.cv,
        internal := if i.ld then s.internal else ⟨i.cd⟩ } := by
  have hb := counter_bounds ht
  cases hr : i.ld
  · by_cases hlt : t.lo < s.cv
    · have hin : t.InRange (s.cv - 1) := ⟨by omega, by have := hs.2; omega⟩
      have hmin : max (s.cv - 1) t.lo = s.cv - 1 := by omega
      cases hc : i.cd <;> cases hv : s.internal.current_value <;>
        simp [ctdCall, ctd, CTDParams.r_edge, Signal.rising_edge, CTDParams.dec, IntTy.arith,
          CTDParams.update_q, hr, hlt, hin, hmin, hc, hv]
    · have hmin : max (s.cv - 1) t.lo = s.cv := by have := hs.1; omega
      cases hc : i.cd <;> cases hv : s.internal.current_value <;>
        simp [ctdCall, ctd, CTDParams.r_edge, Signal.rising_edge,
          CTDParams.update_q, hr, hlt, hmin, hc, hv]
  · simp [ctdCall, ctd, CTDParams.load, CTDParams.update_q, hr]

private theorem ctd_inv {t : IntTy} (ht : CounterTy t) (p : Profile) (h : List CTDIn)
    (hpv : ∀ x ∈ h, t.InRange x.pv) :
    ∃ s, ctdAfter t p h = .ok s ∧ t.InRange s.cv ∧
      s.internal.current_value = ctdLevel h := by
  have hb := counter_bounds ht
  revert hpv
  refine snoc_induction ?_ ?_ h
  · intro _
    exact ⟨_, rfl, ⟨by simp [CTDParams.default]; omega, by simp [CTDParams.default]; omega⟩, rfl⟩
  · intro h i ih hpv
    obtain ⟨s, hs, hr, hv⟩ := ih (fun x hx => hpv x (by simp [hx]))
    have hpi := hpv i (by simp)
    refine ⟨_, by rw [ctdAfter, runFB_snoc_ok hs]; exact ctd_step ht p s i hr, ?_⟩
    simp only [ctdLevel_snoc, IntTy.InRange]
    have := hr.1; have := hr.2; have := hpi.1; have := hpi.2
    refine ⟨?_, ?_⟩
    · (repeat' split) <;> omega
    · split <;> simp [hv]

/-- The value loaded by the last call of `h` with LD = TRUE, 0 if there is none. -/
def loadedValue (pre : List CTDIn) : Int := (pre.getLast?.map (·.pv)).getD 0

/-- **C08.** After any history — `pre` up to the last call with LD = TRUE, `post` after it —
no call has panicked, CV is the PV of that last loading call (0 if there is none) minus the
number of CD rising edges in `post`, floored at the smallest value of the type, and Q is
(CV <= 0). -/
theorem C08_ctd_counts_down {t : IntTy} (ht : CounterTy t) (p : Profile)
    (pre post : List CTDIn)
    (hpv : ∀ x ∈ pre ++ post, t.InRange x.pv)
    (hpre : pre = [] ∨ ∃ pre' x, pre = pre' ++ [x] ∧ x.ld = true)
    (hpost : ∀ x ∈ post, x.ld = false) (hne : pre ++ post ≠ []) :
    ∃ s, ctdAfter t p (pre ++ post) = .ok s ∧ t.InRange s.cv ∧
      s.cv = max (loadedValue pre - risingEdges (ctdLevel pre) (post.map (·.cd))) t.lo ∧
      (s.q = true ↔ s.cv ≤ 0) := by
  have hb := counter_bounds ht
  suffices H : ∃ s, ctdAfter t p (pre ++ post) = .ok s ∧ t.InRange s.cv ∧
      s.internal.current_value = (post.getLast?.map (·.cd)).getD (ctdLevel pre) ∧
      s.cv = max (loadedValue pre - risingEdges (ctdLevel pre) (post.map (·.cd))) t.lo ∧
      (pre ++ post ≠ [] → (s.q = true ↔ s.cv ≤ 0)) by
    obtain ⟨s, h1, h2, _, h3, h4⟩ := H
    exact ⟨s, h1, h2, h3, h4 hne⟩
  clear hne
  revert hpost hpv
  refine snoc_induction (P := fun post => (∀ x ∈ pre ++ post, t.InRange x.pv) →
    (∀ x ∈ post, x.ld = false) →
    ∃ s, ctdAfter t p (pre ++ post) = .ok s ∧ t.InRange s.cv ∧
      s.internal.current_value = (post.getLast?.map (·.cd)).getD (ctdLevel pre) ∧
      s.cv = max (loadedValue pre - risingEdges (ctdLevel pre) (post.map (·.cd))) t.lo ∧
      (pre ++ post ≠ [] → (s.q = true ↔ s.cv ≤ 0))) ?_ ?_ post
  · intro hpv _
    rcases hpre with rfl | ⟨pre', x, rfl, hx⟩
    · exact ⟨_, rfl, ⟨by simp [CTDParams.default]; omega, by simp [CTDParams.default]; omega⟩,
        rfl, by simp [risingEdges, CTDParams.default, loadedValue]; omega, by simp⟩
    · obtain ⟨s, hs, hr, hv⟩ := ctd_inv ht p pre' (fun y hy => hpv y (by simp [hy]))
      have hpx := hpv x (by simp)
      refine ⟨_, by rw [ctdAfter, List.append_nil, runFB_snoc_ok hs]
                    exact ctd_step ht p s x hr, ?_⟩
      simp only [hx, if_true, ctdLevel_snoc]
      refine ⟨hpx, by simpa using hv, ?_, by simp⟩
      have := hpx.1
      simp [risingEdges, loadedValue]; omega
  · intro post i ih hpv hpost
    obtain ⟨s, hs, hr, hv, hcv, -⟩ := ih
      (fun x hx => hpv x (by
        rcases List.mem_append.1 hx with hx | hx <;> simp [hx])) (fun x hx => hpost x (by simp [hx]))
    have hir : i.ld = false := hpost i (by simp)
    refine ⟨_, by rw [ctdAfter, ← List.append_assoc, runFB_snoc_ok hs]
                  exact ctd_step ht p s i hr, ?_⟩
    simp only [hir, Bool.false_eq_true, if_false, List.map_append, List.map_cons, List.map_nil,
      risingEdges_snoc, hv, hcv, IntTy.InRange, List.getLast?_map]
    refine ⟨?_, by simp, ?_, by simp⟩
    · have := hr.1; have := hr.2
      split <;> omega
    · cases i.cd <;> cases (post.getLast?.map (·.cd)).getD (ctdLevel pre) <;>
        simp <;> omega

/-- The hypotheses of C08 are met by every history of calls. -/
example (h : List CTDIn) : ∃ pre post, h = pre ++ post ∧
    (pre = [] ∨ ∃ pre' x, pre = pre' ++ [x] ∧ x.ld = true) ∧ ∀ x ∈ post, x.ld = false :=
  exists_last_split _ h

/-- Load 1, then two edges on a UDINT counter: the second one is absorbed by the floor 0. -/
example : ∃ s, ctdAfter .u32 .debug
    [⟨false, true, 1⟩, ⟨true, false, 0⟩, ⟨false, false, 0⟩, ⟨true, false, 0⟩] = .ok s ∧
    s.cv = 0 ∧ s.q = true := ⟨_, rfl, by decide, by decide⟩

/-! ### CTUD -/

/-- The CTUD instance after the history `h`. -/
abbrev ctudAfter (t : IntTy) (p : Profile) (h : List CTUDIn) : Res CTUDParams :=
  runFB (ctudCall t p) CTUDParams.default h

/-- What a CTUD counter is specified to hold: the levels edges are measured against and the
count. -/
structure CTUDSpec where
  up : Bool
  down : Bool
  count : Int

/-- One call of the specification: R wins over LD, LD over counting; a lone CU rising edge
adds 1, a lone CD rising edge subtracts 1, none or both change nothing; the result is moved
into the range of the type. Edges are measured between calls that count. -/
def CTUDSpec.next (t : IntTy) (s : CTUDSpec) (i : CTUDIn) : CTUDSpec :=
  if i.r then { s with count := 0 }
  else if i.ld then { s with count := i.pv }
  else
    let delta : Int := (if !s.up && i.cu then 1 else 0) - (if !s.down && i.cd then 1 else 0)
    ⟨i.cu, i.cd, clamp t.lo t.hi (s.count + delta)⟩

/-- The specification after the history `h`, starting with low inputs and count 0. -/
def CTUDSpec.after (t : IntTy) (h : List CTUDIn) : CTUDSpec :=
  h.foldl (CTUDSpec.next t) ⟨false, false, 0⟩

private theorem ctud_step {t : IntTy} (ht : CounterTy t) (p : Profile) (s : CTUDParams)
    (i : CTUDIn) (hs : t.InRange s.cv) :
    ∃ s', ctudCall t p s i = .ok s' ∧
      s'.cv = ((⟨s.internal_up.current_value, s.internal_down.current_value, s.cv⟩ :
        CTUDSpec).next t i).count ∧
      s'.internal_up.current_value =
        ((⟨s.internal_up.current_value, s.internal_down.current_value, s.cv⟩ :
        CTUDSpec).next t i).up ∧
      s'.internal_down.current_value =
        ((⟨s.internal_up.current_value, s.internal_down.current_value, s.cv⟩ :
        CTUDSpec).next t i).down ∧
      (s'.qu = true ↔ s'.cv ≥ i.pv) ∧ (s'.qd = true ↔ s'.cv ≤ 0) := by
  have hb := counter_bounds ht
  have h1 := hs.1
  have h2 := hs.2
  obtain ⟨cu, cd, r, ld, pv⟩ := i
  obtain ⟨_, _, _, _, _, _, _, cv, ⟨iu⟩, ⟨idn⟩⟩ := s
  simp only at hs h1 h2
  have hc0 : max t.lo (min t.hi cv) = cv := by omega
  cases r
  · cases ld
    · by_cases hhi : cv < t.hi <;> by_cases hlo : t.lo < cv
      · have hi1 : t.InRange (cv + 1) := ⟨by omega, by omega⟩
        have hi2 : t.InRange (cv - 1) := ⟨by omega, by omega⟩
        have hc1 : max t.lo (min t.hi (cv + 1)) = cv + 1 := by omega
        have hc2 : max t.lo (min t.hi (cv + -1)) = cv - 1 := by omega
        cases cu <;> cases cd <;> cases iu <;> cases idn <;>
          simp [ctudCall, ctud, CTUDParams.cu_r_edge, CTUDParams.cd_r_edge, Signal.rising_edge,
            CTUDParams.inc, CTUDParams.dec, IntTy.arith, CTUDParams.update_qu,
            CTUDParams.update_qd, hhi, hlo, hi1, hi2, CTUDSpec.next, clamp, hc0, hc1, hc2]
      · have hi1 : t.InRange (cv + 1) := ⟨by omega, by omega⟩
        have hc1 : max t.lo (min t.hi (cv + 1)) = cv + 1 := by omega
        have hc2 : max t.lo (min t.hi (cv + -1)) = cv := by omega
        cases cu <;> cases cd <;> cases iu <;> cases idn <;>
          simp [ctudCall, ctud, CTUDParams.cu_r_edge, CTUDParams.cd_r_edge, Signal.rising_edge,
            CTUDParams.inc, IntTy.arith, CTUDParams.update_qu,
            CTUDParams.update_qd, hhi, hlo, hi1, CTUDSpec.next, clamp, hc0, hc1, hc2]
      · have hi2 : t.InRange (cv - 1) := ⟨by omega, by omega⟩
        have hc1 : max t.lo (min t.hi (cv + 1)) = cv := by omega
        have hc2 : max t.lo (min t.hi (cv + -1)) = cv - 1 := by omega
        cases cu <;> cases cd <;> cases iu <;> cases idn <;>
          simp [ctudCall, ctud, CTUDParams.cu_r_edge, CTUDParams.cd_r_edge, Signal.rising_edge,
            CTUDParams.dec, IntTy.arith, CTUDParams.update_qu,
            CTUDParams.update_qd, hhi, hlo, hi2, CTUDSpec.next, clamp, hc0, hc1, hc2]
      · omega
    · simp [ctudCall, ctud, CTUDParams.load, CTUDParams.update_qu, CTUDParams.update_qd,
        CTUDSpec.next]
  · simp [ctudCall, ctud, CTUDParams.reset, CTUDParams.update_qu, CTUDParams.update_qd,
      CTUDSpec.next]

private theorem ctud_spec_range {t : IntTy} (ht : CounterTy t) (s : CTUDSpec) (i : CTUDIn)
    (hi : t.InRange i.pv) : t.InRange (s.next t i).count := by
  have hb := counter_bounds ht
  simp only [CTUDSpec.next, clamp, IntTy.InRange]
  have := hi.1; have := hi.2
  (repeat' split) <;> simp only [] <;> omega

private theorem ctud_refines {t : IntTy} (ht : CounterTy t) (p : Profile) (h : List CTUDIn)
    (hpv : ∀ x ∈ h, t.InRange x.pv) :
    ∃ s, ctudAfter t p h = .ok s ∧ t.InRange s.cv ∧ s.cv = (CTUDSpec.after t h).count ∧
      s.internal_up.current_value = (CTUDSpec.after t h).up ∧
      s.internal_down.current_value = (CTUDSpec.after t h).down := by
  have hb := counter_bounds ht
  revert hpv
  refine snoc_induction ?_ ?_ h
  · intro _
    exact ⟨_, rfl, ⟨by simp [CTUDParams.default]; omega, by simp [CTUDParams.default]; omega⟩,
      rfl, rfl, rfl⟩
  · intro h i ih hpv
    obtain ⟨s, hs, hr, h1, h2, h3⟩ := ih (fun x hx => hpv x (by simp [hx]))
    obtain ⟨s', hs', h1', h2', h3', -, -⟩ := ctud_step ht p s i hr
    rw [h1, h2, h3] at h1' h2' h3'
    have e : CTUDSpec.after t (h ++ [i]) = (CTUDSpec.after t h).next t i := by
      simp [CTUDSpec.after]
    rw [e]
    refine ⟨s', by rw [ctudAfter, runFB_snoc_ok hs, hs'], ?_, h1', h2', h3'⟩
    rw [h1']
    exact ctud_spec_range ht _ i (hpv i (by simp))

/-- **C09.** After any history and one more call, CTUD has not panicked, CV is in range and is
the value of the specification, QU = (CV >= PV) and QD = (CV <= 0). -/
theorem C09_ctud_net_edges {t : IntTy} (ht : CounterTy t) (p : Profile)
    (h : List CTUDIn) (i : CTUDIn) (hpv : ∀ x ∈ h ++ [i], t.InRange x.pv) :
    ∃ s, ctudAfter t p (h ++ [i]) = .ok s ∧ t.InRange s.cv ∧
      s.cv = (CTUDSpec.after t (h ++ [i])).count ∧
      (s.qu = true ↔ s.cv ≥ i.pv) ∧ (s.qd = true ↔ s.cv ≤ 0) := by
  obtain ⟨s, hs, hr, h1, h2, h3⟩ := ctud_refines ht p h (fun x hx => hpv x (by simp [hx]))
  obtain ⟨s', hs', h1', h2', h3', hqu, hqd⟩ := ctud_step ht p s i hr
  obtain ⟨s'', hs'', hr'', h1'', -, -⟩ := ctud_refines ht p (h ++ [i]) hpv
  have : s'' = s' := by
    rw [ctudAfter, runFB_snoc_ok hs, hs'] at hs''
    simpa using hs''.symm
  subst this
  exact ⟨s'', hs'', hr'', h1'', hqu, hqd⟩

/-- R and LD together: reset wins. Both edges at once: no change. -/
example : (CTUDSpec.after .i16 [⟨false, false, true, true, 7⟩]).count = 0 ∧
    (CTUDSpec.after .i16 [⟨false, false, false, true, 7⟩, ⟨true, true, false, false, 7⟩]).count = 7 ∧
    (CTUDSpec.after .i16 [⟨false, false, false, true, 7⟩, ⟨true, false, false, false, 7⟩]).count = 8 := by
  decide

/-! ### C10: edges during reset or load -/

/-- The claim of C10 for CTU: an edge of CU in a call with R = TRUE (`x`) is not counted by the
next call (`y`), which has R = FALSE and still CU = TRUE. -/
def EdgeDuringResetIsDiscarded (t : IntTy) (p : Profile) : Prop :=
  ∀ (h : List CTUIn) (x y : CTUIn), x.r = true → x.cu = true → y.r = false → y.cu = true →
    ∃ s s', ctuAfter t p (h ++ [x]) = .ok s ∧ ctuAfter t p (h ++ [x, y]) = .ok s' ∧
      s'.cv = s.cv

/-- **C10 is false** for every counter type: after a first call with CU and R TRUE, the call that
releases R counts 1. -/
theorem C10_refuted {t : IntTy} (ht : CounterTy t) (p : Profile) :
    ¬ EdgeDuringResetIsDiscarded t p := by
  intro H
  obtain ⟨s, s', h1, h2, h3⟩ := H [] ⟨true, true, 0⟩ ⟨true, false, 0⟩ rfl rfl rfl rfl
  rcases ht with rfl | rfl | rfl | rfl | rfl <;> cases p <;>
    simp [runFB, ctuCall, ctu, CTUParams.default, CTUParams.reset, CTUParams.update_q,
      CTUParams.r_edge, Signal.rising_edge, Signal.default, CTUParams.inc, IntTy.arith, IntTy.InRange,
      IntTy.lo, IntTy.hi, IntTy.i16, IntTy.i32, IntTy.u32, IntTy.i64, IntTy.u64] at h1 h2 <;>
    (subst h1; subst h2; simp at h3)

/-- **C10, what holds.** With CU TRUE in the call that releases R, CV becomes 1 if CU was FALSE in
the last call with R = FALSE before the reset (so the edge during the reset is counted late), and
stays 0 otherwise (the edge was counted before the reset). -/
theorem C10_partial {t : IntTy} (ht : CounterTy t) (p : Profile)
    (h : List CTUIn) (x y : CTUIn) (hx : x.r = true) (hy : y.r = false) (hyc : y.cu = true) :
    ∃ s s', ctuAfter t p (h ++ [x]) = .ok s ∧ ctuAfter t p (h ++ [x, y]) = .ok s' ∧
      s.cv = 0 ∧ s'.cv = (if ctuLevel h then 0 else 1) := by
  obtain ⟨s, hs, e⟩ := C06_ctu_counts_rising_edges ht p (h ++ [x]) [] (.inr ⟨_, _, rfl, hx⟩)
    (by simp)
  obtain ⟨s', hs', e'⟩ := C06_ctu_counts_rising_edges ht p (h ++ [x]) [y] (.inr ⟨_, _, rfl, hx⟩)
    (by simp [hy])
  have hb := counter_bounds ht
  refine ⟨s, s', by simpa using hs, by simpa using hs', ?_, ?_⟩
  · rw [e]; simp [risingEdges]; omega
  · rw [e', ctuLevel_snoc]
    simp only [hx, if_true, List.map_cons, hyc, List.map_nil, risingEdges]
    cases ctuLevel h <;> simp <;> omega

/-- **C10, what holds for CTD.** With CD TRUE in the call that releases LD, CV is one less than
the loaded value (floored) if CD was FALSE in the last call with LD = FALSE, and the loaded value
otherwise. -/
theorem C10_partial_ctd {t : IntTy} (ht : CounterTy t) (p : Profile)
    (h : List CTDIn) (x y : CTDIn) (hpv : ∀ z ∈ h ++ [x, y], t.InRange z.pv)
    (hx : x.ld = true) (hy : y.ld = false) (hyc : y.cd = true) :
    ∃ s s', ctdAfter t p (h ++ [x]) = .ok s ∧ ctdAfter t p (h ++ [x, y]) = .ok s' ∧
      s.cv = x.pv ∧ s'.cv = (if ctdLevel h then x.pv else max (x.pv - 1) t.lo) := by
  have hpx := hpv x (by simp)
  obtain ⟨s, hs, -, e, -⟩ := C08_ctd_counts_down ht p (h ++ [x]) []
    (fun z hz => hpv z (by simp at hz; simp; rcases hz with hz | hz <;> simp [hz]))
    (.inr ⟨_, _, rfl, hx⟩) (by simp) (by simp)
  obtain ⟨s', hs', -, e', -⟩ := C08_ctd_counts_down ht p (h ++ [x]) [y]
    (by simpa using hpv) (.inr ⟨_, _, rfl, hx⟩) (by simp [hy]) (by simp)
  refine ⟨s, s', by simpa using hs, by simpa using hs', ?_, ?_⟩
  · rw [e]; have := hpx.1; simp [risingEdges, loadedValue]; omega
  · rw [e', ctdLevel_snoc]
    have := hpx.1
    simp only [hx, if_true, List.map_cons, hyc, List.map_nil, risingEdges]
    cases ctdLevel h <;> simp [loadedValue] <;> omega

/-- **C10 is false for CTD**: load 5 with CD rising in the same call, then hold CD: CV is 4. -/
theorem C10_refuted_ctd : ∃ s s',
    ctdAfter .i16 .debug [⟨true, true, 5⟩] = .ok s ∧
    ctdAfter .i16 .debug [⟨true, true, 5⟩, ⟨true, false, 5⟩] = .ok s' ∧ s.cv = 5 ∧ s'.cv = 4 :=
  ⟨_, _, rfl, rfl, by decide, by decide⟩

/-- **C10 is false for CTUD**, with R and with LD. -/
theorem C10_refuted_ctud : ∃ s s',
    ctudAfter .i16 .debug [⟨true, false, true, false, 5⟩, ⟨true, false, false, false, 5⟩] = .ok s ∧
    ctudAfter .i16 .debug [⟨false, true, false, true, 5⟩, ⟨false, true, false, false, 5⟩] = .ok s' ∧
    s.cv = 1 ∧ s'.cv = 4 :=
  ⟨_, _, rfl, rfl, by decide, by decide⟩

/-- The input `sel` in the last call with neither R nor LD. -/
def ctudLast (sel : CTUDIn → Bool) (h : List CTUDIn) : Bool :=
  ((h.filter fun i => !i.r && !i.ld).getLast?.map sel).getD false

private theorem ctud_last_spec (t : IntTy) (h : List CTUDIn) :
    (CTUDSpec.after t h).up = ctudLast (·.cu) h ∧ (CTUDSpec.after t h).down = ctudLast (·.cd) h := by
  refine snoc_induction ?_ ?_ h
  · exact ⟨rfl, rfl⟩
  · intro h i ih
    have e : CTUDSpec.after t (h ++ [i]) = (CTUDSpec.after t h).next t i := by simp [CTUDSpec.after]
    rw [e]
    obtain ⟨cu, cd, r, ld, pv⟩ := i
    cases r <;> cases ld <;> simp [CTUDSpec.next, ctudLast] at ih ⊢ <;> exact ih

/-- **C10, what holds for CTUD.** The call `x` resets or loads, the call `y` does neither. `y` counts up iff CU is TRUE now and was FALSE
in the last call with neither R nor LD before `x`, and down iff the same holds for CD; both together cancel. What CU and CD were during
`x` has no influence. -/
theorem C10_partial_ctud {t : IntTy} (ht : CounterTy t) (p : Profile) (h : List CTUDIn) (x y : CTUDIn)
    (hpv : ∀ z ∈ h ++ [x, y], t.InRange z.pv) (hx : x.r = true ∨ x.ld = true) (hy : y.r = false) (hyl : y.ld = false) :
    ∃ s s', ctudAfter t p (h ++ [x]) = .ok s ∧ ctudAfter t p (h ++ [x, y]) = .ok s' ∧
      s.cv = (if x.r then 0 else x.pv) ∧
      s'.cv = clamp t.lo t.hi (s.cv + (if y.cu = true ∧ ctudLast (·.cu) h = false then 1 else 0)
        - (if y.cd = true ∧ ctudLast (·.cd) h = false then 1 else 0)) := by
  obtain ⟨s, hs, -, h1, -, -⟩ := ctud_refines ht p (h ++ [x]) (fun z hz => hpv z (by simp at hz ⊢; rcases hz with hz | hz <;> simp [hz]))
  obtain ⟨s', hs', -, h1', -, -⟩ := ctud_refines ht p (h ++ [x] ++ [y]) (by simpa using hpv)
  have e : ∀ h i, CTUDSpec.after t (h ++ [i]) = (CTUDSpec.after t h).next t i := by simp [CTUDSpec.after]
  obtain ⟨l1, l2⟩ := ctud_last_spec t h
  refine ⟨s, s', hs, by simpa using hs', ?_, ?_⟩
  · rw [h1, e]
    rcases hx with hx | hx <;> cases hr : x.r <;> simp_all [CTUDSpec.next]
  · rw [h1', h1, e, e]
    rw [← l1, ← l2]
    generalize CTUDSpec.after t h = q
    obtain ⟨u, d, c⟩ := q
    obtain ⟨a1, a2, a3, a4, a5⟩ := x
    obtain ⟨b1, b2, b3, b4, b5⟩ := y
    simp only at hx hy hyl
    subst hy hyl
    clear hs hs' h1 h1' l1 l2 e hpv
    cases a3 <;> cases a4 <;> first | (simp at hx; done) |
      (cases b1 <;> cases b2 <;> cases u <;> cases d <;> simp [CTUDSpec.next, Int.sub_eq_add_neg, Int.add_assoc])

example : ctudLast (·.cu) [⟨true, false, false, false, 3⟩, ⟨false, false, true, false, 3⟩] = true := by decide

example : ctuLevel [⟨true, false, 3⟩] = true ∧ ctuLevel [⟨true, true, 3⟩] = false := by decide

end Verif
