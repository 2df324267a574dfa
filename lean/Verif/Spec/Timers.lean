import Verif.Model.Timers
/-
Vocabulary for the statements about timers.  Only the input lists are used.
-/
namespace Verif.Spec

/-- PT is a valid, non-negative TIME in every call. -/
def PresetOk (h : List TimerIn) : Prop := ∀ x ∈ h, 0 ≤ x.pt ∧ x.pt < 2 ^ 63

/-- All clock readings in the order in which they are taken. -/
def readings (h : List TimerIn) : List Nat := h.flatMap fun x => [x.t1, x.t2]

/-- The clock never goes backwards and stays below 2^63 ns (292 years). -/
def ClockOk (h : List TimerIn) : Prop :=
  (readings h).Pairwise (· ≤ ·) ∧ ∀ r ∈ readings h, r < 2 ^ 63

/-- The last call of `h`, if any, had IN = `b`. -/
def EndsWith (b : Bool) (h : List TimerIn) : Prop := ∃ h' x, h = h' ++ [x] ∧ x.input = b

/-- `h` ends with a maximal run of calls with IN = TRUE, whose first call is `first` and whose
other calls are `run`. -/
def TrueRun (h pre : List TimerIn) (first : TimerIn) (run : List TimerIn) : Prop :=
  h = pre ++ first :: run ∧ (pre = [] ∨ EndsWith false pre) ∧ first.input = true ∧
    ∀ x ∈ run, x.input = true

/-- `h` ends with a run of calls with IN = FALSE that directly follows a call with IN = TRUE;
`first` is the first call of the run, `run` are its other calls. -/
def FalseRun (h pre : List TimerIn) (first : TimerIn) (run : List TimerIn) : Prop :=
  h = pre ++ first :: run ∧ EndsWith true pre ∧ first.input = false ∧
    ∀ x ∈ run, x.input = false

/-- Time from `first` to the second clock reading of `x`. -/
def elapsed2 (first x : TimerIn) : Int := (x.t2 : Int) - first.t1
/-- Time from `first` to the first clock reading of `x`. -/
def elapsed1 (first x : TimerIn) : Int := (x.t1 : Int) - first.t1

/-- Call `x` finds the pulse that started at `start` expired and IN falling (`prev` is IN of the
previous call): this re-arms a TP timer. -/
def Rearms (start : TimerIn) (prev : Bool) (x : TimerIn) : Prop :=
  prev = true ∧ x.input = false ∧ elapsed2 start x > x.pt

/-- None of the calls re-arms the timer. -/
def NoRearm (start : TimerIn) : Bool → List TimerIn → Prop
  | _, [] => True
  | prev, x :: xs => ¬ Rearms start prev x ∧ NoRearm start x.input xs

/-- IN of the last of the calls `start :: mid`. -/
def lastIn (start : TimerIn) (mid : List TimerIn) : Bool :=
  (mid.getLast?.map (·.input)).getD start.input

/-- Histories after which a TP timer is idle: no call yet, or the last call re-armed it. -/
inductive TPIdle : List TimerIn → Prop
  | fresh : TPIdle []
  | rearmed {pre mid : List TimerIn} {start x : TimerIn} : TPIdle pre → start.input = true →
      NoRearm start true mid → Rearms start (lastIn start mid) x →
      TPIdle (pre ++ start :: mid ++ [x])

end Verif.Spec
