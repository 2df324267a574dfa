import Verif.Model.Flanks
/-
Counters: src/counters.rs.  The Rust code is generic over `T: Integer + Copy +
Bounded`; the model is generic over an `IntTy`, and the arithmetic `cv + 1`,
`cv - 1` goes through `IntTy.arith`, which panics (debug) or wraps (release) when
the result is not representable.
-/
namespace Verif

/-- `CTUParams<T>` (src/counters.rs:7-14). -/
structure CTUParams where
  cu : Bool
  r : Bool
  pv : Int
  q : Bool
  cv : Int
  internal : Signal
  deriving DecidableEq, Repr

/-- A fresh instance is all zero (the struct src/counters.rs:7-14). -/
def CTUParams.default : CTUParams := ⟨false, false, 0, false, 0, Signal.default⟩

/-- `update_q` (src/counters.rs:20-22). -/
def CTUParams.update_q (s : CTUParams) : CTUParams := { s with q := decide (s.cv ≥ s.pv) }
/-- `reset` (src/counters.rs:24-26). -/
def CTUParams.reset (s : CTUParams) : CTUParams := { s with cv := 0 }
/-- `inc` (src/counters.rs:28-30). -/
def CTUParams.inc (t : IntTy) (p : Profile) (s : CTUParams) : Res CTUParams := do
  let cv ← t.arith p (s.cv + 1)
  pure { s with cv := cv }
/-- `r_edge` (src/counters.rs:32-34). -/
def CTUParams.r_edge (s : CTUParams) : Bool × CTUParams :=
  let (e, sig) := s.internal.rising_edge s.cu
  (e, { s with internal := sig })

/-- `ctu` (src/counters.rs:37-47); the `&` of the condition is not short-circuit, so the
edge memory is updated whatever `cv` is. -/
def ctu (t : IntTy) (p : Profile) (s : CTUParams) : Res CTUParams := do
  let s ←
    if s.r then pure s.reset
    else
      let (e, s) := s.r_edge
      if e && decide (s.cv < t.hi) then s.inc t p else pure s
  pure s.update_q

/-- Inputs of one call of a CTU block (CU, R, PV of src/counters.rs:7-14). -/
structure CTUIn where
  cu : Bool
  r : Bool
  pv : Int
  deriving DecidableEq, Repr

/-- One scan cycle: inputs are written, then `CTU`/`CTU_INT` (i16), `CTU_DINT` (i32),
`CTU_UDINT` (u32), `CTU_LINT` (i64) or `CTU_ULINT` (u64) is called
(src/counters.rs:57-119). -/
def ctuCall (t : IntTy) (p : Profile) (s : CTUParams) (i : CTUIn) : Res CTUParams :=
  ctu t p { s with cu := i.cu, r := i.r, pv := i.pv }

/-- `CTDParams<T>` (src/counters.rs:123-130). -/
structure CTDParams where
  cd : Bool
  ld : Bool
  pv : Int
  q : Bool
  cv : Int
  internal : Signal
  deriving DecidableEq, Repr

/-- A fresh instance is all zero (the struct src/counters.rs:123-130). -/
def CTDParams.default : CTDParams := ⟨false, false, 0, false, 0, Signal.default⟩

/-- `update_q` (src/counters.rs:136-138). -/
def CTDParams.update_q (s : CTDParams) : CTDParams := { s with q := decide (s.cv ≤ 0) }
/-- `load` (src/counters.rs:140-142). -/
def CTDParams.load (s : CTDParams) : CTDParams := { s with cv := s.pv }
/-- `dec` (src/counters.rs:144-146). -/
def CTDParams.dec (t : IntTy) (p : Profile) (s : CTDParams) : Res CTDParams := do
  let cv ← t.arith p (s.cv - 1)
  pure { s with cv := cv }
/-- `r_edge` (src/counters.rs:148-150). -/
def CTDParams.r_edge (s : CTDParams) : Bool × CTDParams :=
  let (e, sig) := s.internal.rising_edge s.cd
  (e, { s with internal := sig })

/-- `ctd` (src/counters.rs:153-163). -/
def ctd (t : IntTy) (p : Profile) (s : CTDParams) : Res CTDParams := do
  let s ←
    if s.ld then pure s.load
    else
      let (e, s) := s.r_edge
      if e && decide (s.cv > t.lo) then s.dec t p else pure s
  pure s.update_q

/-- Inputs of one call of a CTD block (CD, LD, PV of src/counters.rs:123-130). -/
structure CTDIn where
  cd : Bool
  ld : Bool
  pv : Int
  deriving DecidableEq, Repr

/-- One scan cycle of `CTD*` (src/counters.rs:173-235). -/
def ctdCall (t : IntTy) (p : Profile) (s : CTDParams) (i : CTDIn) : Res CTDParams :=
  ctd t p { s with cd := i.cd, ld := i.ld, pv := i.pv }

/-- `CTUDParams<T>` (src/counters.rs:239-250). -/
structure CTUDParams where
  cu : Bool
  cd : Bool
  r : Bool
  ld : Bool
  pv : Int
  qu : Bool
  qd : Bool
  cv : Int
  internal_up : Signal
  internal_down : Signal
  deriving DecidableEq, Repr

/-- A fresh instance is all zero (the struct src/counters.rs:239-250). -/
def CTUDParams.default : CTUDParams :=
  ⟨false, false, false, false, 0, false, false, 0, Signal.default, Signal.default⟩

/-- `update_qu` (src/counters.rs:256-258). -/
def CTUDParams.update_qu (s : CTUDParams) : CTUDParams := { s with qu := decide (s.cv ≥ s.pv) }
/-- `update_qd` (src/counters.rs:260-262). -/
def CTUDParams.update_qd (s : CTUDParams) : CTUDParams := { s with qd := decide (s.cv ≤ 0) }
/-- `reset` (src/counters.rs:264-266). -/
def CTUDParams.reset (s : CTUDParams) : CTUDParams := { s with cv := 0 }
/-- `load` (src/counters.rs:268-270). -/
def CTUDParams.load (s : CTUDParams) : CTUDParams := { s with cv := s.pv }
/-- `inc` (src/counters.rs:272-274). -/
def CTUDParams.inc (t : IntTy) (p : Profile) (s : CTUDParams) : Res CTUDParams := do
  let cv ← t.arith p (s.cv + 1)
  pure { s with cv := cv }
/-- `dec` (src/counters.rs:276-278). -/
def CTUDParams.dec (t : IntTy) (p : Profile) (s : CTUDParams) : Res CTUDParams := do
  let cv ← t.arith p (s.cv - 1)
  pure { s with cv := cv }
/-- `cu_r_edge` (src/counters.rs:280-282). -/
def CTUDParams.cu_r_edge (s : CTUDParams) : Bool × CTUDParams :=
  let (e, sig) := s.internal_up.rising_edge s.cu
  (e, { s with internal_up := sig })
/-- `cd_r_edge` (src/counters.rs:284-286). -/
def CTUDParams.cd_r_edge (s : CTUDParams) : Bool × CTUDParams :=
  let (e, sig) := s.internal_down.rising_edge s.cd
  (e, { s with internal_down := sig })

/-- `ctud` (src/counters.rs:289-310). -/
def ctud (t : IntTy) (p : Profile) (s : CTUDParams) : Res CTUDParams := do
  let s ←
    if s.r then pure s.reset
    else if s.ld then pure s.load
    else
      let (up, s) := s.cu_r_edge
      let (down, s) := s.cd_r_edge
      if !(up && down) then
        if up && decide (s.cv < t.hi) then s.inc t p
        else if down && decide (s.cv > t.lo) then s.dec t p
        else pure s
      else pure s
  pure s.update_qu.update_qd

/-- Inputs of one call of a CTUD block (CU, CD, R, LD, PV of src/counters.rs:239-250). -/
structure CTUDIn where
  cu : Bool
  cd : Bool
  r : Bool
  ld : Bool
  pv : Int
  deriving DecidableEq, Repr

/-- One scan cycle of `CTUD*` (src/counters.rs:320-382). -/
def ctudCall (t : IntTy) (p : Profile) (s : CTUDParams) (i : CTUDIn) : Res CTUDParams :=
  ctud t p { s with cu := i.cu, cd := i.cd, r := i.r, ld := i.ld, pv := i.pv }

end Verif
