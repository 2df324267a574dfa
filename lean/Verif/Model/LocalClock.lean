import Verif.Model.Text
import Verif.Model.Duration
/-
`TIME()` by the clock of the machine: the time of day is that of a point in time and the distance of local time from UTC.
-/
namespace Verif
open Chrono

/-- The time of day of `Local::now()` (src/extra_functions.rs:166) at `utc` nanoseconds from 1970-01-01 00:00 UTC, when local time is `offset` seconds ahead of UTC.  `SystemTime` has no leap
seconds, and chrono adds the offset to the whole seconds. -/
def localNow (utc offset : Int) : NaiveTime :=
  ⟨((utc / 1000000000 + offset) % 86400).toNat, (utc % 1000000000).toNat⟩

/-- `TIME()` at that time (src/extra_functions.rs:165-168). -/
def TIME_at (p : Profile) (utc offset : Int) : Res Int := TIME p (localNow utc offset)

end Verif
