import Verif.Model.Flanks
import Verif.Model.Counters
import Verif.Model.Timers
import Verif.Model.PowerFailure
import Verif.Props.Flanks
import Verif.Props.Counters
import Verif.Props.Timers
import Verif.Props.Selectors
import Verif.Props.Bits
import Verif.Props.StConv
import Verif.Props.DateTime
import Verif.Props.Duration
import Verif.Props.DurationFloat
import Verif.Props.Round
import Verif.Props.Strings
import Verif.Props.StringAlgebra
import Verif.Props.Find
import Verif.Props.StringCompare
import Verif.Props.StringConv
import Verif.Props.IntText
import Verif.Props.TimeText
import Verif.Props.TimeTextExact
import Verif.Props.StFloat
import Verif.Props.FloatText
import Verif.Props.FloatRead
import Verif.Props.Arith
import Verif.Props.Expt
import Verif.Props.StStrings
import Verif.Props.Libm
import Verif.Props.TimerInit
import Verif.Props.Abi
import Verif.Props.Scan
import Verif.Props.Cyclic
import Verif.Props.Duality
import Verif.Props.TimeAlgebra
import Verif.Props.TimeScaling
import Verif.Props.TextOrder
import Verif.Props.StringPrograms
import Verif.Props.FindUnits
import Verif.Props.ConvPaths
import Verif.Props.FloatOrder
import Verif.Props.MemorySafety
import Verif.Props.Memory
import Verif.Props.PulseGen
import Verif.Props.DelayChain
import Verif.Props.Divider
import Verif.Props.CalendarArith
import Verif.Props.SelectorAlgebra
import Verif.Props.BitAlgebra
import Verif.Props.FindEdit
import Verif.Props.Debounce
import Verif.Props.ExptAlgebra
import Verif.Props.WeekdayFormula
import Verif.Props.DividerCascade
import Verif.Props.Ripple
import Verif.Props.NullPointers
import Verif.Props.Blinker
import Verif.Props.TimeExact
import Verif.Props.PeakHold
import Verif.Props.Ramp
import Verif.Props.Split
import Verif.Props.Padding
import Verif.Props.Watchdog
import Verif.Props.ShiftRegister
import Verif.Props.Reversing
import Verif.Props.Sorting
import Verif.Props.Substitute
import Verif.Props.Schedule
import Verif.Props.SignalFilter
import Verif.Props.Records
import Verif.Props.InPlace
import Verif.Props.Restart
import Verif.Props.Program
import Verif.Props.TextMemory
import Verif.Props.PowerFailure
import Verif.Props.PowerFailureCounters
import Verif.Props.PowerFailureCTUD
import Verif.Props.InterruptedReads
import Verif.Props.SharedInstance
import Verif.Props.SharedReturn
import Verif.Props.ManyCores
import Verif.Props.WaitFree
import Verif.Props.Buffer
import Verif.Props.StepChain
import Verif.Props.StoreBuffers
import Verif.Props.CalendarWeek
import Verif.Props.StringMoments
import Verif.Props.WeakOrder
import Verif.Props.Telegrams
import Verif.Props.StringRaces
import Verif.Props.StringViews
import Verif.Props.Stopwatch
import Verif.Props.SortStrings
import Verif.Props.Encoder
import Verif.Props.ReadViews
import Verif.Props.GrayCode
import Verif.Props.Crc
import Verif.Props.ReadBack
import Verif.Props.DelaySeries
import Verif.Props.OneShot
import Verif.Props.Queue
import Verif.Props.WordSize
import Verif.Props.HalfReads
import Verif.Props.Median
import Verif.Props.Spans
import Verif.Props.Thermostat
import Verif.Props.Compressor
import Verif.Props.WrongPreset
import Verif.Props.Monotone
import Verif.Props.TwoHand
import Verif.Props.FirstOut
import Verif.Props.Voting
import Verif.Props.TimedSteps
import Verif.Props.KeptInputs
import Verif.Props.HeldOutputs
import Verif.Props.LeftOut
import Verif.Props.BuildProfile
import Verif.Conformance.Text
import Verif.Conformance.FunctionBlocks
import Verif.Conformance.Strings
import Verif.Conformance.Conversions
import Verif.Conformance.DateTime
import Verif.Conformance.Numeric
import Verif.Conformance.Extra
import Verif.Props.SquareRoot
import Verif.Model.SharedInstance
