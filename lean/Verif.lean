import Verif.Props.Pid
import Verif.Props.Hysteresis
import Verif.Props.Stepwise
import Verif.Props.Controllers
import Verif.Props.Arbitration
import Verif.Props.Failsafe
import Verif.Props.Loop
import Verif.Props.EndToEnd
import Verif.Props.Writers
import Verif.Props.Sensors
import Verif.Props.Host
import Verif.Props.Util
import Verif.Props.FailsafeLog
import Verif.Props.CoreLog
import Verif.Props.Ipmi
import Verif.Props.Lifecycle
import Verif.Props.Json
import Verif.Props.Build
import Verif.Props.DbusInit
import Verif.Props.ZoneLog
import Verif.Props.Early
import Verif.Props.Reload
import Verif.Props.Helper
import Verif.Props.FailsafeMsgs
import Verif.Props.BuildSensors
import Verif.Props.Daemon
import Verif.Props.Alone
import Verif.Props.Recovery
import Verif.Props.Demand
import Verif.Lemmas.Fixup
import Verif.Props.Paths
import Verif.Props.Register
import Verif.Model.Collect
import Verif.Spec.Collect
import Verif.Lemmas.Collect
import Verif.Props.Collect
import Verif.Model.Startup
import Verif.Spec.Startup
import Verif.Props.Startup
import Verif.Spec.Complete
import Verif.Props.Complete
import Verif.Model.Switches
import Verif.Spec.Switches
import Verif.Props.Switches
import Verif.Model.Timed
import Verif.Spec.Timed
import Verif.Props.Timed
import Verif.Spec.Quiet
import Verif.Lemmas.Quiet
import Verif.Props.Quiet
import Verif.Spec.Written
import Verif.Lemmas.Written
import Verif.Props.Written
import Verif.Spec.OnBus
import Verif.Props.OnBus
import Verif.Spec.BusWritten
import Verif.Lemmas.BusWritten
import Verif.Props.BusWritten
import Verif.Spec.Lasting
import Verif.Lemmas.Sees
import Verif.Lemmas.Passes
import Verif.Spec.Integral
import Verif.Lemmas.Integral
import Verif.Props.Integral
import Verif.Spec.Slew
import Verif.Lemmas.Slew
import Verif.Props.Slew
import Verif.Spec.SlowFans
import Verif.Lemmas.SlowFans
import Verif.Props.SlowFans
import Verif.Model.Logged
import Verif.Spec.Logged
import Verif.Lemmas.Logged
import Verif.Props.Logged
import Verif.Model.Remote
import Verif.Spec.Remote
import Verif.Lemmas.Remote
import Verif.Props.Remote
import Verif.Model.Shown
import Verif.Spec.Shown
import Verif.Lemmas.Shown
import Verif.Lemmas.ShownTruth
import Verif.Props.Shown
import Verif.Model.Whole
import Verif.Spec.Whole
import Verif.Lemmas.ReadWf
import Verif.Lemmas.Whole
import Verif.Props.Whole
import Verif.Spec.Hotter
import Verif.Lemmas.Hotter
import Verif.Props.Hotter
import Verif.Spec.Steady
import Verif.Lemmas.Steady
import Verif.Props.Steady
import Verif.Spec.SteadyFail
import Verif.Lemmas.SteadyFail
import Verif.Props.SteadyFail
import Verif.Spec.SteadySum
import Verif.Props.SteadySum
import Verif.Spec.SteadyTimed
import Verif.Props.SteadyTimed
import Verif.Spec.Ranges
import Verif.Lemmas.Ranges
import Verif.Props.Ranges
import Verif.Spec.NeverStops
import Verif.Lemmas.NeverStops
import Verif.Props.NeverStops
import Verif.Spec.MoreCooling
import Verif.Props.MoreCooling
import Verif.Spec.AnyOrder
import Verif.Lemmas.AnyOrder
import Verif.Props.AnyOrder
import Verif.Spec.OwnPart
import Verif.Lemmas.OwnPart
import Verif.Props.OwnPart
import Verif.Spec.FileOrder
import Verif.Lemmas.FileOrder
import Verif.Props.FileOrder
import Verif.Spec.BusOrder
import Verif.Lemmas.Patches
import Verif.Lemmas.BusOrder
import Verif.Props.BusOrder
import Verif.Spec.Rounding
import Verif.Lemmas.Rounding
import Verif.Props.Rounding
import Verif.Spec.Clock
import Verif.Lemmas.Clock
import Verif.Props.Clock
import Verif.Spec.AsFile
import Verif.Lemmas.AsFile
import Verif.Lemmas.FromFile
import Verif.Props.AsFile
import Verif.Model.Watched
import Verif.Spec.Watched
import Verif.Lemmas.Watched
import Verif.Props.Watched
import Verif.Model.Retry
import Verif.Spec.Retry
import Verif.Props.Retry
import Verif.Model.Reloading
import Verif.Spec.Reloading
import Verif.Props.Reloading
import Verif.Model.Ending
import Verif.Spec.Ending
import Verif.Props.Ending
import Verif.Spec.Lifelong
import Verif.Props.Lifelong
import Verif.Spec.Unbroken
import Verif.Props.Unbroken
import Verif.Props.NoGap
import Verif.Props.Margins
import Verif.Props.Unattended
import Verif.Props.NanPercent
import Verif.Spec.Shared
import Verif.Props.Shared
import Verif.Spec.Held
import Verif.Props.Held
import Verif.Spec.WarmStart
import Verif.Props.WarmStart
import Verif.Spec.WarmFan
import Verif.Props.WarmFan
import Verif.Props.WarmFile
import Verif.Props.AlarmFile
import Verif.Props.BusReload
import Verif.Props.SumHeat
import Verif.Props.Listens
