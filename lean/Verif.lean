import Verif.Props.Util
import Verif.Props.Fixpt
import Verif.Props.Scale
import Verif.Props.Ring
import Verif.Props.Bitmap
import Verif.Props.Filter
import Verif.Props.Timer
import Verif.Props.Pid
import Verif.Props.Settings
import Verif.Props.Presets
import Verif.Model.Main
import Verif.Props.Safety
import Verif.Props.Measure
import Verif.Props.System
import Verif.Props.Control
import Verif.Props.Buttons
import Verif.Props.Menu
import Verif.Props.Display
import Verif.Props.Debug
import Verif.Props.Current
import Verif.Props.Law
import Verif.Props.Lasting
import Verif.Props.Press
import Verif.Tests.Repo
import Verif.Model.Loop
import Verif.Spec.Loop
import Verif.Proofs.Loop
import Verif.Proofs.LoopDemo
import Verif.Proofs.LoopPanel
import Verif.Props.Loop
import Verif.Props.LoopPanel
import Verif.Spec.Calm
import Verif.Proofs.Mixture
import Verif.Props.Mixture
import Verif.Props.Calm
import Verif.Spec.LoopClock
import Verif.Props.LoopClock
import Verif.Proofs.Commute
import Verif.Spec.Interrupts
import Verif.Props.Interrupts
import Verif.Spec.Hot
import Verif.Proofs.LoopClock
import Verif.Props.Hot
import Verif.Spec.Wear
import Verif.Props.Wear
import Verif.Model.Host
import Verif.Spec.Host
import Verif.Proofs.Host
import Verif.Props.Host
import Verif.Model.Hw
import Verif.Spec.Hw
import Verif.Props.Hw
import Verif.Spec.Rate
import Verif.Props.Rate
import Verif.Model.ScaleAlt
import Verif.Proofs.ScaleAlt
import Verif.Props.ScaleAlt
import Verif.Spec.Fresh
import Verif.Props.Fresh
import Verif.Model.Serial
import Verif.Spec.Serial
import Verif.Proofs.Serial
import Verif.Props.Serial
import Verif.Model.Reports
import Verif.Spec.Reports
import Verif.Proofs.Reports
import Verif.Props.Reports
import Verif.Model.Inside
import Verif.Spec.Inside
import Verif.Proofs.Inside
import Verif.Proofs.InsideWork
import Verif.Proofs.InsideMeas
import Verif.Props.Inside
import Verif.Model.Int24
import Verif.Spec.Int24
import Verif.Props.Int24
import Verif.Model.SimSensor
import Verif.Spec.Sim
import Verif.Props.SimSensor
import Verif.Model.SimUart
import Verif.Proofs.SimUart
import Verif.Props.SimUart
import Verif.Spec.MenuDoc
import Verif.Props.MenuDoc
import Verif.Spec.ContrDoc
import Verif.Props.ContrDoc
import Verif.Spec.AnyEeprom
import Verif.Proofs.AnyEeprom
import Verif.Props.AnyEeprom
import Verif.Proofs.NoRing
import Verif.Props.NoRing
import Verif.Model.SimIrq
import Verif.Spec.SimIrq
import Verif.Proofs.SimIrq
import Verif.Props.SimIrq
import Verif.Model.LoopIn
import Verif.Spec.LoopIn
import Verif.Proofs.InsideKeep
import Verif.Proofs.InsideCall
import Verif.Proofs.LoopIn
import Verif.Proofs.LoopInDemo
import Verif.Props.LoopIn
import Verif.Props.SetEnabled
import Verif.Model.SimSettings
import Verif.Spec.SimSettings
import Verif.Proofs.SimSettings
import Verif.Props.SimSettings
import Verif.Spec.IronAlt
import Verif.Props.IronAlt
import Verif.Spec.LoopMux
import Verif.Proofs.DispKept
import Verif.Proofs.LoopMux
import Verif.Props.LoopMux
import Verif.Spec.LoopIron
import Verif.Props.LoopIron
import Verif.Spec.Cold
import Verif.Props.Cold
import Verif.Spec.NoDemand
import Verif.Props.NoDemand
import Verif.Spec.LoopRamp
import Verif.Proofs.RampHold
import Verif.Proofs.RampValue
import Verif.Props.LoopRamp
import Verif.Spec.Ui
import Verif.Proofs.Ui
import Verif.Props.Ui
import Verif.Model.Circuits
import Verif.Spec.Circuits
import Verif.Props.Circuits
import Verif.Spec.UiIn
import Verif.Proofs.UiInBase
import Verif.Proofs.UiInButton
import Verif.Proofs.UiInSample
import Verif.Proofs.UiInWork
import Verif.Proofs.UiInLoop
import Verif.Props.UiIn
import Verif.Spec.StoreIn
import Verif.Proofs.SetIn
import Verif.Proofs.StoreIn
import Verif.Props.StoreIn
import Verif.Spec.CurrIn
import Verif.Proofs.CurrIn
import Verif.Props.CurrIn
import Verif.Spec.PanelIn
import Verif.Proofs.PanelIn
import Verif.Props.PanelIn
import Verif.Spec.ClockIn
import Verif.Proofs.ClockIn
import Verif.Proofs.ClockInLoop
import Verif.Props.ClockIn
import Verif.Proofs.Once
import Verif.Props.LawIn
import Verif.Spec.NoDemandIn
import Verif.Props.NoDemandIn
import Verif.Spec.HotIn
import Verif.Props.HotIn
import Verif.Spec.MuxIn
import Verif.Proofs.MuxIn
import Verif.Props.MuxIn
import Verif.Spec.FreshIn
import Verif.Proofs.FreshIn
import Verif.Props.FreshIn
import Verif.Spec.IronIn
import Verif.Proofs.IronIn
import Verif.Props.IronIn
import Verif.Proofs.Wear
import Verif.Proofs.StoreDemo
import Verif.Spec.WearIn
import Verif.Proofs.WearIn
import Verif.Props.WearIn
import Verif.Spec.RateIn
import Verif.Proofs.RateIn
import Verif.Props.RateIn
import Verif.Spec.RampIn
import Verif.Proofs.RampIn
import Verif.Props.RampIn
