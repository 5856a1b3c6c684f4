import Verif.Props.ErrQueue
import Verif.Props.XBuf
import Verif.Props.Ids
import Verif.Props.NodeTable
import Verif.Props.NodeProcess
import Verif.Props.NodeNumber
import Verif.Props.Sync
import Verif.Props.Snapshot
import Verif.Props.SyncTime
import Verif.Props.Sys
import Verif.Props.Baud
import Verif.Props.XLoad
import Verif.Props.Transfer
import Verif.Props.Upload
import Verif.Props.Register
import Verif.Props.AsyncQueue
import Verif.Props.Tunnel
import Verif.Props.Answers
import Verif.Props.Reconnect
import Verif.Model.Mon
import Verif.Props.Sessions
import Verif.Props.Mon
import Verif.Props.MonExample
import Verif.Props.MonLink
import Verif.Props.MonTally
import Verif.Props.SyncStamp
import Verif.Model.Driver
import Verif.Spec.Driver
import Verif.Props.Driver
import Verif.Props.Legal
import Verif.Props.Delay
import Verif.Model.Conv
import Verif.Spec.Conv
import Verif.Lemmas.Conv
import Verif.Props.Conv
import Verif.Props.ConvPacked
import Verif.Model.Receive
import Verif.Props.Receive
import Verif.Props.ConvStack
import Verif.Lemmas.SlaveApps
import Verif.Lemmas.Calm
import Verif.Spec.Search
import Verif.Props.State
import Verif.Spec.Network
import Verif.Lemmas.Owned
import Verif.Lemmas.OwnedStack
import Verif.Props.Network
import Verif.Model.Preempt
import Verif.Spec.Serial
import Verif.Lemmas.Preempt
import Verif.Props.Preempt
import Verif.Model.ErrIrq
import Verif.Lemmas.ErrIrq
import Verif.Props.ErrIrq
import Verif.Props.NodeRenumber
import Verif.Props.Silent
import Verif.Props.XInfo
import Verif.Props.ErrApi
import Verif.Props.Handlers
import Verif.Props.MonSafe
import Verif.Props.MonTwin
import Verif.Props.SearchReport
import Verif.Props.Operation
import Verif.Props.SearchWrap
import Verif.Props.Refused
import Verif.Model.Ignore
import Verif.Props.Ignore
import Verif.Props.UploadWait
import Verif.Props.ErrPeek
import Verif.Props.AddReport
import Verif.Props.OnlyTransfer
import Verif.Model.Unknown
import Verif.Props.Unknown
import Verif.Model.InfoMem
import Verif.Props.InfoMem
import Verif.Lemmas.NodeTrace
import Verif.Lemmas.NodeSafe
import Verif.Props.Safety
import Verif.Model.Cpu2
import Verif.Lemmas.Cpu2
import Verif.Lemmas.Cpu2Link
import Verif.Props.Cpu2
import Verif.Lemmas.Cpu2Wires
import Verif.Lemmas.Cpu2Rig
import Verif.Lemmas.Cpu2Run
import Verif.Props.Cpu2Mirror
import Verif.Props.Cpu2Room
import Verif.Lemmas.Twin
import Verif.Props.TwoCpus
import Verif.Lemmas.Current
import Verif.Props.GivenUp
import Verif.Spec.Renumber
import Verif.Lemmas.Renum
import Verif.Props.Renumbered
import Verif.Props.Retyped
import Verif.Model.NoSearch
import Verif.Props.NoSearch
import Verif.Model.Lookup
import Verif.Props.Lookup
import Verif.Spec.Restart
import Verif.Lemmas.Restart
import Verif.Props.Restart
import Verif.Spec.Objects
import Verif.Lemmas.Objects
import Verif.Props.Objects
import Verif.Spec.ReqObj
import Verif.Lemmas.ReqObj
import Verif.Lemmas.ReqStack
import Verif.Props.ReqObj
import Verif.Spec.Image
import Verif.Props.Image
import Verif.Model.MonSearch
import Verif.Spec.MonSearch
import Verif.Lemmas.MonSearch
import Verif.Props.MonSearch
import Verif.Spec.EndRate
import Verif.Props.EndRate
import Verif.Props.UploadExact
import Verif.Props.BlockExact
import Verif.Model.FifoIrq
import Verif.Props.FifoIrq
import Verif.Props.NoStart
import Verif.Model.SwitchIrq
import Verif.Props.SwitchIrq
import Verif.Model.SearchIrq
import Verif.Spec.SearchIrq
import Verif.Lemmas.SearchIrq
import Verif.Props.SearchIrq
import Verif.Model.PeriodIrq
import Verif.Spec.PeriodIrq
import Verif.Props.PeriodIrq
import Verif.Model.NumberIrq
import Verif.Props.NumberIrq
import Verif.Model.MonIrq
import Verif.Props.MonIrq
import Verif.Model.BufIrq
import Verif.Props.BufIrq
import Verif.Model.TnlIrq
import Verif.Props.TnlIrq
import Verif.Model.UlIrq
import Verif.Props.UlIrq
import Verif.Model.InfoTorn
import Verif.Props.InfoTorn
import Verif.Props.Exact
import Verif.Props.Exact2
import Verif.Model.SearchEnd
import Verif.Props.SearchEnd
import Verif.Model.FlowIrq
import Verif.Props.FlowIrq
import Verif.Props.Exact3
import Verif.Lemmas.ImageStack
import Verif.Props.SearchImage
import Verif.Model.MonRx
import Verif.Props.MonRx
import Verif.Model.CtrlQueue
import Verif.Props.CtrlQueue
import Verif.Model.Tell
import Verif.Props.Tell
import Verif.Model.IoConfig
import Verif.Props.IoConfig
