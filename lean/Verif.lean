import Verif.Model.Slave
import Verif.Props.SlavePdu
import Verif.Props.Crc
import Verif.Props.Slave
import Verif.Props.SlaveSync
import Verif.Props.SlaveRecovery
import Verif.Props.Queue
import Verif.Props.MasterTrace
import Verif.Props.MasterHist
import Verif.Props.MasterExchange
import Verif.Props.MasterLive
import Verif.Props.MasterFaults
import Verif.Props.MasterExamples
import Verif.Props.FaultExamples
import Verif.Props.EndToEnd
import Verif.Props.Completion
import Verif.Props.DriverTiming
import Verif.Props.MasterOverlong
import Verif.Props.DriverSlave
import Verif.Props.DriverMaster
import Verif.Props.MasterStale
import Verif.Props.MasterTimeout
import Verif.Props.DriverTransaction
import Verif.Props.DriverEndToEnd
import Verif.Props.DriverSession
import Verif.Props.Bus
import Verif.Props.PreemptAny
import Verif.Props.DriverInit
import Verif.Props.ExampleMaster
import Verif.Props.ExampleSlave
import Verif.Props.MasterTimed
import Verif.Props.SlaveTimed
import Verif.Props.DeviceTimed
import Verif.Props.DeviceMasterTimed
import Verif.Props.BusTimed
import Verif.Props.BusRequests
import Verif.Props.BusDemo
import Verif.Props.BusShipped
import Verif.Props.BusShippedDemo
import Verif.Props.DeviceStatements
import Verif.Props.StmtDemo
import Verif.Props.StmtWire
import Verif.Model.MasterStatements
import Verif.Spec.MasterStatements
import Verif.Proofs.MasterStmt
import Verif.Proofs.MasterStmtLine
import Verif.Proofs.MasterStmtHist
import Verif.Props.MasterStatements
import Verif.Props.MasterStatementsRace
import Verif.Model.Callbacks
import Verif.Spec.Callbacks
import Verif.Proofs.Callbacks
import Verif.Proofs.CallbacksPoll
import Verif.Props.Callbacks
import Verif.Model.ParseSteps
import Verif.Proofs.ParseSteps
import Verif.Proofs.ParseStepsPoll
import Verif.Props.ParseSteps
import Verif.Props.ParseStepsRace
import Verif.Model.RespSteps
import Verif.Proofs.RespSteps
import Verif.Proofs.RespStepsPoll
import Verif.Proofs.RespStepsKept
import Verif.Proofs.RespStepsDefer
import Verif.Props.RespSteps
import Verif.Model.MasterPc
import Verif.Spec.MasterPc
import Verif.Proofs.MasterPcInv
import Verif.Proofs.MasterPcSim
import Verif.Proofs.MasterPcStep
import Verif.Proofs.MasterPcHist
import Verif.Proofs.MasterPcTimed
import Verif.Proofs.MasterPcDevice
import Verif.Props.MasterPc
import Verif.Props.MasterPcDemo
import Verif.Props.MasterShort
import Verif.Props.SlaveForeign
import Verif.Spec.MultiBus
import Verif.Proofs.MultiPhase
import Verif.Proofs.MultiRound
import Verif.Proofs.MultiAnswer
import Verif.Proofs.MultiTold
import Verif.Proofs.MultiRounds
import Verif.Props.MultiBus
import Verif.Props.MultiBusDemo
import Verif.Props.MultiRequests
import Verif.Proofs.LineTable
import Verif.Props.MultiShipped
import Verif.Props.MultiShippedDemo
import Verif.Props.MultiLate
import Verif.Conformance.MasterRtu
import Verif.Conformance.Library
import Verif.Conformance.SlaveRtu
import Verif.Model.QueueSteps
import Verif.Spec.QueueSteps
import Verif.Proofs.QueueSteps
import Verif.Proofs.QueueStepsRest
import Verif.Proofs.QueueStepsPush
import Verif.Proofs.QueueStepsPushLin
import Verif.Proofs.QueueStepsUnint
import Verif.Proofs.QueueStepsPoll
import Verif.Proofs.QueueStepsIdle
import Verif.Props.QueueSteps
import Verif.Props.QueueStepsRace
import Verif.Props.Repeat
import Verif.Model.Boot
import Verif.Spec.Boot
import Verif.Proofs.Boot
import Verif.Proofs.BootSteps
import Verif.Props.Boot
import Verif.Spec.BootDevice
import Verif.Proofs.BootDevice
import Verif.Props.BootDevice
import Verif.Model.BootMaster
import Verif.Spec.BootMaster
import Verif.Proofs.BootMaster
import Verif.Proofs.BootMasterRun
import Verif.Props.BootMaster
import Verif.Props.BootMasterDevice
import Verif.Props.BootMasterHears
import Verif.Props.Broadcast
import Verif.Props.Mirror
import Verif.Spec.Serial
import Verif.Proofs.Serial
import Verif.Props.Serial
import Verif.Props.SerialDemo
import Verif.Spec.ExamplesLive
import Verif.Proofs.ExamplesLive
import Verif.Props.ExamplesLive
import Verif.Props.ExamplesLiveDemo
import Verif.Props.ExamplesLiveHappens
