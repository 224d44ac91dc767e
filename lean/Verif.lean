import Verif.Aes
import Verif.AesLemmas
import Verif.AesMain
import Verif.AesSpec
import Verif.AesSpecLemmas
import Verif.ArrayLemmas
import Verif.Async
import Verif.AsyncBarrier
import Verif.AsyncBench
import Verif.AsyncBenchLemmas
import Verif.AsyncByz
import Verif.AsyncByzLemmas
import Verif.AsyncCommLemmas
import Verif.AsyncCommSpec
import Verif.AsyncExit
import Verif.AsyncExitLemmas
import Verif.AsyncFault
import Verif.AsyncFaultLemmas
import Verif.AsyncGarble
import Verif.AsyncGarbleLemmas
import Verif.AsyncLemmas
import Verif.AsyncNet
import Verif.AsyncNetBench
import Verif.AsyncNetBenchSpec
import Verif.AsyncNetBenchSum
import Verif.AsyncNetLemmas
import Verif.AsyncNetSeq
import Verif.AsyncNetSim
import Verif.AsyncNetSpec
import Verif.AsyncPreproc
import Verif.AsyncPreprocLemmas
import Verif.AsyncProgress
import Verif.AsyncProto
import Verif.AsyncRoundLemmas
import Verif.AsyncRoundLevels
import Verif.AsyncRoundSpec
import Verif.AsyncRounds
import Verif.AsyncSeq
import Verif.AsyncSpec
import Verif.Basic
import Verif.BenchFile
import Verif.BenchFileSpec
import Verif.BinomLemmas
import Verif.BinsupData
import Verif.BinsupLemmas
import Verif.BinsupRank
import Verif.BinsupSpec
import Verif.BinsupWeight
import Verif.ByzDeal
import Verif.ByzDealLemmas
import Verif.ByzGarble
import Verif.ByzGarbleLemmas
import Verif.ByzGarbleLink
import Verif.ByzGarbleSizes
import Verif.ByzMask
import Verif.ByzMix
import Verif.ByzMixLemmas
import Verif.ByzPipe
import Verif.ByzPipeLemmas
import Verif.ByzPre
import Verif.ByzPreLemmas
import Verif.ByzPreMix
import Verif.ByzPreMixLemmas
import Verif.ByzPrivacy
import Verif.ByzPrivacyLemmas
import Verif.ByzShippedSpec
import Verif.ByzSwap
import Verif.ByzTrans
import Verif.ByzTransLemmas
import Verif.CircErrLemmas
import Verif.CircErrSpec
import Verif.Circuit
import Verif.CircuitLemmas
import Verif.CircuitSpec
import Verif.CompEst
import Verif.CompEstLemmas
import Verif.Connect
import Verif.ConnectLemmas
import Verif.Core
import Verif.CoreLemmas
import Verif.CoreSpec
import Verif.Count
import Verif.CountGarble
import Verif.CountLemmas
import Verif.CountSpec
import Verif.Cut
import Verif.CutLemmas
import Verif.Data.AesCheck00
import Verif.Data.AesCheck01
import Verif.Data.AesCheck02
import Verif.Data.AesCheck03
import Verif.Data.AesData
import Verif.Data.AesSortCheck
import Verif.Data.AesSortCheck00
import Verif.Data.AesSortCheck01
import Verif.Data.AesSortCheck02
import Verif.Data.AesSortCheck03
import Verif.Data.AesSortData
import Verif.Data.AesText00
import Verif.Data.AesText01
import Verif.Data.AesText02
import Verif.Data.AesText03
import Verif.Data.ShaCheck00
import Verif.Data.ShaCheck01
import Verif.Data.ShaCheck02
import Verif.Data.ShaCheck03
import Verif.Data.ShaCheck04
import Verif.Data.ShaCheck05
import Verif.Data.ShaCheck06
import Verif.Data.ShaCheck07
import Verif.Data.ShaCheck08
import Verif.Data.ShaCheck09
import Verif.Data.ShaCheck10
import Verif.Data.ShaData
import Verif.Data.ShaSortCheck
import Verif.Data.ShaSortCheck00
import Verif.Data.ShaSortCheck01
import Verif.Data.ShaSortCheck02
import Verif.Data.ShaSortCheck03
import Verif.Data.ShaSortCheck04
import Verif.Data.ShaSortCheck05
import Verif.Data.ShaSortCheck06
import Verif.Data.ShaSortCheck07
import Verif.Data.ShaSortCheck08
import Verif.Data.ShaSortCheck09
import Verif.Data.ShaSortData
import Verif.Data.ShaText00
import Verif.Data.ShaText01
import Verif.Data.ShaText02
import Verif.Data.ShaText03
import Verif.Data.ShaText04
import Verif.Data.ShaText05
import Verif.Data.ShaText06
import Verif.Data.ShaText07
import Verif.Data.ShaText08
import Verif.Data.ShaText09
import Verif.Data.ShaText10
import Verif.Data.Sub64Data
import Verif.Data.Sub64SortCheck
import Verif.Data.Sub64SortCheck00
import Verif.Data.Sub64SortData
import Verif.Data.Sub64Text
import Verif.DealLenLemmas
import Verif.DealLenSpec
import Verif.DeliveryLemmas
import Verif.EndToEndLemmas
import Verif.EndToEndSpec
import Verif.Estimates
import Verif.EstimatesLemmas
import Verif.EstimatesSpec
import Verif.EvalLemmas
import Verif.EvalSpec
import Verif.FrameLemmas
import Verif.FrameSpec
import Verif.GF
import Verif.GFPoly
import Verif.GFPrimitive
import Verif.GFSerLemmas
import Verif.GFSlice
import Verif.GFTables
import Verif.GFTablesLemmas
import Verif.Garble
import Verif.GarbleExist
import Verif.GarbleLemmas
import Verif.GarbleLoopLemmas
import Verif.GarbleRows
import Verif.GarbleSpec
import Verif.GateLemmas
import Verif.GenSup
import Verif.GenSupCode
import Verif.GenSupFile
import Verif.GenSupLemmas
import Verif.GenSupSpec
import Verif.IndepLemmas
import Verif.IndepSpec
import Verif.Json
import Verif.JsonLemmas
import Verif.KernelRfl
import Verif.LabelChance
import Verif.LagrangeLemmas
import Verif.LocalShutdown
import Verif.LocalShutdownLemmas
import Verif.LpnCostLemmas
import Verif.LpnErrLemmas
import Verif.LpnErrSpec
import Verif.LpnLemmas
import Verif.LpnParam
import Verif.LpnParamLemmas
import Verif.LpnParamSpec
import Verif.LpnScript
import Verif.LpnSearchLemmas
import Verif.MalEst
import Verif.MalEstLemmas
import Verif.MathMod
import Verif.MathModLemmas
import Verif.NetSort
import Verif.NetSortHide
import Verif.NetSortLemmas
import Verif.NetSortTail
import Verif.Network
import Verif.NetworkLemmas
import Verif.NetworkSpec
import Verif.NoiseLemmas
import Verif.NoiseSpec
import Verif.PackLemmas
import Verif.ParseLemmas
import Verif.ParseSpec
import Verif.PreCase
import Verif.PreDeal
import Verif.PreIndex
import Verif.PreLift
import Verif.PreLoop
import Verif.PreMove
import Verif.PreRetape
import Verif.PreRun
import Verif.PreView
import Verif.Preproc
import Verif.PreprocLemmas
import Verif.PreprocSize
import Verif.PreprocSizeLemmas
import Verif.PreprocSpec
import Verif.PrivacyAbsorb
import Verif.PrivacyCase
import Verif.PrivacyExtract
import Verif.PrivacyGarbleSpec
import Verif.PrivacyJobs
import Verif.PrivacyLayers
import Verif.PrivacyLeak
import Verif.PrivacyLink
import Verif.PrivacyLocal
import Verif.PrivacyNetJobs
import Verif.PrivacyNetLemmas
import Verif.PrivacyNetRun
import Verif.PrivacyNetSeq
import Verif.PrivacyNetSim
import Verif.PrivacyNetSpec
import Verif.PrivacyPad
import Verif.PrivacyPair
import Verif.PrivacyParams
import Verif.PrivacyPreSpec
import Verif.PrivacyRtLemmas
import Verif.PrivacyRun
import Verif.PrivacyShift
import Verif.PrivacySpec
import Verif.PrivacySteps
import Verif.PrivacyWorld
import Verif.Props.Async
import Verif.Props.AsyncBench
import Verif.Props.AsyncByz
import Verif.Props.AsyncComm
import Verif.Props.AsyncExit
import Verif.Props.AsyncFault
import Verif.Props.AsyncNet
import Verif.Props.AsyncNetBench
import Verif.Props.AsyncRun
import Verif.Props.Balance
import Verif.Props.BenchFile
import Verif.Props.Binsup
import Verif.Props.ByzDeal
import Verif.Props.ByzGarble
import Verif.Props.ByzMix
import Verif.Props.ByzPipe
import Verif.Props.ByzPre
import Verif.Props.ByzPreMix
import Verif.Props.ByzPrivacy
import Verif.Props.ByzShipped
import Verif.Props.ByzTrans
import Verif.Props.Circuit
import Verif.Props.CircuitErrors
import Verif.Props.Connect
import Verif.Props.Core
import Verif.Props.Count
import Verif.Props.DealLen
import Verif.Props.EndToEnd
import Verif.Props.Estimates
import Verif.Props.Eval
import Verif.Props.EvalLeak
import Verif.Props.Field
import Verif.Props.Frames
import Verif.Props.Garble
import Verif.Props.GenSup
import Verif.Props.Independence
import Verif.Props.LabelChance
import Verif.Props.Lengths
import Verif.Props.LocalShutdown
import Verif.Props.Lpn
import Verif.Props.LpnErrors
import Verif.Props.LpnParam
import Verif.Props.LpnSearch
import Verif.Props.MalEst
import Verif.Props.Masks
import Verif.Props.MatRule
import Verif.Props.MathMod
import Verif.Props.Network
import Verif.Props.Noise
import Verif.Props.Params
import Verif.Props.Parse
import Verif.Props.Preproc
import Verif.Props.PreprocSize
import Verif.Props.Privacy
import Verif.Props.PrivacyFault
import Verif.Props.PrivacyNet
import Verif.Props.PrivacyPreproc
import Verif.Props.ProtoId
import Verif.Props.Query
import Verif.Props.RandTransSmall
import Verif.Props.Reuse
import Verif.Props.Rounds
import Verif.Props.RowKey
import Verif.Props.Scale
import Verif.Props.Sharing
import Verif.Props.SharingCoeffs
import Verif.Props.Shipped
import Verif.Props.ShippedPrivacy
import Verif.Props.ShippedRun
import Verif.Props.Shutdown
import Verif.Props.Tamper
import Verif.Props.Trans
import Verif.ProtoId
import Verif.ProtoIdLemmas
import Verif.PyFloat
import Verif.QueryLemmas
import Verif.QuerySpec
import Verif.RandTransLemmas
import Verif.RandTransSmall
import Verif.ReuseAes
import Verif.ReuseCheck
import Verif.ReuseLemmas
import Verif.ReuseSpec
import Verif.RouterLemmas
import Verif.RowKeyLemmas
import Verif.RowKeyShipped
import Verif.RowKeySpec
import Verif.ScaleLemmas
import Verif.SelectLemmas
import Verif.Sha
import Verif.ShaLemmas
import Verif.ShaMain
import Verif.ShaSpec
import Verif.ShaSpecLemmas
import Verif.Sharing
import Verif.SharingLemmas
import Verif.SharingSpec
import Verif.ShippedCount
import Verif.ShippedHide
import Verif.ShippedIds
import Verif.ShippedPrivacyLemmas
import Verif.ShippedPrivacySpec
import Verif.ShippedRunLemmas
import Verif.ShippedRunSpec
import Verif.ShippedSort
import Verif.ShippedSpec
import Verif.Shutdown
import Verif.ShutdownLemmas
import Verif.SortLemmas
import Verif.Sub64
import Verif.Sub64Lemmas
import Verif.TamperSpec
import Verif.TapeCount
import Verif.TransformLemmas
