import Verif.Lemmas.AcceptBody
import Verif.Lemmas.AcceptInst
import Verif.Lemmas.AcceptModule
import Verif.Lemmas.Arith
import Verif.Lemmas.Attr
import Verif.Lemmas.Bits
import Verif.Lemmas.Cells
import Verif.Lemmas.CommandFlags
import Verif.Lemmas.CommandLine
import Verif.Lemmas.Decode
import Verif.Lemmas.DecodeInst
import Verif.Lemmas.DecodeModule
import Verif.Lemmas.Disasm
import Verif.Lemmas.DoubleRound
import Verif.Lemmas.Float
import Verif.Lemmas.FloatArSpec
import Verif.Lemmas.FloatArith
import Verif.Lemmas.FloatClear
import Verif.Lemmas.FloatExact
import Verif.Lemmas.FloatExact2
import Verif.Lemmas.FloatInt
import Verif.Lemmas.FloatOps
import Verif.Lemmas.FloatRun
import Verif.Lemmas.FloatSat
import Verif.Lemmas.FloatSign
import Verif.Lemmas.FloatSqrt
import Verif.Lemmas.FloatTotal
import Verif.Lemmas.Frames
import Verif.Lemmas.Init
import Verif.Lemmas.Init2
import Verif.Lemmas.Init3
import Verif.Lemmas.Init4
import Verif.Lemmas.InstExt
import Verif.Lemmas.Instantiate
import Verif.Lemmas.IntOps
import Verif.Lemmas.Isolation
import Verif.Lemmas.IsolationNew
import Verif.Lemmas.Lanes
import Verif.Lemmas.Leb128
import Verif.Lemmas.Link
import Verif.Lemmas.Listing
import Verif.Lemmas.ListingModule
import Verif.Lemmas.LogDecode
import Verif.Lemmas.LogInit
import Verif.Lemmas.LogRun
import Verif.Lemmas.LogTrace
import Verif.Lemmas.MRun
import Verif.Lemmas.Mem
import Verif.Lemmas.NaN
import Verif.Lemmas.NumLocal
import Verif.Lemmas.NumNoRef
import Verif.Lemmas.NumTy
import Verif.Lemmas.Opcode
import Verif.Lemmas.OpcodeTable
import Verif.Lemmas.Own
import Verif.Lemmas.OwnStep
import Verif.Lemmas.Reentry
import Verif.Lemmas.RefAgree
import Verif.Lemmas.RefBelow
import Verif.Lemmas.RefCov
import Verif.Lemmas.RefMain
import Verif.Lemmas.RefPlain
import Verif.Lemmas.RefSim
import Verif.Lemmas.Round
import Verif.Lemmas.SimdBase
import Verif.Lemmas.SimdBase2
import Verif.Lemmas.SimdFloat
import Verif.Lemmas.SimdLane
import Verif.Lemmas.SimdOps
import Verif.Lemmas.Step
import Verif.Lemmas.StepExt
import Verif.Lemmas.Steps
import Verif.Lemmas.StoreExt
import Verif.Lemmas.Ty
import Verif.Lemmas.TypeInst
import Verif.Lemmas.TypePlain
import Verif.Lemmas.TypeSound
import Verif.Lemmas.TypeStart
import Verif.Lemmas.VM
import Verif.Lemmas.Wasi
import Verif.Lemmas.WasiBits
import Verif.Lemmas.WasiConfig
import Verif.Lemmas.WasiDir
import Verif.Lemmas.WasiErrno
import Verif.Lemmas.WasiFile
import Verif.Lemmas.WasiFs
import Verif.Lemmas.WasiHonest
import Verif.Lemmas.WasiIov
import Verif.Lemmas.WasiLive
import Verif.Lemmas.WasiMem
import Verif.Lemmas.WasiOpen
import Verif.Lemmas.WasiPath
import Verif.Lemmas.WasiPoll
import Verif.Lemmas.WasiQuit
import Verif.Lemmas.WasiShape
import Verif.Lemmas.WasiStay
import Verif.Lemmas.WasiStrs
import Verif.Lemmas.WasiTable
import Verif.Lemmas.WorldKeep
import Verif.Lemmas.Wp
import Verif.Model.Args
import Verif.Model.Arith
import Verif.Model.Cli
import Verif.Model.Decode
import Verif.Model.Disasm
import Verif.Model.File
import Verif.Model.FloatOps
import Verif.Model.Inst
import Verif.Model.Instance
import Verif.Model.IntOps
import Verif.Model.Leb128
import Verif.Model.LogDecode
import Verif.Model.LogRun
import Verif.Model.Machine
import Verif.Model.Module
import Verif.Model.NumOps
import Verif.Model.Opcode
import Verif.Model.Py
import Verif.Model.PyFloat
import Verif.Model.PyPath
import Verif.Model.Reentry
import Verif.Model.SimdOps
import Verif.Model.Store
import Verif.Model.Value
import Verif.Model.Wasi
import Verif.Model.WasiHost
import Verif.Model.WasiTypes
import Verif.Props.Accept
import Verif.Props.AnyCli
import Verif.Props.AnyFile
import Verif.Props.Branch
import Verif.Props.Call
import Verif.Props.Cli
import Verif.Props.CommandLine
import Verif.Props.Control
import Verif.Props.Decode
import Verif.Props.Depth
import Verif.Props.Embedder
import Verif.Props.File
import Verif.Props.Float
import Verif.Props.FloatArith
import Verif.Props.FloatSpec
import Verif.Props.Grow
import Verif.Props.HostRaise
import Verif.Props.HostValue
import Verif.Props.Instance
import Verif.Props.Instantiate
import Verif.Props.Int
import Verif.Props.Invocate
import Verif.Props.Isolation
import Verif.Props.IsolationWasi
import Verif.Props.Leb128
import Verif.Props.Log
import Verif.Props.Memory
import Verif.Props.PassOn
import Verif.Props.Reentry
import Verif.Props.RefFloat
import Verif.Props.Simd
import Verif.Props.SimdFloat
import Verif.Props.StoreInv
import Verif.Props.Table
import Verif.Props.TypeInstance
import Verif.Props.Typing
import Verif.Props.ValueApi
import Verif.Props.Vars
import Verif.Props.WasiArgs
import Verif.Props.WasiCut
import Verif.Props.WasiDir
import Verif.Props.WasiErrno
import Verif.Props.WasiFdstat
import Verif.Props.WasiFile
import Verif.Props.WasiFs
import Verif.Props.WasiIo
import Verif.Props.WasiLeak
import Verif.Props.WasiMain
import Verif.Props.WasiMemory
import Verif.Props.WasiPaths
import Verif.Props.WasiPoll
import Verif.Props.WasiProgram
import Verif.Props.WasiRights
import Verif.Props.WasiSession
import Verif.Props.WasiSock
import Verif.Props.WasiStat
import Verif.Props.WasiTable
import Verif.Spec.Accepted
import Verif.Spec.Binary
import Verif.Spec.Cells
import Verif.Spec.CommandLine
import Verif.Spec.Conforming
import Verif.Spec.Demo
import Verif.Spec.Deviation
import Verif.Spec.Exec
import Verif.Spec.Float
import Verif.Spec.FloatDev
import Verif.Spec.FloatOps
import Verif.Spec.History
import Verif.Spec.Instantiate
import Verif.Spec.IntOps
import Verif.Spec.Invoke
import Verif.Spec.Isolation
import Verif.Spec.Lanes
import Verif.Spec.Leb128
import Verif.Spec.Link
import Verif.Spec.Listing
import Verif.Spec.Log
import Verif.Spec.Mnemonic
import Verif.Spec.Opcode
import Verif.Spec.Own
import Verif.Spec.Reentry
import Verif.Spec.Ref
import Verif.Spec.Returns
import Verif.Spec.SimdFloat
import Verif.Spec.SimdOps
import Verif.Spec.StoreExt
import Verif.Spec.Typing
import Verif.Spec.ValidModule
import Verif.Spec.Wasi
import Verif.Spec.WasiDemo
import Verif.Spec.WasiDir
import Verif.Spec.WasiErrno
import Verif.Spec.WasiFs
import Verif.Spec.WasiHistory
import Verif.Spec.WasiMain
import Verif.Spec.WasiNamed
import Verif.Spec.WasiPath
import Verif.Spec.WasiPoll
