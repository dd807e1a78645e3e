import Verif.Model.LockFifo
import Verif.Model.LockObj
import Verif.Model.LockSys
import Verif.Spec.Queue
import Verif.Lemmas.LockFifo
import Verif.Lemmas.LockSys
import Verif.Props.LockFifo
import Verif.Model.LockPart
import Verif.Spec.Lock
import Verif.Lemmas.LockRun
import Verif.Props.Lock
import Verif.Props.LockPart
import Verif.Model.PartSched
import Verif.Spec.Schedule
import Verif.Props.PartSched
import Verif.Model.ThreadSched
import Verif.Model.Affinity
import Verif.Model.Kernel
import Verif.Model.ThreadMgmt
import Verif.Model.PartMgmt
import Verif.Model.KernelSys
import Verif.Spec.Cyclic
import Verif.Spec.Dispatch
import Verif.Lemmas.ThreadSched
import Verif.Lemmas.Kernel
import Verif.Lemmas.KernelStep
import Verif.Lemmas.KernelWf
import Verif.Lemmas.Boot
import Verif.Props.ThreadSched
import Verif.Props.Election
import Verif.Props.Rms
import Verif.Spec.Timing
import Verif.Lemmas.Quiet
import Verif.Props.Timing
import Verif.Spec.Modes
import Verif.Props.ThreadMgmt
import Verif.Props.Affinity
import Verif.Lemmas.Port
import Verif.Lemmas.PortStep
import Verif.Lemmas.PortFlow
import Verif.Lemmas.PortSample
import Verif.Props.Port
import Verif.Props.Sampling
import Verif.Model.ErrorMgmt
import Verif.Model.Syscall
import Verif.Props.ErrorMgmt
import Verif.Spec.Syscall
import Verif.Props.Syscall
import Verif.Model.Alloc
import Verif.Spec.Alloc
import Verif.Props.Alloc
import Verif.Model.Middleware
import Verif.Spec.Middleware
import Verif.Props.Middleware
import Verif.Props.Blackboard
import Verif.Model.Libc
import Verif.Spec.Libc
import Verif.Props.Libc
import Verif.Props.LibcString
import Verif.Model.Caesar
import Verif.Props.Caesar
import Verif.Model.DesTables
import Verif.Model.Des
import Verif.Props.Des
import Verif.Model.X86
import Verif.Spec.X86
import Verif.Props.Segments
import Verif.Props.Console
import Verif.Model.Smp
import Verif.Props.Smp
import Verif.Model.Loader
import Verif.Spec.Elf
import Verif.Props.Loader
import Verif.Model.Ppc
import Verif.Spec.Ppc
import Verif.Props.Ppc
import Verif.Model.Machine
import Verif.Spec.Machine
import Verif.Props.Machine
import Verif.Model.Arinc
import Verif.Spec.Arinc
import Verif.Props.Arinc
import Verif.Model.Stubs
import Verif.Spec.Stubs
import Verif.Props.Stubs
import Verif.Props.Start
import Verif.Spec.Codes
import Verif.Props.Codes
import Verif.Model.Results
import Verif.Spec.Results
import Verif.Props.Results
import Verif.Props.Create
import Verif.Model.Printf
import Verif.Spec.Printf
import Verif.Props.Printf
import Verif.Spec.Blowfish
import Verif.Props.Blowfish
import Verif.Props.ArincArgs
import Verif.Model.Info
import Verif.Spec.Info
import Verif.Props.Info
import Verif.Spec.Des
import Verif.Lemmas.DesRound
import Verif.Props.DesStd
import Verif.Props.DesWeak
import Verif.Props.Restart
import Verif.Props.ErrorQuiet
import Verif.Spec.Float
import Verif.Model.Fpu
import Verif.Model.Libm
import Verif.Lemmas.Float
import Verif.Props.Floor
import Verif.Lemmas.Round
import Verif.Props.FloatBits
import Verif.Props.Scale
import Verif.Props.Nextafter
import Verif.Props.Fmod
import Verif.Props.Remainder
import Verif.Props.SqrtLoop
import Verif.Props.Sqrt
import Verif.Props.Rint
import Verif.Model.SparcTrap
import Verif.Spec.Sparc
import Verif.Lemmas.SparcTrap
import Verif.Lemmas.SparcContext
import Verif.Lemmas.SparcProg
import Verif.Lemmas.SparcCall
import Verif.Props.SparcCalls
import Verif.Props.SparcTrap
import Verif.Model.SparcMmu
import Verif.Props.SparcMmu
import Verif.Props.PortWait
import Verif.Props.Total
import Verif.Props.PpcCpu
import Verif.Props.Timers
import Verif.Model.VirtPort
import Verif.Props.VirtPort
import Verif.Model.MwStatus
import Verif.Props.MwStatus
import Verif.Lemmas.Bound
import Verif.Props.OneCpu
import Verif.Model.Mp
import Verif.Spec.Mp
import Verif.Props.Mp
import Verif.Spec.Isolation
import Verif.Lemmas.Isolation
import Verif.Lemmas.IsolationStep
import Verif.Lemmas.IsolationCall
import Verif.Lemmas.IsolationRun
import Verif.Props.Isolation
import Verif.Model.Net
import Verif.Spec.Net
import Verif.Lemmas.Net
import Verif.Props.Net
import Verif.Spec.NetSend
import Verif.Props.NetSend
import Verif.Model.Libmf
import Verif.Model.Fpu32
import Verif.Spec.Single
import Verif.Lemmas.Single
import Verif.Lemmas.SingleRound
import Verif.Props.SingleFloor
import Verif.Props.SingleBits
import Verif.Props.SingleScale
import Verif.Props.SingleNextafter
import Verif.Props.SingleFmod
import Verif.Props.SingleRemainder
import Verif.Props.SingleRint
import Verif.Props.SingleSqrtLoop
import Verif.Props.SingleSqrt
import Verif.Spec.PortIsolation
import Verif.Lemmas.PortLike
import Verif.Lemmas.PortIso
import Verif.Lemmas.PortIsoRun
import Verif.Props.PortIsolation
import Verif.Model.Pow
import Verif.Spec.Pow
import Verif.Lemmas.Pow
import Verif.Lemmas.PowCases
import Verif.Props.Pow
import Verif.Lemmas.Printf
import Verif.Lemmas.PrintFloat
import Verif.Props.PrintFloat
import Verif.Model.Trig
import Verif.Lemmas.Err
import Verif.Lemmas.Poly
import Verif.Lemmas.Taylor
import Verif.Lemmas.Sin
import Verif.Lemmas.SinKernel
import Verif.Lemmas.CosKernel
import Verif.Lemmas.Pi
import Verif.Lemmas.Reduce
import Verif.Lemmas.RemPio2
import Verif.Props.Trig
import Verif.Model.Exp
import Verif.Lemmas.ErrDiv
import Verif.Lemmas.Ln2
import Verif.Lemmas.ExpKernel
import Verif.Lemmas.ExpTail
import Verif.Lemmas.ExpReduce
import Verif.Lemmas.ExpFinish
import Verif.Props.Exp
import Verif.Model.Log
import Verif.Lemmas.ErrGrid
import Verif.Lemmas.LogKernel
import Verif.Lemmas.LogFinish
import Verif.Lemmas.LogTail
import Verif.Lemmas.LogSplit
import Verif.Props.Log
import Verif.Model.Vectors
import Verif.Props.Vectors
import Verif.Model.Serial
import Verif.Props.Serial
import Verif.Model.LogBase
import Verif.Lemmas.LogBase
import Verif.Props.LogBase
import Verif.Model.DefaultHandler
import Verif.Props.DefaultHandler
import Verif.Model.Trace
import Verif.Spec.Trace
import Verif.Props.Trace
import Verif.Model.Atan
import Verif.Lemmas.Atan
import Verif.Lemmas.AtanFinish
import Verif.Lemmas.AtanBranch
import Verif.Props.Atan
import Verif.Model.Atan2
import Verif.Spec.Angle
import Verif.Lemmas.Atan2
import Verif.Props.Atan2
import Verif.Model.Hypot
import Verif.Lemmas.Rel
import Verif.Lemmas.Hypot
import Verif.Lemmas.HypotScale
import Verif.Lemmas.HypotNear
import Verif.Props.Hypot
import Verif.Model.Spin
import Verif.Props.Spin
import Verif.Model.ApexStatus
import Verif.Spec.ApexStatus
import Verif.Props.ApexStatus
import Verif.Model.Tss
import Verif.Spec.Tss
import Verif.Props.Tss
import Verif.Model.ErrorApex
import Verif.Props.ErrorApex
import Verif.Model.Cbrt
import Verif.Lemmas.Cbrt
import Verif.Lemmas.CbrtStep
import Verif.Lemmas.CbrtNear
import Verif.Props.Cbrt
import Verif.Model.DesKey
import Verif.Props.DesKey
import Verif.Model.Cosh
import Verif.Lemmas.Expm1
import Verif.Lemmas.Cosh
import Verif.Props.Cosh
import Verif.Model.Sinh
import Verif.Props.Sinh
import Verif.Props.Tanh
import Verif.Model.BoardCall
import Verif.Props.BoardCall
import Verif.Lemmas.Expm1Rel
import Verif.Lemmas.Expm1Red
import Verif.Props.SinhMid
import Verif.Props.TanhMid
import Verif.Props.Expm1
import Verif.Model.Scalb
import Verif.Props.Scalb
import Verif.Model.Scalbf
import Verif.Props.Scalbf
import Verif.Model.Asin
import Verif.Props.Asin
import Verif.Model.Asinh
import Verif.Props.Asinh
