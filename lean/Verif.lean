import Verif.Model.Basic
import Verif.Model.Compare
import Verif.Model.Context
import Verif.Model.CtRules
import Verif.Model.CtState
import Verif.Model.EvmzeroCt
import Verif.Model.Floria
import Verif.Model.Gen
import Verif.Model.GenAccounts
import Verif.Model.GenContext
import Verif.Model.GethAdapter
import Verif.Model.GoBridge
import Verif.Model.GoValue
import Verif.Model.Interp
import Verif.Model.Lfvm
import Verif.Model.LfvmCode
import Verif.Model.LfvmCt
import Verif.Model.LfvmHash
import Verif.Model.LfvmKeccak
import Verif.Model.LfvmObserve
import Verif.Model.LfvmRun
import Verif.Model.Lru
import Verif.Model.LruThreads
import Verif.Model.Memory
import Verif.Model.Nest
import Verif.Model.Observers
import Verif.Model.Opcodes
import Verif.Model.Opera
import Verif.Model.Ops
import Verif.Model.Owners
import Verif.Model.Persist
import Verif.Model.Reach
import Verif.Model.Registry
import Verif.Model.Sha3Cache
import Verif.Model.Solver
import Verif.Model.StackPool
import Verif.Model.Threads
import Verif.Model.Vm
import Verif.Proofs.Adv
import Verif.Proofs.AnyHost
import Verif.Proofs.Bound
import Verif.Proofs.Compare
import Verif.Proofs.CtAll
import Verif.Proofs.CtCode
import Verif.Proofs.CtCover
import Verif.Proofs.CtMem
import Verif.Proofs.CtOps1
import Verif.Proofs.CtOps10
import Verif.Proofs.CtOps11
import Verif.Proofs.CtOps2
import Verif.Proofs.CtOps3
import Verif.Proofs.CtOps4
import Verif.Proofs.CtOps5
import Verif.Proofs.CtOps6
import Verif.Proofs.CtOps7
import Verif.Proofs.CtOps8
import Verif.Proofs.CtOps9
import Verif.Proofs.CtRel
import Verif.Proofs.CtSame
import Verif.Proofs.Effects
import Verif.Proofs.EzBytes
import Verif.Proofs.EzCall
import Verif.Proofs.EzCt
import Verif.Proofs.Facts
import Verif.Proofs.Floria
import Verif.Proofs.FloriaInv
import Verif.Proofs.FloriaStack
import Verif.Proofs.Fuel
import Verif.Proofs.GenAccounts
import Verif.Proofs.GenCode
import Verif.Proofs.GenContext
import Verif.Proofs.GenStorage
import Verif.Proofs.GenTransient
import Verif.Proofs.GoBridge
import Verif.Proofs.GoEffects
import Verif.Proofs.GoNative
import Verif.Proofs.GoValue
import Verif.Proofs.Halt
import Verif.Proofs.HostMap
import Verif.Proofs.Jump
import Verif.Proofs.KeccakAbc
import Verif.Proofs.Kinds
import Verif.Proofs.Ledger
import Verif.Proofs.LfvmConv
import Verif.Proofs.LfvmCt
import Verif.Proofs.LfvmCtMap
import Verif.Proofs.LfvmCtStack
import Verif.Proofs.LfvmFrame
import Verif.Proofs.LfvmHash
import Verif.Proofs.LfvmIter
import Verif.Proofs.LfvmKeccak
import Verif.Proofs.LfvmLike
import Verif.Proofs.LfvmLoop
import Verif.Proofs.LfvmMem
import Verif.Proofs.LfvmObserve
import Verif.Proofs.LfvmOne
import Verif.Proofs.LfvmOps1
import Verif.Proofs.LfvmOps2
import Verif.Proofs.LfvmOps3
import Verif.Proofs.LfvmOps4
import Verif.Proofs.LfvmOps5
import Verif.Proofs.LfvmOps6
import Verif.Proofs.LfvmPush
import Verif.Proofs.LfvmRel
import Verif.Proofs.LfvmSent
import Verif.Proofs.LfvmSponge
import Verif.Proofs.LfvmStack
import Verif.Proofs.LfvmStep
import Verif.Proofs.LfvmSuper
import Verif.Proofs.LfvmSuperOps
import Verif.Proofs.LfvmWord
import Verif.Proofs.Loop
import Verif.Proofs.Lru
import Verif.Proofs.LruHist
import Verif.Proofs.Mem
import Verif.Proofs.NativeEffects
import Verif.Proofs.NativeWorks
import Verif.Proofs.Nest
import Verif.Proofs.Nonce
import Verif.Proofs.One
import Verif.Proofs.Ops1
import Verif.Proofs.Ops2
import Verif.Proofs.Ops3
import Verif.Proofs.Ops4
import Verif.Proofs.Ops5
import Verif.Proofs.Owners
import Verif.Proofs.Persist
import Verif.Proofs.Profiler
import Verif.Proofs.Push
import Verif.Proofs.Read
import Verif.Proofs.Run
import Verif.Proofs.Sent
import Verif.Proofs.Sha3
import Verif.Proofs.Solver
import Verif.Proofs.Sound
import Verif.Proofs.StackCalls
import Verif.Proofs.StackPool
import Verif.Proofs.Step
import Verif.Proofs.Sync
import Verif.Proofs.Threads
import Verif.Proofs.Touch
import Verif.Proofs.Trace
import Verif.Proofs.Transaction
import Verif.Proofs.Twin
import Verif.Proofs.Vm
import Verif.Proofs.Word
import Verif.Proofs.Wp
import Verif.Props.Accounts
import Verif.Props.Bounds
import Verif.Props.Caches
import Verif.Props.Calls
import Verif.Props.Checks
import Verif.Props.Compare
import Verif.Props.Control
import Verif.Props.CtRules
import Verif.Props.Demo
import Verif.Props.Effects
import Verif.Props.EvmzeroCt
import Verif.Props.Exec
import Verif.Props.Gen
import Verif.Props.GenAccounts
import Verif.Props.GenContext
import Verif.Props.GethAdapter
import Verif.Props.GoBridge
import Verif.Props.GoCalls
import Verif.Props.GoCallsDemo
import Verif.Props.GoDemo
import Verif.Props.GoEval
import Verif.Props.GoLedger
import Verif.Props.GoRefund
import Verif.Props.GoSystem
import Verif.Props.GoTx
import Verif.Props.GoValue
import Verif.Props.Lfvm
import Verif.Props.LfvmCaches
import Verif.Props.LfvmCt
import Verif.Props.LfvmKeccak
import Verif.Props.LfvmLedger
import Verif.Props.LfvmObserve
import Verif.Props.LfvmSuper
import Verif.Props.Memory
import Verif.Props.Nest
import Verif.Props.Opera
import Verif.Props.Owners
import Verif.Props.Persist
import Verif.Props.Registry
import Verif.Props.Sharing
import Verif.Props.Solver
import Verif.Props.Stacks
import Verif.Props.Stepping
import Verif.Props.Threads
import Verif.Props.Trace
import Verif.Props.Words
import Verif.Props.Writes
import Verif.Shared.Frames
import Verif.Shared.Go
import Verif.Shared.LruOp
import Verif.Shared.StackOp
import Verif.Shared.Types
import Verif.Spec.AccountView
import Verif.Spec.Api
import Verif.Spec.Assume
import Verif.Spec.Calls
import Verif.Spec.Checks
import Verif.Spec.Effects
import Verif.Spec.EnvTable
import Verif.Spec.Evm
import Verif.Spec.Go
import Verif.Spec.GoCompare
import Verif.Spec.GoEvmzero
import Verif.Spec.GoGen
import Verif.Spec.GoGenAccounts
import Verif.Spec.GoGenContext
import Verif.Spec.GoGeth
import Verif.Spec.GoNative
import Verif.Spec.GoObserve
import Verif.Spec.GoPersist
import Verif.Spec.GoRegistry
import Verif.Spec.GoRules
import Verif.Spec.GoSetting
import Verif.Spec.GoSolver
import Verif.Spec.GoStep
import Verif.Spec.GoSuper
import Verif.Spec.GoValue
import Verif.Spec.Instr
import Verif.Spec.Keccak
import Verif.Spec.Ledger
import Verif.Spec.Lru
import Verif.Spec.Mem
import Verif.Spec.MemView
import Verif.Spec.Nest
import Verif.Spec.Opera
import Verif.Spec.Outcome
import Verif.Spec.Owners
import Verif.Spec.PoolView
import Verif.Spec.Setting
import Verif.Spec.Stacks
import Verif.Spec.StateContract
import Verif.Spec.Storage
import Verif.Spec.Tables
import Verif.Spec.Threads
import Verif.Spec.Trace
import Verif.Spec.Transaction
import Verif.Spec.Word
