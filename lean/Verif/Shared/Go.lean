import Verif.Shared.Types

/-!
# Data types of the Go interfaces (go/tosca)

Plain records used by both the model and the specification; no behaviour is defined here.
`[32]byte` and `[20]byte` arrays are 256- and 160-bit numbers as in `Verif/Shared/Types`.
-/

namespace Tosca.Go

/-- `tosca.CallKind` (go/tosca/interpreter.go:153-162). -/
inductive Kind
  | call | delegateCall | staticCall | callCode | create | create2
  deriving DecidableEq, Repr

/-- `tosca.CallParameters` (go/tosca/interpreter.go:164-172). -/
structure CallParameters where
  sender : Address := 0
  recipient : Address := 0
  value : U256 := 0
  input : List Byte := []
  gas : Int := 0
  salt : U256 := 0
  codeAddress : Address := 0
  deriving DecidableEq, Repr

/-- `tosca.CallResult` (go/tosca/interpreter.go:174-180); the default is the Go zero value. -/
structure CallRes where
  output : List Byte := []
  gasLeft : Int := 0
  gasRefund : Int := 0
  createdAddress : Address := 0
  success : Bool := false
  deriving DecidableEq, Repr

/-- `tosca.Result` (go/tosca/interpreter.go:126-131): the outcome of an interpreter run. -/
structure RunResult where
  success : Bool := false
  output : List Byte := []
  gasLeft : Int := 0
  gasRefund : Int := 0
  deriving DecidableEq, Repr

/-- `tosca.BlockParameters` (go/tosca/interpreter.go:53-63).  `revision` is the `int` value of `tosca.Revision`
(0 = Istanbul, …, 5 = Cancun). -/
structure BlockParameters where
  chainId : U256 := 0
  blockNumber : Int := 0
  timestamp : Int := 0
  coinbase : Address := 0
  gasLimit : Int := 0
  prevRandao : U256 := 0
  baseFee : U256 := 0
  blobBaseFee : U256 := 0
  revision : Int := 0
  deriving DecidableEq, Repr

/-- `tosca.TransactionParameters` (go/tosca/interpreter.go:66-70). -/
structure TransactionParameters where
  origin : Address := 0
  gasPrice : U256 := 0
  blobHashes : List U256 := []
  deriving DecidableEq, Repr

/-- `tosca.Parameters` (go/tosca/interpreter.go:36-50) without the run context. -/
structure Parameters where
  block : BlockParameters
  tx : TransactionParameters
  kind : Kind := .call
  static : Bool := false
  depth : Int := 0
  gas : Int := 0
  recipient : Address := 0
  sender : Address := 0
  input : List Byte := []
  value : U256 := 0
  codeHash : Option U256 := none
  code : List Byte := []
  deriving DecidableEq, Repr

/-- `tosca.Log` (go/tosca/interpreter.go:145-149). -/
structure Log where
  address : Address
  topics : List U256
  data : List Byte
  deriving DecidableEq, Repr

/-- An error value returned by an interpreter, or (`crash`) no return at all: undefined behaviour or an endless
loop in the C++ part. -/
inductive Err
  | unsupportedRevision
  | unexpectedStatus (s : EvmcStatus)
  | crash
  deriving DecidableEq, Repr

/-- `tosca.TransactionContext` (go/tosca/interpreter.go:86-114, world_state.go:20-41) over a state `ω` held by the client.
Reading does not change the state.  Simplification: a snapshot is the state itself, so `CreateSnapshot` and
`RestoreSnapshot` need no operations here. -/
structure Db (ω : Type) where
  accountExists : Address → ω → Bool
  balance : Address → ω → U256
  setBalance : Address → U256 → ω → ω
  nonce : Address → ω → BitVec 64
  setNonce : Address → BitVec 64 → ω → ω
  code : Address → ω → List Byte
  codeHash : Address → ω → U256
  codeSize : Address → ω → Nat
  setCode : Address → List Byte → ω → ω
  storage : Address → U256 → ω → U256
  setStorage : Address → U256 → U256 → ω → StorageStatus × ω
  transient : Address → U256 → ω → U256
  setTransient : Address → U256 → U256 → ω → ω
  accessAccount : Address → ω → AccessStatus × ω
  accessStorage : Address → U256 → ω → AccessStatus × ω
  selfDestruct : Address → Address → ω → Bool × ω
  emitLog : Log → ω → ω
  logs : ω → List Log
  blockHash : Int → ω → U256

/-- `RunContext.Call` (go/tosca/interpreter.go:77). -/
abbrev CallFn (ω : Type) := Kind → CallParameters → ω → Except Err CallRes × ω

/-- `Interpreter.Run` (go/tosca/interpreter.go:22-33); the run context is the database and the call function. -/
abbrev Interpreter (ω : Type) := Db ω → CallFn ω → Parameters → ω → Except Err RunResult × ω

/-- A precompiled contract (geth's `PrecompiledContract`): the gas it requires (a `uint64`) and its output, with
`true` if no error is returned. -/
structure Precompile where
  requiredGas : List Byte → BitVec 64
  run : List Byte → List Byte × Bool

/-- `tosca.AccessTuple` (go/tosca/processor.go:41-44). -/
structure AccessTuple where
  address : Address
  keys : List U256
  deriving DecidableEq, Repr

/-- `tosca.Transaction` (go/tosca/processor.go:26-35); `recipient` and `accessList` may be nil. -/
structure Transaction where
  sender : Address
  recipient : Option Address := none
  nonce : BitVec 64 := 0
  input : List Byte := []
  value : U256 := 0
  gasLimit : Int := 0
  gasPrice : U256 := 0
  accessList : Option (List AccessTuple) := none
  deriving DecidableEq, Repr

/-- `tosca.Receipt` (go/tosca/processor.go:47-54); the default is the Go zero value. -/
structure Receipt where
  success : Bool := false
  output : List Byte := []
  contractAddress : Option Address := none
  gasUsed : Int := 0
  blobGasUsed : Int := 0
  logs : List Log := []
  deriving DecidableEq, Repr

/-- `st.StatusCode` (go/ct/st/state.go). -/
inductive CtStatus
  | running | stopped | reverted | failed
  deriving DecidableEq, Repr

/-- The part of `st.State` (go/ct/st/state.go) that a stepping interpreter handles itself.  The stack is a list with the top first; the components
that instructions reach through the run context (storage, accounts, logs, journals) are `world`; those that do not change (code, revision, call
data, block) are in the parameters. -/
structure CtState (ω : Type) where
  status : CtStatus
  pc : BitVec 16
  gas : Int
  refund : Int
  stack : List U256
  memory : List Byte
  lastCallReturnData : List Byte
  returnData : List Byte
  world : ω

end Tosca.Go
