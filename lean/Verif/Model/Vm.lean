import Verif.Model.Interp

/-!
# Entry points (cpp/vm/evmzero/evmzero.cc; Interpret / InterpretNSteps in interpreter.cc)
-/

namespace Tosca.Model

variable {σ ω : Type}

/-- `struct InterpreterArgs` (interpreter.h:50-58), without the host (part of `Env`) and the host
state; `buf` is the contents of the storage block the fresh `Stack` obtains from `Data::Get`. -/
structure InterpreterArgs where
  paddedCode : List Byte
  validJumpTargets : List Byte
  message : Message
  revision : Revision
  sha3 : Option Sha3Cache

/-- `struct InterpreterResult` (interpreter.h:60-65). -/
structure InterpreterResult where
  state : RunState
  remainingGas : Int
  refundedGas : Int
  returnData : List Byte

/-- The context built by `Interpret` (interpreter.cc:83-92). -/
def initialCtx (args : InterpreterArgs) (buf : Nat → U256) (w : σ) : Ctx σ :=
  { isStatic := args.message.isStatic
    gas := args.message.gas
    code := args.paddedCode
    jumpTargets := args.validJumpTargets
    stack := { buf := buf, top := 1024 }
    message := args.message
    revision := args.revision
    sha3 := args.sha3
    world := w }

/-- `Interpret<Observer>` (interpreter.cc:77-104). Also returns the host state, the SHA3 cache and
the observer state, which in C++ are reached through references. -/
def interpret (E : Env σ) (obs : Observer σ ω) (fuel : Nat) (args : InterpreterArgs)
    (buf : Nat → U256) (w : σ) (o : ω) :
    M (Option (InterpreterResult × σ × Option Sha3Cache × ω)) := do
  let o := obs.preRun args.message o
  let r ← runInterpreter E obs false (-1) fuel (initialCtx args buf w) o
  match r with
  | none => return none
  | some (c, o) =>
    let o := obs.postRun args.message o
    return some (⟨c.state, c.gas, c.gasRefunds, c.returnData⟩, c.world, c.sha3, o)

/-- `struct SteppingArgs` (interpreter.h:70-78). -/
structure SteppingArgs extends InterpreterArgs where
  state : RunState
  pc : Nat
  gasRefunds : Int
  stack : Stack
  memory : Memory
  steps : Int
  lastCallReturnData : List Byte

/-- `struct SteppingResult` (interpreter.h:80-85). -/
structure SteppingResult extends InterpreterResult where
  pc : Nat
  stack : Stack
  memory : Memory
  lastCallReturnData : List Byte

/-- Copy construction and copy assignment of a stack (stack.cc:27-30, 38-45): the whole storage
block is copied and the size is preserved. -/
def Stack.copy (s : Stack) : Stack := { buf := s.buf, top := (kStackSize : Int) - s.size }

/-- The context built by `InterpretNSteps` (interpreter.cc:116-131). -/
def steppingCtx (args : SteppingArgs) (w : σ) : Ctx σ :=
  { state := args.state
    isStatic := args.message.isStatic
    pc := args.pc
    gas := args.message.gas
    gasRefunds := args.gasRefunds
    code := args.paddedCode
    returnData := args.lastCallReturnData
    jumpTargets := args.validJumpTargets
    memory := args.memory
    stack := args.stack.copy
    message := args.message
    revision := args.revision
    sha3 := args.sha3
    world := w }

/-- `InterpretNSteps` (interpreter.cc:113-146). -/
def interpretNSteps (E : Env σ) (fuel : Nat) (args : SteppingArgs) (w : σ) :
    M (Option (SteppingResult × σ × Option Sha3Cache)) := do
  let r ← runInterpreter E noObserver true args.steps fuel (steppingCtx args w) ()
  match r with
  | none => return none
  | some (c, _) =>
    return some ({
      state := c.state
      remainingGas := c.gas
      refundedGas := c.gasRefunds
      returnData := c.returnData
      pc := c.pc
      stack := c.stack.copy
      memory := c.memory
      lastCallReturnData := c.returnData }, c.world, c.sha3)

/-- `ToEvmcStatusCode` (evmzero.cc:28-62). -/
def toEvmcStatusCode : RunState → EvmcStatus
  | .running => .failure
  | .done => .success
  | .ret => .success
  | .revert => .revert
  | .invalid => .invalidInstruction
  | .errorOpcode => .undefinedInstruction
  | .errorGas => .outOfGas
  | .errorStackUnderflow => .stackUnderflow
  | .errorStackOverflow => .stackOverflow
  | .errorJump => .badJumpDestination
  | .errorReturnDataCopyOutOfBounds => .invalidMemoryAccess
  | .errorCall => .callDepthExceeded
  | .errorCreate => .failure
  | .errorStaticCall => .staticModeViolation
  | .errorInitCodeSizeExceeded => .failure

/-- `ToRunStateCode` (evmzero.cc:64-78). -/
def toRunStateCode : StepStatus → RunState
  | .running => .running
  | .stopped => .done
  | .returned => .ret
  | .reverted => .revert
  | .failed => .invalid
  | .other => .errorOpcode

/-- `ToEvmcStepStatusCode` (evmzero.cc:80-95). -/
def toEvmcStepStatusCode : RunState → StepStatus
  | .running => .running
  | .done => .stopped
  | .ret => .returned
  | .revert => .reverted
  | .invalid => .failed
  | _ => .failed

/-- `struct ContractInfo` (evmzero.cc:315-318). -/
structure ContractInfo where
  paddedCode : List Byte
  validJumpTargets : List Byte
  deriving DecidableEq, Repr

/-- `ComputeContractInfo` (evmzero.cc:320-325). -/
def computeContractInfo (code : List Byte) : ContractInfo :=
  { paddedCode := padCode code, validJumpTargets := calculateValidJumpTargets code }

/-- Option flags (evmzero.cc:327-331). -/
structure Options where
  logging : Bool := false
  analysisCache : Bool := true
  sha3Cache : Bool := true
  profiling : Bool := false
  profilingExternal : Bool := false
  deriving DecidableEq, Repr

/-- Data members of `VM` (evmzero.cc:327-340) that influence execution. -/
structure Vm where
  options : Options := {}
  contractInfoCache : Lru.Cache U256 ContractInfo
  sha3Cache : Sha3Cache

/-- A new VM (evmzero.cc:102-122, 327-340): default options, empty caches. -/
def Vm.new : M Vm := do
  let cc ← Lru.clear 65536 0 ⟨[], []⟩
  let s ← Sha3Cache.new
  return { contractInfoCache := cc, sha3Cache := s }

/-- `evmc_set_option_result`. -/
inductive SetOptionResult
  | success | invalidName | invalidValue
  deriving DecidableEq, Repr

/-- The table of `SetOption` (evmzero.cc:274-280): name, and how to assign the flag. -/
def onOffOptions : List (String × (Options → Bool → Options)) :=
  [("logging", fun o b => { o with logging := b }),
   ("analysis_cache", fun o b => { o with analysisCache := b }),
   ("sha3_cache", fun o b => { o with sha3Cache := b }),
   ("profiling", fun o b => { o with profiling := b }),
   ("profiling_external", fun o b => { o with profilingExternal := b })]

/-- The loop of `SetOption` (evmzero.cc:282-295). -/
def setOptionLoop (name value : String) (o : Options) :
    List (String × (Options → Bool → Options)) → SetOptionResult × Options
  | [] => (.invalidName, o)
  | (n, set) :: rest =>
    if name = n then
      if value = "true" then (.success, set o true)
      else if value = "false" then (.success, set o false)
      else (.invalidValue, o)
    else setOptionLoop name value o rest

/-- `SetOption` (evmzero.cc:273-296). -/
def Vm.setOption (vm : Vm) (name value : String) : SetOptionResult × Vm :=
  let (r, o) := setOptionLoop name value vm.options onOffOptions
  (r, { vm with options := o })

/-- The analysis lookup at the start of `Execute` and `StepN` (evmzero.cc:129-135, 182-188). -/
def Vm.lookupCode (vm : Vm) (message : Message) (code : List Byte) : M (ContractInfo × Vm) :=
  match message.codeHash with
  | some h =>
    if vm.options.analysisCache ∧ h ≠ 0 then do
      let (info, cc) ← Lru.getOrInsert vm.contractInfoCache h fun _ => computeContractInfo code
      return (info, { vm with contractInfoCache := cc })
    else return (computeContractInfo code, vm)
  | none => return (computeContractInfo code, vm)

/-- `evmc_result` as returned by `Execute` (evmzero.cc:166-173). -/
structure EvmcResult where
  status : EvmcStatus
  gasLeft : Int
  gasRefund : Int
  output : List Byte
  deriving DecidableEq, Repr

/-- Assembling the `InterpreterArgs` in `Execute` (evmzero.cc:137-145). -/
def Vm.args (vm : Vm) (info : ContractInfo) (message : Message) (revision : Revision) :
    InterpreterArgs :=
  { paddedCode := info.paddedCode
    validJumpTargets := info.validJumpTargets
    message := message
    revision := revision
    sha3 := if vm.options.sha3Cache then some vm.sha3Cache else none }

/-- Writing the SHA3 cache back (in C++ it is used through a pointer). -/
def Vm.putSha3 (vm : Vm) (s : Option Sha3Cache) : Vm :=
  match s with
  | some c => { vm with sha3Cache := c }
  | none => vm

/-- `Execute` (evmzero.cc:124-174) with the given observer; evmzero.cc:148-156 selects the logger,
one of the profilers or `NoObserver`. `buf` is the recycled stack storage. -/
def Vm.executeWith (E : Env σ) (obs : Observer σ ω) (fuel : Nat) (vm : Vm) (code : List Byte)
    (message : Message) (revision : Revision) (buf : Nat → U256) (w : σ) (o : ω) :
    M (Option (EvmcResult × σ × Vm × ω)) := do
  let (info, vm) ← vm.lookupCode message code
  let r ← interpret E obs fuel (vm.args info message revision) buf w o
  match r with
  | none => return none
  | some (res, w, s, o) =>
    return some ({
      status := toEvmcStatusCode res.state
      gasLeft := res.remainingGas
      gasRefund := res.refundedGas
      output := res.returnData }, w, vm.putSha3 s, o)

/-- `Execute` without an observer (evmzero.cc:155). -/
def Vm.execute (E : Env σ) (fuel : Nat) (vm : Vm) (code : List Byte) (message : Message)
    (revision : Revision) (buf : Nat → U256) (w : σ) : M (Option (EvmcResult × σ × Vm)) := do
  let r ← vm.executeWith E noObserver fuel code message revision buf w ()
  match r with
  | none => return none
  | some (res, w, vm, _) => return some (res, w, vm)

/-- `Stack::Push` (stack.h:43-46). -/
def Stack.push (s : Stack) (v : U256) : M Stack :=
  let p := s.top - 1
  if 0 ≤ p ∧ p < 1024 then
    .ok { buf := fun i => if i = p.toNat then v else s.buf i, top := p }
  else .error .stackOutOfBounds

/-- The conversion loop of `StepN` (evmzero.cc:190-194). -/
def Stack.pushAll (s : Stack) : List U256 → M Stack
  | [] => .ok s
  | v :: vs => do
    let s ← s.push v
    s.pushAll vs

/-- `n` consecutive `stack[i]` reads (stack.h:57-60) starting at index `p`. -/
def Stack.readDown (s : Stack) : Nat → Int → M (List U256)
  | 0, _ => .ok []
  | n + 1, p =>
    if 0 ≤ p ∧ p < 1024 then do
      let rest ← s.readDown n (p + 1)
      return s.buf p.toNat :: rest
    else .error .stackOutOfBounds

/-- The stack export loop of `StepN` (evmzero.cc:222-230): element `i` from the top goes to
position `size - 1 - i`. -/
def Stack.export (s : Stack) : M (List U256) := do
  let l ← s.readDown s.size s.top
  return l.reverse

/-- The state handed to and returned from `StepN` by the caller (evmzero.cc:176-181, 248-262);
the stack is listed bottom first. -/
structure StepState where
  status : StepStatus
  pc : Nat
  gas : Int
  gasRefunds : Int
  stack : List U256
  memory : List Byte
  lastCallReturnData : List Byte

/-- `evmc_step_result` (evmzero.cc:248-270). -/
structure StepResult where
  stepStatus : StepStatus
  status : EvmcStatus
  revision : Revision
  pc : Nat
  gasLeft : Int
  gasRefund : Int
  output : List Byte
  stack : List U256
  memory : List Byte
  lastCallReturnData : List Byte
  deriving DecidableEq, Repr

/-- `StepN` (evmzero.cc:176-271).  The gas is part of the message. -/
def Vm.stepN (E : Env σ) (fuel : Nat) (vm : Vm) (code : List Byte) (message : Message)
    (revision : Revision) (status : StepStatus) (pc : Nat) (gasRefunds : Int) (stack : List U256)
    (memory : List Byte) (lastCallReturnData : List Byte) (steps : Int)
    (buf : Nat → U256) (w : σ) : M (Option (StepResult × σ × Vm)) := do
  let (info, vm) ← vm.lookupCode message code
  let converted ← Stack.pushAll { buf := buf } stack
  let args : SteppingArgs := {
    toInterpreterArgs := vm.args info message revision
    state := toRunStateCode status
    pc := pc
    gasRefunds := gasRefunds
    stack := converted.copy
    memory := Memory.ofBytes memory
    steps := if status = .running then steps else 0
    lastCallReturnData := lastCallReturnData }
  let r ← interpretNSteps E fuel args w
  match r with
  | none => return none
  | some (res, w, s) =>
    let stackData ← res.stack.export
    let (memoryData, _) ← res.memory.writeTo res.memory.size 0
    return some ({
      stepStatus := toEvmcStepStatusCode res.state
      status := toEvmcStatusCode res.state
      revision := revision
      pc := res.pc
      gasLeft := res.remainingGas
      gasRefund := res.refundedGas
      output := res.returnData
      stack := stackData
      memory := memoryData
      lastCallReturnData := res.lastCallReturnData }, w, vm.putSha3 s)

end Tosca.Model
