import Verif.Model.GoBridge
import Verif.Model.CtState

/-!
# evmzero: stepping for the conformance tests

go/interpreter/evmzero/ct.go and go/interpreter/evmc/evmc_steppable_interpreter.go.  The Go binding `evmc.VMSteppable` is third party and not in the
repository.  What is used of it: `StepN` passes its arguments to the `step_n` function of the library (evmzero.cc:176-271) with a message as built by
`VM.Execute`, the bytes of the stack as an array of 32-byte words and the number of steps as an `int32`, and returns copies of the results without an error.
-/

namespace Tosca.Model.EvmzeroCt

open Tosca.Go Tosca.Model.Go

variable {ω : Type}

/-- `convertCtStatusToEvmcStatus` (evmc_steppable_interpreter.go:117-129). -/
def toEvmc : CtStatus → StepStatus
  | .running => .running
  | .stopped => .stopped
  | .reverted => .reverted
  | .failed => .failed

/-- `convertEvmcStatusToCtStatus` (evmc_steppable_interpreter.go:131-145); `none` is an error. -/
def ofEvmc : StepStatus → Option CtStatus
  | .running => some .running
  | .stopped => some .stopped
  | .reverted => some .reverted
  | .returned => some .stopped
  | .failed => some .failed
  | .other => none

/-- The loop of `convertCtStackToEvmcStack` (evmc_steppable_interpreter.go:150-153), for the indices below `i`, the largest first. -/
def stackLoop (stack : List U256) : Nat → List Byte → List Byte
  | 0, out => out
  | i + 1, out => stackLoop stack i (Ct.copyAt out (stack.length * 32 - (i + 1) * 32) (Lfvm.bytes32 (stack.getD i 0)))

/-- `convertCtStackToEvmcStack` (evmc_steppable_interpreter.go:147-155). -/
def stackBytes (stack : List U256) : List Byte := stackLoop stack stack.length (List.replicate (stack.length * 32) 0)

/-- Bytes as an array of 32-byte words (`std::span<evmc_uint256be>`, evmzero.cc:179, with `ToUint256`); `n` is the length of the array. -/
def wordsOf : Nat → List Byte → List U256
  | 0, _ => []
  | n + 1, l => Lfvm.setBytes (l.take 32) :: wordsOf n (l.drop 32)

/-- The loop of `convertEvmcStackToCtStack` (evmc_steppable_interpreter.go:162-165); `stack` is that of the test state, with the top first. -/
def pushLoop : Nat → List Byte → List U256 → List U256
  | 0, _, stack => stack
  | fuel + 1, l, stack => if l.length = 0 then stack else pushLoop fuel (l.drop 32) (Lfvm.setBytes (l.take 32) :: stack)

/-- `convertEvmcStackToCtStack` (evmc_steppable_interpreter.go:157-167); `none` is an error.  `Push` (go/ct/st/stack.go) appends without a limit. -/
def ofStackBytes (l : List Byte) : Option (List U256) := if l.length % 32 ≠ 0 then none else some (pushLoop l.length l [])

/-- `SteppableEvmcInterpreter.StepN` (evmc_steppable_interpreter.go:38-115) on a VM in the state described by `f`: state and error returned (errors
other than for the revision are not told apart); `none` is the end of the process. -/
def bridgeStepN (B : Binding) (keccak : List Byte → U256) (f : Found ω) (db : Db ω) (call : CallFn ω) (p : Parameters) (s : CtState ω) (numSteps : Int) :
    Option (Option (CtState ω) × Option Err) :=
  match toEvmcRevision p.block.revision with
  | none => some (none, some .unsupportedRevision)
  | some rev =>
    (Ct.readMem s.memory 0 (BitVec.ofNat 64 s.memory.length)).bind fun memory =>
    let stack := stackBytes s.stack
    match f.vm.stepN ⟨hostOf B db call p, keccak, f.reenter⟩ (numSteps.toNat + 1 + f.fuel) p.code { messageOf p with gas := s.gas } rev (toEvmc s.status)
      s.pc.toNat s.refund (wordsOf (stack.length / 32) stack) memory.1 s.lastCallReturnData numSteps f.buf s.world with
    | .ok (some (res, w, _)) =>
      match ofEvmc res.stepStatus, ofStackBytes (res.stack.flatMap Lfvm.bytes32) with
      | some status, some stack =>
        some (some { status := status
                     returnData := if res.stepStatus = .returned ∨ res.stepStatus = .reverted then res.output else s.returnData
                     pc := BitVec.ofNat 16 res.pc, gas := res.gasLeft, refund := res.gasRefund, memory := res.memory, stack := stack
                     lastCallReturnData := res.lastCallReturnData, world := w }, none)
      | _, _ => some (none, some .crash)
    | _ => none

/-- `ctAdapter.StepN` (ct.go:39-51).  The parameters (`utils.ToVmParameters`, go/ct/utils/adapter.go:26-68) are given. -/
def stepN (B : Binding) (keccak : List Byte → U256) (f : Found ω) (db : Db ω) (call : CallFn ω) (p : Parameters) (s : CtState ω) (numSteps : Int) :
    Option (Option (CtState ω) × Option Err) :=
  if p.block.revision > 5 then some (some s, some .unsupportedRevision)
  else if s.status ≠ .running then some (some s, none)
  else bridgeStepN B keccak f db call p s numSteps

end Tosca.Model.EvmzeroCt
