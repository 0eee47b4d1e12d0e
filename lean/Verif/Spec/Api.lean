import Verif.Spec.Assume

/-!
# What callers of the EVMC interface see of a frame
-/

namespace Tosca.Spec

variable {σ : Type}

/-- The EVMC status code of each failure. -/
def failureCode : Failure → EvmcStatus
  | .invalidInstruction => .invalidInstruction
  | .undefinedInstruction => .undefinedInstruction
  | .outOfGas => .outOfGas
  | .stackUnderflow => .stackUnderflow
  | .stackOverflow => .stackOverflow
  | .badJumpDestination => .badJumpDestination
  | .invalidMemoryAccess => .invalidMemoryAccess
  | .callDepthExceeded => .callDepthExceeded
  | .createDepthExceeded => .failure
  | .staticViolation => .staticModeViolation
  | .initCodeTooLarge => .failure

/-- The EVMC status code of a frame; a frame that was only stepped and still runs is reported as
`EVMC_FAILURE` (its step status tells that it runs). -/
def statusCode : Status → EvmcStatus
  | .running => .failure
  | .stopped | .returned => .success
  | .reverted => .revert
  | .failed w => failureCode w

/-- The step status of a frame. -/
def stepStatus : Status → StepStatus
  | .running => .running
  | .stopped => .stopped
  | .returned => .returned
  | .reverted => .reverted
  | .failed _ => .failed

/-- The memory given as a byte string, padded with zeros to a multiple of 32. -/
def Mem.ofBytes (l : List Byte) : Mem := ⟨32 * words l.length, byteAt l⟩

/-- A frame given by the components exchanged through the stepping interface: the stack is listed
bottom first, the memory is a byte string. -/
def frame (status : Status) (pc : Nat) (gas : Int) (refund : Int) (stack : List U256) (memory : List Byte)
    (ret : List Byte) (w : σ) : State σ :=
  { status := status, pc := pc, gas := gas.toNat, refund := refund, stack := stack.reverse
    mem := Mem.ofBytes memory, ret := ret, host := w }

end Tosca.Spec
