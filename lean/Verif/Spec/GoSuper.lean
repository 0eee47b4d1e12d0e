import Verif.Spec.GoNative

/-!
# Jumps at the end of SWAP2 SWAP1 POP JUMP

The long-form EVM with super-instructions executes these four instructions as one and keeps only 32 bits of the jump target.
-/

namespace Tosca.Spec.Go

open Tosca.Go

variable {ω : Type}

/-- The frame is about to execute a JUMP, and the three bytes in front of it are those of SWAP2, SWAP1 and POP. -/
def AtReturnJump (P : Params ω) (s : State ω) : Prop :=
  s.status = .running ∧ 3 ≤ s.pc ∧ byteAt P.code (s.pc - 3) = 0x91 ∧ byteAt P.code (s.pc - 2) = 0x90 ∧ byteAt P.code (s.pc - 1) = 0x50 ∧
    byteAt P.code s.pc = 0x56

/-- Cutting the jump target to a signed 32-bit number makes no difference: it is smaller than 2^31, or what remains is such a number but
no jump target (both jumps fail). -/
def SafeTarget (code : List Byte) (target : Nat) : Prop :=
  target < 2 ^ 31 ∨ (target % 2 ^ 32 < 2 ^ 31 ∧ ¬ JumpTarget code (target % 2 ^ 32))

/-- Every such jump the frame gets to has a target of this kind. -/
def SafeReturns (P : Params ω) (s : State ω) : Prop :=
  ∀ k target rest, AtReturnJump P (stepsEip P k s) → (stepsEip P k s).stack = target :: rest → SafeTarget P.code target.toNat

/-- The same for a run of the reference interpreter. -/
def SafeRun (keccak : List Byte → U256) (db : Db ω) (call : CallFn ω) (p : Parameters) (w : ω) : Prop :=
  ∀ rev, revisionOf p.block.revision = some rev → SafeReturns (nativeFrame keccak db call p rev) (initial (nativeFrame keccak db call p rev) w)

end Tosca.Spec.Go
