import Verif.Spec.Setting

/-!
# The checks before an instruction is executed

Opcodes are given by their number.
-/

namespace Tosca

open Tosca.Spec

variable {σ : Type}

/-- Opcodes that later revisions added, with the revision. -/
inductive IntroducedIn : Nat → Revision → Prop
  | basefee : IntroducedIn 0x48 LONDON
  | push0 : IntroducedIn 0x5f SHANGHAI
  | blobhash : IntroducedIn 0x49 CANCUN
  | blobbasefee : IntroducedIn 0x4a CANCUN
  | tload : IntroducedIn 0x5c CANCUN
  | tstore : IntroducedIn 0x5d CANCUN
  | mcopy : IntroducedIn 0x5e CANCUN

/-- Opcodes without a meaning in any revision. -/
def Unassigned (op : Nat) : Prop :=
  (0x0c ≤ op ∧ op ≤ 0x0f) ∨ (0x1e ≤ op ∧ op ≤ 0x1f) ∨ (0x21 ≤ op ∧ op ≤ 0x2f) ∨ (0x4b ≤ op ∧ op ≤ 0x4f) ∨
  (0xa5 ≤ op ∧ op ≤ 0xef) ∨ (0xf6 ≤ op ∧ op ≤ 0xf9) ∨ op = 0xfb ∨ op = 0xfc ∨ 0x100 ≤ op

/-- Opcodes that modify state: SSTORE, TSTORE, LOG0 to LOG4, CREATE, CREATE2, SELFDESTRUCT. -/
def Modifying (op : Nat) : Prop :=
  op = 0x55 ∨ op = 0x5d ∨ (0xa0 ≤ op ∧ op ≤ 0xa4) ∨ op = 0xf0 ∨ op = 0xf5 ∨ op = 0xff

/-- The instruction at the program counter exists in this revision and is allowed in this mode. -/
def Allowed (P : Params σ) (x : StepIn σ) (i : Instr) : Prop :=
  decode (x.opcode P) = some i ∧ (∀ rev, IntroducedIn (x.opcode P) rev → rev ≤ P.rev) ∧
  ¬ (Modifying (x.opcode P) ∧ P.msg.isStatic = true)

/-- The instruction at the program counter is rejected before it is executed, for the given reason. -/
inductive Rejected (P : Params σ) (x : StepIn σ) : EvmcStatus → Prop
  | unassigned : Unassigned (x.opcode P) → Rejected P x .invalidInstruction
  | undefined {rev : Revision} : IntroducedIn (x.opcode P) rev → P.rev < rev → Rejected P x .undefinedInstruction
  | static : (∀ rev, IntroducedIn (x.opcode P) rev → rev ≤ P.rev) → Modifying (x.opcode P) →
      P.msg.isStatic = true → Rejected P x .staticModeViolation
  | underflow {i : Instr} : Allowed P x i → x.stack.length < i.pops → Rejected P x .stackUnderflow
  | overflow {i : Instr} : Allowed P x i → i.pops ≤ x.stack.length →
      1024 < x.stack.length - i.pops + i.pushes → Rejected P x .stackOverflow
  | gas {i : Instr} : Allowed P x i → i.pops ≤ x.stack.length → x.stack.length - i.pops + i.pushes ≤ 1024 →
      P.msg.gas < i.baseGas → Rejected P x .outOfGas

end Tosca
