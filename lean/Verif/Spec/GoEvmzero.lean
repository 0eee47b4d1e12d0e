import Verif.Spec.GoRules

/-!
# Which conformance tests evmzero can run
-/

namespace Tosca.Spec.Go

open Tosca.Go Tosca.Model.Ct

/-- Test states evmzero's arithmetic has room for: a program counter in the code or the 32 bytes of padding behind it, and a refund counter (a C++
`int64_t`, for which overflow is undefined behaviour) to which neither the refunds of an instruction nor that of the next nested call can add too much. -/
structure Room (x : Fixed) (c : S) : Prop where
  pc : c.pc.toNat ≤ x.code.length + 32
  refund : c.refund + 199 * c.gas ≤ 2 ^ 63 - 1 ∧ -(2 ^ 63 - 1) ≤ c.refund - 199 * c.gas
  call : -2 ^ 63 ≤ c.refund + (c.world.future.headD {}).gasRefund ∧ c.refund + (c.world.future.headD {}).gasRefund ≤ 2 ^ 63 - 1

/-- The state expected after one instruction by evmzero's own reference: SSTORE restoring the original value of a cold slot gives the refund of evmzero. -/
def ExpectedHere (keccak : List Byte → U256) (x : Fixed) (c : S) (rev : Revision) (c' : S) : Prop :=
  Shows x.code c c' (step (testFrame keccak x c rev) (frameState c))

/-- The instruction at the program counter writes the original value back into a changed slot that is cold (from Berlin on).  A host that follows
EIP-2929 has no such slots: the change has made the slot warm. -/
def ColdRestore (x : Fixed) (c : S) : Prop :=
  byteAt x.code c.pc.toNat = 0x55 ∧ 1 ≤ x.revision ∧ x.readOnly = false ∧ 2300 < c.gas ∧ ∃ k v r, c.stack = k :: v :: r ∧ c.world.warmKeys k = false ∧
    (c.world.original k).getD 0 ≠ (c.world.current k).getD 0 ∧ v = (c.world.original k).getD 0 ∧ v ≠ 0

end Tosca.Spec.Go
