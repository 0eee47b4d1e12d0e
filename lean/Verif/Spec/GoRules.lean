import Verif.Spec.GoStep
import Verif.Model.CtState

/-!
# What a conformance rule has to say

go/ct/spc/specification.go is meant to be a specification of the EVM: each rule has a condition and describes the state after one instruction.  Its
rules are compared with the EVM of `Verif/Spec/Evm` on the run context of the tests (go/ct/utils/adapter.go).
-/

namespace Tosca.Spec.Go

open Tosca.Go Tosca.Model.Ct

/-- Position `q` holds the immediate data of a PUSH (possibly behind the end of the code). -/
def PushData (code : List Byte) (q : Nat) : Prop :=
  ∃ p n, Boundary code p ∧ p < code.length ∧ decode (byteAt code p).toNat = some (.push n) ∧ p < q ∧ q ≤ p + n

/-- The test states in the range of the EVM: a known revision, running, at an instruction (or behind the end), no more than 2^40 gas including what the memory
has cost, memory in whole words, a stack within its limit, numbers in the range of their Go types, no result before the end. -/
structure InScope (x : Fixed) (c : S) : Prop where
  revision : 0 ≤ x.revision ∧ x.revision ≤ 5
  status : c.status = .running
  pc : ¬ PushData x.code c.pc.toNat
  gas : 0 ≤ c.gas ∧ c.gas.toNat + memGas (words c.memory.length) ≤ 2 ^ 40
  memory : c.memory.length % 32 = 0
  stack : c.stack.length ≤ 1024
  refund : -2 ^ 63 ≤ c.refund ∧ c.refund < 2 ^ 63
  code : x.code.length ≤ 49152
  result : c.returnData = []
  returned : c.lastCallReturnData.length < 2 ^ 63
  input : x.callData.length < 2 ^ 63
  blockNumber : x.block.blockNumber.toNat < 2 ^ 63
  timestamp : x.block.timeStamp.toNat < 2 ^ 63
  gasLimit : x.block.gasLimit.toNat < 2 ^ 63
  blobHashes : x.blobHashes.length < 2 ^ 63

/-- The frame of the reference for a test state. -/
def testFrame (keccak : List Byte → U256) (x : Fixed) (c : S) (rev : Revision) : Params World :=
  nativeFrame keccak (ctDb x) ctCall (toVmParameters keccak x c) rev

/-- The state expected after one instruction: what the reference does.  The refund counter is an `int64`. -/
def Expected (keccak : List Byte → U256) (x : Fixed) (c : S) (rev : Revision) (c' : S) : Prop :=
  Shows x.code c c' { stepEip (testFrame keccak x c rev) (frameState c) with
    refund := Model.Go.i64 (stepEip (testFrame keccak x c rev) (frameState c)).refund }

/-- States the tests do not tell apart: `State.Eq` (go/ct/st/state.go:219-270), for states that share what no rule changes.  (Storage is compared
exactly here, by the tests up to entries that are zero.) -/
def Same (code : List Byte) (c c' : S) : Prop :=
  c.status = c'.status ∧ (c.status = .failed ∨
    (c.gas = c'.gas ∧ c.refund = c'.refund ∧ c.world = c'.world ∧
      if c.status = .running then
        (c.pc = c'.pc ∨ (code.length ≤ c.pc.toNat ∧ code.length ≤ c'.pc.toNat)) ∧ c.stack = c'.stack ∧ c.memory = c'.memory ∧
          c.lastCallReturnData = c'.lastCallReturnData
      else c.returnData = c'.returnData))

/-- The states in scope no rule describes.  `o` is the opcode at the program counter.
* SSTORE of a slot that is dirty or not changed, if it is cold (from Berlin on; EIP-2929 has such slots only if they were written without being
  accessed) or exactly 2300 gas are left; in read-only mode, SSTORE of any slot with less gas than the store costs;
* JUMP and JUMPI with too little gas, unless they jump to a valid target;
* PUSH0 before Shanghai with too little gas or more than 1022 elements on the stack;
* LOG in read-only mode with too little gas. -/
def NoRule (x : Fixed) (c : S) (o : Nat) : Prop :=
  (o = 0x55 ∧ 2300 ≤ c.gas ∧ ∃ k v r, c.stack = k :: v :: r ∧
    if (c.world.original k).getD 0 ≠ (c.world.current k).getD 0 ∨ (c.world.current k).getD 0 = v then
      c.gas = 2300 ∨ (x.readOnly = false ∧ 1 ≤ x.revision ∧ c.world.warmKeys k = false)
    else x.readOnly = true ∧ c.gas < (if (c.world.current k).getD 0 = 0 then 20000 else if x.revision = 0 then 5000 else 2900)) ∨
  (o = 0x56 ∧ c.gas < 8 ∧ ∃ t r, c.stack = t :: r ∧ ¬ JumpTarget x.code t.toNat) ∨
  (o = 0x57 ∧ c.gas < 10 ∧ ∃ t b r, c.stack = t :: b :: r ∧ (b = 0 ∨ ¬ JumpTarget x.code t.toNat)) ∨
  (o = 0x5f ∧ x.revision < 4 ∧ (c.gas < 2 ∨ 1023 ≤ c.stack.length)) ∨
  (∃ n, n ≤ 4 ∧ o = 0xa0 + n ∧ x.readOnly = true ∧ c.gas < 375 + 375 * n ∧ 2 + n ≤ c.stack.length)

end Tosca.Spec.Go
