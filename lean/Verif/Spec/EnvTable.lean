import Verif.Spec.Setting

/-!
# Instructions that push a property of the frame, the message or the transaction
-/

namespace Tosca

open Tosca.Spec

variable {σ : Type}

/-- Opcode, first revision (0: all), pushed value; each costs 2 gas and takes no operands. -/
inductive Pushes (P : Params σ) (x : StepIn σ) : (opcode : Nat) → Revision → U256 → Prop
  | address : Pushes P x 0x30 0 (BitVec.ofNat 256 P.msg.recipient.toNat)
  | origin : Pushes P x 0x32 0 (BitVec.ofNat 256 P.host.txContext.origin.toNat)
  | caller : Pushes P x 0x33 0 (BitVec.ofNat 256 P.msg.sender.toNat)
  | callvalue : Pushes P x 0x34 0 P.msg.value
  | calldatasize : Pushes P x 0x36 0 (BitVec.ofNat 256 P.msg.input.length)
  | codesize : Pushes P x 0x38 0 (BitVec.ofNat 256 P.code.length)
  | gasprice : Pushes P x 0x3a 0 P.host.txContext.gasPrice
  | returndatasize : Pushes P x 0x3d 0 (BitVec.ofNat 256 x.ret.length)
  | coinbase : Pushes P x 0x41 0 (BitVec.ofNat 256 P.host.txContext.coinbase.toNat)
  | timestamp : Pushes P x 0x42 0 (BitVec.ofInt 256 P.host.txContext.timestamp)
  | number : Pushes P x 0x43 0 (BitVec.ofInt 256 P.host.txContext.blockNumber)
  | prevrandao : Pushes P x 0x44 0 P.host.txContext.prevRandao
  | gaslimit : Pushes P x 0x45 0 (BitVec.ofInt 256 P.host.txContext.gasLimit)
  | chainid : Pushes P x 0x46 0 P.host.txContext.chainId
  | basefee : Pushes P x 0x48 LONDON P.host.txContext.baseFee
  | blobbasefee : Pushes P x 0x4a CANCUN P.host.txContext.blobBaseFee
  | pc : Pushes P x 0x58 0 (BitVec.ofNat 256 x.pc)
  /-- The size of the memory in bytes, a multiple of 32. -/
  | msize : Pushes P x 0x59 0 (BitVec.ofNat 256 (pad32 x.memory).length)
  /-- The gas left after this instruction. -/
  | gas : Pushes P x 0x5a 0 (BitVec.ofInt 256 (P.msg.gas - 2))
  | push0 : Pushes P x 0x5f SHANGHAI 0

end Tosca
