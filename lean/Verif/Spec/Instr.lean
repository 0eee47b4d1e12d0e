import Verif.Shared.Types

/-!
# EVM instructions: encoding, operand counts, base gas, availability
-/

namespace Tosca.Spec

/-- EVM instructions, Istanbul to Cancun. -/
inductive Instr
  | stop | add | mul | sub | div | sdiv | mod | smod | addmod | mulmod | exp | signextend
  | lt | gt | slt | sgt | eq | iszero | and | or | xor | not | byte | shl | shr | sar
  | sha3
  | address | balance | origin | caller | callvalue | calldataload | calldatasize | calldatacopy
  | codesize | codecopy | gasprice | extcodesize | extcodecopy | returndatasize | returndatacopy
  | extcodehash
  | blockhash | coinbase | timestamp | number | prevrandao | gaslimit | chainid | selfbalance
  | basefee | blobhash | blobbasefee
  | pop | mload | mstore | mstore8 | sload | sstore | jump | jumpi | pc | msize | gas | jumpdest
  | tload | tstore | mcopy
  | push (n : Nat) | dup (n : Nat) | swap (n : Nat) | log (n : Nat)
  | create | call | callcode | ret | delegatecall | create2 | staticcall | revert | invalid
  | selfdestruct
  deriving DecidableEq, Repr

/-- The instruction a byte denotes; `none` for unassigned bytes. -/
def decode (b : Nat) : Option Instr :=
  if 0x60 ≤ b ∧ b ≤ 0x7f then some (.push (b - 0x5f))
  else if 0x80 ≤ b ∧ b ≤ 0x8f then some (.dup (b - 0x7f))
  else if 0x90 ≤ b ∧ b ≤ 0x9f then some (.swap (b - 0x8f))
  else if 0xa0 ≤ b ∧ b ≤ 0xa4 then some (.log (b - 0xa0))
  else match b with
  | 0x00 => some .stop
  | 0x01 => some .add
  | 0x02 => some .mul
  | 0x03 => some .sub
  | 0x04 => some .div
  | 0x05 => some .sdiv
  | 0x06 => some .mod
  | 0x07 => some .smod
  | 0x08 => some .addmod
  | 0x09 => some .mulmod
  | 0x0a => some .exp
  | 0x0b => some .signextend
  | 0x10 => some .lt
  | 0x11 => some .gt
  | 0x12 => some .slt
  | 0x13 => some .sgt
  | 0x14 => some .eq
  | 0x15 => some .iszero
  | 0x16 => some .and
  | 0x17 => some .or
  | 0x18 => some .xor
  | 0x19 => some .not
  | 0x1a => some .byte
  | 0x1b => some .shl
  | 0x1c => some .shr
  | 0x1d => some .sar
  | 0x20 => some .sha3
  | 0x30 => some .address
  | 0x31 => some .balance
  | 0x32 => some .origin
  | 0x33 => some .caller
  | 0x34 => some .callvalue
  | 0x35 => some .calldataload
  | 0x36 => some .calldatasize
  | 0x37 => some .calldatacopy
  | 0x38 => some .codesize
  | 0x39 => some .codecopy
  | 0x3a => some .gasprice
  | 0x3b => some .extcodesize
  | 0x3c => some .extcodecopy
  | 0x3d => some .returndatasize
  | 0x3e => some .returndatacopy
  | 0x3f => some .extcodehash
  | 0x40 => some .blockhash
  | 0x41 => some .coinbase
  | 0x42 => some .timestamp
  | 0x43 => some .number
  | 0x44 => some .prevrandao
  | 0x45 => some .gaslimit
  | 0x46 => some .chainid
  | 0x47 => some .selfbalance
  | 0x48 => some .basefee
  | 0x49 => some .blobhash
  | 0x4a => some .blobbasefee
  | 0x50 => some .pop
  | 0x51 => some .mload
  | 0x52 => some .mstore
  | 0x53 => some .mstore8
  | 0x54 => some .sload
  | 0x55 => some .sstore
  | 0x56 => some .jump
  | 0x57 => some .jumpi
  | 0x58 => some .pc
  | 0x59 => some .msize
  | 0x5a => some .gas
  | 0x5b => some .jumpdest
  | 0x5c => some .tload
  | 0x5d => some .tstore
  | 0x5e => some .mcopy
  | 0x5f => some (.push 0)
  | 0xf0 => some .create
  | 0xf1 => some .call
  | 0xf2 => some .callcode
  | 0xf3 => some .ret
  | 0xf4 => some .delegatecall
  | 0xf5 => some .create2
  | 0xfa => some .staticcall
  | 0xfd => some .revert
  | 0xfe => some .invalid
  | 0xff => some .selfdestruct
  | _ => none

namespace Instr

/-- Number of operands taken from the stack. -/
def pops : Instr → Nat
  | .stop | .invalid | .jumpdest | .push _ => 0
  | .address | .origin | .caller | .callvalue | .calldatasize | .codesize | .gasprice
  | .returndatasize | .coinbase | .timestamp | .number | .prevrandao | .gaslimit | .chainid
  | .selfbalance | .basefee | .blobbasefee | .pc | .msize | .gas => 0
  | .iszero | .not | .balance | .calldataload | .extcodesize | .extcodehash | .blockhash
  | .blobhash | .pop | .mload | .sload | .jump | .tload | .selfdestruct => 1
  | .add | .mul | .sub | .div | .sdiv | .mod | .smod | .exp | .signextend | .lt | .gt | .slt
  | .sgt | .eq | .and | .or | .xor | .byte | .shl | .shr | .sar | .sha3 | .mstore | .mstore8
  | .sstore | .jumpi | .tstore | .ret | .revert => 2
  | .addmod | .mulmod | .calldatacopy | .codecopy | .returndatacopy | .mcopy | .create => 3
  | .extcodecopy | .create2 => 4
  | .delegatecall | .staticcall => 6
  | .call | .callcode => 7
  | .dup n => n
  | .swap n => n + 1
  | .log n => n + 2

/-- Number of results left on the stack. -/
def pushes : Instr → Nat
  | .stop | .invalid | .jumpdest | .calldatacopy | .codecopy | .extcodecopy | .returndatacopy
  | .pop | .mstore | .mstore8 | .sstore | .jump | .jumpi | .tstore | .mcopy | .log _ | .ret
  | .revert | .selfdestruct => 0
  | .dup n => n + 1
  | .swap n => n + 1
  | _ => 1

/-- Gas charged before anything else happens. -/
def baseGas : Instr → Nat
  | .stop | .invalid | .ret | .revert => 0
  | .balance | .extcodesize | .extcodecopy | .extcodehash | .sload | .sstore
  | .call | .callcode | .delegatecall | .staticcall => 0
  | .jumpdest => 1
  | .address | .origin | .caller | .callvalue | .calldatasize | .codesize | .gasprice
  | .returndatasize | .coinbase | .timestamp | .number | .prevrandao | .gaslimit | .chainid
  | .basefee | .blobbasefee | .pop | .pc | .msize | .gas => 2
  | .push n => if n = 0 then 2 else 3
  | .add | .sub | .lt | .gt | .slt | .sgt | .eq | .iszero | .and | .or | .xor | .not | .byte
  | .shl | .shr | .sar | .calldataload | .calldatacopy | .codecopy | .returndatacopy | .blobhash
  | .mload | .mstore | .mstore8 | .mcopy | .dup _ | .swap _ => 3
  | .mul | .div | .sdiv | .mod | .smod | .signextend | .selfbalance => 5
  | .addmod | .mulmod | .jump => 8
  | .exp | .jumpi => 10
  | .blockhash => 20
  | .sha3 => 30
  | .tload | .tstore => 100
  | .log n => 375 + 375 * n
  | .selfdestruct => 5000
  | .create | .create2 => 32000

/-- First revision that has the instruction. -/
def since : Instr → Revision
  | .basefee => LONDON
  | .push n => if n = 0 then SHANGHAI else 0
  | .blobhash | .blobbasefee | .tload | .tstore | .mcopy => CANCUN
  | _ => 0

/-- Instructions rejected outright in static mode. -/
def writes : Instr → Bool
  | .sstore | .tstore | .log _ | .create | .create2 | .selfdestruct => true
  | _ => false

/-- Bytes occupied in the code. -/
def length : Instr → Nat
  | .push n => n + 1
  | _ => 1

end Instr

/-- Instruction boundaries: the offsets reached by decoding the code from offset 0. -/
inductive Boundary (code : List Byte) : Nat → Prop
  | zero : Boundary code 0
  | next {p : Nat} {i : Instr} : Boundary code p → (hp : p < code.length) →
      decode code[p].toNat = some i → Boundary code (p + i.length)
  | unassigned {p : Nat} : Boundary code p → (hp : p < code.length) →
      decode code[p].toNat = none → Boundary code (p + 1)

/-- Valid jump targets: JUMPDEST instructions that are not push data. -/
def JumpTarget (code : List Byte) (d : Nat) : Prop :=
  ∃ h : d < code.length, code[d].toNat = 0x5b ∧ Boundary code d

end Tosca.Spec
