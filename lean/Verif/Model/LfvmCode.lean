import Verif.Shared.Types

/-!
# LFVM code and the converter (go/interpreter/lfvm/opcode.go, instruction.go, converter.go)

The long-form EVM does not run EVM byte code but a list of instructions, each with a 16-bit opcode and a 16-bit
argument, produced from the byte code by the converter.  Go panics (index out of range) are `none`.
-/

namespace Tosca.Model.Lfvm

/-! ## Opcodes (go/tosca/vm/opcodes.go:19-166, opcode.go:38-213) -/
namespace Op

@[match_pattern] abbrev STOP : Nat := 0x00
@[match_pattern] abbrev ADD : Nat := 0x01
@[match_pattern] abbrev MUL : Nat := 0x02
@[match_pattern] abbrev SUB : Nat := 0x03
@[match_pattern] abbrev DIV : Nat := 0x04
@[match_pattern] abbrev SDIV : Nat := 0x05
@[match_pattern] abbrev MOD : Nat := 0x06
@[match_pattern] abbrev SMOD : Nat := 0x07
@[match_pattern] abbrev ADDMOD : Nat := 0x08
@[match_pattern] abbrev MULMOD : Nat := 0x09
@[match_pattern] abbrev EXP : Nat := 0x0a
@[match_pattern] abbrev SIGNEXTEND : Nat := 0x0b
@[match_pattern] abbrev LT : Nat := 0x10
@[match_pattern] abbrev GT : Nat := 0x11
@[match_pattern] abbrev SLT : Nat := 0x12
@[match_pattern] abbrev SGT : Nat := 0x13
@[match_pattern] abbrev EQ : Nat := 0x14
@[match_pattern] abbrev ISZERO : Nat := 0x15
@[match_pattern] abbrev AND : Nat := 0x16
@[match_pattern] abbrev OR : Nat := 0x17
@[match_pattern] abbrev XOR : Nat := 0x18
@[match_pattern] abbrev NOT : Nat := 0x19
@[match_pattern] abbrev BYTE : Nat := 0x1a
@[match_pattern] abbrev SHL : Nat := 0x1b
@[match_pattern] abbrev SHR : Nat := 0x1c
@[match_pattern] abbrev SAR : Nat := 0x1d
@[match_pattern] abbrev SHA3 : Nat := 0x20
@[match_pattern] abbrev ADDRESS : Nat := 0x30
@[match_pattern] abbrev BALANCE : Nat := 0x31
@[match_pattern] abbrev ORIGIN : Nat := 0x32
@[match_pattern] abbrev CALLER : Nat := 0x33
@[match_pattern] abbrev CALLVALUE : Nat := 0x34
@[match_pattern] abbrev CALLDATALOAD : Nat := 0x35
@[match_pattern] abbrev CALLDATASIZE : Nat := 0x36
@[match_pattern] abbrev CALLDATACOPY : Nat := 0x37
@[match_pattern] abbrev CODESIZE : Nat := 0x38
@[match_pattern] abbrev CODECOPY : Nat := 0x39
@[match_pattern] abbrev GASPRICE : Nat := 0x3a
@[match_pattern] abbrev EXTCODESIZE : Nat := 0x3b
@[match_pattern] abbrev EXTCODECOPY : Nat := 0x3c
@[match_pattern] abbrev RETURNDATASIZE : Nat := 0x3d
@[match_pattern] abbrev RETURNDATACOPY : Nat := 0x3e
@[match_pattern] abbrev EXTCODEHASH : Nat := 0x3f
@[match_pattern] abbrev BLOCKHASH : Nat := 0x40
@[match_pattern] abbrev COINBASE : Nat := 0x41
@[match_pattern] abbrev TIMESTAMP : Nat := 0x42
@[match_pattern] abbrev NUMBER : Nat := 0x43
@[match_pattern] abbrev PREVRANDAO : Nat := 0x44
@[match_pattern] abbrev GASLIMIT : Nat := 0x45
@[match_pattern] abbrev CHAINID : Nat := 0x46
@[match_pattern] abbrev SELFBALANCE : Nat := 0x47
@[match_pattern] abbrev BASEFEE : Nat := 0x48
@[match_pattern] abbrev BLOBHASH : Nat := 0x49
@[match_pattern] abbrev BLOBBASEFEE : Nat := 0x4a
@[match_pattern] abbrev POP : Nat := 0x50
@[match_pattern] abbrev MLOAD : Nat := 0x51
@[match_pattern] abbrev MSTORE : Nat := 0x52
@[match_pattern] abbrev MSTORE8 : Nat := 0x53
@[match_pattern] abbrev SLOAD : Nat := 0x54
@[match_pattern] abbrev SSTORE : Nat := 0x55
@[match_pattern] abbrev JUMP : Nat := 0x56
@[match_pattern] abbrev JUMPI : Nat := 0x57
@[match_pattern] abbrev PC : Nat := 0x58
@[match_pattern] abbrev MSIZE : Nat := 0x59
@[match_pattern] abbrev GAS : Nat := 0x5a
@[match_pattern] abbrev JUMPDEST : Nat := 0x5b
@[match_pattern] abbrev TLOAD : Nat := 0x5c
@[match_pattern] abbrev TSTORE : Nat := 0x5d
@[match_pattern] abbrev PUSH0 : Nat := 0x5f
@[match_pattern] abbrev MCOPY : Nat := 0x5e
@[match_pattern] abbrev PUSH1 : Nat := 0x60
@[match_pattern] abbrev PUSH2 : Nat := 0x61
@[match_pattern] abbrev PUSH3 : Nat := 0x62
@[match_pattern] abbrev PUSH4 : Nat := 0x63
@[match_pattern] abbrev PUSH5 : Nat := 0x64
@[match_pattern] abbrev PUSH6 : Nat := 0x65
@[match_pattern] abbrev PUSH7 : Nat := 0x66
@[match_pattern] abbrev PUSH8 : Nat := 0x67
@[match_pattern] abbrev PUSH9 : Nat := 0x68
@[match_pattern] abbrev PUSH10 : Nat := 0x69
@[match_pattern] abbrev PUSH11 : Nat := 0x6a
@[match_pattern] abbrev PUSH12 : Nat := 0x6b
@[match_pattern] abbrev PUSH13 : Nat := 0x6c
@[match_pattern] abbrev PUSH14 : Nat := 0x6d
@[match_pattern] abbrev PUSH15 : Nat := 0x6e
@[match_pattern] abbrev PUSH16 : Nat := 0x6f
@[match_pattern] abbrev PUSH17 : Nat := 0x70
@[match_pattern] abbrev PUSH18 : Nat := 0x71
@[match_pattern] abbrev PUSH19 : Nat := 0x72
@[match_pattern] abbrev PUSH20 : Nat := 0x73
@[match_pattern] abbrev PUSH21 : Nat := 0x74
@[match_pattern] abbrev PUSH22 : Nat := 0x75
@[match_pattern] abbrev PUSH23 : Nat := 0x76
@[match_pattern] abbrev PUSH24 : Nat := 0x77
@[match_pattern] abbrev PUSH25 : Nat := 0x78
@[match_pattern] abbrev PUSH26 : Nat := 0x79
@[match_pattern] abbrev PUSH27 : Nat := 0x7a
@[match_pattern] abbrev PUSH28 : Nat := 0x7b
@[match_pattern] abbrev PUSH29 : Nat := 0x7c
@[match_pattern] abbrev PUSH30 : Nat := 0x7d
@[match_pattern] abbrev PUSH31 : Nat := 0x7e
@[match_pattern] abbrev PUSH32 : Nat := 0x7f
@[match_pattern] abbrev DUP1 : Nat := 0x80
@[match_pattern] abbrev DUP2 : Nat := 0x81
@[match_pattern] abbrev DUP3 : Nat := 0x82
@[match_pattern] abbrev DUP4 : Nat := 0x83
@[match_pattern] abbrev DUP5 : Nat := 0x84
@[match_pattern] abbrev DUP6 : Nat := 0x85
@[match_pattern] abbrev DUP7 : Nat := 0x86
@[match_pattern] abbrev DUP8 : Nat := 0x87
@[match_pattern] abbrev DUP9 : Nat := 0x88
@[match_pattern] abbrev DUP10 : Nat := 0x89
@[match_pattern] abbrev DUP11 : Nat := 0x8a
@[match_pattern] abbrev DUP12 : Nat := 0x8b
@[match_pattern] abbrev DUP13 : Nat := 0x8c
@[match_pattern] abbrev DUP14 : Nat := 0x8d
@[match_pattern] abbrev DUP15 : Nat := 0x8e
@[match_pattern] abbrev DUP16 : Nat := 0x8f
@[match_pattern] abbrev SWAP1 : Nat := 0x90
@[match_pattern] abbrev SWAP2 : Nat := 0x91
@[match_pattern] abbrev SWAP3 : Nat := 0x92
@[match_pattern] abbrev SWAP4 : Nat := 0x93
@[match_pattern] abbrev SWAP5 : Nat := 0x94
@[match_pattern] abbrev SWAP6 : Nat := 0x95
@[match_pattern] abbrev SWAP7 : Nat := 0x96
@[match_pattern] abbrev SWAP8 : Nat := 0x97
@[match_pattern] abbrev SWAP9 : Nat := 0x98
@[match_pattern] abbrev SWAP10 : Nat := 0x99
@[match_pattern] abbrev SWAP11 : Nat := 0x9a
@[match_pattern] abbrev SWAP12 : Nat := 0x9b
@[match_pattern] abbrev SWAP13 : Nat := 0x9c
@[match_pattern] abbrev SWAP14 : Nat := 0x9d
@[match_pattern] abbrev SWAP15 : Nat := 0x9e
@[match_pattern] abbrev SWAP16 : Nat := 0x9f
@[match_pattern] abbrev LOG0 : Nat := 0xa0
@[match_pattern] abbrev LOG1 : Nat := 0xa1
@[match_pattern] abbrev LOG2 : Nat := 0xa2
@[match_pattern] abbrev LOG3 : Nat := 0xa3
@[match_pattern] abbrev LOG4 : Nat := 0xa4
@[match_pattern] abbrev CREATE : Nat := 0xf0
@[match_pattern] abbrev CALL : Nat := 0xf1
@[match_pattern] abbrev CALLCODE : Nat := 0xf2
@[match_pattern] abbrev RETURN : Nat := 0xf3
@[match_pattern] abbrev DELEGATECALL : Nat := 0xf4
@[match_pattern] abbrev CREATE2 : Nat := 0xf5
@[match_pattern] abbrev STATICCALL : Nat := 0xfa
@[match_pattern] abbrev REVERT : Nat := 0xfd
@[match_pattern] abbrev INVALID : Nat := 0xfe
@[match_pattern] abbrev SELFDESTRUCT : Nat := 0xff

-- Opcodes beyond the EVM's (opcode.go:219-285).
@[match_pattern] abbrev JUMP_TO : Nat := 0x100
@[match_pattern] abbrev NOOP : Nat := 0x101
@[match_pattern] abbrev DATA : Nat := 0x102
@[match_pattern] abbrev SWAP2_SWAP1_POP_JUMP : Nat := 0x103
@[match_pattern] abbrev SWAP1_POP_SWAP2_SWAP1 : Nat := 0x104
@[match_pattern] abbrev POP_SWAP2_SWAP1_POP : Nat := 0x105
@[match_pattern] abbrev POP_POP : Nat := 0x106
@[match_pattern] abbrev PUSH1_SHL : Nat := 0x107
@[match_pattern] abbrev PUSH1_ADD : Nat := 0x108
@[match_pattern] abbrev PUSH1_DUP1 : Nat := 0x109
@[match_pattern] abbrev PUSH2_JUMP : Nat := 0x10a
@[match_pattern] abbrev PUSH2_JUMPI : Nat := 0x10b
@[match_pattern] abbrev PUSH1_PUSH1 : Nat := 0x10c
@[match_pattern] abbrev SWAP1_POP : Nat := 0x10d
@[match_pattern] abbrev POP_JUMP : Nat := 0x10e
@[match_pattern] abbrev SWAP2_SWAP1 : Nat := 0x10f
@[match_pattern] abbrev SWAP2_POP : Nat := 0x110
@[match_pattern] abbrev DUP2_MSTORE : Nat := 0x111
@[match_pattern] abbrev DUP2_LT : Nat := 0x112
@[match_pattern] abbrev ISZERO_PUSH2_JUMPI : Nat := 0x113
@[match_pattern] abbrev PUSH1_PUSH4_DUP3 : Nat := 0x114
@[match_pattern] abbrev AND_SWAP1_POP_SWAP2_SWAP1 : Nat := 0x115
@[match_pattern] abbrev PUSH1_PUSH1_PUSH1_SHL_SUB : Nat := 0x116

/-- `OpCode.decompose` (opcode.go:358-403); the empty list stands for nil. -/
def decompose : Nat → List Nat
  | SWAP2_SWAP1_POP_JUMP => [SWAP2, SWAP1, POP, JUMP]
  | SWAP1_POP_SWAP2_SWAP1 => [SWAP1, POP, SWAP2, SWAP1]
  | POP_SWAP2_SWAP1_POP => [POP, SWAP2, SWAP1, POP]
  | POP_POP => [POP, POP]
  | PUSH1_SHL => [PUSH1, SHL]
  | PUSH1_ADD => [PUSH1, ADD]
  | PUSH1_DUP1 => [PUSH1, DUP1]
  | PUSH2_JUMP => [PUSH2, JUMP]
  | PUSH2_JUMPI => [PUSH2, JUMPI]
  | PUSH1_PUSH1 => [PUSH1, PUSH1]
  | SWAP1_POP => [SWAP1, POP]
  | POP_JUMP => [POP, JUMP]
  | SWAP2_SWAP1 => [SWAP2, SWAP1]
  | SWAP2_POP => [SWAP2, POP]
  | DUP2_MSTORE => [DUP2, MSTORE]
  | DUP2_LT => [DUP2, LT]
  | ISZERO_PUSH2_JUMPI => [ISZERO, PUSH2, JUMPI]
  | PUSH1_PUSH4_DUP3 => [PUSH1, PUSH4, DUP3]
  | AND_SWAP1_POP_SWAP2_SWAP1 => [AND, SWAP1, POP, SWAP2, SWAP1]
  | PUSH1_PUSH1_PUSH1_SHL_SUB => [PUSH1, PUSH1, PUSH1, SHL, SUB]
  | _ => []

end Op

/-- `Instruction` (instruction.go:19-24); the default is the Go zero value. -/
structure Instruction where
  opcode : Nat := 0
  arg : BitVec 16 := 0
  deriving DecidableEq, Repr, Inhabited

/-- `Code` (instruction.go:27). -/
abbrev Code := List Instruction

/-! ## The code builder (converter.go:95-136) -/

/-- `codeBuilder` (converter.go:97-100). -/
structure CodeBuilder where
  code : List Instruction
  nextPos : Nat
  deriving Repr

namespace CodeBuilder

/-- `newCodeBuilder` (converter.go:102-104). -/
def new (codelength : Nat) : CodeBuilder := ⟨List.replicate codelength {}, 0⟩

/-- `appendOp` (converter.go:110-115). -/
def appendOp (b : CodeBuilder) (opcode : Nat) (arg : BitVec 16) : Option CodeBuilder :=
  if b.nextPos < b.code.length then some ⟨b.code.set b.nextPos ⟨opcode, arg⟩, b.nextPos + 1⟩ else none

/-- `appendCode` (converter.go:117-121): the argument stays as it is. -/
def appendCode (b : CodeBuilder) (opcode : Nat) : Option CodeBuilder :=
  if b.nextPos < b.code.length then
    some ⟨b.code.set b.nextPos { b.code.getD b.nextPos {} with opcode := opcode }, b.nextPos + 1⟩
  else none

/-- `appendData` (converter.go:123-125). -/
def appendData (b : CodeBuilder) (data : BitVec 16) : Option CodeBuilder := b.appendOp Op.DATA data

/-- The loop of `padNoOpsUntil` (converter.go:128-130): `n` instructions from position `i` on. -/
def padLoop (code : List Instruction) (i : Nat) : Nat → Option (List Instruction)
  | 0 => some code
  | n + 1 =>
    if i < code.length then padLoop (code.set i { code.getD i {} with opcode := Op.NOOP }) (i + 1) n else none

/-- `padNoOpsUntil` (converter.go:127-132). -/
def padNoOpsUntil (b : CodeBuilder) (pos : Nat) : Option CodeBuilder :=
  (padLoop b.code b.nextPos (pos - b.nextPos)).map fun code => ⟨code, pos⟩

/-- `toCode` (converter.go:134-136). -/
def toCode (b : CodeBuilder) : Option Code :=
  if b.nextPos ≤ b.code.length then some (b.code.take b.nextPos) else none

end CodeBuilder

/-- `common.RightPadSlice` (go/ct/common/slices.go:13-17) of a list of instructions. -/
def rightPadCode (l : List Instruction) (size : Nat) : List Instruction :=
  l.take size ++ List.replicate (size - l.length) ({} : Instruction)

/-- `common.RightPadSlice` (go/ct/common/slices.go:13-17) of a byte string. -/
def rightPadBytes (l : List Byte) (size : Nat) : List Byte := l.take size ++ List.replicate (size - l.length) 0

/-- `uint16(a)<<8 | uint16(b)`. -/
def pair (a b : Byte) : BitVec 16 := (a.setWidth 16 <<< 8) ||| b.setWidth 16

/-- The loop packing the bytes of a PUSH in pairs (converter.go:225-227): `for i := i; i < n-1; i += 2`. -/
def packLoop (b : CodeBuilder) (data : List Byte) (n : Nat) (i : Nat) : Nat → Option CodeBuilder
  | 0 => some b
  | fuel + 1 =>
    if i + 1 < n then
      (b.appendData (pair (data.getD i 0) (data.getD (i + 1) 0))).bind fun b => packLoop b data n (i + 2) fuel
    else some b

/-- The PUSH case of `appendInstructions` (converter.go:194-233).  `data` has at least `numBytes` bytes, so reading it
does not panic. -/
def appendPush (b : CodeBuilder) (pos : Nat) (code : List Byte) (numBytes : Nat) : Option CodeBuilder :=
  let short := code.length < pos + numBytes + 2
  let missing := pos + numBytes + 2 - code.length
  let extension := missing / 2 + (if missing % 2 > 0 then 1 else 0)
  let b := if short ∧ extension > 0 then { b with code := rightPadCode b.code (b.code.length + extension) } else b
  let data := if short then rightPadBytes (code.drop (pos + 1)) (numBytes + 1) else (code.drop (pos + 1)).take numBytes
  (if numBytes = 1 then b.appendOp Op.PUSH1 ((data.getD 0 0).setWidth 16 <<< 8)
   else b.appendOp (Op.PUSH1 + (numBytes - 1)) (pair (data.getD 0 0) (data.getD 1 0))).bind fun b =>
  (packLoop b data numBytes 2 numBytes).bind fun b =>
  if numBytes > 1 ∧ numBytes % 2 = 1 then b.appendData ((data.getD (numBytes - 1) 0).setWidth 16 <<< 8) else some b

/-- `appendSuperInstructions` (converter.go:238-355): the number of extra bytes consumed, 0 if no pattern matches. -/
def appendSuper (b : CodeBuilder) (pos : Nat) (code : List Byte) : Option (CodeBuilder × Nat) :=
  let byte (k : Nat) : Byte := code.getD (pos + k) 0
  let op (k : Nat) : Nat := (byte k).toNat
  let wide (k : Nat) : BitVec 16 := (byte k).setWidth 16
  let only (n : Nat) (b : Option CodeBuilder) : Option (CodeBuilder × Nat) := b.map fun b => (b, n)
  if code.length > pos + 7 ∧ op 0 = Op.PUSH1 ∧ op 2 = Op.PUSH4 ∧ op 7 = Op.DUP3 then
    only 7 ((b.appendOp Op.PUSH1_PUSH4_DUP3 (wide 1 <<< 8)).bind fun b =>
      (b.appendData (pair (byte 3) (byte 4))).bind fun b => b.appendData (pair (byte 5) (byte 6)))
  else if code.length > pos + 7 ∧ op 0 = Op.PUSH1 ∧ op 2 = Op.PUSH1 ∧ op 4 = Op.PUSH1 ∧ op 6 = Op.SHL ∧ op 7 = Op.SUB then
    only 7 ((b.appendOp Op.PUSH1_PUSH1_PUSH1_SHL_SUB (pair (byte 1) (byte 3))).bind fun b => b.appendData (wide 5))
  else if code.length > pos + 4 ∧ op 0 = Op.AND ∧ op 1 = Op.SWAP1 ∧ op 2 = Op.POP ∧ op 3 = Op.SWAP2 ∧ op 4 = Op.SWAP1 then
    only 4 (b.appendCode Op.AND_SWAP1_POP_SWAP2_SWAP1)
  else if code.length > pos + 4 ∧ op 0 = Op.ISZERO ∧ op 1 = Op.PUSH2 ∧ op 4 = Op.JUMPI then
    only 4 (b.appendOp Op.ISZERO_PUSH2_JUMPI (pair (byte 2) (byte 3)))
  else if code.length > pos + 3 ∧ op 0 = Op.SWAP2 ∧ op 1 = Op.SWAP1 ∧ op 2 = Op.POP ∧ op 3 = Op.JUMP then
    only 3 (b.appendCode Op.SWAP2_SWAP1_POP_JUMP)
  else if code.length > pos + 3 ∧ op 0 = Op.SWAP1 ∧ op 1 = Op.POP ∧ op 2 = Op.SWAP2 ∧ op 3 = Op.SWAP1 then
    only 3 (b.appendCode Op.SWAP1_POP_SWAP2_SWAP1)
  else if code.length > pos + 3 ∧ op 0 = Op.POP ∧ op 1 = Op.SWAP2 ∧ op 2 = Op.SWAP1 ∧ op 3 = Op.POP then
    only 3 (b.appendCode Op.POP_SWAP2_SWAP1_POP)
  else if code.length > pos + 3 ∧ op 0 = Op.PUSH2 ∧ op 3 = Op.JUMP then
    only 3 (b.appendOp Op.PUSH2_JUMP (pair (byte 1) (byte 2)))
  else if code.length > pos + 3 ∧ op 0 = Op.PUSH2 ∧ op 3 = Op.JUMPI then
    only 3 (b.appendOp Op.PUSH2_JUMPI (pair (byte 1) (byte 2)))
  else if code.length > pos + 3 ∧ op 0 = Op.PUSH1 ∧ op 2 = Op.PUSH1 then
    only 3 (b.appendOp Op.PUSH1_PUSH1 (pair (byte 1) (byte 3)))
  else if code.length > pos + 2 ∧ op 0 = Op.PUSH1 ∧ op 2 = Op.ADD then only 2 (b.appendOp Op.PUSH1_ADD (wide 1))
  else if code.length > pos + 2 ∧ op 0 = Op.PUSH1 ∧ op 2 = Op.SHL then only 2 (b.appendOp Op.PUSH1_SHL (wide 1))
  else if code.length > pos + 2 ∧ op 0 = Op.PUSH1 ∧ op 2 = Op.DUP1 then only 2 (b.appendOp Op.PUSH1_DUP1 (wide 1))
  else if code.length > pos + 1 ∧ op 0 = Op.SWAP1 ∧ op 1 = Op.POP then only 1 (b.appendCode Op.SWAP1_POP)
  else if code.length > pos + 1 ∧ op 0 = Op.POP ∧ op 1 = Op.JUMP then only 1 (b.appendCode Op.POP_JUMP)
  else if code.length > pos + 1 ∧ op 0 = Op.POP ∧ op 1 = Op.POP then only 1 (b.appendCode Op.POP_POP)
  else if code.length > pos + 1 ∧ op 0 = Op.SWAP2 ∧ op 1 = Op.SWAP1 then only 1 (b.appendCode Op.SWAP2_SWAP1)
  else if code.length > pos + 1 ∧ op 0 = Op.SWAP2 ∧ op 1 = Op.POP then only 1 (b.appendCode Op.SWAP2_POP)
  else if code.length > pos + 1 ∧ op 0 = Op.DUP2 ∧ op 1 = Op.MSTORE then only 1 (b.appendCode Op.DUP2_MSTORE)
  else if code.length > pos + 1 ∧ op 0 = Op.DUP2 ∧ op 1 = Op.LT then only 1 (b.appendCode Op.DUP2_LT)
  else some (b, 0)

/-- `appendInstructions` without super-instructions (converter.go:182-237); the number of extra bytes consumed. -/
def appendSingle (b : CodeBuilder) (pos : Nat) (code : List Byte) : Option (CodeBuilder × Nat) :=
  let op : Nat := (code.getD pos 0).toNat
  if op = Op.PC then
    if pos > 0xffff then (b.appendCode Op.INVALID).map fun b => (b, 1)
    else (b.appendOp Op.PC (BitVec.ofNat 16 pos)).map fun b => (b, 0)
  else if Op.PUSH1 ≤ op ∧ op ≤ Op.PUSH32 then
    (appendPush b pos code (op - Op.PUSH1 + 1)).map fun b => (b, op - Op.PUSH1 + 1)
  else (b.appendCode op).map fun b => (b, 0)

/-- `appendInstructions` (converter.go:174-237). -/
def appendInstructions (b : CodeBuilder) (pos : Nat) (code : List Byte) (withSuper : Bool) : Option (CodeBuilder × Nat) :=
  if withSuper = true then
    (appendSuper b pos code).bind fun (b', n) => if n > 0 then some (b', n) else appendSingle b' pos code
  else appendSingle b pos code

/-- The loop of `convertWithObserver` (converter.go:144-172) from offset `i` on; an iteration consumes at least a byte.
The observer (used by the conformance tests only) is not modelled. -/
def convertLoop (code : List Byte) (withSuper : Bool) : Nat → Nat → CodeBuilder → Option CodeBuilder
  | 0, i, b => if i < code.length then none else some b
  | fuel + 1, i, b =>
    if i < code.length then
      if (code.getD i 0).toNat = Op.JUMPDEST then
        (if b.nextPos < i then b.appendOp Op.JUMP_TO (BitVec.ofNat 16 i) else some b).bind fun b =>
        (b.padNoOpsUntil i).bind fun b =>
        (b.appendCode Op.JUMPDEST).bind fun b => convertLoop code withSuper fuel (i + 1) b
      else
        (appendInstructions b i code withSuper).bind fun (b, inc) => convertLoop code withSuper fuel (i + inc + 1) b
    else some b

/-- `convert` (converter.go:138-172). -/
def convert (code : List Byte) (withSuper : Bool) : Option Code :=
  (convertLoop code withSuper code.length 0 (CodeBuilder.new code.length)).bind CodeBuilder.toCode

end Tosca.Model.Lfvm
