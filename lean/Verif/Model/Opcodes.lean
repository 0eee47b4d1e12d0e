import Verif.Model.Basic

/-!
# Opcodes (cpp/vm/evmzero/opcodes.inc, opcodes.h, opcodes.cc) and `OpInfo`

The PUSH1..PUSH32, DUP1..DUP16, SWAP1..SWAP16 and LOG0..LOG4 families are one
constructor each; `PUSH i` is `PUSH(i+1)`, `DUP i` is `DUP(i+1)`, `SWAP i` is
`SWAP(i+1)`, `LOG i` is `LOGi`.
-/

namespace Tosca.Model

/-- `enum OpCode` (opcodes.h:20-23, opcodes.inc:21-276). -/
inductive OpCode
  | STOP
  | ADD
  | MUL
  | SUB
  | DIV
  | SDIV
  | MOD
  | SMOD
  | ADDMOD
  | MULMOD
  | EXP
  | SIGNEXTEND
  | LT
  | GT
  | SLT
  | SGT
  | EQ
  | ISZERO
  | AND
  | OR
  | XOR
  | NOT
  | BYTE
  | SHL
  | SHR
  | SAR
  | SHA3
  | ADDRESS
  | BALANCE
  | ORIGIN
  | CALLER
  | CALLVALUE
  | CALLDATALOAD
  | CALLDATASIZE
  | CALLDATACOPY
  | CODESIZE
  | CODECOPY
  | GASPRICE
  | EXTCODESIZE
  | EXTCODECOPY
  | RETURNDATASIZE
  | RETURNDATACOPY
  | EXTCODEHASH
  | BLOCKHASH
  | COINBASE
  | TIMESTAMP
  | NUMBER
  | PREVRANDAO
  | GASLIMIT
  | CHAINID
  | SELFBALANCE
  | BASEFEE
  | BLOBHASH
  | BLOBBASEFEE
  | POP
  | MLOAD
  | MSTORE
  | MSTORE8
  | SLOAD
  | SSTORE
  | JUMP
  | JUMPI
  | PC
  | MSIZE
  | GAS
  | JUMPDEST
  | TLOAD
  | TSTORE
  | MCOPY
  | PUSH0
  | PUSH (i : Fin 32)
  | DUP (i : Fin 16)
  | SWAP (i : Fin 16)
  | LOG (i : Fin 5)
  | CREATE
  | CALL
  | CALLCODE
  | RETURN
  | DELEGATECALL
  | CREATE2
  | STATICCALL
  | REVERT
  | INVALID
  | SELFDESTRUCT
  deriving DecidableEq, Repr

/-- The numeric value of an opcode (opcodes.inc:21-276). -/
def OpCode.value : OpCode → Nat
  | .STOP => 0x00
  | .ADD => 0x01
  | .MUL => 0x02
  | .SUB => 0x03
  | .DIV => 0x04
  | .SDIV => 0x05
  | .MOD => 0x06
  | .SMOD => 0x07
  | .ADDMOD => 0x08
  | .MULMOD => 0x09
  | .EXP => 0x0A
  | .SIGNEXTEND => 0x0B
  | .LT => 0x10
  | .GT => 0x11
  | .SLT => 0x12
  | .SGT => 0x13
  | .EQ => 0x14
  | .ISZERO => 0x15
  | .AND => 0x16
  | .OR => 0x17
  | .XOR => 0x18
  | .NOT => 0x19
  | .BYTE => 0x1A
  | .SHL => 0x1B
  | .SHR => 0x1C
  | .SAR => 0x1D
  | .SHA3 => 0x20
  | .ADDRESS => 0x30
  | .BALANCE => 0x31
  | .ORIGIN => 0x32
  | .CALLER => 0x33
  | .CALLVALUE => 0x34
  | .CALLDATALOAD => 0x35
  | .CALLDATASIZE => 0x36
  | .CALLDATACOPY => 0x37
  | .CODESIZE => 0x38
  | .CODECOPY => 0x39
  | .GASPRICE => 0x3A
  | .EXTCODESIZE => 0x3B
  | .EXTCODECOPY => 0x3C
  | .RETURNDATASIZE => 0x3D
  | .RETURNDATACOPY => 0x3E
  | .EXTCODEHASH => 0x3F
  | .BLOCKHASH => 0x40
  | .COINBASE => 0x41
  | .TIMESTAMP => 0x42
  | .NUMBER => 0x43
  | .PREVRANDAO => 0x44
  | .GASLIMIT => 0x45
  | .CHAINID => 0x46
  | .SELFBALANCE => 0x47
  | .BASEFEE => 0x48
  | .BLOBHASH => 0x49
  | .BLOBBASEFEE => 0x4A
  | .POP => 0x50
  | .MLOAD => 0x51
  | .MSTORE => 0x52
  | .MSTORE8 => 0x53
  | .SLOAD => 0x54
  | .SSTORE => 0x55
  | .JUMP => 0x56
  | .JUMPI => 0x57
  | .PC => 0x58
  | .MSIZE => 0x59
  | .GAS => 0x5A
  | .JUMPDEST => 0x5B
  | .TLOAD => 0x5C
  | .TSTORE => 0x5D
  | .MCOPY => 0x5E
  | .PUSH0 => 0x5F
  | .PUSH i => 0x60 + i
  | .DUP i => 0x80 + i
  | .SWAP i => 0x90 + i
  | .LOG i => 0xA0 + i
  | .CREATE => 0xF0
  | .CALL => 0xF1
  | .CALLCODE => 0xF2
  | .RETURN => 0xF3
  | .DELEGATECALL => 0xF4
  | .CREATE2 => 0xF5
  | .STATICCALL => 0xFA
  | .REVERT => 0xFD
  | .INVALID => 0xFE
  | .SELFDESTRUCT => 0xFF

/-- `dispatch_table` (interpreter.cc:2032-2036 over opcodes.inc:21-276): the handler each byte
is dispatched to.  `EVMZERO_OPCODE_UNUSED` bytes go to the handler of INVALID. -/
def dispatch (b : Byte) : OpCode :=
  match b.toNat with
  | 0x00 => .STOP
  | 0x01 => .ADD
  | 0x02 => .MUL
  | 0x03 => .SUB
  | 0x04 => .DIV
  | 0x05 => .SDIV
  | 0x06 => .MOD
  | 0x07 => .SMOD
  | 0x08 => .ADDMOD
  | 0x09 => .MULMOD
  | 0x0A => .EXP
  | 0x0B => .SIGNEXTEND
  | 0x10 => .LT
  | 0x11 => .GT
  | 0x12 => .SLT
  | 0x13 => .SGT
  | 0x14 => .EQ
  | 0x15 => .ISZERO
  | 0x16 => .AND
  | 0x17 => .OR
  | 0x18 => .XOR
  | 0x19 => .NOT
  | 0x1A => .BYTE
  | 0x1B => .SHL
  | 0x1C => .SHR
  | 0x1D => .SAR
  | 0x20 => .SHA3
  | 0x30 => .ADDRESS
  | 0x31 => .BALANCE
  | 0x32 => .ORIGIN
  | 0x33 => .CALLER
  | 0x34 => .CALLVALUE
  | 0x35 => .CALLDATALOAD
  | 0x36 => .CALLDATASIZE
  | 0x37 => .CALLDATACOPY
  | 0x38 => .CODESIZE
  | 0x39 => .CODECOPY
  | 0x3A => .GASPRICE
  | 0x3B => .EXTCODESIZE
  | 0x3C => .EXTCODECOPY
  | 0x3D => .RETURNDATASIZE
  | 0x3E => .RETURNDATACOPY
  | 0x3F => .EXTCODEHASH
  | 0x40 => .BLOCKHASH
  | 0x41 => .COINBASE
  | 0x42 => .TIMESTAMP
  | 0x43 => .NUMBER
  | 0x44 => .PREVRANDAO
  | 0x45 => .GASLIMIT
  | 0x46 => .CHAINID
  | 0x47 => .SELFBALANCE
  | 0x48 => .BASEFEE
  | 0x49 => .BLOBHASH
  | 0x4A => .BLOBBASEFEE
  | 0x50 => .POP
  | 0x51 => .MLOAD
  | 0x52 => .MSTORE
  | 0x53 => .MSTORE8
  | 0x54 => .SLOAD
  | 0x55 => .SSTORE
  | 0x56 => .JUMP
  | 0x57 => .JUMPI
  | 0x58 => .PC
  | 0x59 => .MSIZE
  | 0x5A => .GAS
  | 0x5B => .JUMPDEST
  | 0x5C => .TLOAD
  | 0x5D => .TSTORE
  | 0x5E => .MCOPY
  | 0x5F => .PUSH0
  | 0x60 => .PUSH 0
  | 0x61 => .PUSH 1
  | 0x62 => .PUSH 2
  | 0x63 => .PUSH 3
  | 0x64 => .PUSH 4
  | 0x65 => .PUSH 5
  | 0x66 => .PUSH 6
  | 0x67 => .PUSH 7
  | 0x68 => .PUSH 8
  | 0x69 => .PUSH 9
  | 0x6A => .PUSH 10
  | 0x6B => .PUSH 11
  | 0x6C => .PUSH 12
  | 0x6D => .PUSH 13
  | 0x6E => .PUSH 14
  | 0x6F => .PUSH 15
  | 0x70 => .PUSH 16
  | 0x71 => .PUSH 17
  | 0x72 => .PUSH 18
  | 0x73 => .PUSH 19
  | 0x74 => .PUSH 20
  | 0x75 => .PUSH 21
  | 0x76 => .PUSH 22
  | 0x77 => .PUSH 23
  | 0x78 => .PUSH 24
  | 0x79 => .PUSH 25
  | 0x7A => .PUSH 26
  | 0x7B => .PUSH 27
  | 0x7C => .PUSH 28
  | 0x7D => .PUSH 29
  | 0x7E => .PUSH 30
  | 0x7F => .PUSH 31
  | 0x80 => .DUP 0
  | 0x81 => .DUP 1
  | 0x82 => .DUP 2
  | 0x83 => .DUP 3
  | 0x84 => .DUP 4
  | 0x85 => .DUP 5
  | 0x86 => .DUP 6
  | 0x87 => .DUP 7
  | 0x88 => .DUP 8
  | 0x89 => .DUP 9
  | 0x8A => .DUP 10
  | 0x8B => .DUP 11
  | 0x8C => .DUP 12
  | 0x8D => .DUP 13
  | 0x8E => .DUP 14
  | 0x8F => .DUP 15
  | 0x90 => .SWAP 0
  | 0x91 => .SWAP 1
  | 0x92 => .SWAP 2
  | 0x93 => .SWAP 3
  | 0x94 => .SWAP 4
  | 0x95 => .SWAP 5
  | 0x96 => .SWAP 6
  | 0x97 => .SWAP 7
  | 0x98 => .SWAP 8
  | 0x99 => .SWAP 9
  | 0x9A => .SWAP 10
  | 0x9B => .SWAP 11
  | 0x9C => .SWAP 12
  | 0x9D => .SWAP 13
  | 0x9E => .SWAP 14
  | 0x9F => .SWAP 15
  | 0xA0 => .LOG 0
  | 0xA1 => .LOG 1
  | 0xA2 => .LOG 2
  | 0xA3 => .LOG 3
  | 0xA4 => .LOG 4
  | 0xF0 => .CREATE
  | 0xF1 => .CALL
  | 0xF2 => .CALLCODE
  | 0xF3 => .RETURN
  | 0xF4 => .DELEGATECALL
  | 0xF5 => .CREATE2
  | 0xFA => .STATICCALL
  | 0xFD => .REVERT
  | 0xFE => .INVALID
  | 0xFF => .SELFDESTRUCT
  | _ => .INVALID

/-- `IsCallOpCode` (opcodes.h:46-54): EVMZERO_OPCODE_CREATE and EVMZERO_OPCODE_CALL entries. -/
def OpCode.isCall : OpCode → Bool
  | .CREATE | .CALL | .CALLCODE | .DELEGATECALL | .CREATE2 | .STATICCALL => true
  | _ => false

/-- `IsExternalOpCode` (opcodes.h:56-63): EVMZERO_OPCODE_EXTERNAL entries. -/
def OpCode.isExternal : OpCode → Bool
  | .BALANCE | .ORIGIN | .GASPRICE | .EXTCODESIZE | .EXTCODECOPY | .EXTCODEHASH | .BLOCKHASH | .COINBASE | .TIMESTAMP | .NUMBER | .PREVRANDAO | .GASLIMIT | .CHAINID | .SELFBALANCE | .BASEFEE | .BLOBHASH | .BLOBBASEFEE | .SLOAD | .SSTORE | .TLOAD | .TSTORE | .LOG _ | .SELFDESTRUCT => true
  | _ => false

/-- `struct OpInfo` (interpreter.cc:155-166). -/
structure OpInfo where
  pops : Int := 0
  pushes : Int := 0
  staticGas : Int := 0
  length : Nat := 1
  isJump : Bool := false
  disallowedInStaticCall : Bool := false
  introducedIn : Option Revision := none

/-- `GetStackDelta` (interpreter.cc:165). -/
def OpInfo.delta (i : OpInfo) : Int := i.pushes - i.pops

/-- `NullaryOp` (interpreter.cc:168). -/
def nullaryOp (g : Int) : OpInfo := { pops := 0, pushes := 1, staticGas := g }
/-- `UnaryOp` (interpreter.cc:169). -/
def unaryOp (g : Int) : OpInfo := { pops := 1, pushes := 1, staticGas := g }
/-- `BinaryOp` (interpreter.cc:170). -/
def binaryOp (g : Int) : OpInfo := { pops := 2, pushes := 1, staticGas := g }

/-- `Impl<op>::kInfo` for every opcode; the line cited is the `kInfo` definition in
interpreter.cc. -/
def OpCode.info : OpCode → OpInfo
  | .STOP => {}                                          -- 188
  | .ADD => binaryOp 3                                   -- 194
  | .MUL => binaryOp 5                                   -- 204
  | .SUB => binaryOp 3                                   -- 214
  | .DIV => binaryOp 5                                   -- 224
  | .SDIV => binaryOp 5                                  -- 236
  | .MOD => binaryOp 5                                   -- 248
  | .SMOD => binaryOp 5                                  -- 260
  | .ADDMOD => { pops := 3, pushes := 1, staticGas := 8 }   -- 272
  | .MULMOD => { pops := 3, pushes := 1, staticGas := 8 }   -- 288
  | .EXP => binaryOp 10                                  -- 304
  | .SIGNEXTEND => binaryOp 5                            -- 320
  | .LT => binaryOp 3                                    -- 345
  | .GT => binaryOp 3                                    -- 355
  | .SLT => binaryOp 3                                   -- 365
  | .SGT => binaryOp 3                                   -- 375
  | .EQ => binaryOp 3                                    -- 385
  | .ISZERO => unaryOp 3                                 -- 395
  | .AND => binaryOp 3                                   -- 405
  | .OR => binaryOp 3                                    -- 415
  | .XOR => binaryOp 3                                   -- 425
  | .NOT => unaryOp 3                                    -- 435
  | .BYTE => binaryOp 3                                  -- 445
  | .SHL => binaryOp 3                                   -- 460
  | .SHR => binaryOp 3                                   -- 470
  | .SAR => binaryOp 3                                   -- 480
  | .SHA3 => binaryOp 30                                 -- 500
  | .ADDRESS => nullaryOp 2                              -- 530
  | .BALANCE => unaryOp 0                                -- 540
  | .ORIGIN => nullaryOp 2                               -- 564
  | .CALLER => nullaryOp 2                               -- 574
  | .CALLVALUE => nullaryOp 2                            -- 584
  | .CALLDATALOAD => unaryOp 3                           -- 594
  | .CALLDATASIZE => nullaryOp 2                         -- 616
  | .CALLDATACOPY => { pops := 3, pushes := 0, staticGas := 3 }   -- 626
  | .CODESIZE => nullaryOp 2                             -- 669
  | .CODECOPY => { pops := 3, pushes := 0, staticGas := 3 }   -- 679
  | .GASPRICE => nullaryOp 2                             -- 714
  | .EXTCODESIZE => unaryOp 0                            -- 724
  | .EXTCODECOPY => { pops := 4, pushes := 0 }           -- 748
  | .RETURNDATASIZE => nullaryOp 2                       -- 793
  | .RETURNDATACOPY => { pops := 3, pushes := 0, staticGas := 3 }   -- 803
  | .EXTCODEHASH => unaryOp 0                            -- 841
  | .BLOCKHASH => unaryOp 20                             -- 865
  | .COINBASE => nullaryOp 2                             -- 895
  | .TIMESTAMP => nullaryOp 2                            -- 905
  | .NUMBER => nullaryOp 2                               -- 915
  | .PREVRANDAO => nullaryOp 2                           -- 925
  | .GASLIMIT => nullaryOp 2                             -- 935
  | .CHAINID => nullaryOp 2                              -- 945
  | .SELFBALANCE => nullaryOp 5                          -- 955
  | .BASEFEE => { pops := 0, pushes := 1, staticGas := 2, introducedIn := some LONDON }   -- 965
  | .BLOBHASH => { pops := 1, pushes := 1, staticGas := 3, introducedIn := some CANCUN }   -- 980
  | .BLOBBASEFEE => { pops := 0, pushes := 1, staticGas := 2, introducedIn := some CANCUN }   -- 1000
  | .POP => { pops := 1, pushes := 0, staticGas := 2 }   -- 1015
  | .MCOPY => { pops := 3, pushes := 0, staticGas := 3, introducedIn := some CANCUN }   -- 1026
  | .PUSH0 => { pops := 0, pushes := 1, staticGas := 2, introducedIn := some SHANGHAI }   -- 1055
  | .MLOAD => unaryOp 3                                  -- 1070
  | .MSTORE => { pops := 2, pushes := 0, staticGas := 3 }   -- 1095
  | .MSTORE8 => { pops := 2, pushes := 0, staticGas := 3 }   -- 1122
  | .SLOAD => unaryOp 0                                  -- 1145
  | .SSTORE => { pops := 2, pushes := 0, disallowedInStaticCall := true }   -- 1169
  | .JUMP => { pops := 1, pushes := 0, staticGas := 8, isJump := true }   -- 1263
  | .JUMPI => { pops := 2, pushes := 0, staticGas := 10, isJump := true }   -- 1275
  | .PC => nullaryOp 2                                   -- 1290
  | .MSIZE => nullaryOp 2                                -- 1300
  | .GAS => nullaryOp 2                                  -- 1310
  | .JUMPDEST => { pops := 0, pushes := 0, staticGas := 1 }   -- 1320
  | .TLOAD => { pops := 1, pushes := 1, staticGas := 100, introducedIn := some CANCUN }   -- 1331
  | .TSTORE => { pops := 2, pushes := 0, staticGas := 100,
                 disallowedInStaticCall := true, introducedIn := some CANCUN }   -- 1348
  | .PUSH i => { pops := 0, pushes := 1, staticGas := 3, length := 1 + (i.val + 1) }   -- 1366, N = i+1
  | .DUP i => { pops := i.val + 1, pushes := i.val + 1 + 1, staticGas := 3 }   -- 1411, N = i+1
  | .SWAP i => { pops := i.val + 1 + 1, pushes := i.val + 1 + 1, staticGas := 3 }   -- 1430, N = i+1
  | .LOG i => { pops := i.val + 2, pushes := 0, staticGas := 375 + 375 * i.val,
                disallowedInStaticCall := true }   -- 1449, N = i
  | .RETURN => { pops := 2, pushes := 0 }                -- 1489
  | .REVERT => { pops := 2, pushes := 0 }                -- 1489
  | .INVALID => {}                                       -- 1520
  | .SELFDESTRUCT => { pops := 1, pushes := 0, staticGas := 5000,
                       disallowedInStaticCall := true }   -- 1527
  | .CREATE => { pops := 3, pushes := 1, staticGas := 32000, disallowedInStaticCall := true }   -- 1564
  | .CREATE2 => { pops := 4, pushes := 1, staticGas := 32000, disallowedInStaticCall := true }   -- 1564
  | .CALL => { pops := 7, pushes := 1 }                  -- 1659
  | .CALLCODE => { pops := 7, pushes := 1 }              -- 1659
  | .DELEGATECALL => { pops := 6, pushes := 1 }          -- 1659
  | .STATICCALL => { pops := 6, pushes := 1 }            -- 1659

/-- `kStopBytePadding` (interpreter.cc:75). -/
def stopBytePadding : Nat := 33

/-- `PadCode` (interpreter.cc:1919-1925). -/
def padCode (code : List Byte) : List Byte := code ++ List.replicate stopBytePadding 0

/-- The loop of `CalculateValidJumpTargets` (opcodes.cc:18-25) at index `i` with `fuel`
iterations left; `i += instruction - PUSH1 + 1` skips the arguments, `++i` ends the iteration.
The `size_t` index cannot wrap for codes shorter than 2^64 - 33 bytes. -/
def jumpTargetsLoop (code : List Byte) : Nat → Nat → List Byte → List Byte
  | 0, _, targets => targets
  | fuel + 1, i, targets =>
    if i < code.length then
      let instruction := (code.getD i 0).toNat
      if 0x60 ≤ instruction ∧ instruction ≤ 0x7F then
        jumpTargetsLoop code fuel (i + (instruction - 0x60 + 1) + 1) targets
      else
        jumpTargetsLoop code fuel (i + 1) (targets.set i (if instruction = 0x5B then 1 else 0))
    else targets

/-- `CalculateValidJumpTargets` (opcodes.cc:15-28).  Every iteration advances the index, so
`code.size()` iterations suffice. -/
def calculateValidJumpTargets (code : List Byte) : List Byte :=
  jumpTargetsLoop code code.length 0 (List.replicate code.length 0)

end Tosca.Model
