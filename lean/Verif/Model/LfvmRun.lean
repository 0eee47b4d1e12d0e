import Verif.Model.Lfvm

/-!
# The long-form EVM: tables, super-instructions, the interpreter loop, `Run`

go/interpreter/lfvm: gas.go, stack_usage.go, super_instructions.go, interpreter.go, lfvm.go, converter.go:67-84.
-/

namespace Tosca.Model.Lfvm

open Tosca.Go Tosca.Model.Go

variable {ω : Type}

/-! ## Static gas (gas.go) -/

/-- `getStaticGasPriceInternal` (gas.go:72-236) of an opcode that is not a super-instruction. -/
def baseGasPrice (op : Nat) : Int :=
  if Op.PUSH1 ≤ op ∧ op ≤ Op.PUSH32 then 3
  else if Op.DUP1 ≤ op ∧ op ≤ Op.DUP16 then 3
  else if Op.SWAP1 ≤ op ∧ op ≤ Op.SWAP16 then 3
  else if Op.LT ≤ op ∧ op ≤ Op.SAR then 3
  else if Op.COINBASE ≤ op ∧ op ≤ Op.CHAINID then 2
  else match op with
  | Op.POP => 2
  | Op.PUSH0 => 2
  | Op.ADD => 3
  | Op.SUB => 3
  | Op.MUL => 5
  | Op.DIV => 5
  | Op.SDIV => 5
  | Op.MOD => 5
  | Op.SMOD => 5
  | Op.ADDMOD => 8
  | Op.MULMOD => 8
  | Op.EXP => 10
  | Op.SIGNEXTEND => 5
  | Op.SHA3 => 30
  | Op.ADDRESS => 2
  | Op.BALANCE => 700
  | Op.ORIGIN => 2
  | Op.CALLER => 2
  | Op.CALLVALUE => 2
  | Op.CALLDATALOAD => 3
  | Op.CALLDATASIZE => 2
  | Op.CALLDATACOPY => 3
  | Op.CODESIZE => 2
  | Op.CODECOPY => 3
  | Op.GASPRICE => 2
  | Op.EXTCODESIZE => 700
  | Op.EXTCODECOPY => 700
  | Op.RETURNDATASIZE => 2
  | Op.RETURNDATACOPY => 3
  | Op.EXTCODEHASH => 700
  | Op.BLOCKHASH => 20
  | Op.SELFBALANCE => 5
  | Op.BASEFEE => 2
  | Op.BLOBHASH => 3
  | Op.BLOBBASEFEE => 2
  | Op.MLOAD => 3
  | Op.MSTORE => 3
  | Op.MSTORE8 => 3
  | Op.SLOAD => 800
  | Op.SSTORE => 0
  | Op.JUMP => 8
  | Op.JUMPI => 10
  | Op.JUMPDEST => 1
  | Op.JUMP_TO => 0
  | Op.TLOAD => 100
  | Op.TSTORE => 100
  | Op.PC => 2
  | Op.MSIZE => 2
  | Op.MCOPY => 3
  | Op.GAS => 2
  | Op.LOG0 => 375
  | Op.LOG1 => 750
  | Op.LOG2 => 1125
  | Op.LOG3 => 1500
  | Op.LOG4 => 1875
  | Op.CREATE => 32000
  | Op.CREATE2 => 32000
  | Op.CALL => 700
  | Op.CALLCODE => 700
  | Op.STATICCALL => 700
  | Op.RETURN => 0
  | Op.STOP => 0
  | Op.REVERT => 0
  | Op.INVALID => 0
  | Op.DELEGATECALL => 700
  | Op.SELFDESTRUCT => 5000
  | _ => 999999

/-- `getStaticGasPriceInternal` (gas.go:72-236). -/
def staticGasPrice (op : Nat) : Int :=
  if Op.decompose op ≠ [] then ((Op.decompose op).map baseGasPrice).sum else baseGasPrice op

/-- `getBerlinGasPriceInternal` (gas.go:38-63). -/
def berlinGasPrice (op : Nat) : Int :=
  match op with
  | Op.SLOAD | Op.EXTCODECOPY | Op.EXTCODESIZE | Op.EXTCODEHASH | Op.BALANCE | Op.CALL | Op.CALLCODE | Op.STATICCALL
  | Op.DELEGATECALL => 0
  | _ => staticGasPrice op

/-- `getStaticGasPrices(revision).get(op)` (gas.go:65-70, opcode.go:408-428).  The tables have 512 entries and every
opcode is smaller, so masking the index changes nothing. -/
def gasPrice (revision : Int) (op : Nat) : Int :=
  if revision ≥ R09_Berlin then berlinGasPrice op else staticGasPrice op

/-! ## Stack usage (stack_usage.go) -/

/-- `stackUsage` (stack_usage.go:18-20); the upper end is `to` in the source. -/
structure StackUsage where
  lo : Int := 0
  hi : Int := 0
  delta : Int := 0
  deriving DecidableEq, Repr

/-- `makeUsage` (stack_usage.go:29-36). -/
def makeUsage (pops pushes : Nat) : StackUsage :=
  let delta : Int := (pushes : Int) - pops
  { lo := -(pops : Int), hi := if delta > 0 then delta else 0, delta := delta }

/-- `computeStackUsage` (stack_usage.go:25-95) of an opcode that is not a super-instruction. -/
def baseUsage (op : Nat) : StackUsage :=
  if Op.PUSH1 ≤ op ∧ op ≤ Op.PUSH32 then makeUsage 0 1
  else if Op.DUP1 ≤ op ∧ op ≤ Op.DUP16 then makeUsage (op - Op.DUP1 + 1) (op - Op.DUP1 + 2)
  else if Op.SWAP1 ≤ op ∧ op ≤ Op.SWAP16 then makeUsage (op - Op.SWAP1 + 2) (op - Op.SWAP1 + 2)
  else if Op.LOG0 ≤ op ∧ op ≤ Op.LOG4 then makeUsage (op - Op.LOG0 + 2) 0
  else match op with
  | Op.JUMPDEST | Op.JUMP_TO | Op.STOP => makeUsage 0 0
  | Op.PUSH0 | Op.MSIZE | Op.ADDRESS | Op.ORIGIN | Op.CALLER | Op.CALLVALUE | Op.CALLDATASIZE | Op.CODESIZE | Op.GASPRICE
  | Op.COINBASE | Op.TIMESTAMP | Op.NUMBER | Op.PREVRANDAO | Op.GASLIMIT | Op.PC | Op.GAS | Op.RETURNDATASIZE
  | Op.SELFBALANCE | Op.CHAINID | Op.BASEFEE | Op.BLOBBASEFEE => makeUsage 0 1
  | Op.POP | Op.JUMP | Op.SELFDESTRUCT => makeUsage 1 0
  | Op.ISZERO | Op.NOT | Op.BALANCE | Op.CALLDATALOAD | Op.EXTCODESIZE | Op.BLOCKHASH | Op.MLOAD | Op.SLOAD | Op.TLOAD
  | Op.EXTCODEHASH | Op.BLOBHASH => makeUsage 1 1
  | Op.MSTORE | Op.MSTORE8 | Op.SSTORE | Op.TSTORE | Op.JUMPI | Op.RETURN | Op.REVERT => makeUsage 2 0
  | Op.ADD | Op.SUB | Op.MUL | Op.DIV | Op.SDIV | Op.MOD | Op.SMOD | Op.EXP | Op.SIGNEXTEND | Op.SHA3 | Op.LT | Op.GT
  | Op.SLT | Op.SGT | Op.EQ | Op.AND | Op.XOR | Op.OR | Op.BYTE | Op.SHL | Op.SHR | Op.SAR => makeUsage 2 1
  | Op.CALLDATACOPY | Op.CODECOPY | Op.RETURNDATACOPY | Op.MCOPY => makeUsage 3 0
  | Op.ADDMOD | Op.MULMOD | Op.CREATE => makeUsage 3 1
  | Op.EXTCODECOPY => makeUsage 4 0
  | Op.CREATE2 => makeUsage 4 1
  | Op.STATICCALL | Op.DELEGATECALL => makeUsage 6 1
  | Op.CALL | Op.CALLCODE => makeUsage 7 1
  | _ => {}

/-- `combineStackUsage` (stack_usage.go:98-116). -/
def combineStackUsage (usages : List StackUsage) : StackUsage :=
  usages.foldl (init := {}) fun res usage =>
    let lo := usage.lo + res.delta
    let hi := usage.hi + res.delta
    { lo := if lo < res.lo then lo else res.lo
      hi := if hi > res.hi then hi else res.hi
      delta := res.delta + usage.delta }

/-- `computeStackUsage` (stack_usage.go:25-95). -/
def computeStackUsage (op : Nat) : StackUsage :=
  if Op.decompose op ≠ [] then combineStackUsage ((Op.decompose op).map baseUsage) else baseUsage op

/-- `checkStackLimits` (interpreter.go:568-591). -/
def checkStackLimits (stackLen : Int) (op : Nat) : M ω Unit :=
  if stackLen < -(computeStackUsage op).lo then error
  else if stackLen > maxStackSize - (computeStackUsage op).hi then error
  else pure ()

/-! ## Super-instructions (super_instructions.go) -/

/-- `opSwap1_Pop` (21-25). -/
def opSwap1Pop : M ω Unit := do
  let a1 ← pop
  setTop a1

/-- `opSwap2_Pop` (27-30). -/
def opSwap2Pop : M ω Unit := do
  let a1 ← pop
  setN 1 a1

/-- `opPush1_Push1` (32-37). -/
def opPush1Push1 (E : Env ω) : M ω Unit := do
  let arg ← argAt E 0
  moveSp 2
  setN 0 (ofU64 ((arg &&& 0xff).setWidth 64))
  setN 1 (ofU64 ((arg >>> 8).setWidth 64))

/-- `opPush1_Add` (39-47): addition with carry over the four 64-bit parts is the addition of words. -/
def opPush1Add (E : Env ω) : M ω Unit := do
  let arg ← argAt E 0
  let trg ← peek
  setTop (trg + arg.setWidth 256)

/-- `opPush1_Shl` (49-53). -/
def opPush1Shl (E : Env ω) : M ω Unit := do
  let arg ← argAt E 0
  let trg ← peek
  setTop (trg <<< arg.toNat)

/-- `opPush1_Dup1` (55-60). -/
def opPush1Dup1 (E : Env ω) : M ω Unit := do
  let arg ← argAt E 0
  moveSp 2
  setN 0 (ofU64 (arg.setWidth 64))
  setN 1 (ofU64 (arg.setWidth 64))

/-- `opPush2_Jump` (62-66). -/
def opPush2Jump (E : Env ω) : M ω Unit := do
  let arg ← argAt E 0
  setPc (arg.toNat - 1)
  checkJumpDest E

/-- `opPush2_Jumpi` (68-76). -/
def opPush2Jumpi (E : Env ω) : M ω Unit := do
  let condition ← pop
  if condition ≠ 0 then
    let arg ← argAt E 0
    setPc (arg.toNat - 1)
    checkJumpDest E
  else pure ()

/-- `opSwap2_Swap1` (78-83). -/
def opSwap2Swap1 : M ω Unit := do
  let a1 ← peekN 0
  let a2 ← peekN 1
  let a3 ← peekN 2
  setN 0 a2
  setN 1 a3
  setN 2 a1

/-- `opDup2_Mstore` (85-90). -/
def opDup2Mstore : M ω Unit := do
  let value ← pop
  let offset ← peek
  memSet offset (bytes32 value)

/-- `opDup2_Lt` (92-100). -/
def opDup2Lt : M ω Unit := do
  let b ← peekN 0
  let a ← peekN 1
  setN 0 (flag (a.ult b))

/-- `opPopPop` (102-104). -/
def opPopPop : M ω Unit := moveSp (-2)

/-- `opPop_Jump` (106-109). -/
def opPopJump (E : Env ω) : M ω Unit := do
  let _ ← pop
  opJump E

/-- `opIsZero_Push2_Jumpi` (111-118). -/
def opIsZeroPush2Jumpi (E : Env ω) : M ω Unit := do
  let condition ← pop
  if condition = 0 then
    let arg ← argAt E 0
    setPc (arg.toNat - 1)
    checkJumpDest E
  else pure ()

/-- `int32(x)` of a `uint64`. -/
def int32 (x : BitVec 64) : Int := (x.setWidth 32 : BitVec 32).toInt

/-- `opSwap2_Swap1_Pop_Jump` (120-127): the jump target is truncated to 32 bits; subtracting 1 wraps around. -/
def opSwap2Swap1PopJump (E : Env ω) : M ω Unit := do
  let top ← pop
  let _ ← pop
  let trg ← peek
  setPc ((int32 (uint64 trg) - 1).bmod (2 ^ 32))
  setTop top
  checkJumpDest E

/-- `opSwap1_Pop_Swap2_Swap1` (129-135). -/
def opSwap1PopSwap2Swap1 : M ω Unit := do
  let a1 ← pop
  let a3 ← peekN 1
  let a4 ← peekN 2
  setN 0 a3
  setN 1 a4
  setN 2 a1

/-- `opPop_Swap2_Swap1_Pop` (137-143). -/
def opPopSwap2Swap1Pop : M ω Unit := do
  let _ ← pop
  let a2 ← pop
  let a4 ← peekN 1
  setN 0 a4
  setN 1 a2

/-- `opPush1_Push4_Dup3` (145-150). -/
def opPush1Push4Dup3 (E : Env ω) : M ω Unit := do
  opPush1 E
  setPc ((← getSt).pc + 1)
  opPush4 E
  dup 2

/-- `opAnd_Swap1_Pop_Swap2_Swap1` (152-155). -/
def opAndSwap1PopSwap2Swap1 : M ω Unit := do
  binary wAnd
  opSwap1PopSwap2Swap1

/-- `opPush1_Push1_Push1_Shl_Sub` (157-168). -/
def opPush1Push1Push1ShlSub (E : Env ω) : M ω Unit := do
  let arg1 ← argAt E 0
  let arg2 ← argAt E 1
  let shift : Byte := arg2.setWidth 8
  let value : Byte := (arg1 &&& 0xff).setWidth 8
  let delta : Byte := (arg1 >>> 8).setWidth 8
  pushV ((value.setWidth 256 <<< shift.toNat) - delta.setWidth 256)
  setPc ((← getSt).pc + 1)

/-! ## The interpreter loop (interpreter.go) -/

/-- An operation that leaves the status running. -/
def runs (m : M ω Unit) : M ω Status := do
  m
  return .running

/-- An operation that ends the run with the given status. -/
def ends (status : Status) (m : M ω Unit) : M ω Status := do
  m
  return status

/-- Pushing a word of the environment (instructions.go:290-301, 556-589, 604-607, 692-733, 1070-1072). -/
def pushes (v : U256) : M ω Status := runs (pushV v)

/-- The switch of `steps` (interpreter.go:209-545). -/
def execOp (E : Env ω) (op : Nat) : M ω Status :=
  if Op.PUSH5 ≤ op ∧ op ≤ Op.PUSH31 then runs (opPush E (op - Op.PUSH1 + 1))
  else if Op.DUP1 ≤ op ∧ op ≤ Op.DUP16 then runs (dup ((op - Op.DUP1 : Nat)))
  else if Op.SWAP1 ≤ op ∧ op ≤ Op.SWAP16 then runs (swap ((op - Op.SWAP1 + 1 : Nat)))
  else if Op.LOG0 ≤ op ∧ op ≤ Op.LOG4 then runs (opLog E (op - Op.LOG0))
  else match op with
  | Op.POP => runs (do let _ ← pop)
  | Op.PUSH0 => runs (opPush0 E)
  | Op.PUSH1 => runs (opPush1 E)
  | Op.PUSH2 => runs (opPush2 E)
  | Op.PUSH3 => runs (opPush3 E)
  | Op.PUSH4 => runs (opPush4 E)
  | Op.PUSH32 => runs (opPush32 E)
  | Op.JUMP => runs (opJump E)
  | Op.JUMPDEST => runs (pure ())
  | Op.AND => runs (binary wAnd)
  | Op.JUMPI => runs (opJumpi E)
  | Op.GT => runs (binary wGt)
  | Op.ISZERO => runs (unary fun a => flag (a == 0))
  | Op.ADD => runs (binary wAdd)
  | Op.OR => runs (binary wOr)
  | Op.XOR => runs (binary wXor)
  | Op.NOT => runs (unary fun a => ~~~a)
  | Op.SUB => runs (binary wSub)
  | Op.MUL => runs (binary wMul)
  | Op.MULMOD => runs (ternary wMulMod)
  | Op.DIV => runs (binary wDiv)
  | Op.SDIV => runs (binary wSDiv)
  | Op.MOD => runs (binary wMod)
  | Op.SMOD => runs (binary wSMod)
  | Op.ADDMOD => runs (ternary wAddMod)
  | Op.EXP => runs opExp
  | Op.EQ => runs (binary wEq)
  | Op.PC => runs (opPc E)
  | Op.CALLER => pushes (ofBytes20 E.params.sender)
  | Op.CALLDATALOAD => runs (opCallDataload E)
  | Op.CALLDATASIZE => pushes (ofU64 (BitVec.ofNat 64 E.params.input.length))
  | Op.CALLDATACOPY => runs (genericDataCopy E.params.input)
  | Op.MLOAD => runs opMload
  | Op.MSTORE => runs opMstore
  | Op.MSTORE8 => runs opMstore8
  | Op.MSIZE => runs opMsize
  | Op.MCOPY => runs (opMcopy E)
  | Op.LT => runs (binary wLt)
  | Op.SLT => runs (binary wSlt)
  | Op.SGT => runs (binary wSgt)
  | Op.SHR => runs (binary wShr)
  | Op.SHL => runs (binary wShl)
  | Op.SAR => runs (binary wSar)
  | Op.SIGNEXTEND => runs (binary wSignExtend)
  | Op.BYTE => runs (binary wByte)
  | Op.SHA3 => runs (opSha3 E)
  | Op.CALLVALUE => pushes E.params.value
  | Op.RETURN => ends .returned opEndWithResult
  | Op.REVERT => ends .reverted opEndWithResult
  | Op.JUMP_TO => runs (opJumpTo E)
  | Op.SLOAD => runs (opSload E)
  | Op.SSTORE => runs (opSstore E)
  | Op.TLOAD => runs (opTload E)
  | Op.TSTORE => runs (opTstore E)
  | Op.CODESIZE => pushes (ofU64 (BitVec.ofNat 64 E.params.code.length))
  | Op.CODECOPY => runs (genericDataCopy E.params.code)
  | Op.EXTCODESIZE => runs (opExtcodesize E)
  | Op.EXTCODEHASH => runs (opExtcodehash E)
  | Op.EXTCODECOPY => runs (opExtCodeCopy E)
  | Op.BALANCE => runs (opBalance E)
  | Op.SELFBALANCE => runs (opSelfbalance E)
  | Op.BASEFEE => runs (opBaseFee E)
  | Op.BLOBHASH => runs (opBlobHash E)
  | Op.BLOBBASEFEE => runs (opBlobBaseFee E)
  | Op.SELFDESTRUCT => ends .selfDestructed (opSelfdestruct E)
  | Op.CHAINID => pushes E.params.block.chainId
  | Op.GAS => runs (do let gas := (← getSt).gas; pushV (ofU64 (u64 gas)))
  | Op.PREVRANDAO => pushes E.params.block.prevRandao
  | Op.TIMESTAMP => pushes (ofU64 (u64 E.params.block.timestamp))
  | Op.NUMBER => pushes (ofU64 (u64 E.params.block.blockNumber))
  | Op.GASLIMIT => pushes (ofU64 (u64 E.params.block.gasLimit))
  | Op.GASPRICE => pushes E.params.tx.gasPrice
  | Op.CALL => runs (opCall E)
  | Op.CALLCODE => runs (genericCall E .callCode)
  | Op.STATICCALL => runs (genericCall E .staticCall)
  | Op.DELEGATECALL => runs (genericCall E .delegateCall)
  | Op.RETURNDATASIZE => runs (do let n := (← getSt).returnData.length; pushV (ofU64 (BitVec.ofNat 64 n)))
  | Op.RETURNDATACOPY => runs opReturnDataCopy
  | Op.BLOCKHASH => runs (opBlockhash E)
  | Op.COINBASE => pushes (ofBytes20 E.params.block.coinbase)
  | Op.ORIGIN => pushes (ofBytes20 E.params.tx.origin)
  | Op.ADDRESS => pushes (ofBytes20 E.params.recipient)
  | Op.STOP => pure .stopped
  | Op.CREATE => runs (genericCreate E .create)
  | Op.CREATE2 => runs (genericCreate E .create2)
  | Op.SWAP2_SWAP1_POP_JUMP => runs (opSwap2Swap1PopJump E)
  | Op.SWAP1_POP_SWAP2_SWAP1 => runs opSwap1PopSwap2Swap1
  | Op.POP_SWAP2_SWAP1_POP => runs opPopSwap2Swap1Pop
  | Op.POP_POP => runs opPopPop
  | Op.PUSH1_SHL => runs (opPush1Shl E)
  | Op.PUSH1_ADD => runs (opPush1Add E)
  | Op.PUSH1_DUP1 => runs (opPush1Dup1 E)
  | Op.PUSH2_JUMP => runs (opPush2Jump E)
  | Op.PUSH2_JUMPI => runs (opPush2Jumpi E)
  | Op.PUSH1_PUSH1 => runs (opPush1Push1 E)
  | Op.SWAP1_POP => runs opSwap1Pop
  | Op.POP_JUMP => runs (opPopJump E)
  | Op.SWAP2_SWAP1 => runs opSwap2Swap1
  | Op.SWAP2_POP => runs opSwap2Pop
  | Op.DUP2_MSTORE => runs opDup2Mstore
  | Op.DUP2_LT => runs opDup2Lt
  | Op.ISZERO_PUSH2_JUMPI => runs (opIsZeroPush2Jumpi E)
  | Op.PUSH1_PUSH4_DUP3 => runs (opPush1Push4Dup3 E)
  | Op.AND_SWAP1_POP_SWAP2_SWAP1 => runs opAndSwap1PopSwap2Swap1
  | Op.PUSH1_PUSH1_PUSH1_SHL_SUB => runs (opPush1Push1Push1ShlSub E)
  | _ => error

/-- The body of the loop of `steps` (interpreter.go:187-560): the new status. -/
def stepOnce (E : Env ω) : M ω Status := do
  if (← getSt).pc ≥ E.code.length then pure .stopped
  else
    let op := (← instrAt E 0).opcode
    checkStackLimits (← getSt).sp op
    useGas (gasPrice E.params.block.revision op)
    let status ← execOp E op
    setPc ((← getSt).pc + 1)
    return status

/-- The loop of `steps` (interpreter.go:183-563), at most `fuel` iterations; `none` if it did not end. -/
def loop (E : Env ω) : Nat → St ω → Option (Res ω Status)
  | 0, _ => none
  | fuel + 1, s =>
    match stepOnce E s with
    | .ok .running s' => loop E fuel s'
    | .ok status s' => some (.ok status s')
    | .err s' => some (.ok .failed s')
    | .panic => some .panic

/-- `generateResult` (interpreter.go:123-153); the status is not `running` after the loop. -/
def generateResult (status : Status) (s : St ω) : RunResult :=
  match status with
  | .stopped | .selfDestructed => { success := true, gasLeft := s.gas, gasRefund := s.refund }
  | .returned => { success := true, output := s.returnData, gasLeft := s.gas, gasRefund := s.refund }
  | .reverted => { success := false, output := s.returnData, gasLeft := s.gas }
  | _ => {}

/-- `run` (interpreter.go:86-121) with the vanilla runner.  `data` is the content of the stack taken from the pool.
A panic, or a loop that does not end within `fuel` iterations, is `crash`. -/
def run (E : Env ω) (data : Nat → U256) (fuel : Nat) (w : ω) : Except Err RunResult × ω :=
  if E.code.length = 0 then (.ok { success := true, gasLeft := E.params.gas }, w)
  else
    match loop E fuel { gas := E.params.gas, data := data, world := w } with
    | some (.ok status s) => (.ok (generateResult status s), s.world)
    | _ => (.error .crash, w)

/-- What a run finds in shared state: the converted code the code cache holds for the code hash of the parameters
(`none` if there is no cache, no hash or no entry), the content of a pooled stack, and the hash function of the
SHA3 cache. -/
structure Found where
  cached : Option Code
  data : Nat → U256
  hash : List Byte → U256

/-- `Converter.Convert` (converter.go:67-84) given the outcome of the cache lookup; `none` is a panic. -/
def convertCached (code : List Byte) (withSuper : Bool) (cached : Option Code) : Option Code :=
  match cached with
  | some c => some c
  | none => convert code withSuper

/-- `lfvm.Run` (lfvm.go:122-133) with at most `fuel p` iterations of the interpreter loop. -/
def lfvmRun (withSuper : Bool) (f : Found) (fuel : Parameters → Nat) : Interpreter ω := fun db call p w =>
  if p.block.revision > 5 then (.error .unsupportedRevision, w)
  else
    match convertCached p.code withSuper f.cached with
    | none => (.error .crash, w)
    | some code => run { db := db, call := call, params := p, code := code, hash := f.hash } f.data (fuel p) w

end Tosca.Model.Lfvm
