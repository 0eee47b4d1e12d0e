import Verif.Model.Ops

/-!
# Dispatch loop (cpp/vm/evmzero/interpreter.cc:1809-2131)
-/

namespace Tosca.Model

open OpM

variable {σ ω : Type}

/-- `Impl<op>::Run` through the matching `op::Invoke` overload (interpreter.cc:1809-1849), for
the opcodes that are not jumps.  (`Invoke` is never instantiated for JUMP and JUMPI.) -/
def invoke (E : Env σ) (op : OpCode) (top gas : Int) (pc : Nat) : OpM σ OpResult :=
  match op with
  | .STOP => Ops.stop
  | .ADD => Ops.add top
  | .MUL => Ops.mul top
  | .SUB => Ops.sub top
  | .DIV => Ops.div top
  | .SDIV => Ops.sdiv top
  | .MOD => Ops.mod top
  | .SMOD => Ops.smod top
  | .ADDMOD => Ops.addmod top
  | .MULMOD => Ops.mulmod top
  | .EXP => Ops.exp top gas
  | .SIGNEXTEND => Ops.signextend top
  | .LT => Ops.lt top
  | .GT => Ops.gt top
  | .SLT => Ops.slt top
  | .SGT => Ops.sgt top
  | .EQ => Ops.eq top
  | .ISZERO => Ops.iszero top
  | .AND => Ops.and top
  | .OR => Ops.or top
  | .XOR => Ops.xor top
  | .NOT => Ops.not top
  | .BYTE => Ops.byte top
  | .SHL => Ops.shl top
  | .SHR => Ops.shr top
  | .SAR => Ops.sar top
  | .SHA3 => Ops.sha3 E top gas
  | .ADDRESS => Ops.address top
  | .BALANCE => Ops.balance E top gas
  | .ORIGIN => Ops.origin E top
  | .CALLER => Ops.caller top
  | .CALLVALUE => Ops.callvalue top
  | .CALLDATALOAD => Ops.calldataload top
  | .CALLDATASIZE => Ops.calldatasize top
  | .CALLDATACOPY => Ops.calldatacopy top gas
  | .CODESIZE => Ops.codesize top
  | .CODECOPY => Ops.codecopy top gas
  | .GASPRICE => Ops.gasprice E top
  | .EXTCODESIZE => Ops.extcodesize E top gas
  | .EXTCODECOPY => Ops.extcodecopy E top gas
  | .RETURNDATASIZE => Ops.returndatasize top
  | .RETURNDATACOPY => Ops.returndatacopy top gas
  | .EXTCODEHASH => Ops.extcodehash E top gas
  | .BLOCKHASH => Ops.blockhash E top
  | .COINBASE => Ops.coinbase E top
  | .TIMESTAMP => Ops.timestamp E top
  | .NUMBER => Ops.number E top
  | .PREVRANDAO => Ops.prevrandao E top
  | .GASLIMIT => Ops.gaslimit E top
  | .CHAINID => Ops.chainid E top
  | .SELFBALANCE => Ops.selfbalance E top
  | .BASEFEE => Ops.basefee E top
  | .BLOBHASH => Ops.blobhash E top
  | .BLOBBASEFEE => Ops.blobbasefee E top
  | .POP => Ops.nop
  | .MLOAD => Ops.mload top gas
  | .MSTORE => Ops.mstore top gas
  | .MSTORE8 => Ops.mstore8 top gas
  | .SLOAD => Ops.sload E top gas
  | .SSTORE => Ops.sstore E top gas
  | .JUMP => Ops.nop
  | .JUMPI => Ops.nop
  | .PC => Ops.pc top pc
  | .MSIZE => Ops.msize top
  | .GAS => Ops.gas top gas
  | .JUMPDEST => Ops.nop
  | .TLOAD => Ops.tload E top
  | .TSTORE => Ops.tstore E top
  | .MCOPY => Ops.mcopy top gas
  | .PUSH0 => Ops.push0 top
  | .PUSH i => Ops.pushN (i.val + 1) top pc
  | .DUP i => Ops.dup (i.val + 1) top
  | .SWAP i => Ops.swap (i.val + 1) top
  | .LOG i => Ops.log E i.val top gas
  | .CREATE => Ops.create E false top gas
  | .CALL => Ops.call E .call top gas
  | .CALLCODE => Ops.call E .callcode top gas
  | .RETURN => Ops.ret .ret top gas
  | .DELEGATECALL => Ops.call E .delegatecall top gas
  | .CREATE2 => Ops.create E true top gas
  | .STATICCALL => Ops.call E .staticcall top gas
  | .REVERT => Ops.ret .revert top gas
  | .INVALID => Ops.invalid
  | .SELFDESTRUCT => Ops.selfdestruct E top gas

/-- `struct Result` (interpreter.cc:1927-1931); `pc = none` is `nullptr`. -/
structure Result where
  state : RunState := .done
  pc : Option Nat := none
  gasLeft : Int := 0

/-- `RunJump` (interpreter.cc:1270 for JUMP, 1282-1285 for JUMPI). -/
def runJump (op : OpCode) (top : Int) : OpM σ Bool :=
  match op with
  | .JUMPI => do
    let b ← rd (top + 1)
    return b ≠ 0
  | _ => return true

/-- `Impl::kInfo.introduced_in && ctx.revision < Impl::kInfo.introduced_in`
(interpreter.cc:1938-1939). -/
def OpInfo.notYetIn (info : OpInfo) (rev : Revision) : Bool :=
  match info.introducedIn with
  | some r => decide (rev < r)
  | none => false

/-- `internal::Run<op_code, Stepping>` (interpreter.cc:1933-2005). -/
def run (E : Env σ) (stepping : Bool) (op : OpCode) (pc : Nat) (gas top size : Int) :
    OpM σ Result := do
  let info := op.info
  let c ← get
  -- 1938-1942: revision
  if info.notYetIn c.revision then
    return { state := .errorOpcode }
  -- 1944-1947: static call
  else if info.disallowedInStaticCall ∧ c.isStatic then return { state := .errorStaticCall }
  -- 1949-1953: stack underflow
  else if info.pops > 0 ∧ size < info.pops then return { state := .errorStackUnderflow }
  -- 1954-1958: stack overflow
  else if info.delta > 0 ∧ (kStackSize : Int) - size < info.delta then
    return { state := .errorStackOverflow }
  -- 1959-1963: static gas
  else if gas < info.staticGas then return { state := .errorGas }
  else
    let gas ← lift (chk64 (gas - info.staticGas))
    if info.isJump then
      let taken ← runJump op top
      if taken then
        let dest ← rd top
        let ok ← checkJumpDest dest
        if !ok then
          let c ← get
          return { state := c.state }
        else
          -- 1973: static_cast<uint32_t>(*top)
          let dest ← rd top
          let pc := dest.toNat % 4294967296
          if !stepping then
            if gas < OpCode.JUMPDEST.info.staticGas then return { state := .errorGas }
            else
              let gas ← lift (chk64 (gas - OpCode.JUMPDEST.info.staticGas))
              return { state := .running, pc := some (pc + 1), gasLeft := gas }
          else return { state := .running, pc := some pc, gasLeft := gas }
      else return { state := .running, pc := some (pc + 1), gasLeft := gas }
    else
      let res ← invoke E op top gas pc
      if res.dynGas > 0 then
        if res.dynGas > gas then return { state := .errorGas }
        else
          let gas ← lift (chk64 (gas - res.dynGas))
          return { state := res.state, pc := some (pc + info.length), gasLeft := gas }
      else return { state := res.state, pc := some (pc + info.length), gasLeft := gas }

/-- The `Observer` concept (cpp/vm/evmzero/observer.h:34-41), with `ω` the observer's state.
Observers get a constant reference to the context. -/
structure Observer (σ ω : Type) where
  usesContext : Bool
  preRun : Message → ω → ω
  preInstruction : OpCode → Ctx σ → ω → ω
  postInstruction : OpCode → Ctx σ → ω → ω
  postRun : Message → ω → ω

/-- `NoObserver` (observer.h:44-50). -/
def noObserver : Observer σ Unit where
  usesContext := false
  preRun _ o := o
  preInstruction _ _ o := o
  postInstruction _ _ o := o
  postRun _ o := o

/-- The local variables of `RunInterpreter` (interpreter.cc:2011-2021). -/
structure Loc where
  state : RunState
  pc : Option Nat
  gas : Int
  top : Int
  size : Int

/-- `*pc` (interpreter.cc:2049). -/
def fetch (code : List Byte) (pc : Option Nat) : M Byte :=
  match pc with
  | none => .error .codeOutOfBounds
  | some p => if p < code.length then .ok (code.getD p 0) else .error .codeOutOfBounds

/-- One pass through the `RUN_OPCODE` body selected by the dispatch table
(interpreter.cc:2049, 2061-2076). -/
def execOne (E : Env σ) (obs : Observer σ ω) (stepping : Bool) (l : Loc) (c : Ctx σ) (o : ω) :
    M (Loc × Ctx σ × ω) := do
  let b ← fetch c.code l.pc
  let op := dispatch b
  let o := obs.preInstruction op c o
  let (res, c) ← run E stepping op (l.pc.getD 0) l.gas l.top l.size c
  let l : Loc := {
    state := res.state
    pc := res.pc
    gas := res.gasLeft
    top := l.top - op.info.delta
    size := l.size + op.info.delta }
  let c := if obs.usesContext then
    { c with gas := l.gas, stack := { c.stack with top := l.top } } else c
  let o := obs.postInstruction op c o
  return (l, c, o)

/-- The `DISPATCH` / `RUN_OPCODE` cycle (interpreter.cc:2041-2080) with at most `fuel`
dispatches; `none` when the fuel is exhausted.  `executed` is `steps_executed`, an `int`. -/
def loop (E : Env σ) (obs : Observer σ ω) (stepping : Bool) (steps : Int) :
    Nat → Int → Loc → Ctx σ → ω → M (Option (Loc × Ctx σ × ω))
  | 0, _, _, _, _ => .ok none
  | fuel + 1, executed, l, c, o => do
    -- steps_executed++ >= steps
    let next ← if stepping then chk32 (executed + 1) else .ok executed
    if stepping ∧ executed ≥ steps then return some (l, c, o)
    else if l.state = .running then
      let (l, c, o) ← execOne E obs stepping l c o
      loop E obs stepping steps fuel next l c o
    else return some (l, c, o)

/-- The epilogue of `RunInterpreter` (interpreter.cc:2087-2120). -/
def epilogue (stepping : Bool) (l : Loc) (c : Ctx σ) : Ctx σ :=
  let (gas, top) :=
    if stepping then
      if l.state.isSuccess ∨ l.state = .running then (l.gas, l.top) else (0, c.stack.top)
    else
      if l.state.isSuccess then (l.gas, l.top) else (0, l.top)
  let returnData :=
    if l.state ≠ .ret ∧ l.state ≠ .revert ∧ l.state ≠ .running then [] else c.returnData
  let pc := if stepping then l.pc.getD c.pc else c.pc
  { c with gas := gas, returnData := returnData, state := l.state
           stack := { c.stack with top := top }, pc := pc }

/-- `RunInterpreter<Observer, Stepping>` (interpreter.cc:2007-2121). -/
def runInterpreter (E : Env σ) (obs : Observer σ ω) (stepping : Bool) (steps : Int) (fuel : Nat)
    (c : Ctx σ) (o : ω) : M (Option (Ctx σ × ω)) := do
  let l : Loc := {
    state := c.state
    pc := some (if stepping then c.pc else 0)
    gas := c.gas
    top := c.stack.top
    size := c.stack.size }
  let r ← loop E obs stepping steps fuel 0 l c o
  match r with
  | none => return none
  | some (l, c, o) => return some (epilogue stepping l c, o)

end Tosca.Model
