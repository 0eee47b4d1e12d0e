import Verif.Model.Vm
import Verif.Shared.Frames

/-!
# Logger and profilers (cpp/vm/evmzero/logger.h, profiler.h) and their use in `Execute`

`std::cout` is the text written so far.  The clock (`internal::Now`, profiler.h:56-63) is a
sequence of readings.  While a call instruction is executed, the host may run further frames on
the same VM; their effect on the observers is an input of `Vm.executeObserved`.  Wall-clock conversion (`TimeConverter`, profiler.h:71-100) uses floating
point and is left out; it affects only the last column of a dump.
-/

namespace Tosca.Model

variable {σ ω : Type}

/-- `ToString(OpCode)` (opcodes.h:65-73): the names of opcodes.inc:21-276. -/
def OpCode.name : OpCode → String
  | .STOP => "STOP"
  | .ADD => "ADD"
  | .MUL => "MUL"
  | .SUB => "SUB"
  | .DIV => "DIV"
  | .SDIV => "SDIV"
  | .MOD => "MOD"
  | .SMOD => "SMOD"
  | .ADDMOD => "ADDMOD"
  | .MULMOD => "MULMOD"
  | .EXP => "EXP"
  | .SIGNEXTEND => "SIGNEXTEND"
  | .LT => "LT"
  | .GT => "GT"
  | .SLT => "SLT"
  | .SGT => "SGT"
  | .EQ => "EQ"
  | .ISZERO => "ISZERO"
  | .AND => "AND"
  | .OR => "OR"
  | .XOR => "XOR"
  | .NOT => "NOT"
  | .BYTE => "BYTE"
  | .SHL => "SHL"
  | .SHR => "SHR"
  | .SAR => "SAR"
  | .SHA3 => "SHA3"
  | .ADDRESS => "ADDRESS"
  | .BALANCE => "BALANCE"
  | .ORIGIN => "ORIGIN"
  | .CALLER => "CALLER"
  | .CALLVALUE => "CALLVALUE"
  | .CALLDATALOAD => "CALLDATALOAD"
  | .CALLDATASIZE => "CALLDATASIZE"
  | .CALLDATACOPY => "CALLDATACOPY"
  | .CODESIZE => "CODESIZE"
  | .CODECOPY => "CODECOPY"
  | .GASPRICE => "GASPRICE"
  | .EXTCODESIZE => "EXTCODESIZE"
  | .EXTCODECOPY => "EXTCODECOPY"
  | .RETURNDATASIZE => "RETURNDATASIZE"
  | .RETURNDATACOPY => "RETURNDATACOPY"
  | .EXTCODEHASH => "EXTCODEHASH"
  | .BLOCKHASH => "BLOCKHASH"
  | .COINBASE => "COINBASE"
  | .TIMESTAMP => "TIMESTAMP"
  | .NUMBER => "NUMBER"
  | .PREVRANDAO => "PREVRANDAO"
  | .GASLIMIT => "GASLIMIT"
  | .CHAINID => "CHAINID"
  | .SELFBALANCE => "SELFBALANCE"
  | .BASEFEE => "BASEFEE"
  | .BLOBHASH => "BLOBHASH"
  | .BLOBBASEFEE => "BLOBBASEFEE"
  | .POP => "POP"
  | .MLOAD => "MLOAD"
  | .MSTORE => "MSTORE"
  | .MSTORE8 => "MSTORE8"
  | .SLOAD => "SLOAD"
  | .SSTORE => "SSTORE"
  | .JUMP => "JUMP"
  | .JUMPI => "JUMPI"
  | .PC => "PC"
  | .MSIZE => "MSIZE"
  | .GAS => "GAS"
  | .JUMPDEST => "JUMPDEST"
  | .TLOAD => "TLOAD"
  | .TSTORE => "TSTORE"
  | .MCOPY => "MCOPY"
  | .PUSH0 => "PUSH0"
  | .PUSH i => "PUSH" ++ toString (i.val + 1)
  | .DUP i => "DUP" ++ toString (i.val + 1)
  | .SWAP i => "SWAP" ++ toString (i.val + 1)
  | .LOG i => "LOG" ++ toString i.val
  | .CREATE => "CREATE"
  | .CALL => "CALL"
  | .CALLCODE => "CALLCODE"
  | .RETURN => "RETURN"
  | .DELEGATECALL => "DELEGATECALL"
  | .CREATE2 => "CREATE2"
  | .STATICCALL => "STATICCALL"
  | .REVERT => "REVERT"
  | .INVALID => "INVALID"
  | .SELFDESTRUCT => "SELFDESTRUCT"

/-- `Logger::PreInstruction` (logger.h:24-32): what it appends to `std::cout`.  `ctx.stack[0]` reads
the word at `top_`; words print in decimal (uint256.h:30-31). -/
def logLine (op : OpCode) (c : Ctx σ) : M String :=
  if c.stack.size = 0 then
    .ok (op.name ++ ", " ++ toString c.gas ++ ", " ++ "-empty-" ++ "\n")
  else if 0 ≤ c.stack.top ∧ c.stack.top < 1024 then
    .ok (op.name ++ ", " ++ toString c.gas ++ ", " ++ toString (c.stack.buf c.stack.top.toNat).toNat ++ "\n")
  else .error .stackOutOfBounds

/-- The opcodes a mode measures (`ProfilerMode`, profiler.h:105-108; profiler.h:233-237, 253-257). -/
def measures (mode : ProfilerMode) (op : OpCode) : Bool :=
  match mode with
  | .full => true
  | .external => op.isExternal || op.isCall

/-- Data members of `class Profile` (profiler.h:205-208): 64-bit counters by opcode, and
`interpreter_stats_`. The arrays have 256 entries and are indexed by opcodes. -/
structure Profile where
  calls : Nat → Nat := fun _ => 0
  ticks : Nat → Nat := fun _ => 0
  interpreterCalls : Nat := 0
  interpreterTicks : Nat := 0

/-- `Profile::Merge` (profiler.h:160-167). -/
def Profile.merge (p other : Profile) : Profile :=
  { calls := fun i => if i < 256 then (p.calls i + other.calls i) % u64Mod else p.calls i
    ticks := fun i => if i < 256 then (p.ticks i + other.ticks i) % u64Mod else p.ticks i
    interpreterCalls := (p.interpreterCalls + other.interpreterCalls) % u64Mod
    interpreterTicks := (p.interpreterTicks + other.interpreterTicks) % u64Mod }

/-- `Profile::Reset` (profiler.h:170-174). -/
def Profile.reset (_ : Profile) : Profile := {}

/-- `struct CallData` (profiler.h:330-334). -/
structure CallData where
  interpreterStart : Nat := 0
  interpreterEnd : Nat := 0
  callStart : Nat := 0

/-- `kTicksNotMeasured` (profiler.h:336). -/
def kTicksNotMeasured : Nat := 18446744073709551615

/-- Data members of `class Profiler` (profiler.h:338-343) and the clock; `call_data_` has
`kMaxCallDepth + 2` entries. -/
structure Profiler where
  profile : Profile := {}
  startTicks : Nat → Nat := fun _ => 0
  callData : Nat → CallData := fun _ => {}
  clock : Nat → Nat

/-- `internal::Now()` (profiler.h:56-63): the next reading, a `uint64_t`. -/
def Profiler.now (p : Profiler) : Nat × Profiler :=
  (p.clock 0 % u64Mod, { p with clock := fun n => p.clock (n + 1) })

/-- `static_cast<std::size_t>(depth)` (profiler.h:240, 264, 292, 299). -/
def depthIdx (depth : Int) : Nat := (depth % 18446744073709551616).toNat

/-- Writing an element of `call_data_` (profiler.h:343). -/
def Profiler.setCall (p : Profiler) (i : Nat) (f : CallData → CallData) : M Profiler :=
  if i < 1026 then .ok { p with callData := fun j => if j = i then f (p.callData i) else p.callData j }
  else .error .arrayOutOfBounds

/-- Reading an element of `call_data_` (profiler.h:343). -/
def Profiler.getCall (p : Profiler) (i : Nat) : M CallData :=
  if i < 1026 then .ok (p.callData i) else .error .arrayOutOfBounds

/-- `Profiler::PreInstruction` (profiler.h:232-249). -/
def Profiler.preInstruction (mode : ProfilerMode) (op : OpCode) (depth : Int) (p : Profiler) : M Profiler :=
  if measures mode op then
    if op.isCall then do
      let (t, p) := p.now
      let p ← p.setCall (depthIdx depth) fun d => { d with callStart := t }
      p.setCall (depthIdx depth + 1) fun d => { d with interpreterStart := kTicksNotMeasured }
    else
      let (t, p) := p.now
      .ok { p with startTicks := fun j => if j = op.value then t else p.startTicks j }
  else .ok p

/-- Unsigned 64-bit subtraction. -/
def sub64 (a b : Nat) : Nat := (a + (u64Mod - b % u64Mod)) % u64Mod

/-- The end of `PostInstruction` (profiler.h:286-287). -/
def Profiler.count (p : Profiler) (op : OpCode) (total : Nat) : Profiler :=
  { p with profile := { p.profile with
      calls := fun j => if j = op.value then (p.profile.calls j + 1) % u64Mod else p.profile.calls j
      ticks := fun j => if j = op.value then (p.profile.ticks j + total) % u64Mod else p.profile.ticks j } }

/-- `Profiler::PostInstruction` (profiler.h:252-288). -/
def Profiler.postInstruction (mode : ProfilerMode) (op : OpCode) (depth : Int) (p : Profiler) : M Profiler :=
  if measures mode op then
    let (endTicks, p) := p.now
    if op.isCall then do
      let call ← p.getCall (depthIdx depth)
      let interpreter ← p.getCall (depthIdx depth + 1)
      let interpreterTicks := sub64 interpreter.interpreterEnd interpreter.interpreterStart
      let callTicks := sub64 endTicks call.callStart
      if interpreter.interpreterStart ≠ kTicksNotMeasured then
        return p.count op (sub64 callTicks interpreterTicks)
      else return p.count op callTicks
    else .ok (p.count op (sub64 endTicks (p.startTicks op.value)))
  else .ok p

/-- `Profiler::PreRun` (profiler.h:291-295). -/
def Profiler.preRun (depth : Int) (p : Profiler) : M Profiler :=
  let (t, p) := p.now
  p.setCall (depthIdx depth) fun d => { d with interpreterStart := t }

/-- `Profiler::PostRun` (profiler.h:298-309). -/
def Profiler.postRun (depth : Int) (p : Profiler) : M Profiler := do
  let (t, p) := p.now
  let p ← p.setCall (depthIdx depth) fun d => { d with interpreterEnd := t }
  if depthIdx depth = 0 then
    let d ← p.getCall 0
    return { p with profile := { p.profile with
      interpreterCalls := (p.profile.interpreterCalls + 1) % u64Mod
      interpreterTicks := (p.profile.interpreterTicks + sub64 d.interpreterEnd d.interpreterStart) % u64Mod } }
  else return p

/-- `Profiler::Reset` (profiler.h:315-319). -/
def Profiler.reset (p : Profiler) : Profiler :=
  { profile := p.profile.reset, clock := p.clock }

/-- `Profiler::Merge` (profiler.h:312). -/
def Profiler.merge (p : Profiler) (q : Profile) : Profiler := { p with profile := p.profile.merge q }

/-- `IsUsedOpCode` (opcodes.h:37-44): every value that is not listed as unused in opcodes.inc:21-276. -/
def isUsedOpCode (i : Nat) : Bool := i == 0xfe || dispatch (BitVec.ofNat 8 i) != .INVALID

/-- The rows `Profile::Dump` prints (profiler.h:141-155): name, calls, ticks. The leading build
information and the durations are left out. -/
def Profile.dump (mode : ProfilerMode) (p : Profile) : List (String × Nat × Nat) :=
  ("INTERPRETER", p.interpreterCalls, p.interpreterTicks) ::
    ((List.range 256).filter fun i =>
      match mode with
      | .full => isUsedOpCode i
      | .external => (dispatch (BitVec.ofNat 8 i)).isExternal || (dispatch (BitVec.ofNat 8 i)).isCall).map fun i =>
        ((dispatch (BitVec.ofNat 8 i)).name, p.calls i, p.ticks i)

/-- The observers of a `VM` (evmzero.cc:337-340) and `std::cout`. -/
structure Instruments where
  out : String := ""
  full : Profiler
  external : Profiler

/-- The profiler of a mode. -/
def Instruments.get (i : Instruments) : ProfilerMode → Profiler
  | .full => i.full
  | .external => i.external

/-- Replaces the profiler of a mode. -/
def Instruments.set (i : Instruments) (mode : ProfilerMode) (p : Profiler) : Instruments :=
  match mode with
  | .full => { i with full := p }
  | .external => { i with external := p }

/-- `class Logger` (logger.h:18-37). -/
def logger : Observer σ (M Instruments) where
  usesContext := true
  preRun _ o := o
  preInstruction op c o := do
    let i ← o
    let line ← logLine op c
    return { i with out := i.out ++ line }
  postInstruction _ _ o := o
  postRun _ o := o

/-- Applies an operation of the profiler of a mode. -/
def onProfiler (mode : ProfilerMode) (f : Profiler → M Profiler) (o : M Instruments) : M Instruments := do
  let i ← o
  let p ← f (i.get mode)
  return i.set mode p

/-- `class Profiler` as an observer (profiler.h:216-309). -/
def profiler (mode : ProfilerMode) : Observer σ (M Instruments) where
  usesContext := false
  preRun m o := onProfiler mode (·.preRun m.depth) o
  preInstruction op c o := onProfiler mode (·.preInstruction mode op c.message.depth) o
  postInstruction op c o := onProfiler mode (·.postInstruction mode op c.message.depth) o
  postRun m o := onProfiler mode (·.postRun m.depth) o

/-- `NoObserver` (observer.h:44-50). -/
def silent : Observer σ (M Instruments) where
  usesContext := false
  preRun _ o := o
  preInstruction _ _ o := o
  postInstruction _ _ o := o
  postRun _ o := o

/-- The selection of the observer in `Execute` (evmzero.cc:147-156). -/
def observerOf (options : Options) : Observer σ (M Instruments) :=
  if options.logging then logger
  else if options.profiling then profiler .full
  else if options.profilingExternal then profiler .external
  else silent

/-- What the frames that run during a call instruction do to the observers of the VM. -/
abbrev Nested := Instruments → M Instruments

/-- An observer that is shared with nested runs: the `k`-th call instruction applies the `k`-th
effect between `PreInstruction` and `PostInstruction` (interpreter.cc:2061-2077). -/
def Observer.shared (obs : Observer σ (M Instruments)) : Observer σ (M Instruments × List Nested) where
  usesContext := obs.usesContext
  preRun m o := (obs.preRun m o.1, o.2)
  preInstruction op c o := (obs.preInstruction op c o.1, o.2)
  postInstruction op c o :=
    if op.isCall then
      match o.2 with
      | [] => (obs.postInstruction op c o.1, [])
      | f :: rest => (obs.postInstruction op c (o.1 >>= f), rest)
    else (obs.postInstruction op c o.1, o.2)
  postRun m o := (obs.postRun m o.1, o.2)

/-- `Execute` (evmzero.cc:124-174) with its observer; `nested` is what the frames run by the host
during the call instructions do to the observers. -/
def Vm.executeObserved (E : Env σ) (fuel : Nat) (vm : Vm) (code : List Byte) (message : Message)
    (revision : Revision) (buf : Nat → U256) (w : σ) (i : Instruments) (nested : List Nested) :
    M (Option (EvmcResult × σ × Vm × Instruments)) := do
  match ← vm.executeWith E (observerOf vm.options).shared fuel code message revision buf w (.ok i, nested) with
  | none => return none
  | some (r, w, vm, o) =>
    let i ← o.1
    return some (r, w, vm, i)

mutual
  /-- What a frame does to the profiler: `Interpret` (interpreter.cc:77-106) at the given depth. -/
  def replayFrame (mode : ProfilerMode) (depth : Int) : RunLog → Profiler → M Profiler
    | .mk _ _ items, p => do
      let p ← p.preRun depth
      let p ← replayItems mode depth items p
      p.postRun depth
  /-- What a sequence of instructions does to the profiler (interpreter.cc:2061-2077). -/
  def replayItems (mode : ProfilerMode) (depth : Int) : Items → Profiler → M Profiler
    | .nil, p => .ok p
    | .leaf b _ _ rest, p => do
      let p ← p.preInstruction mode (dispatch b) depth
      let p ← p.postInstruction mode (dispatch b) depth
      replayItems mode depth rest p
    | .nest b _ _ inner rest, p => do
      let p ← p.preInstruction mode (dispatch b) depth
      let p ← replayFrame mode (depth + 1) inner p
      let p ← p.postInstruction mode (dispatch b) depth
      replayItems mode depth rest p
end

/-- `DumpProfile` (evmzero.cc:298-304). -/
def Vm.dumpProfile (vm : Vm) (i : Instruments) : List (String × Nat × Nat) :=
  if vm.options.profiling then i.full.profile.dump .full
  else if vm.options.profilingExternal then i.external.profile.dump .external
  else []

/-- `ResetProfiler` (evmzero.cc:306-312). -/
def Vm.resetProfiler (vm : Vm) (i : Instruments) : Instruments :=
  if vm.options.profiling then { i with full := i.full.reset }
  else if vm.options.profilingExternal then { i with external := i.external.reset }
  else i

end Tosca.Model
