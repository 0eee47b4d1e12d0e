import Verif.Spec.Evm
import Verif.Shared.Frames

/-!
# The sequence of dispatched instructions of a run

`Execute` performs a taken jump and the JUMPDEST it leads to in one go, so that a run is a
sequence of dispatches, each of one instruction or of a taken jump with its JUMPDEST.
-/

namespace Tosca.Spec

variable {σ : Type}

/-- The instruction of a byte; unassigned bytes act as INVALID. -/
def instrOf (b : Byte) : Instr := (decode b.toNat).getD .invalid

/-- The instruction at the program counter. -/
def instrAt (P : Params σ) (s : State σ) : Instr := instrOf (byteAt P.code s.pc)

/-- The instruction is JUMP, or JUMPI with a non-zero condition. -/
def takesJump (i : Instr) (s : State σ) : Prop := i = .jump ∨ i = .jumpi ∧ s.stack.getD 1 0 ≠ 0

open Classical in
/-- The state after the dispatch in `s`. -/
noncomputable def afterDispatch (P : Params σ) (s : State σ) : State σ :=
  if takesJump (instrAt P s) s ∧ (step P s).status = .running then step P (step P s) else step P s

/-- The states in which the instructions of the run from `s` are dispatched, in order. -/
inductive Dispatches (P : Params σ) : State σ → List (State σ) → Prop
  | halted {s : State σ} : s.status ≠ .running → Dispatches P s []
  | next {s : State σ} {rest : List (State σ)} :
      s.status = .running → Dispatches P (afterDispatch P s) rest → Dispatches P s (s :: rest)

/-- The name of an instruction. -/
def mnemonic : Instr → String
  | .stop => "STOP" | .add => "ADD" | .mul => "MUL" | .sub => "SUB" | .div => "DIV" | .sdiv => "SDIV"
  | .mod => "MOD" | .smod => "SMOD" | .addmod => "ADDMOD" | .mulmod => "MULMOD" | .exp => "EXP"
  | .signextend => "SIGNEXTEND" | .lt => "LT" | .gt => "GT" | .slt => "SLT" | .sgt => "SGT" | .eq => "EQ"
  | .iszero => "ISZERO" | .and => "AND" | .or => "OR" | .xor => "XOR" | .not => "NOT" | .byte => "BYTE"
  | .shl => "SHL" | .shr => "SHR" | .sar => "SAR" | .sha3 => "SHA3" | .address => "ADDRESS"
  | .balance => "BALANCE" | .origin => "ORIGIN" | .caller => "CALLER" | .callvalue => "CALLVALUE"
  | .calldataload => "CALLDATALOAD" | .calldatasize => "CALLDATASIZE" | .calldatacopy => "CALLDATACOPY"
  | .codesize => "CODESIZE" | .codecopy => "CODECOPY" | .gasprice => "GASPRICE"
  | .extcodesize => "EXTCODESIZE" | .extcodecopy => "EXTCODECOPY" | .returndatasize => "RETURNDATASIZE"
  | .returndatacopy => "RETURNDATACOPY" | .extcodehash => "EXTCODEHASH" | .blockhash => "BLOCKHASH"
  | .coinbase => "COINBASE" | .timestamp => "TIMESTAMP" | .number => "NUMBER" | .prevrandao => "PREVRANDAO"
  | .gaslimit => "GASLIMIT" | .chainid => "CHAINID" | .selfbalance => "SELFBALANCE" | .basefee => "BASEFEE"
  | .blobhash => "BLOBHASH" | .blobbasefee => "BLOBBASEFEE" | .pop => "POP" | .mload => "MLOAD"
  | .mstore => "MSTORE" | .mstore8 => "MSTORE8" | .sload => "SLOAD" | .sstore => "SSTORE" | .jump => "JUMP"
  | .jumpi => "JUMPI" | .pc => "PC" | .msize => "MSIZE" | .gas => "GAS" | .jumpdest => "JUMPDEST"
  | .tload => "TLOAD" | .tstore => "TSTORE" | .mcopy => "MCOPY"
  | .push n => "PUSH" ++ toString n | .dup n => "DUP" ++ toString n | .swap n => "SWAP" ++ toString n
  | .log n => "LOG" ++ toString n
  | .create => "CREATE" | .call => "CALL" | .callcode => "CALLCODE" | .ret => "RETURN"
  | .delegatecall => "DELEGATECALL" | .create2 => "CREATE2" | .staticcall => "STATICCALL"
  | .revert => "REVERT" | .invalid => "INVALID" | .selfdestruct => "SELFDESTRUCT"

/-- A log line: the instruction, the gas left and the top of the stack before it. -/
def logEntry (P : Params σ) (s : State σ) : String :=
  mnemonic (instrAt P s) ++ ", " ++ toString s.gas ++ ", " ++
    (match s.stack with
     | [] => "-empty-"
     | x :: _ => toString x.toNat) ++ "\n"

/-- The opcode under which a byte is accounted: unassigned bytes count as INVALID. -/
def accountOf (b : Byte) : Nat := if (decode b.toNat).isSome then b.toNat else 0xfe

/-- Instructions that start another frame. -/
def startsFrame (i : Instr) : Bool := i ∈ [.create, .create2, .call, .callcode, .delegatecall, .staticcall]

/-- Instructions that ask the host for something, other than starting a frame. -/
def asksHost : Instr → Bool
  | .balance | .origin | .gasprice | .extcodesize | .extcodecopy | .extcodehash | .blockhash | .coinbase
  | .timestamp | .number | .prevrandao | .gaslimit | .chainid | .selfbalance | .basefee | .blobhash
  | .blobbasefee | .sload | .sstore | .tload | .tstore | .log _ | .selfdestruct => true
  | _ => false

/-- The instructions a profiler measures. -/
def inScope (mode : ProfilerMode) (i : Instr) : Bool :=
  match mode with
  | .full => true
  | .external => asksHost i || startsFrame i

/-- The log of a run: `texts` is what the frames started by its call instructions log, in order. -/
def transcript (P : Params σ) : List (State σ) → List String → String
  | [], _ => ""
  | s :: rest, texts =>
    if startsFrame (instrAt P s) then logEntry P s ++ texts.headD "" ++ transcript P rest texts.tail
    else logEntry P s ++ transcript P rest texts

/-! ### Profiles of nested runs -/

/-- The frame started by a call instruction, if there is one. -/
def openFrame (b : Byte) (start stop : Nat) (inner : Option RunLog) (rest : Items) : Items :=
  match inner with
  | none => .leaf b start stop rest
  | some f => .nest b start stop f rest

/-- The items of a run: the opcodes of its dispatches, with arbitrary times; `inner` are the frames
its call instructions start. -/
inductive ItemsOf (P : Params σ) : List (State σ) → List (Option RunLog) → Items → Prop
  | nil : ItemsOf P [] [] .nil
  | plain {s : State σ} {tr : List (State σ)} {inner : List (Option RunLog)} {t t' : Nat} {rest : Items} :
      startsFrame (instrAt P s) = false → ItemsOf P tr inner rest →
      ItemsOf P (s :: tr) inner (.leaf (byteAt P.code s.pc) t t' rest)
  | call {s : State σ} {tr : List (State σ)} {f : Option RunLog} {inner : List (Option RunLog)} {t t' : Nat}
      {rest : Items} :
      startsFrame (instrAt P s) = true → ItemsOf P tr inner rest →
      ItemsOf P (s :: tr) (f :: inner) (openFrame (byteAt P.code s.pc) t t' f rest)

/-- Whether a byte is measured and accounted under `x`. -/
def countsAs (mode : ProfilerMode) (x : Nat) (b : Byte) : Bool := inScope mode (instrOf b) && accountOf b == x

mutual
  /-- The number of measured instructions accounted under `x`, nested frames included. -/
  def RunLog.calls (mode : ProfilerMode) (x : Nat) : RunLog → Nat
    | .mk _ _ items => Items.calls mode x items
  def Items.calls (mode : ProfilerMode) (x : Nat) : Items → Nat
    | .nil => 0
    | .leaf b _ _ rest => (if countsAs mode x b then 1 else 0) + Items.calls mode x rest
    | .nest b _ _ inner rest =>
      (if countsAs mode x b then 1 else 0) + RunLog.calls mode x inner + Items.calls mode x rest
end

/-- The time a frame takes. -/
def RunLog.span : RunLog → Int
  | .mk start stop _ => stop - start

mutual
  /-- The time spent in measured instructions accounted under `x`: the time spent in the frame a
  call instruction starts is not part of the time of the call instruction. -/
  def RunLog.ticks (mode : ProfilerMode) (x : Nat) : RunLog → Int
    | .mk _ _ items => Items.ticks mode x items
  def Items.ticks (mode : ProfilerMode) (x : Nat) : Items → Int
    | .nil => 0
    | .leaf b start stop rest => (if countsAs mode x b then (stop : Int) - start else 0) + Items.ticks mode x rest
    | .nest b start stop inner rest =>
      (if countsAs mode x b then ((stop : Int) - start) - RunLog.span inner else 0) + RunLog.ticks mode x inner +
        Items.ticks mode x rest
end

mutual
  /-- The clock readings of a frame, in order. -/
  def RunLog.readings (mode : ProfilerMode) : RunLog → List Nat
    | .mk start stop items => start :: (Items.readings mode items ++ [stop])
  def Items.readings (mode : ProfilerMode) : Items → List Nat
    | .nil => []
    | .leaf b start stop rest =>
      if inScope mode (instrOf b) then start :: stop :: Items.readings mode rest else Items.readings mode rest
    | .nest _ start stop inner rest =>
      start :: (RunLog.readings mode inner ++ stop :: Items.readings mode rest)
end

mutual
  /-- Frames are started by call instructions only, at most `depth` deep. -/
  def RunLog.Fits : RunLog → Nat → Prop
    | .mk _ _ items, depth => Items.Fits items depth
  def Items.Fits : Items → Nat → Prop
    | .nil, _ => True
    | .leaf _ _ _ rest, depth => Items.Fits rest depth
    | .nest b _ _ inner rest, depth =>
      startsFrame (instrOf b) = true ∧ (∃ d, depth = d + 1 ∧ RunLog.Fits inner d) ∧ Items.Fits rest depth
end

/-- A clock whose next readings are `ts`, after which it continues as `after`. -/
def ClockReads : (Nat → Nat) → List Nat → (Nat → Nat) → Prop
  | clock, [], after => clock = after
  | clock, t :: ts, after => clock 0 = t ∧ ClockReads (fun n => clock (n + 1)) ts after

end Tosca.Spec
