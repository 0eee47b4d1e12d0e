import Verif.Spec.Instr
import Verif.Spec.Word
import Verif.Spec.Mem

/-!
# EVM small-step specification

One frame of the EVM, Istanbul to Cancun, over a list stack (top first), unbounded gas
arithmetic and an infinite zero-initialised memory.  Written from the EIPs and the project's
conformance specification (go/ct/spc/specification.go); nothing from `Verif/Model` is used.

Where several failures apply to one instruction the order of the checks (which the EVM leaves
open) is the one of the conformance specification / implementation, so that the reported
reason is determined.  The world outside the frame is reached only through the EVMC host.
-/

namespace Tosca.Spec

/-- Why a frame failed. -/
inductive Failure
  | invalidInstruction | undefinedInstruction | outOfGas | stackUnderflow | stackOverflow
  | badJumpDestination | invalidMemoryAccess | callDepthExceeded | createDepthExceeded
  | staticViolation | initCodeTooLarge
  deriving DecidableEq, Repr

inductive Status
  | running | stopped | returned | reverted
  | failed (why : Failure)
  deriving DecidableEq, Repr

/-- What stays fixed while a frame runs. -/
structure Params (σ : Type) where
  code : List Byte
  msg : Message
  rev : Revision
  host : Host σ
  keccak : List Byte → U256

/-- State of a frame; `stack` lists the top first, `ret` is the return-data buffer (and the
output once halted), `host` is the state of the world. -/
structure State (σ : Type) where
  status : Status := .running
  pc : Nat := 0
  gas : Nat
  refund : Int := 0
  stack : List U256 := []
  mem : Mem := Mem.empty
  ret : List Byte := []
  host : σ

variable {σ : Type}

namespace State

/-- A failing frame loses its gas and has no output. -/
def fail (s : State σ) (why : Failure) : State σ :=
  { s with status := .failed why, gas := 0, ret := [] }

def push (s : State σ) (v : U256) : State σ := { s with stack := v :: s.stack }

/-- Taking operands off the stack. -/
def pop1 (s : State σ) (k : U256 → State σ → State σ) : State σ :=
  match s.stack with
  | a :: r => k a { s with stack := r }
  | _ => s.fail .stackUnderflow
def pop2 (s : State σ) (k : U256 → U256 → State σ → State σ) : State σ :=
  s.pop1 fun a s => s.pop1 fun b s => k a b s
def pop3 (s : State σ) (k : U256 → U256 → U256 → State σ → State σ) : State σ :=
  s.pop2 fun a b s => s.pop1 fun c s => k a b c s
def pop4 (s : State σ) (k : U256 → U256 → U256 → U256 → State σ → State σ) : State σ :=
  s.pop3 fun a b c s => s.pop1 fun d s => k a b c d s

/-- Charging gas. -/
def charge (s : State σ) (n : Nat) (k : State σ → State σ) : State σ :=
  if s.gas < n then s.fail .outOfGas else k { s with gas := s.gas - n }

/-- Consulting the host. -/
def ask {α : Type} (s : State σ) (f : σ → α × σ) (k : α → State σ → State σ) : State σ :=
  k (f s.host).1 { s with host := (f s.host).2 }

/-- Touching a memory range: charge for the growth plus `extra`, then grow. -/
def touch (s : State σ) (off n : U256) (extra : Nat) (k : State σ → State σ) : State σ :=
  s.charge (s.mem.growGas (s.mem.sizeAfter off.toNat n.toNat) + extra) fun s =>
    k { s with mem := s.mem.expand off.toNat n.toNat }

/-- Touching two ranges at once: the larger growth covers both. -/
def touch2 (s : State σ) (off n off' n' : U256) (extra : Nat) (k : State σ → State σ) : State σ :=
  s.charge (s.mem.growGas (max (s.mem.sizeAfter off.toNat n.toNat)
      (s.mem.sizeAfter off'.toNat n'.toNat)) + extra) fun s =>
    k { s with mem := (s.mem.expand off.toNat n.toNat).expand off'.toNat n'.toNat }

end State

open State

/-- Cost of accessing another account (EIP-2929 from Berlin on). -/
def accountAccess (P : Params σ) (a : Address) (s : State σ) (k : Nat → State σ → State σ) :
    State σ :=
  if P.rev ≥ BERLIN then
    s.ask (P.host.accessAccount a) fun st s => k (if st = .warm then 100 else 2600) s
  else k 700 s

/-- BALANCE, EXTCODESIZE, EXTCODEHASH: charge the access, then push a property of the account. -/
def accountOp (P : Params σ) (f : Address → σ → U256 × σ) (s : State σ) : State σ :=
  s.pop1 fun a s =>
    accountAccess P (Word.toAddress a) s fun cost s =>
      s.charge cost fun s => s.ask (f (Word.toAddress a)) fun v s => s.push v

/-- CALLDATACOPY, CODECOPY: a zero-extended source. -/
def copyOp (src : List Byte) (s : State σ) : State σ :=
  s.pop3 fun dst off n s => s.touch dst n (3 * words n.toNat) fun s =>
    { s with mem := s.mem.write dst.toNat (slice src off.toNat n.toNat) }

/-- SSTORE cost by the storage status the host reports, before the cold surcharge
(EIP-2200, EIP-2929). -/
def sstoreGas (rev : Revision) : StorageStatus → Nat
  | .added => 20000
  | .modified | .deleted => if rev ≥ BERLIN then 2900 else 5000
  | _ => if rev ≥ BERLIN then 100 else 800

/-- Refund for clearing a slot (EIP-3529 from London on). -/
def clearRefund (rev : Revision) : Int := if rev ≥ LONDON then 4800 else 15000
/-- Refund for restoring a slot to its original non-zero value.  The cold case cannot occur in a
transaction whose host tracks accesses (an earlier write made the slot warm). -/
def restoreRefund (rev : Revision) (warm : Bool) : Int :=
  if rev ≥ BERLIN then (if warm then 2800 else 4900) else 4200

/-- SSTORE refund by storage status. -/
def sstoreRefund (rev : Revision) (warm : Bool) : StorageStatus → Int
  | .deleted | .modifiedDeleted => clearRefund rev
  | .deletedAdded => - clearRefund rev
  | .deletedRestored => - clearRefund rev + restoreRefund rev warm
  | .addedDeleted => if rev ≥ BERLIN then 19900 else 19200
  | .modifiedRestored => restoreRefund rev warm
  | .assigned | .added | .modified => 0

def sstore (P : Params σ) (s : State σ) : State σ :=
  s.pop2 fun key value s =>
    if s.gas ≤ 2300 then s.fail .outOfGas
    else
      let go (warm : Bool) (s : State σ) : State σ :=
        s.ask (P.host.setStorage P.msg.recipient key value) fun status s =>
          s.charge (sstoreGas P.rev status + (if P.rev ≥ BERLIN ∧ warm = false then 2100 else 0)) fun s =>
            { s with refund := s.refund + sstoreRefund P.rev warm status }
      if P.rev ≥ BERLIN then
        s.ask (P.host.accessStorage P.msg.recipient key) fun st s => go (st = .warm) s
      else go false s

def sload (P : Params σ) (s : State σ) : State σ :=
  s.pop1 fun key s =>
    let go (cost : Nat) (s : State σ) : State σ :=
      s.charge cost fun s => s.ask (P.host.getStorage P.msg.recipient key) fun v s => s.push v
    if P.rev ≥ BERLIN then
      s.ask (P.host.accessStorage P.msg.recipient key) fun st s => go (if st = .warm then 100 else 2100) s
    else go 800 s

def extcodecopy (P : Params σ) (s : State σ) : State σ :=
  s.pop4 fun a dst off n s =>
    if s.gas < s.mem.growGas (s.mem.sizeAfter dst.toNat n.toNat) then s.fail .outOfGas
    else accountAccess P (Word.toAddress a) s fun cost s =>
      s.touch dst n (3 * words n.toNat + cost) fun s =>
        if n.toNat = 0 then s
        else if off.toNat < 2 ^ 64 then
          s.ask (P.host.copyCode (Word.toAddress a) off.toNat n.toNat) fun bytes s =>
            { s with mem := s.mem.write dst.toNat (slice bytes 0 n.toNat) }
        else { s with mem := s.mem.write dst.toNat (slice [] 0 n.toNat) }

def returndatacopy (s : State σ) : State σ :=
  s.pop3 fun dst off n s => s.touch dst n (3 * words n.toNat) fun s =>
    if off.toNat + n.toNat > s.ret.length then s.fail .invalidMemoryAccess
    else { s with mem := s.mem.write dst.toNat (slice s.ret off.toNat n.toNat) }

def blockhash (P : Params σ) (s : State σ) : State σ :=
  s.pop1 fun n s =>
    let current := P.host.txContext.blockNumber
    if (n.toNat : Int) < current ∧ current ≤ n.toNat + 256 then
      s.ask (P.host.getBlockHash n.toNat) fun h s => s.push h
    else s.push 0

def log (P : Params σ) (n : Nat) (s : State σ) : State σ :=
  s.pop2 fun off len s =>
    let topics := s.stack.take n
    { s with stack := s.stack.drop n }.touch off len (8 * len.toNat) fun s =>
      { s with host := P.host.emitLog P.msg.recipient (s.mem.read off.toNat len.toNat) topics s.host }

/-- RETURN and REVERT. -/
def halt (status : Status) (s : State σ) : State σ :=
  s.pop2 fun off n s => s.touch off n 0 fun s =>
    { s with status := status, ret := s.mem.read off.toNat n.toNat }

def selfdestruct (P : Params σ) (s : State σ) : State σ :=
  s.pop1 fun a s =>
    let beneficiary := Word.toAddress a
    let finish (cost : Nat) (s : State σ) : State σ :=
      s.charge cost fun s =>
        s.ask (P.host.selfdestruct P.msg.recipient beneficiary) fun first s =>
          { s with status := .stopped, ret := []
                   refund := if first ∧ P.rev < LONDON then s.refund + 24000 else s.refund }
    let access (cost : Nat) (s : State σ) : State σ :=
      if P.rev ≥ BERLIN then
        s.ask (P.host.accessAccount beneficiary) fun st s =>
          finish (cost + (if st = .cold then 2600 else 0)) s
      else finish cost s
    s.ask (P.host.getBalance P.msg.recipient) fun bal s =>
      if bal.toNat ≠ 0 then
        s.ask (P.host.accountExists beneficiary) fun ex s => access (if ex then 0 else 25000) s
      else access 0 s

/-- The part of a frame's gas that may be forwarded (EIP-150). -/
def allBut64th (gas : Nat) : Nat := gas - gas / 64

/-- Moving value needs a sufficient balance; `k true` if the balance suffices. -/
def checkBalance (P : Params σ) (value : U256) (s : State σ) (k : Bool → State σ → State σ) :
    State σ :=
  if value.toNat = 0 then k true s
  else s.ask (P.host.getBalance P.msg.recipient) fun b s => k (decide (value.toNat ≤ b.toNat)) s

/-- The creation message. -/
def createMessage (P : Params σ) (salt : Option U256) (value : U256) (input : List Byte)
    (gas : Nat) : Message :=
  { kind := if salt.isSome then .create2 else .create
    depth := P.msg.depth + 1
    gas := gas
    sender := P.msg.recipient
    input := input
    value := value
    create2Salt := salt.getD 0 }

def createWith (P : Params σ) (salt : Option U256) (value off n : U256) (s : State σ) : State σ :=
  s.touch off n 0 fun s =>
    if P.rev ≥ SHANGHAI ∧ n.toNat > 49152 then s.fail .initCodeTooLarge
    else
      s.charge ((if P.rev ≥ SHANGHAI then 2 * words n.toNat else 0)
          + (if salt.isSome then 6 * words n.toNat else 0)) fun s =>
        let s := { s with ret := [] }
        checkBalance P value s fun ok s =>
          if ok = false then s.push 0
          else
            let fwd := allBut64th s.gas
            let msg := createMessage P salt value (s.mem.read off.toNat n.toNat) fwd
            s.ask (P.host.call msg) fun r s =>
              { s with
                gas := s.gas - fwd + r.gasLeft.toNat
                refund := s.refund + r.gasRefund
                ret := if r.status = .revert then r.output else []
                stack := (if r.status = .success then Word.ofAddress r.createAddress else 0)
                  :: s.stack }

/-- CREATE and CREATE2. -/
def create (P : Params σ) (is2 : Bool) (s : State σ) : State σ :=
  if P.msg.depth > 1024 then s.fail .createDepthExceeded
  else s.pop3 fun value off n s =>
    if is2 then s.pop1 fun salt s => createWith P (some salt) value off n s
    else createWith P none value off n s

/-- The four call instructions. -/
inductive CallVariant | call | callcode | delegatecall | staticcall
  deriving DecidableEq, Repr

/-- The message of a nested call. -/
def callMessage (P : Params σ) (v : CallVariant) (to : Address) (value : U256)
    (input : List Byte) (gas : Nat) : Message :=
  { kind := match v with
      | .call | .staticcall => .call
      | .callcode => .callcode
      | .delegatecall => .delegatecall
    flags := match v with
      | .staticcall => 1
      | _ => P.msg.flags
    depth := P.msg.depth + 1
    gas := gas
    recipient := match v with
      | .call | .staticcall => to
      | .callcode | .delegatecall => P.msg.recipient
    sender := match v with
      | .delegatecall => P.msg.sender
      | _ => P.msg.recipient
    input := input
    value := match v with
      | .delegatecall => P.msg.value
      | _ => value
    codeAddress := to }

/-- The new-account surcharge of a value transfer; CALLCODE does not move value. -/
def newAccountGas (P : Params σ) (v : CallVariant) (to : Address) (value : U256) (s : State σ)
    (k : Nat → State σ → State σ) : State σ :=
  if v ≠ .callcode ∧ value.toNat ≠ 0 then
    s.ask (P.host.accountExists to) fun ex s => k (if ex then 0 else 25000) s
  else k 0 s

def callWith (P : Params σ) (v : CallVariant) (gasReq : U256) (to : Address)
    (value inOff inLen outOff outLen : U256) (s : State σ) : State σ :=
  s.touch2 inOff inLen outOff outLen 0 fun s =>
    if v = .call ∧ value.toNat ≠ 0 ∧ P.msg.isStatic then s.fail .staticViolation
    else
      accountAccess P to s fun access s =>
      newAccountGas P v to value s fun newAccount s =>
      s.charge (access + (if value.toNat ≠ 0 then 9000 else 0) + newAccount) fun s =>
        let fwd := min gasReq.toNat (allBut64th s.gas)
        let stipend := if value.toNat ≠ 0 then 2300 else 0
        let s := { s with ret := [] }
        checkBalance P value s fun ok s =>
          if ok = false then { s with gas := s.gas + stipend }.push 0
          else
            let msg := callMessage P v to value (s.mem.read inOff.toNat inLen.toNat) (fwd + stipend)
            s.ask (P.host.call msg) fun r s =>
              { s with
                gas := s.gas - fwd + r.gasLeft.toNat
                refund := s.refund + r.gasRefund
                ret := r.output
                mem := s.mem.write outOff.toNat (r.output.take outLen.toNat)
                stack := (if r.status = .success then 1 else 0) :: s.stack }

def call (P : Params σ) (v : CallVariant) (s : State σ) : State σ :=
  if P.msg.depth > 1024 then s.fail .callDepthExceeded
  else match v with
    | .call | .callcode =>
      s.pop3 fun g a value s => s.pop4 fun io il oo ol s =>
        callWith P v g (Word.toAddress a) value io il oo ol s
    | .delegatecall | .staticcall =>
      s.pop2 fun g a s => s.pop4 fun io il oo ol s =>
        callWith P v g (Word.toAddress a) 0 io il oo ol s

open Classical in
/-- Continuing at a jump destination. -/
noncomputable def jumpTo (P : Params σ) (dest : U256) (s : State σ) : State σ :=
  if JumpTarget P.code dest.toNat then { s with pc := dest.toNat } else s.fail .badJumpDestination

/-- The effect of an instruction, after the common checks and the base gas. `at_` is the offset
of the instruction; the program counter already points behind it. -/
noncomputable def exec (P : Params σ) (at_ : Nat) (i : Instr) (s : State σ) : State σ :=
  match i with
  | .stop => { s with status := .stopped, ret := [] }
  | .invalid => s.fail .invalidInstruction
  | .add => s.pop2 fun a b s => s.push (Word.add a b)
  | .mul => s.pop2 fun a b s => s.push (Word.mul a b)
  | .sub => s.pop2 fun a b s => s.push (Word.sub a b)
  | .div => s.pop2 fun a b s => s.push (Word.div a b)
  | .sdiv => s.pop2 fun a b s => s.push (Word.sdiv a b)
  | .mod => s.pop2 fun a b s => s.push (Word.mod a b)
  | .smod => s.pop2 fun a b s => s.push (Word.smod a b)
  | .addmod => s.pop3 fun a b m s => s.push (Word.addmod a b m)
  | .mulmod => s.pop3 fun a b m s => s.push (Word.mulmod a b m)
  | .exp => s.pop2 fun a b s => s.charge (50 * Word.byteLen b.toNat) fun s => s.push (Word.exp a b)
  | .signextend => s.pop2 fun a b s => s.push (Word.signextend a b)
  | .lt => s.pop2 fun a b s => s.push (Word.lt a b)
  | .gt => s.pop2 fun a b s => s.push (Word.gt a b)
  | .slt => s.pop2 fun a b s => s.push (Word.slt a b)
  | .sgt => s.pop2 fun a b s => s.push (Word.sgt a b)
  | .eq => s.pop2 fun a b s => s.push (Word.eq a b)
  | .iszero => s.pop1 fun a s => s.push (Word.iszero a)
  | .and => s.pop2 fun a b s => s.push (Word.and a b)
  | .or => s.pop2 fun a b s => s.push (Word.or a b)
  | .xor => s.pop2 fun a b s => s.push (Word.xor a b)
  | .not => s.pop1 fun a s => s.push (Word.not a)
  | .byte => s.pop2 fun a b s => s.push (Word.byte a b)
  | .shl => s.pop2 fun a b s => s.push (Word.shl a b)
  | .shr => s.pop2 fun a b s => s.push (Word.shr a b)
  | .sar => s.pop2 fun a b s => s.push (Word.sar a b)
  | .sha3 => s.pop2 fun off n s => s.touch off n (6 * words n.toNat) fun s =>
      s.push (P.keccak (s.mem.read off.toNat n.toNat))
  | .address => s.push (Word.ofAddress P.msg.recipient)
  | .balance => accountOp P P.host.getBalance s
  | .origin => s.push (Word.ofAddress P.host.txContext.origin)
  | .caller => s.push (Word.ofAddress P.msg.sender)
  | .callvalue => s.push P.msg.value
  | .calldataload => s.pop1 fun off s => s.push (Word.ofBytes (slice P.msg.input off.toNat 32))
  | .calldatasize => s.push (Word.ofN P.msg.input.length)
  | .calldatacopy => copyOp P.msg.input s
  | .codesize => s.push (Word.ofN P.code.length)
  | .codecopy => copyOp P.code s
  | .gasprice => s.push P.host.txContext.gasPrice
  | .extcodesize => accountOp P
      (fun a w => (Word.ofN (P.host.getCodeSize a w).1, (P.host.getCodeSize a w).2)) s
  | .extcodecopy => extcodecopy P s
  | .returndatasize => s.push (Word.ofN s.ret.length)
  | .returndatacopy => returndatacopy s
  | .extcodehash => accountOp P P.host.getCodeHash s
  | .blockhash => blockhash P s
  | .coinbase => s.push (Word.ofAddress P.host.txContext.coinbase)
  | .timestamp => s.push (Word.ofI P.host.txContext.timestamp)
  | .number => s.push (Word.ofI P.host.txContext.blockNumber)
  | .prevrandao => s.push P.host.txContext.prevRandao
  | .gaslimit => s.push (Word.ofI P.host.txContext.gasLimit)
  | .chainid => s.push P.host.txContext.chainId
  | .selfbalance => s.ask (P.host.getBalance P.msg.recipient) fun b s => s.push b
  | .basefee => s.push P.host.txContext.baseFee
  | .blobhash => s.pop1 fun i s => s.push (P.host.txContext.blobHashes.getD i.toNat 0)
  | .blobbasefee => s.push P.host.txContext.blobBaseFee
  | .pop => s.pop1 fun _ s => s
  | .mload => s.pop1 fun off s => s.touch off 32 0 fun s =>
      s.push (Word.ofBytes (s.mem.read off.toNat 32))
  | .mstore => s.pop2 fun off v s => s.touch off 32 0 fun s =>
      { s with mem := s.mem.write off.toNat (Word.toBytes v) }
  | .mstore8 => s.pop2 fun off v s => s.touch off 1 0 fun s =>
      { s with mem := s.mem.write off.toNat [BitVec.ofNat 8 v.toNat] }
  | .sload => sload P s
  | .sstore => sstore P s
  | .jump => s.pop1 fun dest s => jumpTo P dest s
  | .jumpi => s.pop2 fun dest cond s => if cond.toNat ≠ 0 then jumpTo P dest s else s
  | .pc => s.push (Word.ofN at_)
  | .msize => s.push (Word.ofN s.mem.size)
  | .gas => s.push (Word.ofN s.gas)
  | .jumpdest => s
  | .tload => s.pop1 fun key s => s.ask (P.host.getTransient P.msg.recipient key) fun v s => s.push v
  | .tstore => s.pop2 fun key v s =>
      { s with host := P.host.setTransient P.msg.recipient key v s.host }
  | .mcopy => s.pop3 fun dst src n s => s.touch2 dst n src n (3 * words n.toNat) fun s =>
      { s with mem := s.mem.write dst.toNat (s.mem.read src.toNat n.toNat) }
  | .push n => s.push (Word.ofBytes (slice P.code (at_ + 1) n))
  | .dup n => s.push (s.stack.getD (n - 1) 0)
  | .swap n => { s with stack := (s.stack.set 0 (s.stack.getD n 0)).set n (s.stack.getD 0 0) }
  | .log n => log P n s
  | .create => create P false s
  | .create2 => create P true s
  | .call => call P .call s
  | .callcode => call P .callcode s
  | .delegatecall => call P .delegatecall s
  | .staticcall => call P .staticcall s
  | .ret => halt .returned s
  | .revert => halt .reverted s
  | .selfdestruct => selfdestruct P s

/-- Maximal number of words on the stack. -/
def stackLimit : Nat := 1024

/-- Executing one instruction at the current program counter: the common checks, the base gas,
the effect. -/
noncomputable def execInstr (P : Params σ) (i : Instr) (s : State σ) : State σ :=
  if P.rev < i.since then s.fail .undefinedInstruction
  else if i.writes ∧ P.msg.isStatic then s.fail .staticViolation
  else if s.stack.length < i.pops then s.fail .stackUnderflow
  else if s.stack.length + i.pushes > stackLimit + i.pops then s.fail .stackOverflow
  else s.charge i.baseGas fun s => exec P s.pc i { s with pc := s.pc + i.length }

/-- One step: halted frames stay as they are; beyond the end of the code every byte is STOP. -/
noncomputable def step (P : Params σ) (s : State σ) : State σ :=
  if s.status = .running then
    match decode (byteAt P.code s.pc).toNat with
    | none => s.fail .invalidInstruction
    | some i => execInstr P i s
  else s

/-- `n` steps. -/
noncomputable def steps (P : Params σ) : Nat → State σ → State σ
  | 0, s => s
  | n + 1, s => steps P n (step P s)

/-- `s'` is the final state of a run from `s`. -/
def Final (P : Params σ) (s s' : State σ) : Prop :=
  s'.status ≠ .running ∧ ∃ n, steps P n s = s'

/-- The start of a frame: empty stack and memory, the message's gas. -/
def initial (P : Params σ) (w : σ) : State σ := { gas := P.msg.gas.toNat, host := w }

end Tosca.Spec
