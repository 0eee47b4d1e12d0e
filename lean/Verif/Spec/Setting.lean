import Verif.Model.Reach
import Verif.Spec.Api

/-!
# The setting of the property theorems

Ties the parameters of the specification to the environment and the VM of the model.
-/

namespace Tosca

open Tosca.Model Tosca.Spec

variable {σ : Type}

/-- The environment of a frame with parameters `P`: the same host and hash function; nested
executions use the shared SHA3 cache only through its interface. -/
structure EnvOk (P : Params σ) (E : Env σ) : Prop where
  host : E.host = P.host
  keccak : E.keccak = P.keccak
  reenter : ∀ m w s, Sha3Ok P.keccak s → Sha3Ok P.keccak (E.reenter m w s)

/-- Everything the property theorems assume about one call into the VM. -/
structure Setting (P : Params σ) (E : Env σ) (codeOf : U256 → List Byte) (vm : Vm) : Prop where
  params : ParamsOk P
  env : EnvOk P E
  vm : VmOk codeOf P.keccak vm
  hash : HashOk codeOf P.msg P.code
  gas : 0 ≤ P.msg.gas

/-- The result record of a `StepN` call that ends in the frame `s`. -/
def resultOf (rev : Revision) (s : State σ) : StepResult :=
  { stepStatus := stepStatus s.status
    status := statusCode s.status
    revision := rev
    pc := s.pc
    gasLeft := s.gas
    gasRefund := s.refund
    output := s.ret
    stack := s.stack.reverse
    memory := s.mem.read 0 s.mem.size
    lastCallReturnData := s.ret }

/-- A `StepN` result describes the frame `s`.  Of a failed frame only the failure, the refund
counter and the host state are meaningful: the gas is gone, there is no return data; the stack
has the size it had when `StepN` was called. -/
structure Describes (rev : Revision) (entryStack : Nat) (res : StepResult) (w' : σ) (s : State σ) : Prop where
  host : w' = s.host
  ok : (∀ f, s.status ≠ .failed f) → res = resultOf rev s
  failed : ∀ f, s.status = .failed f →
    res.stepStatus = .failed ∧ res.status = failureCode f ∧ res.revision = rev ∧ res.gasLeft = 0 ∧
    res.gasRefund = s.refund ∧ res.output = [] ∧ res.lastCallReturnData = [] ∧
    res.stack.length = entryStack
  /-- The specification agrees that a failed frame has no gas and no return data. -/
  lost : ∀ f, s.status = .failed f → s.gas = 0 ∧ s.ret = []

/-! ### Calls into the VM -/

/-- The part of a `StepN` call that describes the state to resume from, besides the gas (which is
part of the message): the stack is listed bottom first, `world` is the state of the host. -/
structure StepIn (σ : Type) where
  pc : Nat := 0
  refund : Int := 0
  stack : List U256 := []
  memory : List Byte := []
  ret : List Byte := []
  world : σ

/-- The specification's view of a `StepN` input. -/
def StepIn.frame (P : Params σ) (x : StepIn σ) : State σ :=
  Spec.frame .running x.pc P.msg.gas x.refund x.stack x.memory x.ret x.world

/-- The byte of the code the program counter points to; zero (STOP) beyond the end. -/
def StepIn.opcode (P : Params σ) (x : StepIn σ) : Nat := (byteAt P.code x.pc).toNat

/-- Inputs that a run can be in: at most 1024 words on the stack, gas plus the price of the memory
below 2^54, a refund counter that cannot overflow, a program counter in the code or its padding. -/
structure InputOk (P : Params σ) (x : StepIn σ) : Prop where
  stack : x.stack.length ≤ 1024
  gas : P.msg.gas + memGas (words x.memory.length) ≤ 2 ^ 54
  refundHi : x.refund + 199 * P.msg.gas ≤ 2 ^ 63 - 1
  refundLo : -(2 ^ 63 - 1) ≤ x.refund - 199 * P.msg.gas
  ret : x.ret.length < 2 ^ 64
  pc : x.pc ≤ P.code.length + 32

/-- `StepN` with step limit `n` returns `res` and leaves the host in state `w'`, whatever the
recycled stack buffer contains. (`fuel` bounds the interpreter loop in the model.) -/
def Runs (P : Params σ) (E : Env σ) (vm : Vm) (x : StepIn σ) (n : Nat) (res : StepResult) (w' : σ) : Prop :=
  ∀ fuel buf, n + 1 ≤ fuel → ∃ vm',
    vm.stepN E fuel P.code P.msg P.rev .running x.pc x.refund x.stack x.memory x.ret n buf x.world =
      .ok (some (res, w', vm'))

/-- `StepN` with step limit `n` returns a failed state with the given status code and refund
counter, no gas and no return data, and leaves the host in state `w'`. -/
def Fails (P : Params σ) (E : Env σ) (vm : Vm) (x : StepIn σ) (n : Nat) (code : EvmcStatus) (refund : Int) (w' : σ) :
    Prop :=
  ∀ fuel buf, n + 1 ≤ fuel → ∃ res vm',
    vm.stepN E fuel P.code P.msg P.rev .running x.pc x.refund x.stack x.memory x.ret n buf x.world =
      .ok (some (res, w', vm')) ∧
    res.stepStatus = .failed ∧ res.status = code ∧ res.gasLeft = 0 ∧ res.gasRefund = refund ∧
    res.output = [] ∧ res.lastCallReturnData = []

/-- Some `StepN` call with step limit `n` from `x` returned `res` and left the host in state `w'`. -/
def Returns (P : Params σ) (E : Env σ) (vm : Vm) (x : StepIn σ) (n : Nat) (res : StepResult) (w' : σ) : Prop :=
  ∃ fuel buf vm', vm.stepN E fuel P.code P.msg P.rev .running x.pc x.refund x.stack x.memory x.ret n buf x.world =
    .ok (some (res, w', vm'))

/-- `Execute` returns `res` and leaves the host in state `w'`, whatever the recycled stack buffer
contains and whatever observer is attached. -/
def Executes (P : Params σ) (E : Env σ) (vm : Vm) (w : σ) (res : EvmcResult) (w' : σ) : Prop :=
  ∀ (ω : Type) (obs : Observer σ ω) fuel buf o, P.msg.gas.toNat + 2 ≤ fuel → ∃ vm' o',
    vm.executeWith E obs fuel P.code P.msg P.rev buf w o = .ok (some (res, w', vm', o'))

/-- A byte string padded with zeros to a multiple of 32. -/
def pad32 (l : List Byte) : List Byte := slice l 0 (32 * words l.length)

/-- The `StepN` result that reports the input unchanged and still running. -/
def StepIn.same (P : Params σ) (x : StepIn σ) : StepResult :=
  { stepStatus := .running
    status := .failure
    revision := P.rev
    pc := x.pc
    gasLeft := P.msg.gas
    gasRefund := x.refund
    output := x.ret
    stack := x.stack
    memory := pad32 x.memory
    lastCallReturnData := x.ret }

/-- The same frame with another amount of gas in the message. -/
def withGas (P : Params σ) (gas : Int) : Params σ := { P with msg := { P.msg with gas := gas } }

/-- Feeding a `StepN` result back as input. -/
def StepResult.again (r : StepResult) (w : σ) : StepIn σ :=
  { pc := r.pc, refund := r.gasRefund, stack := r.stack, memory := r.memory, ret := r.lastCallReturnData, world := w }

/-- Running a frame by `StepN` calls with arbitrary step limits, each on some VM, until the state is no
longer running: every result is fed back as the next input. -/
inductive Chunked (P : Params σ) (E : Env σ) (codeOf : U256 → List Byte) :
    Int → StepIn σ → StepResult → σ → Prop
  | last {gas : Int} {x : StepIn σ} {vm vm' : Vm} {n fuel : Nat} {buf : Nat → U256} {r : StepResult} {w' : σ} :
      Setting (withGas P gas) E codeOf vm → n ≤ 2147483646 →
      vm.stepN E fuel P.code { P.msg with gas := gas } P.rev .running x.pc x.refund x.stack x.memory x.ret n buf x.world =
        .ok (some (r, w', vm')) →
      r.stepStatus ≠ .running → Chunked P E codeOf gas x r w'
  | more {gas : Int} {x : StepIn σ} {vm vm' : Vm} {n fuel : Nat} {buf : Nat → U256} {r r' : StepResult} {w1 w' : σ} :
      Setting (withGas P gas) E codeOf vm → n ≤ 2147483646 →
      vm.stepN E fuel P.code { P.msg with gas := gas } P.rev .running x.pc x.refund x.stack x.memory x.ret n buf x.world =
        .ok (some (r, w1, vm')) →
      r.stepStatus = .running → Chunked P E codeOf r.gasLeft (StepResult.again r w1) r' w' →
      Chunked P E codeOf gas x r' w'

/-! ### Observers used to state properties -/

/-- An observer that counts dispatched instructions. -/
def counter : Observer σ Nat where
  usesContext := false
  preRun _ o := o
  preInstruction _ _ o := o + 1
  postInstruction _ _ o := o
  postRun _ o := o

/-- An observer that remembers the last dispatched instruction. -/
def lastOp : Observer σ (Option OpCode) where
  usesContext := false
  preRun _ o := o
  preInstruction op _ _ := some op
  postInstruction _ _ o := o
  postRun _ o := o

end Tosca
