import Verif.Spec.GoNative
import Verif.Model.LfvmCt

/-!
# What the conformance tests may expect of an interpreter that can be stepped

go/ct/evm.go: "StepN executes up to N instructions on the given state".  A test state stands for a frame of the reference; the state after stepping
has to show the frame after its steps, as far as the comparison of test states (`State.Eq`, go/ct/st/state.go:219-270) looks at it.
-/

namespace Tosca.Spec.Go

open Tosca.Go

variable {ω : Type}

/-- The frame a running test state stands for.  Its memory consists of whole words. -/
def frameState (c : CtState ω) : State ω where
  status := .running
  pc := c.pc.toNat
  gas := c.gas.toNat
  refund := c.refund
  stack := c.stack
  mem := ⟨32 * words c.memory.length, byteAt c.memory⟩
  ret := c.lastCallReturnData
  host := c.world

/-- What a test state shows of the frame `t`, if it was `before` when stepping began.  Failed states are all equal; of ended frames, gas, refund,
the world and the result are looked at; of running ones also program counter (all values behind the end of the code are equal), stack, memory and the
data returned by the last call. -/
def Shows (code : List Byte) (before c : CtState ω) (t : State ω) : Prop :=
  match t.status with
  | .failed _ => c.status = .failed
  | .running =>
    c.status = .running ∧ c.gas = t.gas ∧ c.refund = t.refund ∧ c.world = t.host ∧ c.stack = t.stack ∧ c.memory = t.mem.read 0 t.mem.size ∧
      c.lastCallReturnData = t.ret ∧ c.returnData = before.returnData ∧ (c.pc.toNat = t.pc ∨ (code.length ≤ c.pc.toNat ∧ code.length ≤ t.pc))
  | .stopped => c.status = .stopped ∧ c.gas = t.gas ∧ c.refund = t.refund ∧ c.world = t.host ∧ c.returnData = before.returnData
  | .returned => c.status = .stopped ∧ c.gas = t.gas ∧ c.refund = t.refund ∧ c.world = t.host ∧ c.returnData = t.ret
  | .reverted => c.status = .reverted ∧ c.gas = t.gas ∧ c.refund = t.refund ∧ c.world = t.host ∧ c.returnData = t.ret

/-- What a stepping interpreter may find: nothing, or what it has stored for the same code; anything on the pooled stack. -/
structure StepFound (keccak : List Byte → U256) (p : Parameters) (f : Model.Lfvm.CtFound) : Prop where
  hash : f.hash = keccak
  cached : ∀ C, f.cached = some C → Model.Lfvm.convert p.code false = some C
  map : ∀ m, f.map = some m → Model.Lfvm.genPcMap p.code = some m

/-- Stepping in the range the long-form EVM is made for: code of at most 48 KiB, a program counter at an instruction or at the end of the code, gas
and memory below 2^40 gas, a refund that cannot overflow with the gas left; a client that behaves; caches that are right. -/
structure StepSetting (keccak : List Byte → U256) (db : Db ω) (call : CallFn ω) (p : Parameters) (f : Model.Lfvm.CtFound) (c : CtState ω) : Prop where
  call : CallFnOk call
  access : AccessOk db
  lengths : Lengths db
  run : RunOk p
  input : p.input.length < 2 ^ 63
  code : p.code.length ≤ 49152
  revision : 0 ≤ p.block.revision ∧ p.block.revision ≤ 5
  status : c.status = .running
  pc : c.pc.toNat = p.code.length ∨ (Boundary p.code c.pc.toNat ∧ c.pc.toNat < p.code.length)
  gas : 0 ≤ c.gas ∧ c.gas.toNat + memGas (words c.memory.length) ≤ 2 ^ 40
  refund : c.refund + 199 * c.gas ≤ 2 ^ 63 - 1 ∧ -(2 ^ 63 - 1) ≤ c.refund - 199 * c.gas
  stack : c.stack.length ≤ 1024
  returned : c.lastCallReturnData.length < 2 ^ 64
  found : StepFound keccak p f

/-- Stepping a single instruction at a time, as often as the list is long; each call finds what it finds. -/
def walk (db : Db ω) (call : CallFn ω) (p : Parameters) : List Model.Lfvm.CtFound → CtState ω → Option (CtState ω)
  | [], c => some c
  | f :: r, c => match Model.Lfvm.stepN f db call p c 1 with
    | some (c', none) => walk db call p r c'
    | _ => none

end Tosca.Spec.Go
