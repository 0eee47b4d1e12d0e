import Verif.Spec.Go

/-!
# What a Go client may expect of an interpreter written in Go

The interpreters of go/interpreter implement the Go interface directly, without EVMC.  The reference is the EVM of
`Verif/Spec/Evm` on the same host, with the conventions of the Go interface: every failure of the executed code is an
unsuccessful run without gas, output and refund; a reverted run has no refund; nesting depth is the business of the
client's `Call`.  Refunds of SSTORE are those of EIP-2200 with EIP-2929 and EIP-3529.
-/

namespace Tosca.Spec.Go

open Tosca.Go

variable {ω : Type}

/-- SSTORE with the refunds of EIP-2200/2929/3529, which do not depend on whether the slot was cold. -/
def sstoreEip (P : Params ω) (s : State ω) : State ω :=
  s.pop2 fun key value s =>
    if s.gas ≤ 2300 then s.fail .outOfGas
    else
      let go (surcharge : Nat) (s : State ω) : State ω :=
        s.ask (P.host.setStorage P.msg.recipient key value) fun status s =>
          s.charge (sstoreGas P.rev status + surcharge) fun s =>
            { s with refund := s.refund + sstoreRefund P.rev true status }
      if P.rev ≥ BERLIN then
        s.ask (P.host.accessStorage P.msg.recipient key) fun st s => go (if st = .warm then 0 else 2100) s
      else go 0 s

/-- The effect of an instruction; only SSTORE differs from `exec`. -/
noncomputable def execEip (P : Params ω) (at_ : Nat) (i : Instr) (s : State ω) : State ω :=
  if i = .sstore then sstoreEip P s else exec P at_ i s

/-- Executing one instruction: the checks and the base gas of `execInstr`. -/
noncomputable def execInstrEip (P : Params ω) (i : Instr) (s : State ω) : State ω :=
  if P.rev < i.since then s.fail .undefinedInstruction
  else if i.writes ∧ P.msg.isStatic then s.fail .staticViolation
  else if s.stack.length < i.pops then s.fail .stackUnderflow
  else if s.stack.length + i.pushes > stackLimit + i.pops then s.fail .stackOverflow
  else s.charge i.baseGas fun s => execEip P s.pc i { s with pc := s.pc + i.length }

/-- One step. -/
noncomputable def stepEip (P : Params ω) (s : State ω) : State ω :=
  if s.status = .running then
    match decode (byteAt P.code s.pc).toNat with
    | none => s.fail .invalidInstruction
    | some i => execInstrEip P i s
  else s

/-- `n` steps. -/
noncomputable def stepsEip (P : Params ω) : Nat → State ω → State ω
  | 0, s => s
  | n + 1, s => stepsEip P n (stepEip P s)

/-- What the client sees of a halted frame. -/
def nativeOutcome (s : State ω) : Except Err RunResult :=
  match s.status with
  | .stopped | .returned => .ok { success := true, output := s.ret, gasLeft := s.gas, gasRefund := s.refund }
  | .reverted => .ok { success := false, output := s.ret, gasLeft := s.gas }
  | .failed _ => .ok {}
  | .running => .error .crash

/-- Errors of nested calls are failures for the calling code. -/
def failures : Reports := ⟨fun _ => .failure, .failure⟩

/-- The frame to run: the nesting depth plays no role. -/
def nativeFrame (keccak : List Byte → U256) (db : Db ω) (call : CallFn ω) (p : Parameters) (rev : Revision) : Params ω :=
  frame failures keccak db call { p with depth := 0 } rev

/-- The interpreter: run the frame to its end (`gas + 1` steps suffice). -/
noncomputable def nativeRun (keccak : List Byte → U256) : Interpreter ω := fun db call p w =>
  match revisionOf p.block.revision with
  | none => (.error .unsupportedRevision, w)
  | some rev =>
    let s := stepsEip (nativeFrame keccak db call p rev) (p.gas.toNat + 1) (initial (nativeFrame keccak db call p rev) w)
    (nativeOutcome s, s.host)

/-- Reading accounts does not depend on the access list. -/
structure AccessOk (db : Db ω) : Prop where
  balance : ∀ a b w, db.balance b (db.accessAccount a w).2 = db.balance b w
  nonce : ∀ a b w, db.nonce b (db.accessAccount a w).2 = db.nonce b w
  codeSize : ∀ a b w, db.codeSize b (db.accessAccount a w).2 = db.codeSize b w

/-- Go slices have an `int` length. -/
structure Lengths (db : Db ω) : Prop where
  code : ∀ a w, (db.code a w).length < 2 ^ 63
  codeSize : ∀ a w, db.codeSize a w < 2 ^ 63

end Tosca.Spec.Go
