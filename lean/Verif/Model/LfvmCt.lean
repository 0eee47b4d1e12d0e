import Verif.Model.LfvmRun

/-!
# The long-form EVM: stepping for the conformance tests

go/interpreter/lfvm/ct.go.
-/

namespace Tosca.Model.Lfvm

open Tosca.Go Tosca.Model.Go

variable {ω : Type}

/-! ## Program counters -/

/-- The calls `observer(evm, lfvm)` made by `convertWithObserver` (converter.go:144-172) from offset `i` on, in their order.
After a panic nothing more is observed. -/
def observeLoop (code : List Byte) (withSuper : Bool) : Nat → Nat → CodeBuilder → List (Nat × Nat)
  | 0, _, _ => []
  | fuel + 1, i, b =>
    if i < code.length then
      if (code.getD i 0).toNat = Op.JUMPDEST then
        match (if b.nextPos < i then b.appendOp Op.JUMP_TO (BitVec.ofNat 16 i) else some b).bind fun b =>
          (b.padNoOpsUntil i).bind fun b => b.appendCode Op.JUMPDEST with
        | none => []
        | some b => (i, i) :: observeLoop code withSuper fuel (i + 1) b
      else
        (i, b.nextPos) :: match appendInstructions b i code withSuper with
          | none => []
          | some (b, inc) => observeLoop code withSuper fuel (i + inc + 1) b
    else []

/-- All calls of the observer. -/
def observed (code : List Byte) (withSuper : Bool) : List (Nat × Nat) :=
  observeLoop code withSuper code.length 0 (CodeBuilder.new code.length)

/-- `pcMap` (ct.go:114-118). -/
structure PcMap where
  evmToLfvm : List (BitVec 16)
  lfvmToEvm : List (BitVec 16)
  deriving DecidableEq, Repr

/-- `l[i] = v`; a panic if there is no such element. -/
def write (l : List (BitVec 16)) (i : Nat) (v : BitVec 16) : Option (List (BitVec 16)) :=
  if i < l.length then some (l.set i v) else none

/-- The writes of the observer (ct.go:129-132). -/
def observe : List (Nat × Nat) → PcMap → Option PcMap
  | [], m => some m
  | (evm, lfvm) :: r, m =>
    (write m.evmToLfvm evm (BitVec.ofNat 16 lfvm)).bind fun a =>
    (write m.lfvmToEvm lfvm (BitVec.ofNat 16 evm)).bind fun b => observe r ⟨a, b⟩

/-- The loop over the JUMP_TO instructions (ct.go:147-151), from position `i` on. -/
def redirect : List Instruction → Nat → List (BitVec 16) → Option (List (BitVec 16))
  | [], _, l => some l
  | ins :: r, i, l =>
    if ins.opcode = Op.JUMP_TO then (write l i ins.arg).bind fun l => redirect r (i + 1) l else redirect r (i + 1) l

/-- `genPcMap` (ct.go:122-157). -/
def genPcMap (code : List Byte) : Option PcMap :=
  (observe (observed code false) ⟨List.replicate (code.length + 1) 0, List.replicate (code.length + 1) 0⟩).bind fun m =>
  (convert code false).bind fun res =>
  (write m.evmToLfvm code.length (BitVec.ofNat 16 res.length)).bind fun evmToLfvm =>
  let lfvmToEvm := if res.length + 1 > m.lfvmToEvm.length then m.lfvmToEvm ++ List.replicate (res.length + 1 - m.lfvmToEvm.length) 0 else m.lfvmToEvm
  (write lfvmToEvm res.length (BitVec.ofNat 16 code.length)).bind fun lfvmToEvm =>
  (redirect res 0 lfvmToEvm).map fun lfvmToEvm => ⟨evmToLfvm, lfvmToEvm⟩

/-! ## States -/

/-- `convertLfvmStatusToCtStatus` (ct.go:159-173). -/
def ctStatus : Status → CtStatus
  | .running => .running
  | .returned | .stopped => .stopped
  | .reverted => .reverted
  | .selfDestructed => .stopped
  | .failed => .failed

/-- Pushing values on the stack, the first of the list first; a panic if the array is full. -/
def pushAll : List U256 → (Nat → U256) → Nat → Option ((Nat → U256) × Nat)
  | [], data, sp => some (data, sp)
  | v :: r, data, sp => if sp < 1024 then pushAll r (fun j => if j = sp then v else data j) (sp + 1) else none

/-- `convertLfvmStackToCtStack` (ct.go:184-191): from the bottom to the top, written to positions counted from the bottom.
`Resize` (go/ct/st/stack.go) panics for more than 1024 elements. -/
def ctStack (data : Nat → U256) (len : Int) : Option (List U256) :=
  if 0 ≤ len ∧ len ≤ 1024 then some ((List.range len.toNat).map data).reverse else none

/-- `tosca.SizeInWords` of a size (no overflow: the memory exists). -/
def wordsOf (n : Nat) : Nat := (n + 31) / 32

/-- `status = execute(ctxt, true)` (interpreter.go:170-176); `none` is a panic. -/
def executeOne (E : Env ω) (s : St ω) : Option (Status × St ω) :=
  match stepOnce E s with
  | .ok status s' => some (status, s')
  | .err s' => some (.failed, s')
  | .panic => none

/-- The loop of `StepN` (ct.go:80-82). -/
def stepLoop (E : Env ω) : Nat → Status → St ω → Option (Status × St ω)
  | 0, status, s => some (status, s)
  | n + 1, status, s =>
    if status = .running then (executeOne E s).bind fun (status, s) => stepLoop E n status s else some (status, s)

/-- What `StepN` finds: code in the code cache, a map in the cache for maps (both keyed by the hash of the code), the content of the pooled
stack. -/
structure CtFound where
  cached : Option Code
  map : Option PcMap
  data : Nat → U256
  hash : List Byte → U256

/-- `getPcMap` (ct.go:102-112) given the outcome of the cache lookup. -/
def getPcMap (code : List Byte) (map : Option PcMap) : Option PcMap :=
  match map with
  | some m => some m
  | none => genPcMap code

/-- `ctAdapter.StepN` (ct.go:41-100): the state and the error returned; `none` is a panic.  The parameters (`utils.ToVmParameters`,
go/ct/utils/adapter.go:26-68) are given; their gas is that of the state and not read otherwise.  A negative number of steps is like zero. -/
def stepN (f : CtFound) (db : Db ω) (call : CallFn ω) (p : Parameters) (s : CtState ω) (numSteps : Nat) : Option (CtState ω × Option Err) :=
  if p.block.revision > 5 then some (s, some .unsupportedRevision)
  else if s.status ≠ .running then some (s, none)
  else
    (convertCached p.code false f.cached).bind fun code =>
    (getPcMap p.code f.map).bind fun map =>
    (map.evmToLfvm[s.pc.toNat]?).bind fun pc =>
    (pushAll s.stack.reverse f.data 0).bind fun (data, sp) =>
    let w := wordsOf s.memory.length
    let l : St ω :=
      { pc := pc.toNat, gas := s.gas, refund := s.refund, data := data, sp := sp
        store := s.memory ++ List.replicate (w * 32 - s.memory.length) 0, memCost := w * w / 512 + 3 * w
        returnData := s.lastCallReturnData, world := s.world }
    (stepLoop { db := db, call := call, params := p, code := code, hash := f.hash } numSteps .running l).bind fun (status, l) =>
    (if status = .running then (if 0 ≤ l.pc then map.lfvmToEvm[l.pc.toNat]? else none) else some s.pc).bind fun pc =>
    (ctStack l.data l.sp).map fun stack =>
    ({ status := ctStatus status, pc := pc, gas := l.gas, refund := l.refund, stack := stack, memory := l.store
       lastCallReturnData := l.returnData
       returnData := if status = .returned ∨ status = .reverted then l.returnData else s.returnData
       world := l.world }, none)

end Tosca.Model.Lfvm
