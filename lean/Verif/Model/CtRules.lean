import Verif.Model.CtState

/-!
# The conformance specification

go/ct/spc/specification.go and specification_map.go, go/ct/rlz (conditions, expressions, effects).  A rule is a list of conditions and an effect; names
and test parameters are left out.
-/

namespace Tosca.Model.Ct

open Tosca.Go Tosca.Model.Go Tosca.Model.Lfvm

/-! ## Conditions (go/ct/rlz/conditions.go, expressions.go) -/

/-- `Pc()` and `Param(i)`. -/
inductive Pos
  | pc | param (i : Nat)
  deriving DecidableEq

/-- The conditions used in the specification.  `ValueParam(i)` differs from `Param(i)` only in how tests are generated. -/
inductive Cond
  | status (s : CtStatus)
  | op (p : Pos) (o : Nat)
  | opNe (p : Pos) (o : Nat)
  | revision (lo hi : Int)
  | gasGe (n : Int)
  | gasLt (n : Int)
  | stackGe (n : Nat)
  | stackLt (n : Nat)
  | stackLe (n : Nat)
  | readOnly (b : Bool)
  | paramEq (i : Nat) (v : U256)
  | paramNe (i : Nat) (v : U256)
  | isCode (p : Pos)
  | isData (p : Pos)
  | storageWarm (i : Nat)
  | storageCold (i : Nat)
  | storageConfig (s : StorageStatus) (key value : Nat)
  | transientNonZero (i : Nat)
  | transientZero (i : Nat)
  | accountEmpty (i : Nat)
  | accountNotEmpty (i : Nat)
  | addressWarm (i : Nat)
  | addressCold (i : Nat)
  | selfHasFunds
  | selfHasNoFunds
  | selfDestructed
  | notSelfDestructed
  | inRange256 (i : Nat)
  | outOfRange256 (i : Nat)
  | hasBlobHash (i : Nat)
  | hasNoBlobHash (i : Nat)
  deriving DecidableEq

/-- `param.Eval` (expressions.go:351-357); `none` is an error. -/
def param (s : S) (i : Nat) : Option U256 := s.stack[i]?

/-- `pc.Eval`, `param.Eval` (expressions.go:101-103). -/
def evalPos (s : S) : Pos → Option U256
  | .pc => some (ofU64 (s.pc.setWidth 64))
  | .param i => param s i

/-- Positions beyond `MaxInt` are behind the code (conditions.go:394-396, 444-446, expressions.go:271-273). -/
def tooFar (pos : U256) : Bool := !isUint64 pos || decide ((uint64 pos).toNat > 2 ^ 63 - 1)

/-- `op.Eval` (expressions.go:264-280). -/
def evalOp (x : Fixed) (s : S) (p : Pos) : Option Nat :=
  (evalPos s p).bind fun pos => if tooFar pos = true then some 0 else getOperation x.code (uint64 pos).toNat

/-- `isCode.Check` (conditions.go:389-398). -/
def checkIsCode (x : Fixed) (s : S) (p : Pos) : Option Bool :=
  (evalPos s p).map fun pos => if tooFar pos = true then true else isCode x.code (uint64 pos).toNat

/-- `inRange256FromCurrentBlock.Check` (conditions.go:901-916). -/
def checkInRange (x : Fixed) (s : S) (i : Nat) : Option Bool :=
  (param s i).map fun n =>
    if isUint64 n = false then false
    else
      let bottom : BitVec 64 := if x.block.blockNumber > 256 then x.block.blockNumber - 256 else 0
      decide (bottom ≤ uint64 n) && decide (uint64 n < x.block.blockNumber)

/-- `hasBlobHash.Check` (conditions.go:985-995). -/
def checkHasBlobHash (x : Fixed) (s : S) (i : Nat) : Option Bool :=
  (param s i).map fun n => if isUint64 n = false then false else decide (uint64 n < BitVec.ofNat 64 x.blobHashes.length)

/-- `Check` of the conditions; `none` is an error. -/
def Cond.check (x : Fixed) (s : S) : Cond → Option Bool
  | .status st => some (decide (s.status = st))
  | .op p o => (evalOp x s p).map fun v => decide (v = o)
  | .opNe p o => (evalOp x s p).map fun v => decide (v ≠ o)
  | .revision lo hi => some (decide (lo ≤ x.revision) && decide (x.revision ≤ hi))
  | .gasGe n => some (decide (s.gas ≥ n))
  | .gasLt n => some (decide (s.gas < n))
  | .stackGe n => some (decide (s.stack.length ≥ n))
  | .stackLt n => some (decide (s.stack.length < n))
  | .stackLe n => some (decide (s.stack.length ≤ n))
  | .readOnly b => some (decide (x.readOnly = b))
  | .paramEq i v => (param s i).map fun p => decide (p = v)
  | .paramNe i v => (param s i).map fun p => decide (p ≠ v)
  | .isCode p => checkIsCode x s p
  | .isData p => (checkIsCode x s p).map (!·)
  | .storageWarm i => (param s i).map fun k => s.world.warmKeys k
  | .storageCold i => (param s i).map fun k => !s.world.warmKeys k
  | .storageConfig st k v => (param s k).bind fun key => (param s v).map fun value =>
      decide (st = getStorageStatus (s.world.getOriginal key) (s.world.getCurrent key) value)
  | .transientNonZero i => (param s i).map fun k => !decide (s.world.getTransient k = 0)
  | .transientZero i => (param s i).map fun k => decide (s.world.getTransient k = 0)
  | .accountEmpty i => (param s i).map fun a => s.world.isEmpty (bytes20 a)
  | .accountNotEmpty i => (param s i).map fun a => !s.world.isEmpty (bytes20 a)
  | .addressWarm i => (param s i).map fun a => s.world.warmAccounts (bytes20 a)
  | .addressCold i => (param s i).map fun a => !s.world.warmAccounts (bytes20 a)
  | .selfHasFunds => some (decide ((s.world.account x.account).balance.toNat > 0))
  | .selfHasNoFunds => some (decide ((s.world.account x.account).balance = 0))
  | .selfDestructed => some s.world.hasSelfDestructed
  | .notSelfDestructed => some (!s.world.hasSelfDestructed)
  | .inRange256 i => checkInRange x s i
  | .outOfRange256 i => (checkInRange x s i).map (!·)
  | .hasBlobHash i => checkHasBlobHash x s i
  | .hasNoBlobHash i => (checkHasBlobHash x s i).map (!·)

/-- `AnyKnownRevision` (conditions.go:336-339). -/
def anyKnownRevision : Cond := .revision 0 5

/-- `IsRevisionCondition` (conditions.go:331-334). -/
def Cond.isRevision : Cond → Bool
  | .revision _ _ => true
  | _ => false

/-! ## Rules -/

/-- What an effect does to a state; `none` is a panic. -/
abbrev Effect := Fixed → S → Option S

/-- `Rule` (go/ct/rlz/rules.go:26-31). -/
structure Rule where
  conds : List Cond
  effect : Effect

/-- `conjunction.Check` (conditions.go:63-71) and its use: the rule applies if no condition is false and none has an error. -/
def Rule.applies (r : Rule) (x : Fixed) (s : S) : Bool := r.conds.all fun c => c.check x s = some true

/-- `NoEffect` (go/ct/rlz/effect.go:46-48). -/
def noEffect : Effect := fun _ s => some s

/-- `FailEffect` (effect.go:50-55). -/
def failEffect : Effect := fun _ s => some { s with status := .failed, gas := 0 }

/-- `s.Status = st.Failed; return`. -/
def failed (s : S) : Option S := some { s with status := .failed }

/-- `Stack.Pop` (go/ct/st/stack.go); a panic if there is nothing. -/
def pop (s : S) : Option (U256 × S) :=
  match s.stack with
  | [] => none
  | a :: r => some (a, { s with stack := r })

/-- `Stack.Push`. -/
def push (s : S) (v : U256) : S := { s with stack := v :: s.stack }

/-- `instruction` (specification.go:42-51) without parameters and name. -/
structure Instruction where
  op : Nat
  staticGas : Int := 0
  pops : Nat := 0
  pushes : Nat := 0
  conditions : List Cond := []
  effect : Effect := noEffect

/-- `tooLittleGas` (specification.go:2321-2332). -/
def tooLittleGas (i : Instruction) : Rule :=
  ⟨i.conditions ++ [anyKnownRevision, .status .running, .op .pc i.op, .gasLt i.staticGas], failEffect⟩

/-- `notEnoughSpace` (specification.go:2334-2345). -/
def notEnoughSpace (i : Instruction) : Rule :=
  ⟨i.conditions ++ [anyKnownRevision, .status .running, .op .pc i.op, .stackGe 1024], failEffect⟩

/-- `tooFewElements` (specification.go:2347-2358): without the conditions of the instruction. -/
def tooFewElements (i : Instruction) : Rule :=
  ⟨[anyKnownRevision, .status .running, .op .pc i.op, .stackLt i.pops], failEffect⟩

/-- The regular rule of `rulesFor` (specification.go:2376-2398). -/
def regular (i : Instruction) : Rule :=
  ⟨i.conditions ++ [.status .running, .op .pc i.op, .gasGe i.staticGas, .stackGe i.pops, .stackLe (1024 - (i.pushes - i.pops))] ++
      (if i.conditions.any Cond.isRevision then [] else [anyKnownRevision]),
    fun x s => i.effect x { s with gas := s.gas - i.staticGas, pc := s.pc + 1 }⟩

/-- `rulesFor` (specification.go:2365-2400). -/
def rulesFor (i : Instruction) : List Rule :=
  (if i.staticGas > 0 then [tooLittleGas i] else []) ++ (if i.pops > 0 then [tooFewElements i] else []) ++
    (if i.pushes > i.pops then [notEnoughSpace i] else []) ++ [regular i]

/-! ## Helpers of effects -/

/-- `sumWithOverflow` of `int64` values (specification.go:2655-2666); `none` if it overflows. -/
def sumGas : List Int → Int → Option Int
  | [], res => some res
  | cur :: r, res => if i64 (res + cur) < res then none else sumGas r (i64 (res + cur))

/-- `RightPadSlice` (go/ct/common/slices.go:13-17). -/
def rightPad (source : List Byte) (size : Nat) : List Byte := source.take size ++ List.replicate (size - source.length) 0

/-- `data[start:end]`; a panic if this is not a range within the data. -/
def sub (data : List Byte) (start stop : Nat) : Option (List Byte) :=
  if start ≤ stop ∧ stop ≤ data.length then some ((data.drop start).take (stop - start)) else none

/-- Charging for memory and more, then going on (`if s.Gas < cost || overflow { s.Status = st.Failed; return }; s.Gas -= cost`). -/
def pay (s : S) (cost : Option Int) (k : S → Option S) : Option S :=
  match cost with
  | none => failed s
  | some cost => if s.gas < cost then failed s else k { s with gas := s.gas - cost }

/-! ## Instructions -/

/-- The loop of the dynamic cost of EXP (specification.go:170-178). -/
def expCost (bytes : List Byte) : Int :=
  match bytes.findIdx? (· ≠ 0) with
  | some i => 50 * (32 - i : Nat)
  | none => 0

/-- `binaryOpWithDynamicCost` (specification.go:1850-1880). -/
def binaryOpWithDynamicCost (op : Nat) (costs : Int) (effect : U256 → U256 → U256) (dynamicCost : U256 → U256 → Int) : List Rule :=
  rulesFor { op := op, staticGas := costs, pops := 2, pushes := 1, effect := fun _ s => do
    let (a, s) ← pop s
    let (b, s) ← pop s
    pay s (some (dynamicCost a b)) fun s => some (push s (effect a b)) }

/-- `binaryOp` (specification.go:1882-1888). -/
def binaryOp (op : Nat) (costs : Int) (effect : U256 → U256 → U256) : List Rule := binaryOpWithDynamicCost op costs effect fun _ _ => 0

/-- `trinaryOp` (specification.go:1890-1914). -/
def trinaryOp (op : Nat) (costs : Int) (effect : U256 → U256 → U256 → U256) : List Rule :=
  rulesFor { op := op, staticGas := costs, pops := 3, pushes := 1, effect := fun _ s => do
    let (a, s) ← pop s
    let (b, s) ← pop s
    let (c, s) ← pop s
    some (push s (effect a b c)) }

/-- `unaryOp` (specification.go:1916-1935). -/
def unaryOp (op : Nat) (costs : Int) (effect : U256 → U256) : List Rule :=
  rulesFor { op := op, staticGas := costs, pops := 1, pushes := 1, effect := fun _ s => do
    let (a, s) ← pop s
    some (push s (effect a)) }

/-- Instructions that push a value of the environment (specification.go:681-709, 969-1098 and others). -/
def constOp (op : Nat) (costs : Int) (value : Fixed → S → U256) (conditions : List Cond := []) : List Rule :=
  rulesFor { op := op, staticGas := costs, pops := 0, pushes := 1, conditions := conditions, effect := fun x s => some (push s (value x s)) }

/-- SHA3 (specification.go:265-297). -/
def sha3 (keccak : List Byte → U256) : List Rule :=
  rulesFor { op := 0x20, staticGas := 30, pops := 2, pushes := 1, effect := fun _ s => do
    let (offset256, s) ← pop s
    let (size256, s) ← pop s
    let (memExpCost, offset, size) := expansionCosts s.memory offset256 size256
    pay s (some memExpCost) fun s => pay s (some (s64 (6 * sizeInWords size))) fun s => do
      let (hash, m) ← hashMem keccak s.memory offset size
      some (push { s with memory := m } hash) }

/-- Instructions looking at another account (specification.go:299-346, 1100-1159): cold, warm and before Berlin. -/
def accountOp (op : Nat) (value : World → Address → U256) : List Rule :=
  rulesFor { op := op, staticGas := 2600, pops := 1, pushes := 1, conditions := [.revision 1 5, .addressCold 0], effect := fun _ s => do
    let (a, s) ← pop s
    let s := push s (value s.world (bytes20 a))
    some { s with world := s.world.markWarm (bytes20 a) } } ++
  rulesFor { op := op, staticGas := 100, pops := 1, pushes := 1, conditions := [.revision 1 5, .addressWarm 0], effect := fun _ s => do
    let (a, s) ← pop s
    some (push s (value s.world (bytes20 a))) } ++
  rulesFor { op := op, staticGas := 700, pops := 1, pushes := 1, conditions := [.revision 0 0], effect := fun _ s => do
    let (a, s) ← pop s
    some (push s (value s.world (bytes20 a))) }

/-- MLOAD (specification.go:350-371). -/
def mload : List Rule :=
  rulesFor { op := 0x51, staticGas := 3, pops := 1, pushes := 1, effect := fun _ s => do
    let (offset256, s) ← pop s
    let (cost, offset, _) := expansionCosts s.memory offset256 32
    pay s (some cost) fun s => do
      let (bytes, m) ← readMem s.memory offset 32
      some (push { s with memory := m } (setBytes bytes)) }

/-- MSTORE (specification.go:375-398). -/
def mstore : List Rule :=
  rulesFor { op := 0x52, staticGas := 3, pops := 2, pushes := 0, effect := fun _ s => do
    let (offset256, s) ← pop s
    let (value, s) ← pop s
    let (cost, offset, _) := expansionCosts s.memory offset256 32
    pay s (some cost) fun s => do
      let m ← writeMem s.memory (bytes32 value) offset
      some { s with memory := m } }

/-- MSTORE8 (specification.go:402-425). -/
def mstore8 : List Rule :=
  rulesFor { op := 0x53, staticGas := 3, pops := 2, pushes := 0, effect := fun _ s => do
    let (offset256, s) ← pop s
    let (value, s) ← pop s
    let (cost, offset, _) := expansionCosts s.memory offset256 1
    pay s (some cost) fun s => do
      let m ← writeMem s.memory [(bytes32 value).getD 31 0] offset
      some { s with memory := m } }

/-- SLOAD (specification.go:429-486): cold, warm and before Berlin. -/
def sload : List Rule :=
  rulesFor { op := 0x54, staticGas := 2100, pops := 1, pushes := 1, conditions := [.revision 1 5, .storageCold 0], effect := fun _ s => do
    let (k, s) ← pop s
    let s := push s (s.world.getCurrent k)
    some { s with world := s.world.markWarmKey k } } ++
  rulesFor { op := 0x54, staticGas := 100, pops := 1, pushes := 1, conditions := [.revision 1 5, .storageWarm 0], effect := fun _ s => do
    let (k, s) ← pop s
    some (push s (s.world.getCurrent k)) } ++
  rulesFor { op := 0x54, staticGas := 800, pops := 1, pushes := 1, conditions := [.revision 0 0], effect := fun _ s => do
    let (k, s) ← pop s
    some (push s (s.world.getCurrent k)) }

/-- `sstoreOpParams` (specification.go:2018-2024). -/
structure SstoreParams where
  revision : Int
  warm : Bool := false
  config : StorageStatus
  gasCost : Int
  gasRefund : Int := 0

/-- The first entries of `sstoreRules` (specification.go:490-526). -/
def sstoreIstanbulBerlin : List SstoreParams :=
  [{ revision := 0, config := .assigned, gasCost := 800 },
   { revision := 0, config := .added, gasCost := 20000 },
   { revision := 0, config := .addedDeleted, gasCost := 800, gasRefund := 19200 },
   { revision := 0, config := .deletedRestored, gasCost := 800, gasRefund := -10800 },
   { revision := 0, config := .deletedAdded, gasCost := 800, gasRefund := -15000 },
   { revision := 0, config := .deleted, gasCost := 5000, gasRefund := 15000 },
   { revision := 0, config := .modified, gasCost := 5000 },
   { revision := 0, config := .modifiedDeleted, gasCost := 800, gasRefund := 15000 },
   { revision := 0, config := .modifiedRestored, gasCost := 800, gasRefund := 4200 },
   { revision := 1, warm := false, config := .added, gasCost := 22100 },
   { revision := 1, warm := false, config := .deleted, gasCost := 5000, gasRefund := 15000 },
   { revision := 1, warm := false, config := .modified, gasCost := 5000 },
   { revision := 1, warm := true, config := .assigned, gasCost := 100 },
   { revision := 1, warm := true, config := .added, gasCost := 20000 },
   { revision := 1, warm := true, config := .addedDeleted, gasCost := 100, gasRefund := 19900 },
   { revision := 1, warm := true, config := .deletedRestored, gasCost := 100, gasRefund := -12200 },
   { revision := 1, warm := true, config := .deletedAdded, gasCost := 100, gasRefund := -15000 },
   { revision := 1, warm := true, config := .deleted, gasCost := 2900, gasRefund := 15000 },
   { revision := 1, warm := true, config := .modified, gasCost := 2900 },
   { revision := 1, warm := true, config := .modifiedDeleted, gasCost := 100, gasRefund := 15000 },
   { revision := 1, warm := true, config := .modifiedRestored, gasCost := 100, gasRefund := 2800 }]

/-- The entries for one later revision (specification.go:528-553). -/
def sstoreLater (rev : Int) : List SstoreParams :=
  [{ revision := rev, warm := false, config := .added, gasCost := 22100 },
   { revision := rev, warm := false, config := .deleted, gasCost := 5000, gasRefund := 4800 },
   { revision := rev, warm := false, config := .modified, gasCost := 5000 },
   { revision := rev, warm := true, config := .assigned, gasCost := 100 },
   { revision := rev, warm := true, config := .added, gasCost := 20000 },
   { revision := rev, warm := true, config := .addedDeleted, gasCost := 100, gasRefund := 19900 },
   { revision := rev, warm := true, config := .deletedRestored, gasCost := 100, gasRefund := -2000 },
   { revision := rev, warm := true, config := .deletedAdded, gasCost := 100, gasRefund := -4800 },
   { revision := rev, warm := true, config := .deleted, gasCost := 2900, gasRefund := 4800 },
   { revision := rev, warm := true, config := .modified, gasCost := 2900 },
   { revision := rev, warm := true, config := .modifiedDeleted, gasCost := 100, gasRefund := 4800 },
   { revision := rev, warm := true, config := .modifiedRestored, gasCost := 100, gasRefund := 2800 }]

/-- `sstoreRules` (specification.go:490-553). -/
def sstoreTable : List SstoreParams := sstoreIstanbulBerlin ++ sstoreLater 2 ++ sstoreLater 3 ++ sstoreLater 4 ++ sstoreLater 5

/-- The gas limit of SSTORE rules (specification.go:2029-2032, 2105-2108). -/
def sstoreLimit (p : SstoreParams) : Int := if p.gasCost > 2301 then p.gasCost else 2301

/-- The conditions on the access status (specification.go:2044-2052, 2087-2095). -/
def sstoreAccess (p : SstoreParams) : List Cond :=
  if p.revision ≥ 1 then (if p.warm = true then [.storageWarm 0] else [.storageCold 0]) else []

/-- `sstoreOpRegular` (specification.go:2026-2072). -/
def sstoreOpRegular (p : SstoreParams) : Rule :=
  ⟨[.revision p.revision p.revision, .status .running, .op .pc 0x55, .gasGe (sstoreLimit p), .readOnly false, .stackGe 2, .storageConfig p.config 0 1] ++
      sstoreAccess p,
    fun x s => do
      let s : S := { s with refund := i64 (s.refund + p.gasRefund), gas := s.gas - p.gasCost, pc := s.pc + 1 }
      let (key, s) ← pop s
      let (value, s) ← pop s
      let s := { s with world := s.world.setCurrent key value }
      if x.revision ≥ 1 then some { s with world := s.world.markWarmKey key } else some s⟩

/-- `sstoreOpTooLittleGas` (specification.go:2074-2107). -/
def sstoreOpTooLittleGas (p : SstoreParams) : Rule :=
  ⟨[.revision p.revision p.revision, .status .running, .op .pc 0x55, .gasLt p.gasCost, .readOnly false, .stackGe 2, .storageConfig p.config 0 1] ++
      sstoreAccess p, failEffect⟩

/-- `sstoreOpReadOnlyMode` (specification.go:2102-2129): without a condition on the access status. -/
def sstoreOpReadOnlyMode (p : SstoreParams) : Rule :=
  ⟨[.revision p.revision p.revision, .status .running, .op .pc 0x55, .gasGe (sstoreLimit p), .readOnly true, .stackGe 2, .storageConfig p.config 0 1],
    failEffect⟩

/-- SSTORE (specification.go:555-562). -/
def sstore : List Rule :=
  sstoreTable.flatMap (fun p => [sstoreOpRegular p, sstoreOpTooLittleGas p, sstoreOpReadOnlyMode p]) ++
    [tooLittleGas { op := 0x55, staticGas := 2300 }, tooFewElements { op := 0x55, staticGas := 2, pops := 2 }]

/-- JUMP (specification.go:566-615). -/
def jump : List Rule :=
  rulesFor { op := 0x56, staticGas := 8, pops := 1, pushes := 0, conditions := [.isCode (.param 0), .op (.param 0) 0x5b], effect := fun _ s => do
    let (target, s) ← pop s
    some { s with pc := (uint64 target).setWidth 16 } } ++
  [⟨[anyKnownRevision, .status .running, .op .pc 0x56, .gasGe 8, .stackGe 1, .isData (.param 0)], failEffect⟩,
   ⟨[anyKnownRevision, .status .running, .op .pc 0x56, .gasGe 8, .stackGe 1, .isCode (.param 0), .opNe (.param 0) 0x5b], failEffect⟩]

/-- JUMPI (specification.go:619-692). -/
def jumpi : List Rule :=
  rulesFor { op := 0x57, staticGas := 10, pops := 2, pushes := 0, conditions := [.isCode (.param 0), .op (.param 0) 0x5b, .paramNe 1 0]
             effect := fun _ s => do
    let (target, s) ← pop s
    let (_, s) ← pop s
    some { s with pc := (uint64 target).setWidth 16 } } ++
  [⟨[anyKnownRevision, .status .running, .op .pc 0x57, .gasGe 10, .stackGe 2, .paramEq 1 0], fun _ s => do
      let s : S := { s with gas := s.gas - 10 }
      let (_, s) ← pop s
      let (_, s) ← pop s
      some { s with pc := s.pc + 1 }⟩,
   ⟨[anyKnownRevision, .status .running, .op .pc 0x57, .gasGe 10, .stackGe 2, .isData (.param 0), .paramNe 1 0], failEffect⟩,
   ⟨[anyKnownRevision, .status .running, .op .pc 0x57, .gasGe 10, .stackGe 2, .isCode (.param 0), .opNe (.param 0) 0x5b, .paramNe 1 0], failEffect⟩]

/-- JUMPDEST (specification.go:732-738). -/
def jumpdest : List Rule := rulesFor { op := 0x5b, staticGas := 1, pops := 0, pushes := 0 }

/-- TLOAD (specification.go:742-789). -/
def tload : List Rule :=
  rulesFor { op := 0x5c, staticGas := 100, pops := 1, pushes := 1, conditions := [.revision 5 5, .transientNonZero 0], effect := fun _ s => do
    let (key, s) ← pop s
    some (push s (s.world.getTransient key)) } ++
  rulesFor { op := 0x5c, staticGas := 100, pops := 1, pushes := 1, conditions := [.revision 5 5, .transientZero 0], effect := fun _ s => do
    let (_, s) ← pop s
    some (push s 0) } ++
  [⟨[.revision 0 4, .status .running, .op .pc 0x5c], failEffect⟩]

/-- TSTORE (specification.go:793-857). -/
def tstore : List Rule :=
  let effect : Effect := fun _ s => do
    let (key, s) ← pop s
    let (value, s) ← pop s
    some { s with world := s.world.setTransient key value }
  rulesFor { op := 0x5d, staticGas := 100, pops := 2, pushes := 0, conditions := [.revision 5 5, .readOnly false, .transientNonZero 0], effect := effect } ++
  rulesFor { op := 0x5d, staticGas := 100, pops := 2, pushes := 0, conditions := [.revision 5 5, .readOnly false, .transientZero 0], effect := effect } ++
  [⟨[.revision 0 4, .status .running, .op .pc 0x5d], failEffect⟩,
   ⟨[anyKnownRevision, .status .running, .op .pc 0x5d, .readOnly true], failEffect⟩]

/-- PUSH0 (specification.go:861-887). -/
def push0 : List Rule :=
  constOp 0x5f 2 (fun _ _ => 0) [.revision 4 5] ++
  [⟨[.revision 0 3, .status .running, .op .pc 0x5f, .gasGe 2, .stackLt 1023], failEffect⟩]

/-- MCOPY (specification.go:891-934). -/
def mcopy : List Rule :=
  rulesFor { op := 0x5e, staticGas := 3, pops := 3, pushes := 0, conditions := [.revision 5 5], effect := fun _ s => do
    let (destOffset256, s) ← pop s
    let (offset256, s) ← pop s
    let (size256, s) ← pop s
    let (srcCost, srcOffset, size) := expansionCosts s.memory offset256 size256
    let (destCost, destOffset, _) := expansionCosts s.memory destOffset256 size256
    let wordCountCost := s64 (3 * sizeInWords size)
    let expansionCost := max srcCost destCost
    pay s (sumGas [expansionCost, wordCountCost] 0) fun s => do
      let (value, m) ← readMem s.memory srcOffset size
      let m ← writeMem m value destOffset
      some { s with memory := m } } ++
  [⟨[.revision 0 4, .status .running, .op .pc 0x5e], failEffect⟩]

/-- The loop of `pushOp` (specification.go:1945-1953). -/
def pushData (code : List Byte) (pc : Nat) : Nat → Option (List Byte)
  | 0 => some []
  | n + 1 => (pushData code pc n).bind fun l => (getData code (pc + n)).map fun b => l ++ [b]

/-- `pushOp` (specification.go:1937-1959). -/
def pushOp (n : Nat) : List Rule :=
  rulesFor { op := 0x60 + n - 1, staticGas := 3, pops := 0, pushes := 1, effect := fun x s => do
    let data ← pushData x.code s.pc.toNat n
    let s := push s (setBytes data)
    some { s with pc := s.pc + BitVec.ofNat 16 n } }

/-- POP (specification.go:944-952). -/
def popOp : List Rule :=
  rulesFor { op := 0x50, staticGas := 2, pops := 1, pushes := 0, effect := fun _ s => do
    let (_, s) ← pop s
    some s }

/-- `dupOp` (specification.go:1963-1975). -/
def dupOp (n : Nat) : List Rule :=
  rulesFor { op := 0x80 + n - 1, staticGas := 3, pops := n, pushes := n + 1, effect := fun _ s => do
    let v ← s.stack[n - 1]?
    some (push s v) }

/-- `swapOp` (specification.go:1979-1994). -/
def swapOp (n : Nat) : List Rule :=
  rulesFor { op := 0x90 + n - 1, staticGas := 3, pops := n + 1, pushes := n + 1, effect := fun _ s => do
    let a ← s.stack[0]?
    let b ← s.stack[n]?
    some { s with stack := (s.stack.set 0 b).set n a } }

/-- The topics loop of `logOp` (specification.go:2157-2160). -/
def popTopics : Nat → S → Option (List U256 × S)
  | 0, s => some ([], s)
  | n + 1, s => do
    let (t, s) ← pop s
    let (r, s) ← popTopics n s
    some (t :: r, s)

/-- `logOp` (specification.go:2131-2198). -/
def logOp (n : Nat) : List Rule :=
  rulesFor { op := 0xa0 + n, staticGas := 375 + 375 * n, pops := 2 + n, pushes := 0, conditions := [.readOnly false], effect := fun _ s => do
    let (offset256, s) ← pop s
    let (size256, s) ← pop s
    let (topics, s) ← popTopics n s
    let (memExpCost, offset, size) := expansionCosts s.memory offset256 size256
    pay s (some memExpCost) fun s => pay s (some (s64 (8 * size))) fun s => do
      let (data, m) ← readMem s.memory offset size
      some { s with memory := m, world := s.world.addLog data topics } } ++
  [⟨[anyKnownRevision, .status .running, .op .pc (0xa0 + n), .gasGe (375 + 375 * n), .readOnly true, .stackGe (2 + n)], failEffect⟩]

/-- BLOCKHASH (specification.go:1003-1040). -/
def blockhash : List Rule :=
  rulesFor { op := 0x40, staticGas := 20, pops := 1, pushes := 1, conditions := [.inRange256 0], effect := fun x s => do
    let (target, s) ← pop s
    let index := x.block.blockNumber - uint64 target
    if (index - 1).toNat < 256 then some (push s (x.hashes (index - 1).toNat)) else none } ++
  rulesFor { op := 0x40, staticGas := 20, pops := 1, pushes := 1, conditions := [.outOfRange256 0], effect := fun _ s => do
    let (_, s) ← pop s
    some (push s 0) }

/-- The part of the source from `offset` on and its end for a copy of `size` bytes (specification.go:1444-1448, 1513-1518, 2003-2008). -/
def copySource (source : List Byte) (offset256 : U256) (size : BitVec 64) : Option (List Byte) :=
  let len := BitVec.ofNat 64 source.length
  let start := if offset256.toNat > len.toNat then len else uint64 offset256
  let stop := if start + size ≤ len then start + size else len
  sub source start.toNat stop.toNat

/-- `extCodeCopyEffect` (specification.go:1996-2016). -/
def extCodeCopyEffect (markWarm : Bool) : Effect := fun _ s => do
  let (a, s) ← pop s
  let (destOffset256, s) ← pop s
  let (offset256, s) ← pop s
  let (size256, s) ← pop s
  let (cost, destOffset, size) := expansionCosts s.memory destOffset256 size256
  pay s (sumGas [cost, s64 (3 * sizeInWords size)] 0) fun s => do
    let code ← copySource (s.world.account (bytes20 a)).code.data offset256 size
    let m ← writeMem s.memory (rightPad code size.toNat) destOffset
    let s := { s with memory := m }
    some (if markWarm = true then { s with world := s.world.markWarm (bytes20 a) } else s)

/-- EXTCODECOPY (specification.go:1163-1220). -/
def extcodecopy : List Rule :=
  rulesFor { op := 0x3c, staticGas := 2600, pops := 4, pushes := 0, conditions := [.revision 1 5, .addressCold 0], effect := extCodeCopyEffect true } ++
  rulesFor { op := 0x3c, staticGas := 100, pops := 4, pushes := 0, conditions := [.revision 1 5, .addressWarm 0], effect := extCodeCopyEffect false } ++
  rulesFor { op := 0x3c, staticGas := 700, pops := 4, pushes := 0, conditions := [.revision 0 0], effect := extCodeCopyEffect false }

/-- BASEFEE and BLOBBASEFEE (specification.go:1235-1260, 1309-1333): an instruction that came with revision `since`. -/
def lateOp (op : Nat) (since : Int) (value : Fixed → U256) : List Rule :=
  constOp op 2 (fun x _ => value x) [.revision since 5] ++ [⟨[.revision 0 (since - 1), .status .running, .op .pc op], failEffect⟩]

/-- BLOBHASH (specification.go:1264-1307). -/
def blobhash : List Rule :=
  rulesFor { op := 0x49, staticGas := 3, pops := 1, pushes := 1, conditions := [.revision 5 5, .hasBlobHash 0], effect := fun x s => do
    let (index, s) ← pop s
    let h ← x.blobHashes[(uint64 index).toNat]?
    some (push s h) } ++
  rulesFor { op := 0x49, staticGas := 3, pops := 1, pushes := 1, conditions := [.revision 5 5, .hasNoBlobHash 0], effect := fun _ s => do
    let (_, s) ← pop s
    some (push s 0) } ++
  [⟨[.revision 0 4, .status .running, .op .pc 0x49], failEffect⟩]

/-- One combination of EXTCODEHASH (specification.go:1340-1392). -/
def extcodehashFor (revision : Int) (warm isEmpty : Bool) : List Rule :=
  rulesFor
    { op := 0x3f, staticGas := if revision < 1 then 700 else if warm = true then 100 else 2600, pops := 1, pushes := 1
      conditions := [.revision revision revision, if warm = true then .addressWarm 0 else .addressCold 0,
        if isEmpty = true then .accountEmpty 0 else .accountNotEmpty 0]
      effect := fun _ s => do
        let (a, s) ← pop s
        let s := if s.world.isEmpty (bytes20 a) = true then push s 0 else push s (s.world.codeHash (bytes20 a))
        some (if revision ≥ 1 ∧ warm = false then { s with world := s.world.markWarm (bytes20 a) } else s) }

/-- The revisions, Istanbul to Cancun. -/
def revisions : List Int := [0, 1, 2, 3, 4, 5]

/-- `[]bool{true, false}`. -/
def bools : List Bool := [true, false]

/-- EXTCODEHASH (specification.go:1337-1394). -/
def extcodehash : List Rule := revisions.flatMap fun r => bools.flatMap fun w => bools.flatMap fun e => extcodehashFor r w e

/-- CODECOPY and CALLDATACOPY (specification.go:1424-1459, 1493-1524). -/
def copyOp (op : Nat) (source : Fixed → List Byte) : List Rule :=
  rulesFor { op := op, staticGas := 3, pops := 3, pushes := 0, effect := fun x s => do
    let (destOffset256, s) ← pop s
    let (offset256, s) ← pop s
    let (size256, s) ← pop s
    let (cost, destOffset, size) := expansionCosts s.memory destOffset256 size256
    pay s (sumGas [cost, s64 (3 * sizeInWords size)] 0) fun s => do
      let data ← copySource (source x) offset256 size
      let m ← writeMem s.memory (rightPad data size.toNat) destOffset
      some { s with memory := m } }

/-- CALLDATALOAD (specification.go:1463-1489). -/
def calldataload : List Rule :=
  rulesFor { op := 0x35, staticGas := 3, pops := 1, pushes := 1, effect := fun x s => do
    let (offset256, s) ← pop s
    if isUint64 offset256 = true then do
      let len := BitVec.ofNat 64 x.callData.length
      let start := if uint64 offset256 > len then len else uint64 offset256
      let stop := if start + 32 ≤ len then start + 32 else len
      let data ← sub x.callData start.toNat stop.toNat
      some (push s (setBytes (rightPad data 32)))
    else some (push s 0) }

/-- RETURNDATACOPY (specification.go:1563-1599). -/
def returndatacopy : List Rule :=
  rulesFor { op := 0x3e, staticGas := 3, pops := 3, pushes := 0, effect := fun _ s => do
    let (memOffset256, s) ← pop s
    let (dataOffset256, s) ← pop s
    let (size256, s) ← pop s
    let dataOffset := uint64 dataOffset256
    let readUntil := dataOffset + uint64 size256
    if isUint64 dataOffset256 = false ∨ isUint64 size256 = false ∨ readUntil < dataOffset ∨ readUntil > BitVec.ofNat 64 s.lastCallReturnData.length then
      failed s
    else
      let (cost, memOffset, size) := expansionCosts s.memory memOffset256 size256
      pay s (sumGas [cost, s64 (3 * sizeInWords size)] 0) fun s => do
        let data ← sub s.lastCallReturnData dataOffset.toNat readUntil.toNat
        let m ← writeMem s.memory data memOffset
        some { s with memory := m } }

/-- RETURN and REVERT (specification.go:1603-1655). -/
def haltOp (op : Nat) (status : CtStatus) : List Rule :=
  rulesFor { op := op, staticGas := 0, pops := 2, pushes := 0, effect := fun _ s => do
    let (offset256, s) ← pop s
    let (size256, s) ← pop s
    let (cost, offset, size) := expansionCosts s.memory offset256 size256
    pay s (some cost) fun s => do
      let (data, m) ← readMem s.memory offset size
      some { s with memory := m, returnData := data, status := status } }

/-- `callEffect` (specification.go:2539-2653); the call instructions are told apart by their opcodes. -/
def callEffect (addrAccessCost : Int) (op : Nat) : Effect := fun x s => do
  let (gas, s) ← pop s
  let (target, s) ← pop s
  let (value, s) ← if op = 0xf1 ∨ op = 0xf2 then pop s else some (0, s)
  let (argsOffset, s) ← pop s
  let (argsSize, s) ← pop s
  let (retOffset, s) ← pop s
  let (retSize, s) ← pop s
  let (inputCost, argsOffset64, argsSize64) := expansionCosts s.memory argsOffset argsSize
  let (outputCost, retOffset64, retSize64) := expansionCosts s.memory retOffset retSize
  let memoryExpansionCost := if inputCost < outputCost then outputCost else inputCost
  let positiveValueCost : Int := if value ≠ 0 then 9000 else 0
  let valueToEmptyAccountCost : Int := if value ≠ 0 ∧ s.world.isEmpty (bytes20 target) = true ∧ op ≠ 0xf2 then 25000 else 0
  pay s (sumGas [memoryExpansionCost, positiveValueCost, valueToEmptyAccountCost, addrAccessCost] 0) fun s => do
    let s := if x.revision ≥ 1 then { s with world := s.world.markWarm (bytes20 target) } else s
    let s := { s with memory := grow (grow s.memory argsOffset64 argsSize64) retOffset64 retSize64 }
    let limit := s.gas - s.gas.tdiv 64
    let endowment := if isUint64 gas = true ∧ uint64 gas < u64 limit then s64 (uint64 gas) else limit
    let stipend : Int := if value ≠ 0 then 2300 else 0
    let s := { s with gas := i64 (s.gas + stipend) }
    let (input, m) ← readMem s.memory argsOffset64 argsSize64
    let s := { s with memory := m }
    if value ≠ 0 ∧ (s.world.account x.account).balance.toNat < value.toNat then
      some { push s 0 with lastCallReturnData := [] }
    else do
      let (kind, sender, recipient, value) : Kind × Address × Address × U256 :=
        if op = 0xf4 then (.delegateCall, x.caller, x.account, x.value)
        else if op = 0xf2 then (.callCode, x.account, x.account, value)
        else (.call, x.account, bytes20 target, value)
      let kind := if (x.readOnly = true ∧ op = 0xf1) ∨ op = 0xfa then .staticCall else kind
      let (res, w) := s.world.call kind
        { sender := sender, recipient := recipient, value := value, gas := i64 (endowment + stipend), input := input, codeAddress := bytes20 target }
      let s := { s with world := w }
      let m ← if retSize64.toNat > 0 then writeMem s.memory (res.output.take retSize64.toNat) retOffset64 else some s.memory
      let s := { s with memory := m, gas := s.gas - (i64 (endowment + stipend) - res.gasLeft), refund := i64 (s.refund + res.gasRefund)
                        lastCallReturnData := res.output }
      some (push s (if res.success = true then 1 else 0))

/-- `getRulesForCall` (specification.go:2432-2537). -/
def getRulesForCall (op : Nat) (revision : Int) (warm zeroValue : Bool) (fails : Bool) (static : Bool) : List Rule :=
  let addressAccessCost : Int := if revision = 0 then 0 else if warm = true then 100 else 2600
  let hasValue := op = 0xf1 ∨ op = 0xf2
  rulesFor
    { op := op, staticGas := if revision = 0 then 700 else 0, pops := if hasValue then 7 else 6, pushes := 1
      conditions := [.revision revision revision, if warm = true then .addressWarm 1 else .addressCold 1, .readOnly static] ++
        (if hasValue then [if zeroValue = true then .paramEq 2 0 else .paramNe 2 0] else [])
      effect := if fails = true then failEffect else callEffect addressAccessCost op }

/-- `getRulesForAllCallTypes` (specification.go:2402-2430). -/
def callRules : List Rule :=
  [0xf1, 0xf2, 0xfa, 0xf4].flatMap fun op => revisions.flatMap fun rev => bools.flatMap fun warm => bools.flatMap fun static =>
    bools.flatMap fun zeroValue =>
      getRulesForCall op rev warm zeroValue (decide (op = 0xf1) && static && !zeroValue) static

/-- `selfDestructEffect` (specification.go:2263-2319). -/
def selfDestructEffect : Effect := fun x s => do
  let (b, s) ← pop s
  let beneficiary := bytes20 b
  let balance := (s.world.account x.account).balance
  let cold : Bool := decide (x.revision > 0) && !s.world.warmAccounts beneficiary
  let s := if cold = true then { s with world := s.world.markWarm beneficiary } else s
  let cost : Int := (if cold = true then 2600 else 0) + (if balance ≠ 0 ∧ s.world.isEmpty beneficiary = true then 25000 else 0)
  pay s (some cost) fun s =>
    let refund : Int := if x.revision < 2 ∧ s.world.hasSelfDestructed = false then 24000 else 0
    some { s with refund := i64 (s.refund + refund), world := s.world.recordSelfDestruct x.account beneficiary, status := .stopped }

/-- `makeSelfDestructRules` (specification.go:2200-2261). -/
def makeSelfDestructRules (revision : Int) (funds destructed empty warm : Bool) : List Rule :=
  rulesFor
    { op := 0xff, staticGas := 5000, pops := 1, pushes := 0
      conditions := [.readOnly false, .revision revision revision, if funds = true then .selfHasFunds else .selfHasNoFunds,
        if destructed = true then .selfDestructed else .notSelfDestructed, if empty = true then .accountEmpty 0 else .accountNotEmpty 0,
        if warm = true then .addressWarm 0 else .addressCold 0]
      effect := selfDestructEffect }

/-- SELFDESTRUCT (specification.go:1663-1693). -/
def selfdestruct : List Rule :=
  (revisions.flatMap fun rev => bools.flatMap fun funds => bools.flatMap fun empty => bools.flatMap fun warm => bools.flatMap fun destructed =>
    makeSelfDestructRules rev funds destructed empty warm) ++
  rulesFor { op := 0xff, staticGas := 5000, pops := 1, pushes := 0, conditions := [.readOnly true, anyKnownRevision], effect := failEffect }

/-- `createEffect` (specification.go:1774-1848). -/
def createEffect (is2 : Bool) : Effect := fun x s => do
  let (value, s) ← pop s
  let (offset256, s) ← pop s
  let (size256, s) ← pop s
  let (memExpCost, offset, size) := expansionCosts s.memory offset256 size256
  if x.revision ≥ 4 ∧ (isUint64 size256 = false ∨ size.toNat > 49152) then failed s
  else match (if x.revision ≥ 4 then sumGas [memExpCost, s64 (2 * sizeInWords size)] 0 else some memExpCost) with
    | none => failed s
    | some dynamicGas => do
      let (salt, s) ← if is2 = true then pop s else some (0, s)
      pay s (if is2 = true then sumGas [dynamicGas, s64 (6 * sizeInWords size)] 0 else some dynamicGas) fun s => do
        let (input, m) ← readMem s.memory offset size
        let s := { s with memory := m }
        if value ≠ 0 ∧ (s.world.account x.account).balance.toNat < value.toNat then
          some { push s (ofBytes20 0) with lastCallReturnData := [] }
        else do
          let limit := s.gas - s.gas.tdiv 64
          let (res, w) := s.world.call (if is2 = true then .create2 else .create)
            { sender := x.account, value := value, gas := limit, input := input, salt := salt }
          let s := { s with world := w, gas := s.gas - (limit - res.gasLeft), refund := i64 (s.refund + res.gasRefund) }
          if res.success = false then some { push s (ofBytes20 0) with lastCallReturnData := res.output }
          else some (push { s with lastCallReturnData := [] } (ofBytes20 res.createdAddress))

/-- CREATE and CREATE2 (specification.go:1697-1768).  In static mode, CREATE2 is described with three operands. -/
def create : List Rule :=
  rulesFor { op := 0xf0, staticGas := 32000, pops := 3, pushes := 1, conditions := [.readOnly true], effect := failEffect } ++
  rulesFor { op := 0xf0, staticGas := 32000, pops := 3, pushes := 1, conditions := [.readOnly false], effect := createEffect false } ++
  rulesFor { op := 0xf5, staticGas := 32000, pops := 3, pushes := 1, conditions := [.readOnly true], effect := failEffect } ++
  rulesFor { op := 0xf5, staticGas := 32000, pops := 4, pushes := 1, conditions := [.readOnly false], effect := createEffect true }

/-- `vm.IsValid` (go/tosca/vm/opcodes.go:501-680). -/
def isValid (op : Nat) : Bool :=
  decide (op ≤ 0x0b) || decide (0x10 ≤ op ∧ op ≤ 0x1d) || decide (op = 0x20) || decide (0x30 ≤ op ∧ op ≤ 0x4a) || decide (0x50 ≤ op ∧ op ≤ 0xa4) ||
    decide (0xf0 ≤ op ∧ op ≤ 0xf5) || decide (op = 0xfa) || decide (op = 0xfd) || decide (op = 0xff)

/-- The rules for ended states and unknown revisions (specification.go:71-98, 121-127), for invalid instructions (102-117) and STOP (131-143). -/
def basicRules : List Rule :=
  [⟨[anyKnownRevision, .status .stopped], noEffect⟩, ⟨[anyKnownRevision, .status .reverted], noEffect⟩, ⟨[anyKnownRevision, .status .failed], noEffect⟩,
   ⟨[.isData .pc], noEffect⟩] ++
  ((List.range 256).filter (fun op => !isValid op)).map (fun op => ⟨[.status .running, .op .pc op, anyKnownRevision], failEffect⟩) ++
  [⟨[.revision 99 99], failEffect⟩,
   ⟨[anyKnownRevision, .status .running, .op .pc 0x00], fun _ s => some { s with status := .stopped, returnData := [], pc := s.pc + 1 }⟩]

/-- Arithmetic, comparisons and bits (specification.go:147-261). -/
def wordRules : List Rule :=
  binaryOp 0x01 3 wAdd ++ binaryOp 0x02 5 wMul ++ binaryOp 0x03 3 wSub ++ binaryOp 0x04 5 wDiv ++ binaryOp 0x05 5 wSDiv ++ binaryOp 0x06 5 wMod ++
  binaryOp 0x07 5 wSMod ++ trinaryOp 0x08 8 wAddMod ++ trinaryOp 0x09 8 wMulMod ++
  binaryOpWithDynamicCost 0x0a 10 (fun a e => expW 256 a e 1) (fun _ e => expCost (bytes32 e)) ++ binaryOp 0x0b 5 wSignExtend ++
  binaryOp 0x10 3 wLt ++ binaryOp 0x11 3 wGt ++ binaryOp 0x12 3 wSlt ++ binaryOp 0x13 3 wSgt ++ binaryOp 0x14 3 wEq ++
  unaryOp 0x15 3 (fun a => flag (a == 0)) ++ binaryOp 0x16 3 wAnd ++ binaryOp 0x17 3 wOr ++ binaryOp 0x18 3 wXor ++ unaryOp 0x19 3 (fun a => ~~~a) ++
  binaryOp 0x1a 3 (fun i x => if i.toNat > 31 then 0 else ofU64 (((bytes32 x).getD (uint64 i).toNat 0).setWidth 64)) ++
  binaryOp 0x1b 3 wShl ++ binaryOp 0x1c 3 wShr ++ binaryOp 0x1d 3 wSar

/-- Instructions pushing values of the environment. -/
def environmentRules : List Rule :=
  constOp 0x58 2 (fun _ s => ofU64 (s.pc.setWidth 64 - 1)) ++ constOp 0x59 2 (fun _ s => ofU64 (BitVec.ofNat 64 s.memory.length)) ++
  constOp 0x5a 2 (fun _ s => ofU64 (u64 s.gas)) ++
  constOp 0x30 2 (fun x _ => ofBytes20 x.account) ++ constOp 0x32 2 (fun x _ => ofBytes20 x.origin) ++ constOp 0x33 2 (fun x _ => ofBytes20 x.caller) ++
  constOp 0x34 2 (fun x _ => x.value) ++ constOp 0x43 2 (fun x _ => ofU64 x.block.blockNumber) ++ constOp 0x41 2 (fun x _ => ofBytes20 x.block.coinBase) ++
  constOp 0x45 2 (fun x _ => ofU64 x.block.gasLimit) ++ constOp 0x44 2 (fun x _ => x.block.prevRandao) ++ constOp 0x3a 2 (fun x _ => x.block.gasPrice) ++
  constOp 0x42 2 (fun x _ => ofU64 x.block.timeStamp) ++ constOp 0x46 2 (fun x _ => x.block.chainId) ++
  constOp 0x38 2 (fun x _ => ofU64 (BitVec.ofNat 64 x.code.length)) ++ constOp 0x36 2 (fun x _ => ofU64 (BitVec.ofNat 64 x.callData.length)) ++
  constOp 0x47 5 (fun x s => (s.world.account x.account).balance) ++
  constOp 0x3d 2 (fun _ s => ofU64 (BitVec.ofNat 64 s.lastCallReturnData.length))

/-- `getAllRules` (specification.go:62-1772), in another order. -/
def allRules (keccak : List Byte → U256) : List Rule :=
  basicRules ++ wordRules ++ environmentRules ++ sha3 keccak ++ accountOp 0x31 (fun w a => (w.account a).balance) ++
  accountOp 0x3b (fun w a => ofU64 (BitVec.ofNat 64 (w.account a).code.data.length)) ++ mload ++ mstore ++ mstore8 ++ sload ++ sstore ++ jump ++ jumpi ++
  jumpdest ++ tload ++ tstore ++ push0 ++ mcopy ++ ((List.range 32).flatMap fun i => pushOp (i + 1)) ++ popOp ++
  ((List.range 16).flatMap fun i => dupOp (i + 1)) ++ ((List.range 16).flatMap fun i => swapOp (i + 1)) ++ ((List.range 5).flatMap fun i => logOp i) ++
  blockhash ++ extcodecopy ++ lateOp 0x48 2 (fun x => x.block.baseFee) ++ blobhash ++ lateOp 0x4a 5 (fun x => x.block.blobBaseFee) ++ extcodehash ++
  copyOp 0x39 (fun x => x.code) ++ copyOp 0x37 (fun x => x.callData) ++ calldataload ++ returndatacopy ++ haltOp 0xf3 .stopped ++ haltOp 0xfd .reverted ++
  callRules ++ selfdestruct ++ create

/-! ## Finding rules (go/ct/spc/specification_map.go) -/

/-- The opcode of a condition `code[PC] = op`: what the regular expression of `ruleToOpString` (specification_map.go:74) matches. -/
def Cond.opcode : Cond → Option Nat
  | .op .pc o => some o
  | _ => none

/-- `ruleToOpString` (specification_map.go:70-83): the opcode of the first condition `code[PC] = op`; `none` is "noOp". -/
def Rule.key (r : Rule) : Option Nat := r.conds.findSome? Cond.opcode

/-- The key of a state (specification_map.go:49-58). -/
def keyOf (x : Fixed) (s : S) : Option Nat :=
  match getOperation x.code s.pc.toNat with
  | none => none
  | some op => if x.revision = 99 ∨ s.status ≠ .running then none else some op

/-- `NewSpecificationMap` and `GetRulesFor` (specification_map.go:37-68). -/
def getRulesFor (rules : List Rule) (x : Fixed) (s : S) : List Rule :=
  (rules.filter fun r => r.key = keyOf x s).filter fun r => r.applies x s

end Tosca.Model.Ct
