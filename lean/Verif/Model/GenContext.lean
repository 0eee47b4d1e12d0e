import Verif.Model.Gen
import Verif.Model.Solver

/-!
# The generators of block and transaction contexts

go/ct/gen/block_context.go, go/ct/gen/transaction_context.go, go/ct/common/revisions.go.  The conventions are those of `Model/Gen`; maps are iterated in an
arbitrary order, given by a function on lists.  Revisions are numbers, 0 for Istanbul to 5 for Cancun, 99 for the unknown next one.
-/

namespace Tosca.Model.Gen

open Tosca.Go Tosca.Model.Go Tosca.Model.Solver
open Tosca.Spec.Solver (Clause uint64 int64)

variable {σ : Type}

/-! ### Revisions (go/ct/common/revisions.go) -/

/-- `GetForkBlock` (revisions.go:31-48). -/
def forkBlock (revision : Nat) : Nat :=
  match revision with
  | 0 => 0 | 1 => 1000 | 2 => 2000 | 3 => 3000 | 4 => 4000 | 5 => 5000
  | _ => 6000

/-- `GetForkTime` (revisions.go:55-72). -/
def forkTime (revision : Nat) : Nat :=
  match revision with
  | 0 => 0 | 1 => 1000 | 2 => 2000 | 3 => 3000 | 4 => 4000 | 5 => 5000
  | _ => 6000

/-- `GetRevisionForBlock` (revisions.go:75-83). -/
def revisionForBlock (block : Nat) : Nat :=
  match (List.range 7).find? (fun rev => decide (block < forkBlock rev)) with
  | some rev => rev - 1
  | none => 99

/-- `GetBlockRangeLengthFor` (revisions.go:87-101). -/
def blockRangeLength (revision : Nat) : Nat :=
  if revision ≤ 5 then forkBlock (revision + 1) - forkBlock revision else 2 ^ 64 - 1

/-! ### Block context (block_context.go) -/

/-- `BlockContextGenerator` (block_context.go:36-54). -/
structure BlockGenerator where
  solver : Option RangeSolver := none
  range : List (Variable × Bool) := []
  value : List (Variable × Int) := []
  unsatisfiable : Bool := false

/-- `markUnsatisfiable` (block_context.go:401-406). -/
def BlockGenerator.mark (_ : BlockGenerator) : BlockGenerator := { unsatisfiable := true }

/-- `RestrictVariableToOneOfTheLast256Blocks` (`true`) and `RestrictVariableToNoneOfTheLast256Blocks` (`false`, block_context.go:311-343). -/
def BlockGenerator.restrict (g : BlockGenerator) (v : Variable) (inRange : Bool) : BlockGenerator :=
  if g.unsatisfiable then g
  else
    match g.range.find? (fun c => c.1 = v) with
    | some c => if c.2 = inRange then g else g.mark
    | none => { g with range := g.range ++ [(v, inRange)] }

/-- `SetBlockNumberOffsetValue` (block_context.go:347-361). -/
def BlockGenerator.offset (g : BlockGenerator) (v : Variable) (offset : Int) : BlockGenerator :=
  if g.unsatisfiable then g
  else
    match g.value.find? (fun c => c.1 = v) with
    | some c => if c.2 ≠ offset then g.mark else g
    | none => { g with value := g.value ++ [(v, offset)] }

/-- The solver for the block number with one more range (block_context.go:390-395). -/
def BlockGenerator.narrow (g : BlockGenerator) (min max : Nat) : RangeSolver :=
  match g.solver with
  | none => ⟨min, max⟩
  | some s => (s.lower min).upper max

/-- `AddRevisionBounds` (block_context.go:369-399, through `SetRevision`, 364-366) for revisions that are not negative. -/
def BlockGenerator.revisions (g : BlockGenerator) (lower upper : Nat) : BlockGenerator :=
  if g.unsatisfiable then g
  else if lower > upper then g.mark
  else
    let min := forkBlock lower
    let max := forkBlock upper
    let len := blockRangeLength upper
    let max := if len ≥ 2 ^ 64 - 1 - max then 2 ^ 64 - 1 else max + len - 1
    let s := g.narrow min max
    if s.isSatisfiable then { g with solver := some s } else g.mark

/-- `addOffset` (block_context.go:409-416). -/
def addOffset (value : U256) (offset : Int) : U256 × Bool :=
  if offset < 0 then
    let r := value - BitVec.ofNat 256 (Solver.u64 (i64 (-offset)))
    (r, decide (r.toNat > value.toNat))
  else
    let r := value + BitVec.ofNat 256 (Solver.u64 offset)
    (r, decide (r.toNat < value.toNat))

/-- What the fixed offsets of bound variables demand of the block number (block_context.go:72-82). -/
def valueClauses (a : Assignment) : List (Variable × Int) → Option (List Clause)
  | [] => some []
  | (v, offset) :: rest =>
    match a v with
    | some x =>
      let w := addOffset x offset
      if w.2 = true ∨ ¬ w.1.toNat < 2 ^ 64 then none
      else (valueClauses a rest).map fun l => .equals w.1.toNat :: l
    | none => valueClauses a rest

/-- What the ranges demand of the block number (block_context.go:84-117). -/
def rangeClauses (a : Assignment) : List (Variable × Bool) → Option (List Clause)
  | [] => some []
  | (v, inRange) :: rest =>
    match a v with
    | some x =>
      if inRange then
        if ¬ x.toNat < 2 ^ 64 then none
        else if x.toNat + 1 < 2 ^ 64 then
          (rangeClauses a rest).map fun l =>
            .atLeast (x.toNat + 1) :: (if x.toNat + 256 < 2 ^ 64 then [.atMost (x.toNat + 256)] else []) ++ l
        else none
      else if x.toNat < 2 ^ 64 - 1 then
        (rangeClauses a rest).map fun l => .outside (x.toNat + 1) (if x.toNat < 2 ^ 64 - 1 - 256 then x.toNat + 256 else 2 ^ 64 - 1) :: l
      else rangeClauses a rest
    | none => (rangeClauses a rest).map fun l => if inRange then .atLeast 1 :: l else l

/-- `generateBlockNumber` (block_context.go:64-120). -/
def blockNumber (src : Source σ) (g : BlockGenerator) (values : List (Variable × Int)) (ranges : List (Variable × Bool)) (a : Assignment) (s : σ) :
    Option (Nat × σ) :=
  let start : List Clause :=
    match g.solver with
    | some s => [.atLeast s.min, .atMost s.max]
    | none => []
  (valueClauses a values).bind fun l1 =>
  (rangeClauses a ranges).bind fun l2 =>
  let (r, s) := src.solver s
  match generate uint64 ((start ++ l1 ++ l2).foldl (Model.Solver.add uint64) (newInterval 0 (2 ^ 64 - 1))) r with
  | .value x => some (x.toNat, s)
  | _ => none

/-- `bindVariablesInValueConstraints` (block_context.go:123-140). -/
def bindOffsets (number : Nat) : List (Variable × Int) → Assignment → Option Assignment
  | [], a => some a
  | (v, offset) :: rest, a =>
    let w := addOffset (BitVec.ofNat 256 number) (i64 (-offset))
    if w.2 then none
    else bindOffsets number rest (match a v with | some _ => a | none => a.set v w.1)

/-- `isInRange` (block_context.go:424-427). -/
def isInRange (lower : Nat) (x : U256) (upper : Nat) : Bool := decide (x.toNat < 2 ^ 64 ∧ lower ≤ x.toNat ∧ x.toNat ≤ upper)

/-- `bindVariablesInRangeConstraints` (block_context.go:143-175). -/
def bindRanges (src : Source σ) (number : Nat) : List (Variable × Bool) → Assignment → σ → Option (Assignment × σ)
  | [], a, s => some (a, s)
  | (v, inRange) :: rest, a, s =>
    let lower := if number > 256 then number - 256 else 0
    match a v with
    | some x => if inRange ≠ isInRange lower x number then none else bindRanges src number rest a s
    | none =>
      let (r, s) := src.solver s
      if inRange then
        (RangeSolver.generate uint64 ⟨lower, wrap uint64 (number - 1)⟩ r).bind fun x => bindRanges src number rest (a.set v (BitVec.ofInt 256 x)) s
      else
        match generate uint64 (exclude uint64 (newInterval 0 (2 ^ 64 - 1)) (wrap uint64 (number - 256)) (wrap uint64 (number - 1))) r with
        | .value x => bindRanges src number rest (a.set v (BitVec.ofInt 256 x)) s
        | _ => none

/-- The time stamp (block_context.go:207-210); `Uint64n(0)` is 0. -/
def timeStamp (number : Nat) (r : Spec.Solver.Rnd) : Nat :=
  let revision := revisionForBlock number
  let time := forkTime revision
  let next := forkTime (revision + 1)
  (if next - time = 0 then 0 else r.uint64n (next - time)) + time

/-- `BlockContextGenerator.Generate` (block_context.go:177-225): the block number, the time stamp, the variables; the other parts of the context are random. -/
def BlockGenerator.generate (src : Source σ) (orderV : List (Variable × Int) → List (Variable × Int)) (orderR : List (Variable × Bool) → List (Variable × Bool))
    (g : BlockGenerator) (a : Assignment) (s : σ) : Option (Nat × Nat × Assignment × σ) :=
  if g.unsatisfiable then none
  else
    (blockNumber src g (orderV g.value) (orderR g.range) a s).bind fun (number, s) =>
    (bindOffsets number (orderV g.value) a).bind fun a =>
    (bindRanges src number (orderR g.range) a s).map fun (a, s) =>
    let (r, s) := src.solver s
    (number, timeStamp number r, a, s)

/-- A call that adds a constraint. -/
inductive BlockCall
  | revisions (lower upper : Nat)
  | offset (v : Variable) (offset : Int)
  | recent (v : Variable) (isRecent : Bool)

/-- The generator after a call (block_context.go:311-399). -/
def BlockCall.apply (g : BlockGenerator) : BlockCall → BlockGenerator
  | .revisions l u => g.revisions l u
  | .offset v o => g.offset v o
  | .recent v b => g.restrict v b

/-! ### Transaction context (transaction_context.go) -/

/-- The bounds of the number of blob hashes (transaction_context.go:41-61); `none` is an error. -/
def blobBounds (a : Assignment) : List (Variable × Bool) → Nat × Nat → Option (Nat × Nat)
  | [], b => some b
  | (v, present) :: rest, (max, min) =>
    match a v with
    | some x =>
      if present then
        if ¬ x.toNat < 2 ^ 64 then none
        else blobBounds a rest (if x.toNat > max then x.toNat else max, min)
      else blobBounds a rest (max, if x.toNat < 2 ^ 64 ∧ x.toNat < min then x.toNat else min)
    | none => blobBounds a rest (max, min)

/-- The variables that are not bound (transaction_context.go:72-85). -/
def bindBlobs (src : Source σ) (count : Nat) : List (Variable × Bool) → Assignment → σ → Option (Assignment × σ)
  | [], a, s => some (a, s)
  | (v, present) :: rest, a, s =>
    match a v with
    | some _ => bindBlobs src count rest a s
    | none =>
      let solver : RangeSolver := if present then ⟨0, wrap uint64 (count - 1)⟩ else ⟨count, 2 ^ 64 - 1⟩
      let (r, s) := src.solver s
      (solver.generate uint64 r).bind fun x => bindBlobs src count rest (a.set v (BitVec.ofInt 256 x)) s

/-- `TransactionContextGenerator` (transaction_context.go:25-30): the map in some order. -/
structure BlobGenerator where
  indices : List (Variable × Bool) := []
  unsatisfiable : Bool := false

/-- `IsPresentBlobHashIndex` (`true`) and `IsAbsentBlobHashIndex` (`false`, transaction_context.go:143-169, 171-174). -/
def BlobGenerator.require (g : BlobGenerator) (v : Variable) (present : Bool) : BlobGenerator :=
  if g.unsatisfiable then g
  else
    match g.indices.find? (fun c => c.1 = v) with
    | some c => if c.2 = present then g else { unsatisfiable := true }
    | none => { g with indices := g.indices ++ [(v, present)] }

/-- `TransactionContextGenerator.Generate` (transaction_context.go:36-97): the number of blob hashes and the variables. -/
def BlobGenerator.generate (src : Source σ) (order : List (Variable × Bool) → List (Variable × Bool)) (g : BlobGenerator) (a : Assignment) (s : σ) :
    Option (Nat × Assignment × σ) :=
  if g.unsatisfiable then none
  else
    (blobBounds a (order g.indices) (0, 2 ^ 64 - 1)).bind fun (max, min) =>
    if max > min ∨ max = 2 ^ 64 - 1 then none
    else
      let count := if min ≠ 0 then max + 1 else max
      (bindBlobs src count (order g.indices) a s).map fun (a, s) => (count, a, s)

end Tosca.Model.Gen
