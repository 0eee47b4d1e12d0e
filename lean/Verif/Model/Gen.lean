import Verif.Model.Solver
import Verif.Model.CtState
import Mathlib.Data.List.Dedup
import Mathlib.Data.List.Sort

/-!
# The test generators

go/ct/gen: the generators of code, stack, storage and transient storage.  Errors are reduced to `none` (the assignment is unspecified then); assignments
are not nil; machine integers that count positions are mathematical integers.  Random numbers come from an arbitrary source; loops that draw until
a condition holds have a bound on the number of draws, `none` if it is exceeded.  Maps are iterated in the order of a list.
-/

namespace Tosca.Model.Gen

open Tosca.Go Tosca.Model.Go

variable {σ : Type}

/-- The source of random numbers (`pgregory.net/rand`, third-party): `Intn` and `Int31n`, the low byte of `Int`,
`int(ExpFloat64()/(1/expectedSize))`, `Read`, `RandU256` (go/ct/common/u256.go:74-81), and what a solver draws. -/
structure Source (σ : Type) where
  intn : Nat → σ → Nat × σ
  int : σ → Byte × σ
  exp : σ → Nat × σ
  read : Nat → σ → List Byte × σ
  word : σ → U256 × σ
  solver : σ → Spec.Solver.Rnd × σ

/-- `Variable` (assignment.go:30). -/
abbrev Variable := String

/-- `Assignment` (assignment.go:38). -/
abbrev Assignment := Variable → Option U256

/-- `assignment[v] = value`. -/
def Assignment.set (a : Assignment) (v : Variable) (value : U256) : Assignment := fun u => if u = v then some value else a u

/-! ### Code (code.go) -/

/-- `constOpConstraint` (code.go:38-41). -/
structure ConstOp where
  pos : Int
  op : Byte
  deriving DecidableEq, Repr

/-- `CodeGenerator` (code.go:27-35). -/
structure CodeGenerator where
  constOps : List ConstOp := []
  varOps : List (Variable × Byte) := []
  isCode : List Variable := []
  isData : List Variable := []
  codeSize : Option Nat := none

/-- `OpCode.Width` (go/tosca/vm/opcodes.go:171-177). -/
def width (op : Byte) : Nat := if 0x60 ≤ op.toNat ∧ op.toNat ≤ 0x7f then op.toNat - 0x60 + 2 else 1

/-- `ValidOpCodesNoPush` (go/tosca/vm/opcodes.go:180-192, 507-658). -/
def validOpCodesNoPush : List Byte :=
  (((List.range 256).filter fun i => i ≤ 0x0b || (0x10 ≤ i && i ≤ 0x1d) || i = 0x20 || (0x30 ≤ i && i ≤ 0x4a) || (0x50 ≤ i && i ≤ 0x5e) ||
    (0x80 ≤ i && i ≤ 0xa4) || (0xf0 ≤ i && i ≤ 0xf5) || i = 0xfa || i = 0xfd || i = 0xff).map (BitVec.ofNat 8))

/-- `Used` (code.go:346-352). -/
inductive Used
  | isUnused | isCode | isData
  deriving DecidableEq, Repr

/-- `varCodeConstraintSolver` (code.go:338-344) without the code size. -/
structure CodeSolver (σ : Type) where
  ops : List ConstOp
  assignment : Assignment
  used : Int → Used
  rnd : σ

/-- `markUsed` (code.go:395-400). -/
def markUsed (used : Int → Used) (pos : Int) (op : Byte) : Int → Used := fun q =>
  if pos < q ∧ q < pos + width op then .isData else if q = pos then .isCode else used q

/-- `newVarCodeConstraintSolver` (code.go:356-368). -/
def newCodeSolver (constOps : List ConstOp) (a : Assignment) (s : σ) : CodeSolver σ :=
  { ops := constOps, assignment := a, used := constOps.foldl (fun u c => markUsed u c.pos c.op) fun _ => .isUnused, rnd := s }

/-- `fits` (code.go:403-413). -/
def fits (size : Nat) (used : Int → Used) (pos : Nat) (op : Byte) : Bool :=
  if (width op : Int) > size - pos then false
  else (List.range (width op)).all fun i => decide (used (pos + i) = .isUnused)

/-- `largestFit` (code.go:417-425). -/
def largestFit (size : Nat) (used : Int → Used) (pos : Nat) : Nat :=
  ((List.range 33).takeWhile fun n => decide (pos + n < size ∧ used ((pos : Int) + n) = .isUnused)).length

/-- The loops that look for a position, starting anywhere and going round (code.go:446-456, 488-498, 534-556); `none` if there is no suitable one. -/
def search (ok : Nat → Bool) (size start : Nat) : Nat → Nat → Option Nat
  | 0, _ => none
  | fuel + 1, pos =>
    if ok pos then some pos
    else
      let pos := if pos + 1 ≥ size then 0 else pos + 1
      if pos = start then none else search ok size start fuel pos

/-- `solveVarOps` (code.go:433-468). -/
def solveVarOps (src : Source σ) (size : Nat) : List (Variable × Byte) → (Variable → Option Byte) → CodeSolver σ → Option (CodeSolver σ)
  | [], _, s => some s
  | (v, op) :: rest, bound, s =>
    match bound v with
    | some op' => if op' ≠ op then none else solveVarOps src size rest bound s
    | none =>
      let (start, r) := src.intn size s.rnd
      match search (fun pos => fits size s.used pos op) size start size start with
      | none => none
      | some pos =>
        solveVarOps src size rest (fun u => if u = v then some op else bound u)
          { ops := s.ops ++ [⟨pos, op⟩], assignment := s.assignment.set v (BitVec.ofNat 256 pos), used := markUsed s.used pos op, rnd := r }

/-- The second half of the loop body of `solveIsCode` (code.go:485-509). -/
def placeCode (src : Source σ) (size : Nat) (v : Variable) (s : CodeSolver σ) : Option (CodeSolver σ) :=
  let (start, r) := src.intn size s.rnd
  match search (fun pos => decide (s.used pos ≠ .isData)) size start size start with
  | none => none
  | some pos =>
    if s.used pos = .isUnused then
      let (k, r) := src.intn validOpCodesNoPush.length r
      let op := validOpCodesNoPush.getD k 0
      some { ops := s.ops ++ [⟨pos, op⟩], assignment := s.assignment.set v (BitVec.ofNat 256 pos), used := markUsed s.used pos op, rnd := r }
    else some { s with assignment := s.assignment.set v (BitVec.ofNat 256 pos), rnd := r }

/-- `solveIsCode` (code.go:470-512). -/
def solveIsCode (src : Source σ) (size : Nat) : List Variable → CodeSolver σ → Option (CodeSolver σ)
  | [], s => some s
  | v :: rest, s =>
    match s.assignment v with
    | some pos =>
      if ¬ pos.toNat < size then none
      else if s.used pos.toNat = .isCode then solveIsCode src size rest s
      else (placeCode src size v s).bind (solveIsCode src size rest)
    | none => (placeCode src size v s).bind (solveIsCode src size rest)

/-- The second half of the loop body of `solveIsData` (code.go:525-569). -/
def placeData (src : Source σ) (size : Nat) (v : Variable) (s : CodeSolver σ) : Option (CodeSolver σ) :=
  let (start, r) := src.intn size s.rnd
  match search (fun pos => decide (s.used pos = .isData) || (decide (s.used pos = .isUnused) && decide (largestFit size s.used pos ≥ 2))) size start size start with
  | none => none
  | some pos =>
    if s.used pos = .isUnused then
      let (k, r) := src.intn (largestFit size s.used pos - 1) r
      let pushOp : Byte := BitVec.ofNat 8 (0x60 + k)
      let (d, r) := src.intn (pushOp.toNat - 0x60 + 1) r
      some { ops := s.ops ++ [⟨pos, pushOp⟩], assignment := s.assignment.set v (BitVec.ofNat 256 (pos + 1 + d)), used := markUsed s.used pos pushOp, rnd := r }
    else some { s with assignment := s.assignment.set v (BitVec.ofNat 256 pos), rnd := r }

/-- `solveIsData` (code.go:514-574). -/
def solveIsData (src : Source σ) (size : Nat) : List Variable → CodeSolver σ → Option (CodeSolver σ)
  | [], s => some s
  | v :: rest, s =>
    match s.assignment v with
    | some pos =>
      if pos.toNat < size ∧ s.used pos.toNat = .isCode then none
      else (placeData src size v s).bind (solveIsData src size rest)
    | none => (placeData src size v s).bind (solveIsData src size rest)

/-- The next operation at position `i` (code.go:218-239): the operation, the constraints that remain. -/
def pick (src : Source σ) (i : Nat) (next : ConstOp) (rest : List ConstOp) (s : σ) : Byte × List ConstOp × σ :=
  if (i : Int) = next.pos then (next.op, rest, s)
  else
    let maxDataSize := next.pos - i - 1
    let limit : Nat := if maxDataSize < 32 then (0x60 + maxDataSize - 1).toNat else 0x7f
    let (op, s) := src.int s
    (if limit < op.toNat ∧ op.toNat ≤ 0x7f then BitVec.ofNat 8 limit else op, next :: rest, s)

/-- The loop that writes the code (code.go:207-262), from position `i` on: `acc` is what is written, never more than `size` bytes. -/
def build (src : Source σ) (size : Nat) : Nat → Nat → List ConstOp → List Byte → σ → Option (List Byte × σ)
  | 0, _, _, _, _ => none
  | _ + 1, _, [], _, _ => none
  | fuel + 1, i, next :: rest, acc, s =>
    if i ≥ size then none
    else if next.pos < i then none
    else
      let (op, ops, s) := pick src i next rest s
      match ops with
      | [] =>
        let (data, s) := src.read (size - (i + 1)) s
        some (acc ++ [op] ++ data, s)
      | c :: ops =>
        if 0x60 ≤ op.toNat ∧ op.toNat ≤ 0x7f then
          let w := op.toNat - 0x60 + 1
          let last := if i + 1 + w > size then size else i + 1 + w
          let (data, s) := src.read (last - (i + 1)) s
          build src size fuel (i + w + 1) (c :: ops) (acc ++ [op] ++ data) s
        else build src size fuel (i + 1) (c :: ops) (acc ++ [op]) s

/-- The constraints on bound variables become constant ones (code.go:85-96); `none` is an error. -/
def bindOps (a : Assignment) : List (Variable × Byte) → Option (List ConstOp × List (Variable × Byte))
  | [] => some ([], [])
  | (v, op) :: rest =>
    match a v with
    | some value =>
      if ¬ value.toNat < 2 ^ 64 ∨ value.toNat > 24576 then none
      else (bindOps a rest).map fun (ops, vars) => (⟨value.toNat, op⟩ :: ops, vars)
    | none => (bindOps a rest).map fun (ops, vars) => (ops, (v, op) :: vars)

/-- The size the code has to have at least (code.go:98-140). -/
def minSize (g : CodeGenerator) (ops : List ConstOp) (varOps : List (Variable × Byte)) : Int :=
  let m : Int := ops.foldl (fun m c => if c.pos > m then c.pos + 1 else m) 0
  let m : Int := varOps.foldl (fun (m : Int) c => m + (width c.2 : Int)) m
  let m := max m (varOps.map (·.2) ++ ops.map (·.op)).dedup.length
  let m := if m = 0 ∧ g.isCode.length > 0 then 1 else m
  if g.isData.length > 0 ∧ m < 2 then 2 else m

/-- The size of the code (code.go:142-158). -/
def chooseSize (src : Source σ) (g : CodeGenerator) (least : Int) (s : σ) : Option (Nat × σ) :=
  match g.codeSize with
  | some n => if (n : Int) < least then none else some (n, s)
  | none =>
    let (x, s) := src.exp s
    some (if (x : Int) + least > 24576 then 24576 else (x + least).toNat, s)

/-- The constraints on variables (code.go:160-168, 372-393). -/
def solveAll (src : Source σ) (g : CodeGenerator) (size : Nat) (ops : List ConstOp) (vars : List (Variable × Byte)) (a : Assignment) (s : σ) :
    Option (CodeSolver σ) :=
  if vars.length + g.isCode.length + g.isData.length ≠ 0 then
    ((solveVarOps src size vars (fun _ => none) (newCodeSolver ops a s)).bind (solveIsCode src size g.isCode)).bind (solveIsData src size g.isData)
  else some { ops := ops, assignment := a, used := fun _ => .isUnused, rnd := s }

/-- The code (code.go:170-271). -/
def writeCode (src : Source σ) (size : Nat) (ops : List ConstOp) (s : σ) : Option (List Byte × σ) :=
  if ops.length = 0 then some (src.read size s)
  else
    let sorted := ops.insertionSort fun x y => x.pos ≤ y.pos
    if ((sorted.getLast?.map ConstOp.pos).getD 0 : Int) ≥ size then none
    else build src size (size + 1) 0 sorted [] s

/-- `CodeGenerator.Generate` (code.go:82-271). -/
def CodeGenerator.generate (src : Source σ) (g : CodeGenerator) (a : Assignment) (s : σ) : Option (List Byte × Assignment × σ) :=
  (bindOps a g.varOps).bind fun b =>
  (chooseSize src g (minSize g (g.constOps ++ b.1) b.2) s).bind fun z =>
  (solveAll src g z.1 (g.constOps ++ b.1) b.2 a z.2).bind fun t =>
  (writeCode src z.1 t.ops t.rnd).map fun r => (r.1, t.assignment, r.2)

/-! ### Stack (stack.go) -/

/-- `StackGenerator` (stack.go:24-28): the constants and variables with their positions from the top. -/
structure StackGenerator where
  size : Model.Solver.RangeSolver
  constValues : List (Int × U256) := []
  varValues : List (Int × Variable) := []

/-- The constraints with the values of variables (stack.go:88-101); `none`: a variable is not bound. -/
def bindValues (a : Assignment) : List (Int × Variable) → Option (List (Int × U256))
  | [] => some []
  | (pos, v) :: rest =>
    match a v with
    | none => none
    | some value => (bindValues a rest).map fun l => (pos, value) :: l

/-- `maxPositionInValues` (stack.go:135-143). -/
def maxPosition (l : List (Int × U256)) : Int := l.foldl (fun m c => if c.1 > m then c.1 else m) (-1)

/-- The loop over the constraints (stack.go:114-124): the slots from the top, those that are set (a position behind the end would panic). -/
def applyValues : List (Int × U256) → List (Option U256) → Option (List (Option U256))
  | [], slots => some slots
  | (pos, value) :: rest, slots =>
    if pos < 0 then none
    else
      match slots[pos.toNat]? with
      | some none => applyValues rest (slots.set pos.toNat (some value))
      | _ => none

/-- The remaining slots (stack.go:126-131). -/
def fillSlots (src : Source σ) : List (Option U256) → σ → List U256 × σ
  | [], s => ([], s)
  | some v :: rest, s => let (l, s) := fillSlots src rest s; (v :: l, s)
  | none :: rest, s =>
    let (v, s) := src.word s
    let (l, s) := fillSlots src rest s
    (v :: l, s)

/-- `StackGenerator.Generate` (stack.go:86-133): the stack from its top.  The lower boundary added to the generator itself is not kept. -/
def StackGenerator.generate (src : Source σ) (g : StackGenerator) (a : Assignment) (s : σ) : Option (List U256 × σ) :=
  (bindValues a g.varValues).bind fun l =>
  let constraints := g.constValues ++ l
  let (r, s) := src.solver s
  ((g.size.lower (maxPosition constraints + 1)).generate Spec.Solver.int64 r).bind fun size =>
  (applyValues constraints (List.replicate size.toNat none)).map fun slots => fillSlots src slots s

/-! ### Values drawn until they are suitable -/

/-- A random word that is suitable, drawn at most `n` times (storage.go:136-145, 155-162; transient_storage.go:63-71). -/
def drawUntil (src : Source σ) (ok : U256 → Bool) : Nat → σ → Option (U256 × σ)
  | 0, _ => none
  | n + 1, s =>
    let (x, s) := src.word s
    if ok x then some (x, s) else drawUntil src ok n s

/-! ### Storage (storage.go) -/

/-- `storageConfigConstraint` (storage.go:30-34). -/
structure StorageConfig where
  config : StorageStatus
  key : Variable
  newValue : Variable
  deriving DecidableEq, Repr

/-- `StorageGenerator` (storage.go:25-28): the constraints in the order in which `Generate` goes through them (it sorts them). -/
structure StorageGenerator where
  cfg : List StorageConfig := []
  warmCold : List (Variable × Bool) := []

/-- `NewValueMustBeZero` (storage.go:56-60). -/
def newValueMustBeZero (c : StorageStatus) : Bool := c = .addedDeleted || c = .deleted || c = .modifiedDeleted
/-- `NewValueMustNotBeZero` (storage.go:62-69). -/
def newValueMustNotBeZero (c : StorageStatus) : Bool :=
  c = .assigned || c = .added || c = .deletedRestored || c = .deletedAdded || c = .modified || c = .modifiedRestored

/-- `st.Storage` (go/ct/st/storage.go:21-25): maps. -/
structure GenStorage where
  current : U256 → Option U256 := fun _ => none
  original : U256 → Option U256 := fun _ => none
  warm : U256 → Bool := fun _ => false

/-- `SetCurrent` of the builder (go/ct/st/storage.go:43-49). -/
def GenStorage.setCurrent (t : GenStorage) (k v : U256) : GenStorage := { t with current := fun x => if x = k then some v else t.current x }
/-- `SetOriginal` of the builder (go/ct/st/storage.go:51-57). -/
def GenStorage.setOriginal (t : GenStorage) (k v : U256) : GenStorage := { t with original := fun x => if x = k then some v else t.original x }
/-- `SetWarm` of the builder (go/ct/st/storage.go:59-67): nothing is done for `false`. -/
def GenStorage.setWarm (t : GenStorage) (k : U256) (value : Bool) : GenStorage :=
  if value then { t with warm := fun x => if x = k then true else t.warm x } else t

/-- What the generation of storage works on: the storage, the variables, the keys in use, the random numbers. -/
structure StorageRun (σ : Type) where
  storage : GenStorage := {}
  assignment : Assignment
  used : U256 → Bool
  rnd : σ

/-- `getUnusedKey` (storage.go:136-145). -/
def unusedKey (src : Source σ) (fuel : Nat) (t : StorageRun σ) : Option (U256 × StorageRun σ) :=
  (drawUntil src (fun k => !t.used k) fuel t.rnd).map fun (k, s) => (k, { t with used := fun x => if x = k then true else t.used x, rnd := s })

/-- `getKey` (storage.go:147-154). -/
def getKey (src : Source σ) (fuel : Nat) (v : Variable) (t : StorageRun σ) : Option (U256 × StorageRun σ) :=
  match t.assignment v with
  | some k => some (k, t)
  | none => (unusedKey src fuel t).map fun (k, t) => (k, { t with assignment := t.assignment.set v k })

/-- `randValueButNot` (storage.go:155-162). -/
def butNot (src : Source σ) (fuel : Nat) (exclusive : List U256) (s : σ) : Option (U256 × σ) :=
  drawUntil src (fun x => !exclusive.contains x) fuel s

/-- The new value (storage.go:170-192); `none` is a conflict. -/
def pickNewValue (src : Source σ) (fuel : Nat) (c : StorageConfig) (t : StorageRun σ) : Option (U256 × StorageRun σ) :=
  match t.assignment c.newValue with
  | some x => if (x = 0 ∧ newValueMustNotBeZero c.config) ∨ (x ≠ 0 ∧ newValueMustBeZero c.config) then none else some (x, t)
  | none =>
    let drawn : Option (U256 × σ) :=
      if newValueMustBeZero c.config then some (0, t.rnd)
      else if newValueMustNotBeZero c.config then butNot src fuel [0] t.rnd
      else
        let (n, s) := src.intn 5 t.rnd
        if n = 0 then some (0, s) else some (src.word s)
    drawn.map fun (x, s) => (x, { t with assignment := t.assignment.set c.newValue x, rnd := s })

/-- The original and the current value (storage.go:194-222). -/
def pickValues (src : Source σ) (fuel : Nat) (config : StorageStatus) (newValue : U256) (s : σ) : Option ((U256 × U256) × σ) :=
  match config with
  | .added => some ((0, 0), s)
  | .addedDeleted => (butNot src fuel [0] s).map fun (c, s) => ((0, c), s)
  | .deletedRestored => some ((newValue, 0), s)
  | .deletedAdded => (butNot src fuel [0, newValue] s).map fun (o, s) => ((o, 0), s)
  | .deleted => (butNot src fuel [0] s).map fun (o, s) => ((o, o), s)
  | .modified => (butNot src fuel [0, newValue] s).map fun (o, s) => ((o, o), s)
  | .modifiedDeleted => (butNot src fuel [0] s).bind fun (o, s) => (butNot src fuel [0, o] s).map fun (c, s) => ((o, c), s)
  | .modifiedRestored => (butNot src fuel [0, newValue] s).map fun (c, s) => ((newValue, c), s)
  | .assigned => (butNot src fuel [0, newValue] s).bind fun (o, s) => (butNot src fuel [0, o, newValue] s).map fun (c, s) => ((o, c), s)

/-- One storage configuration (storage.go:167-226). -/
def placeConfig (src : Source σ) (fuel : Nat) (c : StorageConfig) (t : StorageRun σ) : Option (StorageRun σ) :=
  (getKey src fuel c.key t).bind fun (key, t) =>
  (pickNewValue src fuel c t).bind fun (newValue, t) =>
  (pickValues src fuel c.config newValue t.rnd).map fun (v, s) =>
  { t with storage := (t.storage.setOriginal key v.1).setCurrent key v.2, rnd := s }

/-- One warm/cold constraint (storage.go:229-236). -/
def placeWarm (src : Source σ) (fuel : Nat) (c : Variable × Bool) (t : StorageRun σ) : Option (StorageRun σ) :=
  (getKey src fuel c.1 t).map fun (key, t) =>
  let t : StorageRun σ :=
    if (t.storage.original key).isSome then t
    else
      let (o, s) := src.word t.rnd
      let (n, s) := src.word s
      { t with storage := (t.storage.setOriginal key o).setCurrent key n, rnd := s }
  { t with storage := t.storage.setWarm key c.2 }

/-- The random entries (storage.go:239-244). -/
def randomEntries (src : Source σ) (fuel : Nat) : Nat → StorageRun σ → Option (StorageRun σ)
  | 0, t => some t
  | n + 1, t =>
    (unusedKey src fuel t).bind fun (key, t) =>
    let (o, s) := src.word t.rnd
    let (c, s) := src.word s
    let (w, s) := src.intn 2 s
    randomEntries src fuel n { t with storage := ((t.storage.setOriginal key o).setCurrent key c).setWarm key (w = 1), rnd := s }

/-- A step for every element. -/
def forEach {α β : Type} (step : α → β → Option β) : List α → β → Option β
  | [], t => some t
  | c :: rest, t => (step c t).bind (forEach step rest)

/-- Neighbours with the same key that differ (storage.go:104-121). -/
def conflict {α : Type} (bad : α → α → Bool) : List α → Bool
  | a :: b :: rest => bad a b || conflict bad (b :: rest)
  | _ => false

/-- `StorageGenerator.Generate` (storage.go:100-247). -/
def StorageGenerator.generate (src : Source σ) (fuel : Nat) (g : StorageGenerator) (a : Assignment) (s : σ) : Option (GenStorage × Assignment × σ) :=
  if conflict (fun x y : StorageConfig => decide (x.key = y.key) && (decide (x.config ≠ y.config) || decide (x.newValue ≠ y.newValue))) g.cfg then none
  else if conflict (fun x y : Variable × Bool => decide (x.1 = y.1) && decide (x.2 ≠ y.2)) g.warmCold then none
  else
    let bound := (g.cfg.map (·.key) ++ g.warmCold.map (·.1)).filterMap a
    (forEach (placeConfig src fuel) g.cfg { assignment := a, used := bound.contains, rnd := s }).bind fun t =>
    (forEach (placeWarm src fuel) g.warmCold t).bind fun t =>
    let (n, s) := src.intn 5 t.rnd
    (randomEntries src fuel n { t with rnd := s }).map fun t => (t.storage, t.assignment, t.rnd)

/-! ### Transient storage (transient_storage.go) -/

/-- What the generation of transient storage works on: the non-zero values (`st.TransientStorage`, go/ct/st/transient_storage.go:19-38), the variables, the
keys in use, the random numbers. -/
structure TransientRun (σ : Type) where
  storage : U256 → U256 := fun _ => 0
  assignment : Assignment
  used : U256 → Bool
  rnd : σ

/-- `getUnusedKey` (transient_storage.go:63-71). -/
def unusedTransientKey (src : Source σ) (fuel : Nat) (t : TransientRun σ) : Option (U256 × TransientRun σ) :=
  (drawUntil src (fun k => !t.used k) fuel t.rnd).map fun (k, s) => (k, { t with used := fun x => if x = k then true else t.used x, rnd := s })

/-- One constraint (transient_storage.go:76-101): the variable, whether its location must not be zero; `all` are the constraints. -/
def placeTransient (src : Source σ) (fuel : Nat) (all : List (Variable × Bool)) (c : Variable × Bool) (t : TransientRun σ) : Option (TransientRun σ) :=
  let key : Option (U256 × TransientRun σ) :=
    match t.assignment c.1 with
    | some k =>
      if all.any fun o => decide ((t.assignment c.1).getD 0 = (t.assignment o.1).getD 0) && decide (c.2 ≠ o.2) then none
      else some (k, { t with used := fun x => if x = k then true else t.used x })
    | none => unusedTransientKey src fuel t
  key.map fun (k, t) =>
  let t : TransientRun σ :=
    if c.2 then
      let (x, s) := src.word t.rnd
      { t with storage := fun y => if y = k then x else t.storage y, rnd := s }
    else t
  { t with assignment := t.assignment.set c.1 k }

/-- The random entries (transient_storage.go:104-108): the bound is drawn anew each time. -/
def randomTransient (src : Source σ) (fuel : Nat) : Nat → Nat → TransientRun σ → Option (TransientRun σ)
  | 0, _, _ => none
  | n + 1, i, t =>
    let (m, s) := src.intn 10 t.rnd
    if i < m then
      (unusedTransientKey src fuel { t with rnd := s }).bind fun (k, t) =>
      let (x, s) := src.word t.rnd
      randomTransient src fuel n (i + 1) { t with storage := fun y => if y = k then x else t.storage y, rnd := s }
    else some { t with rnd := s }

/-- `TransientStorageGenerator` (transient_storage.go:25-28): the map in some order. -/
structure TransientGenerator where
  constraints : List (Variable × Bool) := []
  unsatisfiable : Bool := false

/-- `BindToNonZero` (`true`) and `BindToZero` (`false`, transient_storage.go:34-58). -/
def TransientGenerator.require (g : TransientGenerator) (key : Variable) (nonZero : Bool) : TransientGenerator :=
  match g.constraints.find? (fun c => c.1 = key) with
  | some c => if c.2 = nonZero then g else { g with unsatisfiable := true }
  | none => { g with constraints := g.constraints ++ [(key, nonZero)] }

/-- `TransientStorageGenerator.Generate` (transient_storage.go:60-111). -/
def TransientGenerator.generate (src : Source σ) (fuel : Nat) (g : TransientGenerator) (a : Assignment) (s : σ) : Option ((U256 → U256) × Assignment × σ) :=
  if g.unsatisfiable then none
  else
    let bound := (g.constraints.map (·.1)).filterMap a
    (forEach (placeTransient src fuel g.constraints) g.constraints { assignment := a, used := bound.contains, rnd := s }).bind fun t =>
    (randomTransient src fuel 11 0 t).map fun t => (t.storage, t.assignment, t.rnd)

/-! ### Self-destruction (selfdestructed.go) -/

/-- `SelfDestructedGenerator.Generate` (selfdestructed.go:56-73): `coin` is `rnd.Int()%2 == 0`. -/
def selfDestructed (must mustNot coin : Bool) : Option Bool :=
  if ¬must ∧ ¬mustNot then some coin
  else if must ∧ mustNot then none
  else if must ∧ ¬mustNot then some true
  else some false

end Tosca.Model.Gen
