import Verif.Model.CtState

/-!
# Comparing test states

`State.Eq` and `State.Diff` of go/ct/st with what they use.  In contrast to `Verif/Model/CtState`, a Go map is the list of its entries, in the order of
one iteration over it, with distinct keys.
-/

namespace Tosca.Model.Compare

open Tosca.Go Tosca.Model.Ct

/-- A Go map, as the list of its entries in the order of an iteration. -/
abbrev GoMap (K V : Type) := List (K × V)

/-- `m[key]` with its second result (Go). -/
def entry {K V : Type} [DecidableEq K] (m : GoMap K V) (key : K) : Option V := (m.find? fun e => e.1 = key).map (·.2)

/-- `maps.Equal` (golang.org/x/exp/maps). -/
def mapsEqual {K V : Type} [DecidableEq K] [DecidableEq V] (a b : GoMap K V) : Bool :=
  a.length == b.length && a.all fun e => entry b e.1 == some e.2

/-- `mapEqualIgnoringZeroValues` (go/ct/st/storage.go:141-156). -/
def mapEqualIgnoringZeroValues {K : Type} [DecidableEq K] (a b : GoMap K U256) : Bool :=
  (a.all fun e => !(!(entry b e.1).isSome && e.2 != 0) && !(e.2 != (entry b e.1).getD 0)) &&
  (b.all fun e => !(!(entry a e.1).isSome && e.2 != 0))

/-- `Storage` (go/ct/st/storage.go:21-25); the values of `warm` are all true (`SetWarm`, `MarkWarm`). -/
structure Storage where
  current : GoMap U256 U256 := []
  original : GoMap U256 U256 := []
  warm : GoMap U256 Unit := []

/-- `Accounts` (go/ct/st/accounts.go:36-43). -/
structure Accounts where
  accounts : GoMap Address Account := []
  warm : GoMap Address Unit := []

/-- `CallContext` (go/ct/st/call_context.go:21-25). -/
structure CallContext where
  account : Address := 0
  caller : Address := 0
  value : U256 := 0
  deriving DecidableEq

deriving instance DecidableEq for BlockContext

/-- `State` (go/ct/st/state.go:138-162).  `hashes` is the array behind `RecentBlockHashes` (go/ct/common/immutable_hash_array.go:23-25), `none` for a
nil pointer. -/
structure TestState where
  status : CtStatus := .running
  revision : Int := 0
  readOnly : Bool := false
  pc : BitVec 16 := 0
  gas : Int := 0
  refund : Int := 0
  code : List Byte := []
  stack : List U256 := []
  memory : List Byte := []
  storage : Storage := {}
  transient : GoMap U256 U256 := []
  accounts : Accounts := {}
  logs : List (List U256 × List Byte) := []
  callContext : CallContext := {}
  past : List PastCall := []
  future : List FutureCall := []
  block : BlockContext := {}
  callData : List Byte := []
  lastCallReturnData : List Byte := []
  returnData : List Byte := []
  hasSelfDestructed : Bool := false
  selfDestructed : List (Address × Address) := []
  hashes : Option (List U256) := none
  origin : Address := 0
  blobHashes : List U256 := []

/-! ## Equality -/

/-- `Code.Eq` (go/ct/st/code.go:123-125). -/
def codeEq (keccak : List Byte → U256) (a b : List Byte) : Bool := keccak a == keccak b && a == b

/-- `Storage.Eq` (storage.go:158-162). -/
def Storage.eq (a b : Storage) : Bool :=
  mapEqualIgnoringZeroValues a.current b.current && mapsEqual a.original b.original && mapsEqual a.warm b.warm

/-- `Accounts.Eq` (accounts.go:122-124). -/
def Accounts.eq (a b : Accounts) : Bool := mapsEqual a.accounts b.accounts && mapsEqual a.warm b.warm

/-- The loop of `Logs.Eq` (logs.go:52-60), with the index of the entry to look at. -/
def logsLoop : List (List U256 × List Byte) → List (List U256 × List Byte) → Bool
  | [], _ => true
  | _, [] => true
  | a :: as, b :: bs => if a.1 ≠ b.1 then false else if a.2 ≠ b.2 then false else logsLoop as bs

/-- `Logs.Eq` (logs.go:48-62). -/
def logsEq (a b : List (List U256 × List Byte)) : Bool := if a.length ≠ b.length then false else logsLoop a b

/-- `CallJournal.Equal` (call_journal.go:69-82). -/
def journalEqual (s o : TestState) : Bool := if s.past ≠ o.past then false else decide (s.future = o.future)

/-- `ImmutableHashArray.Equal` (go/ct/common/immutable_hash_array.go:42-53); arrays behind the same pointer are equal anyway. -/
def hashesEqual (a b : Option (List U256)) : Bool :=
  match a, b with
  | none, none => true
  | none, some b => b == List.replicate 256 0
  | some a, none => a == List.replicate 256 0
  | some a, some b => a == b

/-- `TransactionContext.Eq` (transaction_context.go:37-44). -/
def transactionEq (s o : TestState) : Bool := s.origin == o.origin && s.blobHashes == o.blobHashes

/-- The comparison of the public properties (state.go:234-253). -/
def equivalent (keccak : List Byte → U256) (s o : TestState) : Bool :=
  codeEq keccak s.code o.code && s.revision == o.revision && s.readOnly == o.readOnly && s.gas == o.gas && s.refund == o.refund &&
  decide (s.callContext = o.callContext) && journalEqual s o && decide (s.block = o.block) && s.callData == o.callData &&
  s.storage.eq o.storage && mapEqualIgnoringZeroValues s.transient o.transient && s.accounts.eq o.accounts && logsEq s.logs o.logs &&
  s.hasSelfDestructed == o.hasSelfDestructed && s.selfDestructed == o.selfDestructed && hashesEqual s.hashes o.hashes && transactionEq s o

/-- `State.Eq` (state.go:219-270).  Left out is that a state is equal to itself without looking, which `C83_equivalence` makes superfluous. -/
def eq (keccak : List Byte → U256) (s o : TestState) : Bool :=
  if s.status ≠ o.status then false
  else if s.status = .failed ∧ o.status = .failed then true
  else
    let equivalent := equivalent keccak s o
    if s.status ≠ .running then equivalent && s.returnData == o.returnData
    else
      let size := BitVec.ofNat 16 s.code.length
      let equivalentPc := s.pc == o.pc || (decide (s.pc ≥ size) && decide (o.pc ≥ size))
      equivalent && equivalentPc && s.stack == o.stack && s.memory == o.memory && s.lastCallReturnData == o.lastCallReturnData

/-! ## Differences

A message is reduced to what it is about and where (a key or an index); the values it prints are left out. -/

/-- A message of `State.Diff`. -/
structure Difference where
  what : String
  place : Nat := 0
  deriving DecidableEq

/-- `if … { res = append(res, …) }`. -/
def report (what : String) (differs : Bool) : List Difference := if differs then [{ what }] else []

/-- `mapDiffIgnoringZeroValues` (storage.go:164-180). -/
def mapDiffIgnoringZeroValues {n : Nat} (a b : GoMap (BitVec n) U256) (name : String) : List Difference :=
  (a.flatMap fun e =>
    if !(entry b e.1).isSome && e.2 != 0 then [{ what := name, place := e.1.toNat }]
    else if e.2 != (entry b e.1).getD 0 then [{ what := name, place := e.1.toNat }] else []) ++
  (b.flatMap fun e => if !(entry a e.1).isSome && e.2 != 0 then [{ what := name, place := e.1.toNat }] else [])

/-- The loops over the warm keys (storage.go:186-195, accounts.go:141-150). -/
def setDiff {n : Nat} (a b : GoMap (BitVec n) Unit) (name : String) : List Difference :=
  (a.flatMap fun e => if !(entry b e.1).isSome then [{ what := name, place := e.1.toNat }] else []) ++
  (b.flatMap fun e => if !(entry a e.1).isSome then [{ what := name, place := e.1.toNat }] else [])

/-- `Storage.Diff` (storage.go:182-198). -/
def Storage.diff (a b : Storage) : List Difference :=
  mapDiffIgnoringZeroValues a.current b.current "current" ++ mapDiffIgnoringZeroValues a.original b.original "original" ++
    setDiff a.warm b.warm "warm"

/-- `Accounts.Diff` (accounts.go:126-153). -/
def Accounts.diff (a b : Accounts) : List Difference :=
  (a.accounts.flatMap fun e =>
    match entry b.accounts e.1 with
    | none => [{ what := "account", place := e.1.toNat }]
    | some v => if e.2 ≠ v then [{ what := "account", place := e.1.toNat }] else []) ++
  (b.accounts.flatMap fun e => if !(entry a.accounts e.1).isSome then [{ what := "account", place := e.1.toNat }] else []) ++
  setDiff a.warm b.warm "account warm"

/-- What a loop over two slices does at an index. -/
def atIndex {α : Type} (f : α → α → List Difference) : Option α → Option α → List Difference
  | some x, some y => f x y
  | _, _ => []

/-- Comparison of two slices: a message for different lengths, or else messages for each index (code.go:127-138, stack.go:114-125, memory.go:168-179,
call_journal.go:84-108, transaction_context.go:55-63, state.go:486-499). -/
def sliceDiff {α : Type} (name : String) (elements : α → α → Bool) (a b : List α) : List Difference :=
  if a.length ≠ b.length then [{ what := name }]
  else (List.range a.length).flatMap fun i => atIndex (fun x y => if elements x y then [{ what := name, place := i }] else []) a[i]? b[i]?

/-- Whether `PastCall.Diff` (call_journal.go:135-159) has messages. -/
def pastDiffers (a b : PastCall) : Bool :=
  a.kind ≠ b.kind || a.recipient ≠ b.recipient || a.sender ≠ b.sender || a.input ≠ b.input || a.value ≠ b.value || a.gas ≠ b.gas ||
    a.codeAddress ≠ b.codeAddress

/-- Whether `FutureCall.Diff` (call_journal.go:173-191) has messages. -/
def futureDiffers (a b : FutureCall) : Bool :=
  a.success ≠ b.success || a.output ≠ b.output || a.gasCosts ≠ b.gasCosts || a.gasRefund ≠ b.gasRefund || a.createdAccount ≠ b.createdAccount

/-- `Logs.Diff` (logs.go:64-85). -/
def logsDiff (a b : List (List U256 × List Byte)) : List Difference :=
  report "logs" (a.length ≠ b.length) ++
  (List.range (if b.length < a.length then b.length else a.length)).flatMap fun i =>
    atIndex (fun x y =>
      (if x.1 ≠ y.1 then [{ what := "logs", place := i }] else []) ++ (if x.2 ≠ y.2 then [{ what := "logs", place := i }] else [])) a[i]? b[i]?

/-- `CallContext.Diff` (call_context.go:28-45). -/
def callContextDiff (a b : CallContext) : List Difference :=
  report "call context" (a.account ≠ b.account) ++ report "call context" (a.caller ≠ b.caller) ++ report "call context" (a.value ≠ b.value)

/-- `BlockContext.Diff` (block_context.go:34-75). -/
def blockDiff (a b : BlockContext) : List Difference :=
  report "block context" (a.baseFee ≠ b.baseFee) ++ report "block context" (a.blobBaseFee ≠ b.blobBaseFee) ++
  report "block context" (a.blockNumber ≠ b.blockNumber) ++ report "block context" (a.chainId ≠ b.chainId) ++
  report "block context" (a.coinBase ≠ b.coinBase) ++ report "block context" (a.gasLimit ≠ b.gasLimit) ++
  report "block context" (a.gasPrice ≠ b.gasPrice) ++ report "block context" (a.prevRandao ≠ b.prevRandao) ++
  report "block context" (a.timeStamp ≠ b.timeStamp)

/-- `ImmutableHashArray.Get` (immutable_hash_array.go:81-90) for indices below 256. -/
def getHash (a : Option (List U256)) (i : Nat) : U256 :=
  match a with
  | none => 0
  | some l => l.getD i 0

/-- `if !equal { res = append(res, diff...) }`. -/
def whenUnequal (equal : Bool) (diff : List Difference) : List Difference := if equal then [] else diff

/-- `State.Diff` (state.go:399-512). -/
def diff (keccak : List Byte → U256) (s o : TestState) : List Difference :=
  report "status" (s.status ≠ o.status) ++ report "revision" (s.revision ≠ o.revision) ++ report "read only" (s.readOnly ≠ o.readOnly) ++
  report "pc" (s.pc ≠ o.pc) ++ report "gas" (s.gas ≠ o.gas) ++ report "gas refund" (s.refund ≠ o.refund) ++
  whenUnequal (codeEq keccak s.code o.code) (sliceDiff "code" (fun x y => x != y) s.code o.code) ++
  whenUnequal (s.stack == o.stack) (sliceDiff "stack" (fun x y => x != y) s.stack o.stack) ++
  whenUnequal (s.memory == o.memory) (sliceDiff "memory" (fun x y => x != y) s.memory o.memory) ++
  whenUnequal (s.storage.eq o.storage) (s.storage.diff o.storage) ++
  whenUnequal (mapEqualIgnoringZeroValues s.transient o.transient) (mapDiffIgnoringZeroValues s.transient o.transient "transient storage") ++
  whenUnequal (s.accounts.eq o.accounts) (s.accounts.diff o.accounts) ++
  whenUnequal (logsEq s.logs o.logs) (logsDiff s.logs o.logs) ++
  whenUnequal (decide (s.callContext = o.callContext)) (callContextDiff s.callContext o.callContext) ++
  whenUnequal (journalEqual s o) (sliceDiff "past calls" pastDiffers s.past o.past ++ sliceDiff "future calls" futureDiffers s.future o.future) ++
  whenUnequal (decide (s.block = o.block)) (blockDiff s.block o.block) ++
  whenUnequal (transactionEq s o) (report "transaction context" (s.origin ≠ o.origin) ++
    sliceDiff "transaction context" (fun x y => x != y) s.blobHashes o.blobHashes) ++
  report "call data" (s.callData ≠ o.callData) ++
  report "last call return data" (s.lastCallReturnData ≠ o.lastCallReturnData) ++
  report "return data" ((s.status = .stopped ∨ s.status = .reverted) ∧ s.returnData ≠ o.returnData) ++
  report "has-self-destructed" (s.hasSelfDestructed ≠ o.hasSelfDestructed) ++
  whenUnequal (s.selfDestructed == o.selfDestructed) (sliceDiff "self-destruct journal" (fun x y => x != y) s.selfDestructed o.selfDestructed) ++
  whenUnequal (hashesEqual s.hashes o.hashes) ((List.range 256).flatMap fun i =>
    if getHash s.hashes i ≠ getHash o.hashes i then [{ what := "block hash", place := i }] else [])

end Tosca.Model.Compare
