import Verif.Model.LfvmRun
import Verif.Model.GoValue

/-!
# States of the conformance tests

go/ct/st, go/ct/utils/adapter.go and what they use of go/ct/common.  A test state is split into what no rule changes (`Fixed`), the part a stepping
interpreter handles itself (`Go.CtState`) and the part instructions reach through the run context (`World`).
-/

namespace Tosca.Model.Ct

open Tosca.Go Tosca.Model.Go Tosca.Model.Lfvm

/-! ## Data -/

/-- `common.Bytes` (go/ct/common/bytes.go:21-24): a Go string, whose length is an `int`. -/
structure Bytes where
  data : List Byte := []
  short : data.length < 2 ^ 63 := by decide

instance : DecidableEq Bytes := fun a b =>
  decidable_of_iff (a.data = b.data) ⟨fun h => by cases a; cases b; cases h; rfl, fun h => by rw [h]⟩

/-- `Account` (go/ct/st/accounts.go:28-31). -/
structure Account where
  balance : U256 := 0
  code : Bytes := {}
  deriving DecidableEq

/-- `PastCall` (go/ct/st/call_journal.go:115-123).  The salt of CREATE2 is not recorded. -/
structure PastCall where
  kind : Kind
  recipient : Address
  sender : Address
  input : List Byte
  value : U256
  gas : Int
  codeAddress : Address
  deriving DecidableEq

/-- `FutureCall` (go/ct/st/call_journal.go:156-162).  Simplification: `GasCosts` is not negative (go/ct/gen/call_journal.go makes no others). -/
structure FutureCall where
  success : Bool := false
  output : Bytes := {}
  gasCosts : Nat := 0
  gasRefund : Int := 0
  createdAccount : Address := 0
  deriving DecidableEq

/-- The components of `State` (go/ct/st/state.go:138-162) that are reached through the run context: `Storage` (storage.go:21-25),
`TransientStorage`, `Accounts` (accounts.go:36-44), `Logs`, `CallJournal`, `HasSelfDestructed`, `SelfDestructedJournal`.  A Go map is a partial
function; a map used as a set is a predicate. -/
structure World where
  current : U256 → Option U256 := fun _ => none
  original : U256 → Option U256 := fun _ => none
  warmKeys : U256 → Bool := fun _ => false
  transient : U256 → Option U256 := fun _ => none
  accounts : Address → Option Account := fun _ => none
  warmAccounts : Address → Bool := fun _ => false
  logs : List (List U256 × List Byte) := []
  past : List PastCall := []
  future : List FutureCall := []
  hasSelfDestructed : Bool := false
  selfDestructed : List (Address × Address) := []

/-- `BlockContext` (go/ct/st/block_context.go:24-34). -/
structure BlockContext where
  blockNumber : BitVec 64 := 0
  chainId : U256 := 0
  coinBase : Address := 0
  gasLimit : BitVec 64 := 0
  gasPrice : U256 := 0
  prevRandao : U256 := 0
  baseFee : U256 := 0
  blobBaseFee : U256 := 0
  timeStamp : BitVec 64 := 0

/-- The components of `State` (go/ct/st/state.go:138-162) that no rule changes.  `hashes` is the array of the 256 recent block hashes. -/
structure Fixed where
  revision : Int
  readOnly : Bool := false
  code : List Byte
  account : Address := 0
  caller : Address := 0
  value : U256 := 0
  block : BlockContext := {}
  callData : List Byte := []
  hashes : Nat → U256 := fun _ => 0
  origin : Address := 0
  blobHashes : List U256 := []

/-- The rest of a state. -/
abbrev S := CtState World

/-! ## Storage, accounts, logs, journal -/

namespace World

/-- `Storage.GetCurrent` (storage.go:86-88). -/
def getCurrent (w : World) (k : U256) : U256 := (w.current k).getD 0

/-- `Storage.GetOriginal` (storage.go:106-108). -/
def getOriginal (w : World) (k : U256) : U256 := (w.original k).getD 0

/-- `Storage.SetCurrent` (storage.go:77-84). -/
def setCurrent (w : World) (k v : U256) : World := { w with current := fun j => if j = k then some v else w.current j }

/-- `Storage.MarkWarm` (storage.go:117-124). -/
def markWarmKey (w : World) (k : U256) : World := { w with warmKeys := fun j => if j = k then true else w.warmKeys j }

/-- `TransientStorage.Get` (transient_storage.go:34-36). -/
def getTransient (w : World) (k : U256) : U256 := (w.transient k).getD 0

/-- `TransientStorage.Set` (transient_storage.go:22-32). -/
def setTransient (w : World) (k v : U256) : World :=
  { w with transient := fun j => if j = k then (if v = 0 then none else some v) else w.transient j }

/-- `Accounts.GetAccount` (accounts.go:62-64). -/
def account (w : World) (a : Address) : Account := (w.accounts a).getD {}

/-- `Accounts.IsEmpty` (accounts.go:55-60). -/
def isEmpty (w : World) (a : Address) : Bool := decide (w.account a = {})

/-- `Accounts.GetCodeHash` (accounts.go:80-85).  `hasher.Sum(hash[:])` appends to its argument and returns the result, which is dropped: the
hash is always zero. -/
def codeHash (_ : World) (_ : Address) : U256 := 0

/-- `Accounts.MarkWarm` (accounts.go:106-113). -/
def markWarm (w : World) (a : Address) : World := { w with warmAccounts := fun b => if b = a then true else w.warmAccounts b }

/-- `Logs.AddLog` (logs.go:40-45). -/
def addLog (w : World) (data : List Byte) (topics : List U256) : World := { w with logs := w.logs ++ [(topics, data)] }

/-- `CallJournal.Call` (call_journal.go:34-68). -/
def call (kind : Kind) (p : CallParameters) (w : World) : CallRes × World :=
  let past := w.past ++ [{ kind := kind, recipient := p.recipient, sender := p.sender, input := p.input, value := p.value, gas := p.gas
                           codeAddress := p.codeAddress }]
  let result := w.future.headD {}
  let gasLeft := if p.gas < result.gasCosts then 0 else p.gas - result.gasCosts
  ({ success := result.success, output := result.output.data, gasLeft := gasLeft, gasRefund := result.gasRefund, createdAddress := result.createdAccount },
    { w with past := past, future := w.future.tail })

/-- `append(s.SelfDestructedJournal, …)` and setting `HasSelfDestructed` (specification.go:2305-2314, adapter.go:153-160). -/
def recordSelfDestruct (w : World) (account beneficiary : Address) : World :=
  { w with hasSelfDestructed := true, selfDestructed := w.selfDestructed ++ [(account, beneficiary)] }

end World

/-! ## Code (go/ct/st/code.go) -/

/-- The loop of `NewCode` (code.go:47-57): for every byte from `i` on, whether it is an instruction.  A truncated last PUSH makes the list longer
than the code. -/
def layoutLoop (code : List Byte) : Nat → Nat → List Bool
  | 0, _ => []
  | fuel + 1, i =>
    if i < code.length then
      let op := (code.getD i 0).toNat
      if 0x60 ≤ op ∧ op ≤ 0x7f then true :: (List.replicate (op - 0x60 + 1) false ++ layoutLoop code fuel (i + (op - 0x60 + 1) + 1))
      else true :: layoutLoop code fuel (i + 1)
    else []

/-- The `isCode` slice of `NewCode`. -/
def layout (code : List Byte) : List Bool := layoutLoop code code.length 0

/-- `Code.IsCode` (code.go:81-86); positions are not negative. -/
def isCode (code : List Byte) (pos : Nat) : Bool := (layout code).getD pos true

/-- `Code.GetOperation` (code.go:92-100); `none` is an error. -/
def getOperation (code : List Byte) (pos : Nat) : Option Nat :=
  if pos ≥ (layout code).length then some 0
  else if (layout code).getD pos true = false then none
  else some (code.getD pos 0).toNat

/-- `Code.GetData` (code.go:102-110). -/
def getData (code : List Byte) (pos : Nat) : Option Byte :=
  if isCode code pos = true then none
  else if pos ≥ code.length then some 0
  else some (code.getD pos 0)

/-! ## Memory (go/ct/st/memory.go) -/

/-- Go's `copy(m[off:], data)` for `off ≤ len(m)`. -/
def copyAt (m : List Byte) (off : Nat) (data : List Byte) : List Byte :=
  m.take off ++ data.take (m.length - off) ++ m.drop (off + data.length)

/-- `Grow` (memory.go:77-86). -/
def grow (m : List Byte) (offset size : BitVec 64) : List Byte :=
  if size = 0 then m
  else
    let newSize := offset + size
    if newSize.toNat > m.length then m ++ List.replicate (sizeInWords newSize * 32 - BitVec.ofNat 64 m.length).toNat 0 else m

/-- `Read` (memory.go:55-61): the bytes and the memory after; `none` is a panic. -/
def readMem (m : List Byte) (offset size : BitVec 64) : Option (List Byte × List Byte) :=
  if size = 0 then some ([], m)
  else
    let m := grow m offset size
    if offset ≤ offset + size ∧ (offset + size).toNat ≤ m.length then some ((m.drop offset.toNat).take size.toNat, m) else none

/-- `Write` (memory.go:65-71). -/
def writeMem (m : List Byte) (data : List Byte) (offset : BitVec 64) : Option (List Byte) :=
  if data.length = 0 then some m
  else
    let m := grow m offset (BitVec.ofNat 64 data.length)
    if offset.toNat ≤ m.length then some (copyAt m offset.toNat data) else none

/-- `Hash` (memory.go:144-157). -/
def hashMem (keccak : List Byte → U256) (m : List Byte) (offset size : BitVec 64) : Option (U256 × List Byte) :=
  let m := grow m offset size
  if size.toNat > 0 then
    if offset ≤ offset + size ∧ (offset + size).toNat ≤ m.length then some (keccak ((m.drop offset.toNat).take size.toNat), m) else none
  else some (keccak [], m)

/-- `math.MaxInt64`. -/
def maxInt64 : Int := 9223372036854775807

/-- `calcMemoryCost` (memory.go:132-138). -/
def calcMemoryCost (size : BitVec 64) : Int :=
  let w := if size.umod 32 ≠ 0 then size.udiv 32 + 1 else size.udiv 32
  s64 ((w * w).udiv 512 + 3 * w)

/-- `ExpansionCosts` (memory.go:97-141): the cost, the offset and the size. -/
def expansionCosts (m : List Byte) (offset256 size256 : U256) : Int × BitVec 64 × BitVec 64 :=
  if isUint64 size256 = false then (maxInt64, 0, 0)
  else if isUint64 offset256 = false then (if size256 = 0 then (0, 0, 0) else (maxInt64, 0, 0))
  else
    let offset := uint64 offset256
    let size := uint64 size256
    if size = 0 then (0, offset, size)
    else if offset.toNat > 2 ^ 64 - 1 - size.toNat ∨ size.toNat > 2 ^ 64 - 1 - offset.toNat then (maxInt64, offset, size)
    else
      let newSize := offset + size
      if newSize.toNat ≤ m.length then (0, offset, size)
      else if newSize.toNat > 0x1FFFFFFFE0 then (maxInt64, offset, size)
      else (i64 (calcMemoryCost newSize - calcMemoryCost (BitVec.ofNat 64 m.length)), offset, size)

/-! ## The interpreter's view of a state (go/ct/utils/adapter.go) -/

/-- `GetBlockHash` (adapter.go:118-128). -/
def blockHash (x : Fixed) (number : Int) : U256 :=
  let max := s64 x.block.blockNumber
  let min := if max > 256 then max - 256 else 0
  if min > number ∨ number ≥ max then 0 else x.hashes (u64 (max - number - 1)).toNat

/-- `ctRunContext` (adapter.go:70-203).  Accounts have no nonces and the address of storage is not looked at; balances are not written; `SetNonce`,
`SetCode` and `GetLogs` panic, interpreters do not call them (here they have no effect). -/
def ctDb (x : Fixed) : Db World where
  accountExists a w := (w.accounts a).isSome
  balance a w := (w.account a).balance
  setBalance _ _ w := w
  nonce _ _ := 0
  setNonce _ _ w := w
  code a w := (w.account a).code.data
  codeHash a w := w.codeHash a
  codeSize a w := (w.account a).code.data.length
  setCode _ _ w := w
  storage _ k w := w.getCurrent k
  setStorage _ k v w := (getStorageStatus (w.getOriginal k) (w.getCurrent k) v, w.setCurrent k v)
  transient _ k w := w.getTransient k
  setTransient _ k v w := w.setTransient k v
  accessAccount a w := (if w.warmAccounts a = true then .warm else .cold, w.markWarm a)
  accessStorage _ k w := (if w.warmKeys k = true then .warm else .cold, w.markWarmKey k)
  selfDestruct a b w := (!w.hasSelfDestructed, w.recordSelfDestruct a b)
  emitLog l w := w.addLog l.data l.topics
  logs _ := []
  blockHash n _ := blockHash x n

/-- `Call` (adapter.go:148-150). -/
def ctCall : CallFn World := fun kind p w => (.ok (w.call kind p).1, (w.call kind p).2)

/-- `ToVmParameters` (adapter.go:26-68) without the context. -/
def toVmParameters (keccak : List Byte → U256) (x : Fixed) (s : S) : Parameters where
  block :=
    { chainId := x.block.chainId, blockNumber := s64 x.block.blockNumber, timestamp := s64 x.block.timeStamp, coinbase := x.block.coinBase
      gasLimit := s64 x.block.gasLimit, prevRandao := x.block.prevRandao, baseFee := x.block.baseFee, blobBaseFee := x.block.blobBaseFee
      revision := x.revision }
  tx := { origin := x.origin, gasPrice := x.block.gasPrice, blobHashes := x.blobHashes }
  kind := .call
  static := x.readOnly
  depth := 0
  gas := s.gas
  recipient := x.account
  sender := x.caller
  input := x.callData
  value := x.value
  codeHash := some (keccak x.code)
  code := x.code

end Tosca.Model.Ct
