import Verif.Model.Floria

/-!
# The adapters between Tosca and go-ethereum

The processor in go/processor/opera runs transactions on geth's EVM, with a Tosca interpreter plugged in.  Two adapters
are stacked: `stateDbAdapter` (go/interpreter/geth/geth.go) shows the client's transaction context to geth as a `StateDB`,
and `runContextAdapter` (go/geth_adapter/adapter.go) shows geth's `StateDB` to the interpreter as a run context.
Addresses, hashes and words are only converted between array types of the same length.
-/

namespace Tosca.Model.Geth

open Tosca.Go Tosca.Model.Go

variable {ω σ : Type}

/-- `tosca.TransactionContext` with its deprecated methods (go/tosca/interpreter.go:86-114). -/
structure Client (ω : Type) where
  db : Db ω
  committedStorage : Address → U256 → ω → U256
  isAddressInAccessList : Address → ω → Bool
  isSlotInAccessList : Address → U256 → ω → Bool × Bool
  hasSelfDestructed : Address → ω → Bool

/-- The methods of geth's `vm.StateDB` the adapters use (third-party interface), without snapshots, which the
interpreters do not take. -/
structure StateDB (σ : Type) where
  exist : Address → σ → Bool
  getBalance : Address → σ → U256
  addBalance : Address → U256 → σ → σ
  subBalance : Address → U256 → σ → σ
  getNonce : Address → σ → BitVec 64
  setNonce : Address → BitVec 64 → σ → σ
  getCodeHash : Address → σ → U256
  getCode : Address → σ → List Byte
  setCode : Address → List Byte → σ → σ
  getCodeSize : Address → σ → Nat
  addRefund : BitVec 64 → σ → σ
  subRefund : BitVec 64 → σ → σ
  getRefund : σ → BitVec 64
  getCommittedState : Address → U256 → σ → U256
  getState : Address → U256 → σ → U256
  setState : Address → U256 → U256 → σ → σ
  getTransientState : Address → U256 → σ → U256
  setTransientState : Address → U256 → U256 → σ → σ
  selfDestruct : Address → σ → σ
  hasSelfDestructed : Address → σ → Bool
  selfdestruct6780 : Address → σ → σ
  addressInAccessList : Address → σ → Bool
  slotInAccessList : Address → U256 → σ → Bool × Bool
  addAddressToAccessList : Address → σ → σ
  addSlotToAccessList : Address → U256 → σ → σ
  addLog : Address → List U256 → List Byte → σ → σ

/-- `stateDbAdapter` (geth.go:206-211): the client's state, the refund counter, and the account credited last.  The refunds
saved with snapshots are left out. -/
structure GethState (ω : Type) where
  world : ω
  refund : BitVec 64 := 0
  lastBeneficiary : Address := 0

/-- The methods of `stateDbAdapter` (geth.go:227-408). -/
def stateDbAdapter (c : Client ω) : StateDB (GethState ω) where
  exist a s := c.db.accountExists a s.world
  getBalance a s := c.db.balance a s.world
  addBalance a diff s :=
    { s with world := c.db.setBalance a (add (c.db.balance a s.world) diff) s.world, lastBeneficiary := a }
  subBalance a diff s := { s with world := c.db.setBalance a (sub (c.db.balance a s.world) diff) s.world }
  getNonce a s := c.db.nonce a s.world
  setNonce a n s := { s with world := c.db.setNonce a n s.world }
  getCodeHash a s := c.db.codeHash a s.world
  getCode a s := c.db.code a s.world
  setCode a code s := { s with world := c.db.setCode a code s.world }
  getCodeSize a s := c.db.codeSize a s.world
  addRefund v s := { s with refund := s.refund + v }
  subRefund v s := { s with refund := s.refund - v }
  getRefund s := s.refund
  getCommittedState a k s := c.committedStorage a k s.world
  getState a k s := c.db.storage a k s.world
  setState a k v s := { s with world := (c.db.setStorage a k v s.world).2 }
  getTransientState a k s := c.db.transient a k s.world
  setTransientState a k v s := { s with world := c.db.setTransient a k v s.world }
  selfDestruct a s := { s with world := (c.db.selfDestruct a s.lastBeneficiary s.world).2 }
  hasSelfDestructed a s := c.hasSelfDestructed a s.world
  selfdestruct6780 a s := { s with world := (c.db.selfDestruct a s.lastBeneficiary s.world).2 }
  addressInAccessList a s := c.isAddressInAccessList a s.world
  slotInAccessList a k s := c.isSlotInAccessList a k s.world
  addAddressToAccessList a s := { s with world := (c.db.accessAccount a s.world).2 }
  addSlotToAccessList a k s := { s with world := (c.db.accessStorage a k s.world).2 }
  addLog a topics data s := { s with world := c.db.emitLog ⟨a, topics, data⟩ s.world }

/-- The `getHash` function of the processor (opera/processor.go:88-90). -/
def getHash (c : Client ω) (n : BitVec 64) (s : GethState ω) : U256 := c.db.blockHash (s64 n) s.world

/-- `runContextAdapter` (adapter.go:264-568) for a running contract: `contract` is the address of the contract, `cancun`
the answer of the chain configuration.  `GetLogs` panics and is not called by interpreters; here it returns nothing. -/
def runContextAdapter (D : StateDB σ) (hashOf : BitVec 64 → σ → U256) (cancun : Bool) (contract : Address) : Db σ where
  accountExists a s := D.exist a s
  balance a s := D.getBalance a s
  setBalance a value s :=
    let have_ := D.getBalance a s
    let order := cmp have_ value
    if order < 0 then D.addBalance a (sub value have_) s
    else if order > 0 then D.subBalance a (sub have_ value) s
    else s
  nonce a s := D.getNonce a s
  setNonce a n s := D.setNonce a n s
  code a s := D.getCode a s
  codeHash a s := D.getCodeHash a s
  codeSize a s := D.getCodeSize a s
  setCode a code s := D.setCode a code s
  storage a k s := D.getState a k s
  setStorage a k future s :=
    let current := D.getState a k s
    if current = future then (.assigned, s)
    else
      let original := D.getCommittedState a k s
      (getStorageStatus original current future, D.setState a k future s)
  transient a k s := D.getTransientState a k s
  setTransient a k v s := D.setTransientState a k v s
  accessAccount a s :=
    let warm := D.addressInAccessList a s
    (if warm then .warm else .cold, D.addAddressToAccessList a s)
  accessStorage a k s :=
    let warm := (D.slotInAccessList a k s).2
    (if warm then .warm else .cold, D.addSlotToAccessList a k s)
  selfDestruct a beneficiary s :=
    let selfdestructed := if D.hasSelfDestructed a s then false else true
    let balance := D.getBalance contract s
    let s := D.addBalance beneficiary balance s
    let s := if cancun then D.selfdestruct6780 a (D.subBalance contract balance s) else D.selfDestruct a s
    (selfdestructed, s)
  emitLog log s := D.addLog log.address log.topics log.data s
  logs _ := []
  blockHash n s := hashOf (u64 n) s

/-- What an interpreter run by the opera processor sees of the client's state: both adapters
(opera/processor.go:49, 157; adapter.go:144). -/
def through (c : Client ω) (cancun : Bool) (contract : Address) : Db (GethState ω) :=
  runContextAdapter (stateDbAdapter c) (getHash c) cancun contract

/-! ### Read-only mode in the gas of a call (adapter.go:329-360, 607-615) -/

/-- `isPrecompiledContract` (adapter.go:607-615): byte 18 of the address is not looked at. -/
def isPrecompiledContract (recipient : Address) : Bool :=
  decide (recipient.toNat / 2 ^ 16 = 0 ∧ 1 ≤ recipient.toNat % 256 ∧ recipient.toNat % 256 ≤ 9)

/-- `encodeReadOnlyInGas` (adapter.go:342-349). -/
def encodeReadOnlyInGas (gas : BitVec 64) (recipient : Address) (readOnly : Bool) : BitVec 64 :=
  if isPrecompiledContract recipient = false then
    if readOnly then gas + BitVec.ofNat 64 (2 ^ 63) else gas
  else gas

/-- `decodeReadOnlyFromGas` (adapter.go:351-359). -/
def decodeReadOnlyFromGas (depth : Int) (readOnly : Bool) (gas : BitVec 64) : Bool × BitVec 64 :=
  if depth > 0 then
    (readOnly || decide (gas.toNat ≥ 2 ^ 63), if gas.toNat ≥ 2 ^ 63 then gas - BitVec.ofNat 64 (2 ^ 63) else gas)
  else (readOnly, gas)

/-! ### Nested calls (adapter.go:271-327, 361-404) -/

/-- The errors of geth's EVM told apart by the adapter (third-party values). -/
inductive GethErr
  | executionReverted
  | insufficientBalance | depth | nonceUintOverflow
  | outOfGas | codeStoreOutOfGas | contractAddressCollision | maxInitCodeSizeExceeded | maxCodeSizeExceeded
  | invalidJump | writeProtection | returnDataOutOfBounds | gasUintOverflow | invalidCode
  | stackUnderflow | stackOverflow | invalidOpCode
  /-- any other error -/
  | other
  deriving DecidableEq, Repr

/-- What geth's `evm.Call`, `StaticCall`, `DelegateCall`, `CallCode`, `Create` and `Create2` get: the kind, the address
called (unused for creations), input, gas, value (0 where there is none) and salt. -/
structure GethCall where
  kind : Kind
  address : Address := 0
  input : List Byte
  gas : BitVec 64
  value : U256 := 0
  salt : U256 := 0
  deriving DecidableEq, Repr

/-- What they return: output, address created, gas left and error. -/
structure GethRet where
  output : List Byte := []
  created : Address := 0
  gasLeft : BitVec 64 := 0
  err : Option GethErr := none
  deriving DecidableEq, Repr

/-- The call made by `runContextAdapter.Call` (adapter.go:277-312); geth's caller is the contract. -/
def gethCall (readOnly : Bool) (kind : Kind) (p : CallParameters) : GethCall :=
  let gas := encodeReadOnlyInGas (u64 p.gas) p.codeAddress readOnly
  match kind with
  | .call => { kind := kind, address := p.recipient, input := p.input, gas := gas, value := p.value }
  | .staticCall => { kind := kind, address := p.recipient, input := p.input, gas := gas }
  | .delegateCall => { kind := kind, address := p.codeAddress, input := p.input, gas := gas }
  | .callCode => { kind := kind, address := p.codeAddress, input := p.input, gas := gas, value := p.value }
  | .create => { kind := kind, input := p.input, gas := gas, value := p.value }
  | .create2 => { kind := kind, input := p.input, gas := gas, value := p.value, salt := p.salt }

/-- `gethToVMErrors` (adapter.go:361-404); `none` means that the error is passed on. -/
def gethToVMErrors (e : GethErr) (gas : Int) : Option CallRes :=
  match e with
  | .insufficientBalance | .depth | .nonceUintOverflow => some { gasLeft := gas, success := false }
  | .other => none
  | _ => some { success := false }

/-- `runContextAdapter.Call` (adapter.go:271-327) on geth's EVM `evm`.  The error passed on is of no interest. -/
def adapterCall (evm : GethCall → σ → GethRet × σ) (readOnly : Bool) : CallFn σ := fun kind p s =>
  let (r, s) := evm (gethCall readOnly kind p) s
  let created := match kind with
    | .create | .create2 => r.created
    | _ => 0
  match r.err with
  | none => (.ok { output := r.output, gasLeft := s64 r.gasLeft, createdAddress := created, success := true }, s)
  | some .executionReverted =>
    (.ok { output := r.output, gasLeft := s64 r.gasLeft, createdAddress := created, success := false }, s)
  | some e =>
    match gethToVMErrors e p.gas with
    | some res => (.ok res, s)
    | none => (.error .crash, s)

/-! ### Running a contract (adapter.go:50-196) -/

/-- `undoRefundShift` (adapter.go:231-244). -/
def undoRefundShift (D : StateDB σ) (err : Option GethErr) (refundShift : BitVec 64) (s : σ) : σ :=
  match err with
  | none | some .executionReverted =>
    let cur := D.getRefund s
    D.subRefund (if cur.toNat < refundShift.toNat then cur else refundShift) s
  | _ => s

/-- The end of `gethInterpreterAdapter.Run` (adapter.go:164-195): gas, refunds and error by the interpreter's result.
An error of the interpreter is passed on as an error of its own. -/
def adapterEnd (D : StateDB σ) (gas : BitVec 64) (r : Except Err RunResult × σ) :
    List Byte × BitVec 64 × Option GethErr × σ :=
  match r with
  | (.error _, s) => ([], gas, some .other, s)
  | (.ok result, s) =>
    let gas := if result.gasLeft > 0 then u64 result.gasLeft else 0
    let s :=
      if result.success then
        if result.gasRefund ≥ 0 then D.addRefund (u64 result.gasRefund) s
        else D.subRefund (u64 (i64 (-result.gasRefund))) s
      else s
    if (result.gasLeft > 0 ∨ result.output.length > 0) ∧ result.success = false then
      (result.output, gas, some .executionReverted, s)
    else if result.success = false then ([], gas, some .outOfGas, s)
    else (result.output, gas, none, s)

/-- `gethInterpreterAdapter.Run` (adapter.go:50-196) without the conversion of block and transaction parameters: `run` is the
run of the interpreter, given read-only mode and gas; the result is output, gas left in the contract, error, and state.
`depth` is geth's call depth. -/
def adapterRun (D : StateDB σ) (depth : Nat) (readOnly : Bool) (gas : BitVec 64)
    (run : Bool → BitVec 64 → σ → Except Err RunResult × σ) (s : σ) : List Byte × BitVec 64 × Option GethErr × σ :=
  let refundShift : BitVec 64 := BitVec.ofNat 64 (2 ^ 60)
  let s := if depth = 0 then D.addRefund refundShift s else s
  let (readOnly, gas) := decodeReadOnlyFromGas depth readOnly gas
  let (out, gas, err, s) : List Byte × BitVec 64 × Option GethErr × σ :=
    if depth > 1024 then ([], gas, some .depth, s)
    else adapterEnd D gas (run readOnly gas s)
  (out, gas, err, if depth = 0 then undoRefundShift D err refundShift s else s)

end Tosca.Model.Geth
