import Verif.Model.GoValue
import Verif.Model.GoBridge

/-!
# The floria transaction processor (go/processor/floria)
-/

namespace Tosca.Model.Go

open Tosca.Go

variable {ω : Type}

/-- What a `runContext` (run_context.go:25-32) refers to besides its depth and static flag: the database, the
interpreter, block and transaction parameters; and the third-party functions in use: `crypto.Keccak256`,
`crypto.CreateAddress`, `crypto.CreateAddress2` and the precompiled contracts of geth by revision. -/
structure Floria (ω : Type) where
  db : Db ω
  interpreter : Interpreter ω
  block : BlockParameters
  tx : TransactionParameters
  keccak : List Byte → U256
  createAddress1 : Address → BitVec 64 → Address
  createAddress2 : Address → U256 → U256 → Address
  precompiles : Int → Address → Option Precompile
  /-- The order in which `getPrecompiledAddresses` (precompiled.go:57-64) lists the contracts. -/
  precompileList : List Address

/-- `emptyCodeHash` (run_context.go:23). -/
def Floria.emptyCodeHash (F : Floria ω) : U256 := F.keccak []

/-- `createAddress` (run_context.go:155-166). -/
def Floria.createAddress (F : Floria ω) (kind : Kind) (sender : Address) (nonce : BitVec 64) (salt initHash : U256) : Address :=
  if kind = .create then F.createAddress1 sender nonce else F.createAddress2 sender salt initHash

/-- `transferValue` (run_context.go:168-198); `none` is an error.  (The state is not changed before an error.) -/
def transferValue (db : Db ω) (value : U256) (sender recipient : Address) (w : ω) : Option ω :=
  if value = 0 then some w
  else
    let senderBalance := db.balance sender w
    if cmp senderBalance value < 0 then none
    else if sender = recipient then some w
    else
      let receiverBalance := db.balance recipient w
      let updatedBalance := add receiverBalance value
      if cmp updatedBalance receiverBalance < 0 ∨ cmp updatedBalance value < 0 then none
      else
        let senderBalance := sub senderBalance value
        some (db.setBalance recipient updatedBalance (db.setBalance sender senderBalance w))

/-! ### The state contract (state_contract.go) -/

/-- `DriverAddress` (state_contract.go:35-37). -/
def driverAddress : Address := 0xd100a01e00000000000000000000000000000000
/-- `StateContractAddress` (state_contract.go:41-43). -/
def stateContractAddress : Address := 0xd100ec0000000000000000000000000000000000

/-- `tosca.Address(input[off+12 : off+32])`. -/
def addressAt (input : List Byte) (off : Nat) : Address :=
  ((input.drop (off + 12)).take 20).foldl (fun acc b => acc * 256 + b.setWidth 160) 0
/-- `tosca.Value(input[off : off+32])`. -/
def wordAt (input : List Byte) (off : Nat) : U256 :=
  ((input.drop off).take 32).foldl (fun acc b => acc * 256 + b.setWidth 256) 0

/-- `executeStateSetBalance` (state_contract.go:126-145); `none` is an error (the remaining gas is 0 then). -/
def stateSetBalance (db : Db ω) (sender : Address) (input : List Byte) (gas : Int) (w : ω) : Option Int × ω :=
  if gas < 9000 then (none, w)
  else
    let gas := i64 (gas - 9000)
    if input.length ≠ 64 then (none, w)
    else
      let account := addressAt input 0
      let value := wordAt input 32
      if account = sender then (none, w)
      else (some gas, db.setBalance account value w)

/-- `executeStateContractCopyCode` (state_contract.go:147-170). -/
def stateCopyCode (db : Db ω) (input : List Byte) (gas : Int) (w : ω) : Option Int × ω :=
  if gas < 32000 then (none, w)
  else
    let gas := i64 (gas - 32000)
    if input.length ≠ 64 then (none, w)
    else
      let accountTo := addressAt input 0
      let accountFrom := addressAt input 32
      let code := db.code accountFrom w
      let cost := i64 (i64 code.length * (200 + 3))
      if gas < cost then (none, w)
      else (some (i64 (gas - cost)), if accountFrom ≠ accountTo then db.setCode accountTo code w else w)

/-- `executeStateContractSwapCode` (state_contract.go:172-200). -/
def stateSwapCode (db : Db ω) (input : List Byte) (gas : Int) (w : ω) : Option Int × ω :=
  if gas < 2 * 32000 then (none, w)
  else
    let gas := i64 (gas - 2 * 32000)
    if input.length ≠ 64 then (none, w)
    else
      let account0 := addressAt input 0
      let account1 := addressAt input 32
      let code0 := db.code account0 w
      let code1 := db.code account1 w
      let cost0 := i64 (i64 code0.length * (200 + 3))
      let cost1 := i64 (i64 code1.length * (200 + 3))
      let cost := (i64 (cost0 + cost1)).tdiv 2
      if gas < cost then (none, w)
      else (some (i64 (gas - cost)),
        if account0 ≠ account1 then db.setCode account1 code0 (db.setCode account0 code1 w) else w)

/-- `executeStateContractSetStorage` (state_contract.go:202-218). -/
def stateSetStorage (db : Db ω) (input : List Byte) (gas : Int) (w : ω) : Option Int × ω :=
  if gas < 20000 then (none, w)
  else
    let gas := i64 (gas - 20000)
    if input.length ≠ 96 then (none, w)
    else (some gas, (db.setStorage (addressAt input 0) (wordAt input 32) (wordAt input 64) w).2)

/-- `executeStateContractIncNonce` (state_contract.go:220-246). -/
def stateIncNonce (db : Db ω) (sender : Address) (input : List Byte) (gas : Int) (w : ω) : Option Int × ω :=
  if gas < 9000 then (none, w)
  else
    let gas := i64 (gas - 9000)
    if input.length ≠ 64 then (none, w)
    else
      let account := addressAt input 0
      let value := wordAt input 32
      let valueUint : BitVec 64 := value.setWidth 64
      if account = sender then (none, w)
      else if valueUint.toNat ≤ 0 ∨ 256 ≤ valueUint.toNat then (none, w)
      else (some gas, db.setNonce account (db.nonce account w + valueUint) w)

/-- The method identifiers (state_contract.go:48-77): the first four bytes of the hash of the method's signature. -/
def methodId (keccak : List Byte → U256) (signature : String) : List Byte :=
  let h := keccak (signature.toUTF8.toList.map fun b => b.toBitVec)
  (List.range 4).map fun i => h.extractLsb' (8 * (31 - i)) 8

/-- `handleStateContract` (state_contract.go:85-124): `none` if the receiver is not the state contract. -/
def handleStateContract (keccak : List Byte → U256) (db : Db ω) (sender receiver : Address) (input : List Byte) (gas : Int)
    (w : ω) : Option CallRes × ω :=
  if receiver ≠ stateContractAddress then (none, w)
  else if sender ≠ driverAddress then (some {}, w)
  else if input.length < 4 then (some {}, w)
  else
    let selector := input.take 4
    let input := input.drop 4
    let r : Option Int × ω :=
      if selector = methodId keccak "setBalance(address,uint256)" then stateSetBalance db sender input gas w
      else if selector = methodId keccak "copyCode(address,address)" then stateCopyCode db input gas w
      else if selector = methodId keccak "swapCode(address,address)" then stateSwapCode db input gas w
      else if selector = methodId keccak "setStorage(address,bytes32,bytes32)" then stateSetStorage db input gas w
      else if selector = methodId keccak "incNonce(address,uint256)" then stateIncNonce db sender input gas w
      else (none, w)
    (some { success := r.1.isSome, output := [], gasLeft := r.1.getD 0 }, r.2)

/-! ### Precompiled contracts (precompiled.go) -/

/-- `handlePrecompiledContract` (precompiled.go:19-36): `none` if there is no such contract. -/
def handlePrecompiled (pre : Int → Address → Option Precompile) (revision : Int) (input : List Byte) (address : Address)
    (gas : Int) : Option CallRes :=
  match pre revision address with
  | none => none
  | some contract =>
    let gasCost := contract.requiredGas input
    if gas < s64 gasCost then some {}
    else
      let gas := i64 (gas - s64 gasCost)
      let out := contract.run input
      some { success := out.2, output := out.1, gasLeft := gas }

/-! ### Calls (run_context.go) -/

def maxCodeSize : Nat := 24576
def maxInitCodeSize : Nat := 2 * maxCodeSize
def createGasCostPerByte : Nat := 200
def maxRecursiveDepth : Nat := 1024

/-- What `runContext.Call` prepares before it takes the snapshot (run_context.go:41-72): code, code hash, recipient,
created address (`none`: the address of the new account is taken). -/
def Floria.prepare (F : Floria ω) (kind : Kind) (p : CallParameters) (w : ω) :
    Option (List Byte × U256 × Address × Address × ω) :=
  let codeHash := F.db.codeHash p.recipient w
  let code := F.db.code p.recipient w
  let (code, codeHash) :=
    if kind = .delegateCall ∨ kind = .callCode then (F.db.code p.codeAddress w, F.db.codeHash p.codeAddress w)
    else (code, codeHash)
  if kind = .create ∨ kind = .create2 then
    let (code, codeHash) := if p.recipient = 0 then (p.input, F.keccak p.input) else (code, codeHash)
    let createdAddress := F.createAddress kind p.sender (F.db.nonce p.sender w) p.salt codeHash
    if F.db.nonce createdAddress w ≠ 0 ∨
        (F.db.codeHash createdAddress w ≠ 0 ∧ F.db.codeHash createdAddress w ≠ F.emptyCodeHash) then none
    else
      let w := F.db.setNonce p.sender (F.db.nonce p.sender w + 1) w
      let w := F.db.setNonce createdAddress 1 w
      some (code, codeHash, createdAddress, createdAddress, w)
  else some (code, codeHash, p.recipient, 0, w)

/-- What `runContext.Call` does after the interpreter ran (run_context.go:122-148); `snapshot` is the state to
restore. -/
def Floria.finish (F : Floria ω) (kind : Kind) (createdAddress : Address) (snapshot : ω) (r : Except Err RunResult × ω) :
    Except Err CallRes × ω :=
  match r with
  | (.error e, _) => (.error e, snapshot)
  | (.ok result, w) =>
    let w := if result.success = false then snapshot else w
    if result.success = true ∧ (kind = .create ∨ kind = .create2) then
      let code := result.output
      if code.length > maxCodeSize then (.ok {}, w)
      else if F.block.revision ≥ 2 ∧ code.length > 0 ∧ code.head? = some 0xEF then (.ok {}, w)
      else
        let createGas := i64 (code.length * createGasCostPerByte)
        if result.gasLeft < createGas then (.ok {}, w)
        else
          (.ok { output := result.output, gasLeft := i64 (result.gasLeft - createGas), gasRefund := result.gasRefund
                 success := result.success, createdAddress := createdAddress },
            F.db.setCode createdAddress result.output w)
    else
      (.ok { output := result.output, gasLeft := result.gasLeft, gasRefund := result.gasRefund, success := result.success
             createdAddress := createdAddress }, w)

/-- `runContext.Call` (run_context.go:34-149) at a context of the given depth and static flag.  `next` is the method
of the context handed to the interpreter: its depth is one larger, its static flag is given. -/
def Floria.callBody (F : Floria ω) (depth : Nat) (static : Bool) (next : Bool → CallFn ω) : CallFn ω := fun kind p w =>
  if depth > maxRecursiveDepth then (.ok {}, w)
  else match F.prepare kind p w with
    | none => (.ok {}, w)
    | some (code, codeHash, recipient, createdAddress, w) =>
      let static := if kind = .staticCall then true else static
      let snapshot := w
      let transferred :=
        if kind ≠ .staticCall ∧ kind ≠ .delegateCall then transferValue F.db p.value p.sender recipient w else some w
      match transferred with
      | none => (.ok {}, snapshot)
      | some w =>
        match handleStateContract F.keccak F.db p.sender p.recipient p.input p.gas w with
        | (some output, w) => (.ok output, w)
        | (none, w) =>
          match handlePrecompiled F.precompiles F.block.revision p.input recipient p.gas with
          | some output => (.ok output, w)
          | none =>
            if kind = .call ∧ F.db.accountExists recipient w = false then (.ok { success := true, gasLeft := p.gas }, w)
            else
              let params : Parameters :=
                { block := F.block, tx := F.tx, kind := kind, static := static, depth := depth, gas := p.gas
                  recipient := recipient, sender := p.sender, input := p.input, value := p.value, codeHash := some codeHash
                  code := code }
              F.finish kind createdAddress snapshot (F.interpreter F.db (next static) params w)

/-- The recursion of `runContext.Call` through the interpreter, cut off after `n` levels. -/
def Floria.levels (F : Floria ω) : Nat → Nat → Bool → CallFn ω
  | 0, _, _ => fun _ _ w => (.error .crash, w)
  | n + 1, depth, static => F.callBody depth static (F.levels n (depth + 1))

/-- `runContext.Call` (run_context.go:34-149).  Contexts deeper than 1024 answer at once, so that many levels are
enough (`Verif/Proofs/Floria.lean`, `call_eq`: this is the recursive definition of the code). -/
def Floria.call (F : Floria ω) (depth : Nat) (static : Bool) : CallFn ω := F.levels (1025 - depth + 1) depth static

/-! ### Transactions (processor.go) -/

/-- `nonceCheck` (processor.go:140-148). -/
def nonceCheck (transactionNonce stateNonce : BitVec 64) : Bool :=
  if transactionNonce ≠ stateNonce then false
  else if (stateNonce + 1).toNat < stateNonce.toNat then false
  else true

/-- `eoaCheck` (processor.go:151-157). -/
def eoaCheck (keccak : List Byte → U256) (db : Db ω) (sender : Address) (w : ω) : Bool :=
  let codehash := db.codeHash sender w
  !(codehash ≠ 0 ∧ codehash ≠ keccak [])

/-- `buyGas` (processor.go:273-286); `none` is an error. -/
def buyGas (db : Db ω) (t : Transaction) (w : ω) : Option ω :=
  let gas := scale t.gasPrice (u64 t.gasLimit)
  let senderBalance := db.balance t.sender w
  if cmp senderBalance gas < 0 then none
  else some (db.setBalance t.sender (sub senderBalance gas) w)

/-- `setupGasBilling` (processor.go:238-271). -/
def setupGasBilling (t : Transaction) : Int :=
  let gas : Int := if t.recipient = none then 53000 else 21000
  let gas :=
    if t.input.length > 0 then
      let nonZeroBytes := i64 (t.input.countP fun b => b != 0)
      let zeroBytes := i64 (i64 t.input.length - nonZeroBytes)
      i64 (i64 (gas + i64 (zeroBytes * 4)) + i64 (nonZeroBytes * 16))
    else gas
  match t.accessList with
  | none => gas
  | some l => l.foldl (fun gas tuple => i64 (gas + i64 (i64 tuple.keys.length * 1900))) (i64 (gas + i64 (i64 l.length * 2400)))

/-- `setUpAccessList` (processor.go:159-180). -/
def setUpAccessList (db : Db ω) (precompiles : List Address) (t : Transaction) (w : ω) : ω :=
  match t.accessList with
  | none => w
  | some l =>
    let w := (db.accessAccount t.sender w).2
    let w := match t.recipient with
      | some r => (db.accessAccount r w).2
      | none => w
    let w := precompiles.foldl (fun w a => (db.accessAccount a w).2) w
    l.foldl (fun w tuple =>
      tuple.keys.foldl (fun w key => (db.accessStorage tuple.address key w).2) (db.accessAccount tuple.address w).2) w

/-- `callParameters` (processor.go:189-200). -/
def callParameters (t : Transaction) (gas : Int) : CallParameters :=
  { sender := t.sender, input := t.input, value := t.value, gas := gas, recipient := t.recipient.getD 0 }

/-- `callKind` (processor.go:182-187). -/
def txKind (t : Transaction) : Kind := if t.recipient = none then .create else .call

/-- `calculateGasLeft` (processor.go:202-229). -/
def calculateGasLeft (t : Transaction) (result : CallRes) (revision : Int) : Int :=
  let gasLeft := result.gasLeft
  let gasLeft := if t.sender ≠ 0 then i64 (gasLeft - gasLeft.tdiv 10) else gasLeft
  if result.success then
    let gasUsed := i64 (t.gasLimit - gasLeft)
    let refund := result.gasRefund
    let maxRefund := if revision < 2 then gasUsed.tdiv 2 else gasUsed.tdiv 5
    let refund := if refund > maxRefund then maxRefund else refund
    i64 (gasLeft + refund)
  else gasLeft

/-- `refundGas` (processor.go:231-236). -/
def refundGas (db : Db ω) (t : Transaction) (gasLeft : Int) (w : ω) : ω :=
  let refundValue := scale t.gasPrice (u64 gasLeft)
  db.setBalance t.sender (add (db.balance t.sender w) refundValue) w

/-- The part of a processor that does not depend on the block and the transaction. -/
structure Processor (ω : Type) where
  interpreter : Interpreter ω
  keccak : List Byte → U256
  createAddress1 : Address → BitVec 64 → Address
  createAddress2 : Address → U256 → U256 → Address
  precompiles : Int → Address → Option Precompile
  precompileList : Int → List Address

/-- The run context of a transaction (processor.go:82-95). -/
def Processor.context (P : Processor ω) (db : Db ω) (block : BlockParameters) (t : Transaction) : Floria ω :=
  { db := db
    interpreter := P.interpreter
    block := block
    tx := { origin := t.sender, gasPrice := t.gasPrice, blobHashes := [] }
    keccak := P.keccak
    createAddress1 := P.createAddress1
    createAddress2 := P.createAddress2
    precompiles := P.precompiles
    precompileList := P.precompileList block.revision }

/-- `processor.Run` (processor.go:48-138): receipt, error (if any) and the state afterwards. -/
def Processor.run (P : Processor ω) (db : Db ω) (block : BlockParameters) (t : Transaction) (w : ω) :
    Receipt × Option Err × ω :=
  let errorReceipt : Receipt := { success := false, gasUsed := t.gasLimit }
  let gas := t.gasLimit
  if nonceCheck t.nonce (db.nonce t.sender w) = false then ({}, none, w)
  else if eoaCheck P.keccak db t.sender w = false then ({}, none, w)
  else match buyGas db t w with
    | none => ({}, none, w)
    | some w =>
      let intrinsicGas := setupGasBilling t
      if gas < intrinsicGas then (errorReceipt, none, w)
      else
        let gas := i64 (gas - intrinsicGas)
        if block.revision ≥ 4 ∧ t.recipient = none ∧ t.input.length > maxInitCodeSize then ({}, none, w)
        else
          let F := P.context db block t
          let w := if block.revision ≥ 1 then setUpAccessList db F.precompileList t w else w
          let kind := txKind t
          let w := if kind = .call then db.setNonce t.sender (db.nonce t.sender w + 1) w else w
          match F.call 0 false kind (callParameters t gas) w with
          | (.error e, w) => (errorReceipt, some e, w)
          | (.ok result, w) =>
            if result.success = false ∧ result.gasLeft = 0 then (errorReceipt, none, w)
            else
              let createdAddress := if kind = .create then some result.createdAddress else none
              let gasLeft := calculateGasLeft t result block.revision
              let w := refundGas db t gasLeft w
              ({ success := result.success, gasUsed := i64 (t.gasLimit - gasLeft), contractAddress := createdAddress
                 output := result.output, logs := db.logs w }, none, w)

end Tosca.Model.Go
