import Verif.Model.GethAdapter

/-!
# The opera processor

go/processor/opera/processor.go: transactions on geth's EVM.  Geth's EVM itself is third-party code; it is an arbitrary function here.
Error values are reduced to their kind.
-/

namespace Tosca.Model.Geth

open Tosca.Go Tosca.Model.Go

variable {ω σ : Type}

/-- The error values of the processor (processor.go:53-76, and geth's `ErrOutOfGas`). -/
inductive OperaErr
  | nonceTooLow | nonceTooHigh | insufficientFunds | gasUintOverflow | intrinsicGas | senderNoEOA | outOfGas
  deriving DecidableEq, Repr

/-- What geth's `evm.Call` and `evm.Create` return (third-party): output, address created, gas left, error. -/
structure GethOut where
  output : List Byte := []
  created : Address := 0
  gasLeft : BitVec 64 := 0
  err : Option GethErr := none

/-- Geth's EVM for a transaction (third-party): `call` gets sender, recipient, input, gas and value, `create` sender, init code, gas and
value. -/
structure GethEvm (ω : Type) where
  call : Address → Address → List Byte → BitVec 64 → U256 → GethState ω → GethOut × GethState ω
  create : Address → List Byte → BitVec 64 → U256 → GethState ω → GethOut × GethState ω

/-- `buyGas` (processor.go:331-356); `none` is an error. -/
def operaBuyGas (db : Db ω) (t : Transaction) (w : ω) : Option ω :=
  let mgval := (u64 t.gasLimit).setWidth 256 * t.gasPrice
  let balance := db.balance t.sender w
  if balance.toNat < mgval.toNat then none
  else some (db.setBalance t.sender (sub balance mgval) w)

/-- `preCheck` (processor.go:305-329). -/
def operaPreCheck (keccak : List Byte → U256) (db : Db ω) (t : Transaction) (w : ω) : Except OperaErr ω :=
  let stNonce := db.nonce t.sender w
  if stNonce.toNat < t.nonce.toNat then .error .nonceTooHigh
  else if stNonce.toNat > t.nonce.toNat then .error .nonceTooLow
  else
    let codeHash := db.codeHash t.sender w
    if codeHash ≠ keccak [] ∧ codeHash ≠ 0 then .error .senderNoEOA
    else match operaBuyGas db t w with
      | none => .error .insufficientFunds
      | some w => .ok w

/-- `refundGas` (processor.go:358-373). -/
def operaRefundGas (db : Db ω) (t : Transaction) (gasLeft : Int) (w : ω) : ω :=
  let refund := (u64 gasLeft).setWidth 256 * t.gasPrice
  db.setBalance t.sender (db.balance t.sender w + refund) w

/-- `IntrinsicGas` (processor.go:375-413); `some` error with the gas returned. -/
def operaIntrinsicGas (t : Transaction) : Int × Option OperaErr :=
  let gas : BitVec 64 := if t.recipient = none then 53000 else 21000
  let data : BitVec 64 × Option OperaErr :=
    if t.input.length > 0 then
      let nz := BitVec.ofNat 64 (t.input.countP fun b => b != 0)
      if (BitVec.allOnes 64 - gas) / 16 < nz then (gas, some .outOfGas)
      else
        let gas := gas + nz * 16
        let z := BitVec.ofNat 64 t.input.length - nz
        if (BitVec.allOnes 64 - gas) / 4 < z then (gas, some .gasUintOverflow)
        else (gas + z * 4, none)
    else (gas, none)
  match data with
  | (_, some e) => (t.gasLimit, some e)
  | (gas, none) =>
    match t.accessList with
    | none => (s64 gas, none)
    | some l => (s64 (l.foldl (fun gas tuple => gas + BitVec.ofNat 64 tuple.keys.length * 1900) (gas + BitVec.ofNat 64 l.length * 2400)), none)

/-- `isInternal` (processor.go:415-417). -/
def isInternal (t : Transaction) : Bool := decide (t.sender = 0)

/-- `stateDbAdapter.PrepareAccessList` (geth.go:352-366). -/
def prepareAccessList (db : Db ω) (sender : Address) (dest : Option Address) (precompiles : List Address) (txAccesses : List AccessTuple) (w : ω) : ω :=
  let w := (db.accessAccount sender w).2
  let w := match dest with
    | some r => (db.accessAccount r w).2
    | none => w
  let w := precompiles.foldl (fun w a => (db.accessAccount a w).2) w
  txAccesses.foldl (fun w el => el.keys.foldl (fun w key => (db.accessStorage el.address key w).2) (db.accessAccount el.address w).2) w

/-- The gas left after the charge and the refund (processor.go:243-267). -/
def operaGasLeft (t : Transaction) (revision : Int) (gasLeft : BitVec 64) (err : Option GethErr) (refund : BitVec 64) : BitVec 64 :=
  let gasLeft := if isInternal t = false then gasLeft - gasLeft / 10 else gasLeft
  if err = none then
    let gasUsed := u64 t.gasLimit - gasLeft
    let maxRefund := if revision < 2 then gasUsed / 2 else gasUsed / 5
    gasLeft + if maxRefund < refund then maxRefund else refund
  else gasLeft

/-- The creation or call a transaction makes (processor.go:225-240): the nonce is incremented for calls only, geth does it for creations. -/
def operaCall (evm : GethEvm ω) (db : Db ω) (t : Transaction) (gas : Int) (w : ω) : GethOut × GethState ω :=
  match t.recipient with
  | none => evm.create t.sender t.input (u64 gas) t.value { world := w }
  | some r => evm.call t.sender r t.input (u64 gas) t.value { world := db.setNonce t.sender (db.nonce t.sender w + 1) w }

/-- `processor.Run` (processor.go:82-294): receipt, error (if any) and the state of the client afterwards.  `precompiles` is geth's
`PrecompiledAddressesBerlin`. -/
def operaRun (keccak : List Byte → U256) (precompiles : List Address) (evm : GethEvm ω) (c : Client ω) (block : BlockParameters) (t : Transaction)
    (w : ω) : Receipt × Option OperaErr × ω :=
  let gas := t.gasLimit
  match operaPreCheck keccak c.db t w with
  | .error e => ({}, some e, w)
  | .ok w =>
    match operaIntrinsicGas t with
    | (_, some e) => ({}, some e, w)
    | (intrinsicGasCosts, none) =>
      if gas < intrinsicGasCosts then ({ gasUsed := t.gasLimit }, some .intrinsicGas, w)
      else
        let gas := i64 (gas - intrinsicGasCosts)
        let w := if block.revision ≥ 1 then prepareAccessList c.db t.sender t.recipient precompiles (t.accessList.getD []) w else w
        let (out, s) := operaCall evm c.db t gas w
        let gasLeft := operaGasLeft t block.revision out.gasLeft out.err s.refund
        let w := operaRefundGas c.db t (s64 gasLeft) s.world
        ({ success := decide (out.err = none), gasUsed := i64 (t.gasLimit - s64 gasLeft)
           contractAddress := if t.recipient = none then some out.created else none, output := out.output, logs := c.db.logs w }, none, w)

/-! ### The state contract -/

/-- `preCompiledStateContract.Run` (processor.go:464-621): gas left or an error (then without gas), and the state. -/
def operaStateContract (keccak : List Byte → U256) (D : StateDB σ) (origin caller : Address) (input : List Byte) (suppliedGas : BitVec 64) (s : σ) :
    Except GethErr (BitVec 64) × σ :=
  if caller ≠ driverAddress then (.error .executionReverted, s)
  else if input.length < 4 then (.error .executionReverted, s)
  else if input.take 4 = methodId keccak "setBalance(address,uint256)" then
    let input := input.drop 4
    if suppliedGas < 9000 then (.error .outOfGas, s)
    else
      let suppliedGas := suppliedGas - 9000
      if input.length ≠ 64 then (.error .executionReverted, s)
      else
        let acc := addressAt input 0
        let value := wordAt input 32
        if acc = origin then (.error .executionReverted, s)
        else
          let balance := D.getBalance acc s
          if balance.toNat ≥ value.toNat then (.ok suppliedGas, D.subBalance acc (balance - value) s)
          else (.ok suppliedGas, D.addBalance acc (value - balance) s)
  else if input.take 4 = methodId keccak "copyCode(address,address)" then
    let input := input.drop 4
    if suppliedGas < 32000 then (.error .outOfGas, s)
    else
      let suppliedGas := suppliedGas - 32000
      if input.length ≠ 64 then (.error .executionReverted, s)
      else
        let accTo := addressAt input 0
        let accFrom := addressAt input 32
        let code := D.getCode accFrom s
        let cost := BitVec.ofNat 64 code.length * (200 + 3)
        if suppliedGas < cost then (.error .outOfGas, s)
        else (.ok (suppliedGas - cost), if accTo ≠ accFrom then D.setCode accTo code s else s)
  else if input.take 4 = methodId keccak "swapCode(address,address)" then
    let input := input.drop 4
    let cost : BitVec 64 := 2 * 32000
    if suppliedGas < cost then (.error .outOfGas, s)
    else
      let suppliedGas := suppliedGas - cost
      if input.length ≠ 64 then (.error .executionReverted, s)
      else
        let acc0 := addressAt input 0
        let acc1 := addressAt input 32
        let code0 := D.getCode acc0 s
        let code1 := D.getCode acc1 s
        let cost0 := BitVec.ofNat 64 code0.length * (200 + 3)
        let cost1 := BitVec.ofNat 64 code1.length * (200 + 3)
        let cost := (cost0 + cost1) / 2
        if suppliedGas < cost then (.error .outOfGas, s)
        else (.ok (suppliedGas - cost), if acc0 ≠ acc1 then D.setCode acc1 code0 (D.setCode acc0 code1 s) else s)
  else if input.take 4 = methodId keccak "setStorage(address,bytes32,bytes32)" then
    let input := input.drop 4
    if suppliedGas < 20000 then (.error .outOfGas, s)
    else
      let suppliedGas := suppliedGas - 20000
      if input.length ≠ 96 then (.error .executionReverted, s)
      else (.ok suppliedGas, D.setState (addressAt input 0) (wordAt input 32) (wordAt input 64) s)
  else if input.take 4 = methodId keccak "incNonce(address,uint256)" then
    let input := input.drop 4
    if suppliedGas < 9000 then (.error .outOfGas, s)
    else
      let suppliedGas := suppliedGas - 9000
      if input.length ≠ 64 then (.error .executionReverted, s)
      else
        let acc := addressAt input 0
        let value := wordAt input 32
        if acc = origin then (.error .executionReverted, s)
        else if value.toNat ≥ 256 then (.error .executionReverted, s)
        else if value.toNat = 0 then (.error .executionReverted, s)
        else (.ok suppliedGas, D.setNonce acc (D.getNonce acc s + value.setWidth 64) s)
  else (.error .executionReverted, s)

end Tosca.Model.Geth
