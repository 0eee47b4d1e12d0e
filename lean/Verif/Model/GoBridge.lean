import Verif.Model.Nest
import Verif.Shared.Go

/-!
# The EVMC bridge between Go and evmzero (go/interpreter/evmc/evmc_interpreter.go, go/interpreter/evmzero/evmzero.go)

The Go bindings of EVMC (`github.com/ethereum/evmc/v11/bindings/go/evmc`) are third party and not in the
repository.  What is used of them: `VM.Execute` builds the message from its arguments (flag `EVMC_STATIC` from the
`static` argument, no salt and no code address), copies the output and turns a status other than success into an
error; the callbacks forward to the `HostContext`; `copy_code` copies from `GetCode`; the result of `Call` is passed
back with the status of the returned error.
-/

namespace Tosca.Model.Go

open Tosca.Go

variable {ω : Type}

/-- `hostContext.isEmpty` (evmc_interpreter.go:176-180). -/
def isEmpty (db : Db ω) (a : Address) (w : ω) : Bool :=
  db.nonce a w == 0 && db.balance a w == 0 && db.codeSize a w == 0

/-- The translation of call kinds in `hostContext.Call` (evmc_interpreter.go:278-295). -/
def callKind (kind : CallKind) (static : Bool) : Kind :=
  match kind with
  | .create => .create
  | .create2 => .create2
  | .call => if static then .staticCall else .call
  | .callcode => .callCode
  | .delegatecall => .delegateCall

/-- What the third-party binding does with a Go error (it is converted to a status code), and with byte strings it
cannot convert. -/
structure Binding where
  status : Err → EvmcStatus
  tooLong : EvmcStatus

/-- `hostContext.Call` (evmc_interpreter.go:276-319).  The binding cannot pass more than 2^30 bytes (it slices an
array of that size): the process ends then; here the call is answered with status `tooLong` and no effect. -/
def hostCall (B : Binding) (call : CallFn ω) (m : Message) (w : ω) : Tosca.CallResult × ω :=
  if 2 ^ 30 < m.input.length then ({ status := B.tooLong }, w)
  else
    let params : CallParameters :=
      { sender := m.sender, recipient := m.recipient, value := m.value, input := m.input, gas := m.gas
        salt := m.create2Salt, codeAddress := m.codeAddress }
    match call (callKind m.kind (m.flags != 0)) params w with
    | (.error e, w') => ({ status := B.status e }, w')
    | (.ok r, w') =>
      ({ status := if r.success then .success else .revert, gasLeft := r.gasLeft, gasRefund := r.gasRefund
         output := r.output, createAddress := r.createdAddress }, w')

/-- `hostContext.GetTxContext` (evmc_interpreter.go:243-258); the blob hashes are copied in Run (56-59). -/
def txContext (p : Parameters) : TxContext :=
  { gasPrice := p.tx.gasPrice
    origin := p.tx.origin
    coinbase := p.block.coinbase
    blockNumber := p.block.blockNumber
    timestamp := p.block.timestamp
    gasLimit := p.block.gasLimit
    prevRandao := p.block.prevRandao
    chainId := p.block.chainId
    baseFee := p.block.baseFee
    blobBaseFee := p.block.blobBaseFee
    blobHashes := p.tx.blobHashes }

/-- `hostContext` (evmc_interpreter.go:159-333) as EVMC host.  The nine storage statuses and the two access
statuses of both interfaces correspond by name. -/
def hostOf (B : Binding) (db : Db ω) (call : CallFn ω) (p : Parameters) : Host ω where
  accountExists a w := (!isEmpty db a w, w)
  getStorage a k w := (db.storage a k w, w)
  setStorage a k v w := db.setStorage a k v w
  getTransient a k w := (db.transient a k w, w)
  setTransient a k v w := db.setTransient a k v w
  getBalance a w := (db.balance a w, w)
  getCodeSize a w := (db.codeSize a w, w)
  getCodeHash a w := (if isEmpty db a w then 0 else db.codeHash a w, w)
  copyCode a off n w := (((db.code a w).drop off).take n, w)
  selfdestruct a b w := db.selfDestruct a b w
  call m w := hostCall B call m w
  txContext := txContext p
  getBlockHash n w := (db.blockHash n w, w)
  emitLog a data topics w := db.emitLog { address := a, topics := topics, data := data } w
  accessAccount a w := db.accessAccount a w
  accessStorage a k w := db.accessStorage a k w

/-- `toEvmcRevision` (evmc_interpreter.go:139-157). -/
def toEvmcRevision (r : Int) : Option Revision :=
  if r = 0 then some ISTANBUL
  else if r = 1 then some BERLIN
  else if r = 2 then some LONDON
  else if r = 3 then some PARIS
  else if r = 4 then some SHANGHAI
  else if r = 5 then some CANCUN
  else none

/-- The message built by `VM.Execute` from the arguments of evmc_interpreter.go:73-86. -/
def messageOf (p : Parameters) : Message :=
  { kind := .call
    flags := if p.static then 1 else 0
    depth := p.depth
    gas := p.gas
    recipient := p.recipient
    sender := p.sender
    input := p.input
    value := p.value
    codeHash := p.codeHash }

/-- The result of a run from the result of `Execute` (evmc_interpreter.go:88-123). -/
def runResult (r : EvmcResult) : Except Err RunResult :=
  let res : RunResult := { success := true, output := r.output, gasLeft := r.gasLeft, gasRefund := r.gasRefund }
  match r.status with
  | .success => .ok res
  | .revert => .ok { res with success := false }
  | .outOfGas | .invalidInstruction | .undefinedInstruction | .badJumpDestination | .invalidMemoryAccess
  | .staticModeViolation | .stackOverflow | .stackUnderflow => .ok { success := false }
  | s => .error (.unexpectedStatus s)

/-- `evmzeroInstance.Run` (evmzero.go:121-126) and `EvmcInterpreter.Run` (evmc_interpreter.go:50-124) on a VM in the
state described by `f`. -/
def evmzeroRun (B : Binding) (keccak : List Byte → U256) (f : Found ω) (db : Db ω) (call : CallFn ω) (p : Parameters)
    (w : ω) : Except Err RunResult × ω :=
  if p.block.revision > 5 then (.error .unsupportedRevision, w)
  else match toEvmcRevision p.block.revision with
    | none => (.error .unsupportedRevision, w)
    | some rev =>
      match f.vm.execute ⟨hostOf B db call p, keccak, f.reenter⟩ (p.gas.toNat + 2 + f.fuel) p.code (messageOf p) rev f.buf w with
      | .ok (some (res, w', _)) => (runResult res, w')
      | _ => (.error .crash, w)

end Tosca.Model.Go
