import Verif.Shared.Go
import Verif.Spec.Api

/-!
# What a Go client may expect of an interpreter

The interpreter the Go interface describes: run the code on the EVM of `Verif/Spec/Evm`, on a host that reads and
writes the client's state and passes nested calls to the client's `Call`.
-/

namespace Tosca.Spec.Go

open Tosca.Go

variable {ω : Type}

/-- The revisions of the Go interface in terms of EVM revisions. -/
def revisionOf (r : Int) : Option Revision :=
  if 0 ≤ r ∧ r ≤ 5 then some (ISTANBUL + r.toNat) else none

/-- An account without nonce, balance and code does not exist for the EVM. -/
def Absent (db : Db ω) (a : Address) (w : ω) : Prop := db.nonce a w = 0 ∧ db.balance a w = 0 ∧ db.codeSize a w = 0

instance (db : Db ω) (a : Address) (w : ω) : Decidable (Absent db a w) := by unfold Absent; infer_instance

/-- The kind of a nested call: a static CALL is a StaticCall. -/
def kindOf (m : Message) : Kind :=
  match m.kind, decide (m.flags = 0) with
  | .call, true => .call
  | .call, false => .staticCall
  | .callcode, _ => .callCode
  | .delegatecall, _ => .delegateCall
  | .create, _ => .create
  | .create2, _ => .create2

/-- The parameters of a nested call. -/
def paramsOf (m : Message) : CallParameters where
  sender := m.sender
  recipient := m.recipient
  value := m.value
  input := m.input
  gas := m.gas
  salt := m.create2Salt
  codeAddress := m.codeAddress

/-- The answer to the EVM: an unsuccessful call is reported as reverted, an error by some status (`status`) without
gas and output. -/
def answerOf (status : Err → EvmcStatus) : Except Err CallRes → CallResult
  | .ok r =>
    { status := if r.success = true then .success else .revert, gasLeft := r.gasLeft, gasRefund := r.gasRefund
      output := r.output, createAddress := r.createdAddress }
  | .error e => { status := status e }

/-- How errors of nested calls, and nested calls with more than 2^30 bytes of input, are reported to the EVM. -/
structure Reports where
  error : Err → EvmcStatus
  tooLong : EvmcStatus

/-- The host the interpreter runs on. -/
def host (R : Reports) (db : Db ω) (call : CallFn ω) (p : Parameters) : Host ω where
  accountExists a w := (decide (¬ Absent db a w), w)
  getStorage a k w := (db.storage a k w, w)
  setStorage a k v w := db.setStorage a k v w
  getTransient a k w := (db.transient a k w, w)
  setTransient a k v w := db.setTransient a k v w
  getBalance a w := (db.balance a w, w)
  getCodeSize a w := (db.codeSize a w, w)
  getCodeHash a w := (if Absent db a w then 0 else db.codeHash a w, w)
  copyCode a off n w := (((db.code a w).drop off).take n, w)
  selfdestruct a b w := db.selfDestruct a b w
  call m w :=
    if m.input.length ≤ 2 ^ 30 then
      (answerOf R.error (call (kindOf m) (paramsOf m) w).1, (call (kindOf m) (paramsOf m) w).2)
    else ({ status := R.tooLong }, w)
  txContext :=
    { gasPrice := p.tx.gasPrice, origin := p.tx.origin, coinbase := p.block.coinbase, blockNumber := p.block.blockNumber
      timestamp := p.block.timestamp, gasLimit := p.block.gasLimit, prevRandao := p.block.prevRandao
      chainId := p.block.chainId, baseFee := p.block.baseFee, blobBaseFee := p.block.blobBaseFee
      blobHashes := p.tx.blobHashes }
  getBlockHash n w := (db.blockHash n w, w)
  emitLog a data topics w := db.emitLog ⟨a, topics, data⟩ w
  accessAccount a w := db.accessAccount a w
  accessStorage a k w := db.accessStorage a k w

/-- The frame to run. -/
def frame (R : Reports) (keccak : List Byte → U256) (db : Db ω) (call : CallFn ω) (p : Parameters) (rev : Revision) : Params ω where
  code := p.code
  msg :=
    { flags := if p.static = true then 1 else 0, depth := p.depth, gas := p.gas, recipient := p.recipient, sender := p.sender
      input := p.input, value := p.value, codeHash := p.codeHash }
  rev := rev
  host := host R db call p
  keccak := keccak

/-- Failures of the executed contract that a Go client sees as an unsuccessful run; the others are seen as errors
of the interpreter. -/
def contractFault : Failure → Bool
  | .callDepthExceeded | .createDepthExceeded | .initCodeTooLarge => false
  | _ => true

/-- What the client sees of a halted frame. -/
def outcome (s : State ω) : Except Err RunResult :=
  match s.status with
  | .stopped | .returned => .ok { success := true, output := s.ret, gasLeft := s.gas, gasRefund := s.refund }
  | .reverted => .ok { success := false, output := s.ret, gasLeft := s.gas, gasRefund := s.refund }
  | .failed f => if contractFault f = true then .ok {} else .error (.unexpectedStatus (failureCode f))
  | .running => .error .crash

/-- The interpreter: run the frame to its end (`gas + 1` steps suffice). -/
noncomputable def run (R : Reports) (keccak : List Byte → U256) : Interpreter ω := fun db call p w =>
  match revisionOf p.block.revision with
  | none => (.error .unsupportedRevision, w)
  | some rev =>
    let s := steps (frame R keccak db call p rev) (p.gas.toNat + 1) (initial (frame R keccak db call p rev) w)
    (outcome s, s.host)

/-- A call result that respects the gas given to the call. -/
structure CallOk (given : Int) (r : CallRes) : Prop where
  gas : 0 ≤ r.gasLeft ∧ r.gasLeft ≤ given
  refund : r.gasRefund ≤ 199 * (given - r.gasLeft) ∧ -(199 * (given - r.gasLeft)) ≤ r.gasRefund
  output : r.output.length < 2 ^ 64

/-- What an interpreter may assume about the client's `Call`. -/
def CallFnOk (call : CallFn ω) : Prop :=
  ∀ kind p w r w', 0 ≤ p.gas → p.gas ≤ 2 ^ 54 → p.input.length ≤ 2 ^ 30 → call kind p w = (.ok r, w') → CallOk p.gas r

/-- Block and transaction parameters in the range of the EVMC types. -/
structure ChainOk (block : BlockParameters) (tx : TransactionParameters) : Prop where
  blockNumber : 0 ≤ block.blockNumber ∧ block.blockNumber < 2 ^ 63
  timestamp : 0 ≤ block.timestamp ∧ block.timestamp < 2 ^ 63
  gasLimit : 0 ≤ block.gasLimit ∧ block.gasLimit < 2 ^ 63
  blobHashes : tx.blobHashes.length ≤ 2 ^ 63

/-- Parameters of a run whose sizes fit the machine. -/
structure RunOk (p : Parameters) : Prop where
  chain : ChainOk p.block p.tx
  gas : 0 ≤ p.gas ∧ p.gas ≤ 2 ^ 54
  depth : -2 ^ 31 ≤ p.depth ∧ p.depth < 2 ^ 31
  code : p.code.length < 2 ^ 32
  input : p.input.length < 2 ^ 64

end Tosca.Spec.Go
