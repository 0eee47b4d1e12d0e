import Verif.Model.Opera
import Verif.Spec.Transaction
import Verif.Spec.StateContract

/-!
# What a client may expect of the opera processor
-/

namespace Tosca.Spec.Geth

open Tosca.Go Tosca.Spec.Go Tosca.Model.Geth

variable {ω : Type}

/-- The price of all gas of a transaction, modulo 2^256. -/
def gasPrice (t : Transaction) : Nat := t.gasPrice.toNat * t.gasLimit.toNat % 2 ^ 256

/-- The account is not a contract. -/
def Person (keccak : List Byte → U256) (db : Db ω) (a : Address) (w : ω) : Prop := db.codeHash a w = 0 ∨ db.codeHash a w = keccak []

/-- Why a transaction is not run at all. -/
inductive Rejected (keccak : List Byte → U256) (db : Db ω) (t : Transaction) (w : ω) : OperaErr → Prop
  | nonceTooHigh (h : (db.nonce t.sender w).toNat < t.nonce.toNat) : Rejected keccak db t w .nonceTooHigh
  | nonceTooLow (h : t.nonce.toNat < (db.nonce t.sender w).toNat) : Rejected keccak db t w .nonceTooLow
  | senderNoEOA (h : t.nonce = db.nonce t.sender w) (hp : ¬ Person keccak db t.sender w) : Rejected keccak db t w .senderNoEOA
  | insufficientFunds (h : t.nonce = db.nonce t.sender w) (hp : Person keccak db t.sender w)
      (hb : (db.balance t.sender w).toNat < gasPrice t) : Rejected keccak db t w .insufficientFunds

/-- The checks a transaction has to pass. -/
structure Accepted (keccak : List Byte → U256) (db : Db ω) (t : Transaction) (w : ω) : Prop where
  nonce : t.nonce = db.nonce t.sender w
  person : Person keccak db t.sender w
  funds : gasPrice t ≤ (db.balance t.sender w).toNat

/-- The transaction with an absent access list taken as an empty one. -/
def listed (t : Transaction) : Transaction := { t with accessList := some (t.accessList.getD []) }

/-- What geth's EVM is asked to do. -/
def outermost (evm : GethEvm ω) (t : Transaction) (gas : Int) (w : ω) : GethOut × GethState ω :=
  match t.recipient with
  | some r => evm.call t.sender r t.input (BitVec.ofInt 64 gas) t.value { world := w }
  | none => evm.create t.sender t.input (BitVec.ofInt 64 gas) t.value { world := w }

/-- Geth's EVM does not return more gas than it got. -/
def GasKept (evm : GethEvm ω) : Prop :=
  (∀ a b i g v s, (evm.call a b i g v s).1.gasLeft.toNat ≤ g.toNat) ∧ ∀ a i g v s, (evm.create a i g v s).1.gasLeft.toNat ≤ g.toNat

/-- The call of a transaction has the same outcome under floria's processor and under geth's EVM, and is not a failure that consumes all gas. -/
def SameOutcome (t : Transaction) (floria : Except Err CallRes × ω) (geth : GethOut × GethState ω) : Prop :=
  ∃ r, floria.1 = .ok r ∧ (r.success = true ↔ geth.1.err = none) ∧ r.gasLeft = geth.1.gasLeft.toNat ∧ r.gasRefund = geth.2.refund.toNat ∧
    r.output = geth.1.output ∧ floria.2 = geth.2.world ∧ (t.recipient = none → r.createdAddress = geth.1.created) ∧
    ¬ (r.success = false ∧ r.gasLeft = 0)

/-- What the state contract does not allow: changing balance and nonce of the transaction's origin, incrementing a nonce by more than 255 or
not at all. -/
def OriginSafe (origin : Address) (input : List Byte) : StateMethod → Prop
  | .setBalance => StateMethod.account input 0 ≠ origin
  | .incNonce => StateMethod.account input 0 ≠ origin ∧ 0 < (StateMethod.argument input 1).toNat ∧ (StateMethod.argument input 1).toNat < 256
  | _ => True

instance (origin : Address) (input : List Byte) (m : StateMethod) : Decidable (OriginSafe origin input m) := by
  unfold OriginSafe; split <;> infer_instance

end Tosca.Spec.Geth
