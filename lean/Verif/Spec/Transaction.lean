import Verif.Spec.Go
import Verif.Spec.Ledger

/-!
# What a client may expect of transaction processing
-/

namespace Tosca.Spec.Go

open Tosca.Go

variable {ω : Type}

/-- The gas charged before a transaction runs: a fixed amount, 4 per zero byte and 16 per other byte of input, 2400 per
listed account and 1900 per listed storage key. -/
def intrinsicGas (t : Transaction) : Nat :=
  (if t.recipient.isNone then 53000 else 21000) + 4 * t.input.countP (fun b => b == 0) + 16 * t.input.countP (fun b => b != 0) +
    2400 * (t.accessList.getD []).length + 1900 * ((t.accessList.getD []).map fun x => x.keys.length).sum

/-- Transactions whose sizes fit the machine. -/
structure TxOk (t : Transaction) : Prop where
  gasLimit : 0 ≤ t.gasLimit ∧ t.gasLimit ≤ 2 ^ 54
  input : t.input.length ≤ 2 ^ 30
  accessList : (t.accessList.getD []).length < 2 ^ 40
  keys : ((t.accessList.getD []).map fun x => x.keys.length).sum < 2 ^ 40

/-- The gas a transaction is billed for, by the gas its call leaves, the refund, and the outcome.  A tenth of the gas
left is lost, except for internal transactions; the refund counts for successful calls only, up to a fifth of the gas used
(before London: half). -/
def billed (london internal success : Bool) (limit left refund : Int) : Int :=
  let kept := if internal = true then left else left - left / 10
  if success = true then limit - kept - min refund ((limit - kept) / (if london = true then 5 else 2)) else limit - kept

/-- The checks a transaction has to pass: nonce, sender, funds (the price of all its gas, modulo 2^256). -/
structure Admitted (db : Db ω) (keccak : List Byte → U256) (t : Transaction) (w : ω) : Prop where
  nonce : t.nonce = db.nonce t.sender w
  last : (db.nonce t.sender w).toNat + 1 < 2 ^ 64
  sender : db.codeHash t.sender w = 0 ∨ db.codeHash t.sender w = keccak []
  funds : t.gasPrice.toNat * t.gasLimit.toNat % 2 ^ 256 ≤ (db.balance t.sender w).toNat

/-- The checks an admitted transaction has to pass: enough gas, and (from Shanghai on) no more than 49152 bytes of init
code. -/
structure Runnable (block : BlockParameters) (t : Transaction) : Prop where
  gas : (intrinsicGas t : Int) ≤ t.gasLimit
  initCode : 4 ≤ block.revision → t.recipient = none → t.input.length ≤ 49152

/-- The call a transaction makes. -/
def txCall (t : Transaction) : Kind × CallParameters :=
  (match t.recipient with | some _ => .call | none => .create,
    { sender := t.sender, recipient := t.recipient.getD 0, value := t.value, input := t.input, gas := t.gasLimit - intrinsicGas t })

/-- The accesses recorded before a transaction's call, in order: with an access list (from Berlin on) the sender, the recipient,
the precompiled contracts and what is listed. -/
def listedAccesses (block : BlockParameters) (precompiled : List Address) (t : Transaction) : List DbOp :=
  if 1 ≤ block.revision then
    match t.accessList with
    | none => []
    | some l =>
      [.accessAccount t.sender] ++ t.recipient.toList.map .accessAccount ++ precompiled.map .accessAccount ++
        l.flatMap fun x => .accessAccount x.address :: x.keys.map (.accessStorage x.address)
  else []

/-- The state in which a transaction's call starts, from the one in which its gas is paid: accesses are recorded, and the
nonce of the sender is incremented unless a contract is created (then the call does that). -/
def callStart (db : Db ω) (block : BlockParameters) (precompiled : List Address) (t : Transaction) (w : ω) : ω :=
  let w := (listedAccesses block precompiled t).foldl (DbOp.apply db) w
  match t.recipient with
  | some _ => db.setNonce t.sender (db.nonce t.sender w + 1) w
  | none => w

end Tosca.Spec.Go
