import Verif.Model.GethAdapter
import Verif.Spec.Storage

/-!
# What the adapters between Tosca and go-ethereum have to preserve
-/

namespace Tosca.Spec.Geth

open Tosca.Go Tosca.Model.Geth

variable {ω σ : Type}

/-- A client that keeps the rules of the Tosca interface: the status of a storage write follows from the committed, the current and the
new value; writing the current value changes nothing; the deprecated queries agree with the ones that replace them. -/
structure ClientOk (c : Client ω) : Prop where
  status : ∀ a k v w, (c.db.setStorage a k v w).1 = storageStatus (c.committedStorage a k w) (c.db.storage a k w) v
  rewrite : ∀ a k w, (c.db.setStorage a k (c.db.storage a k w) w).2 = w
  account : ∀ a w, (c.db.accessAccount a w).1 = if c.isAddressInAccessList a w = true then .warm else .cold
  slot : ∀ a k w, (c.db.accessStorage a k w).1 = if (c.isSlotInAccessList a k w).2 = true then .warm else .cold
  destructed : ∀ a b w, (c.db.selfDestruct a b w).1 = !c.hasSelfDestructed a w

/-- Balances are plain values. -/
structure Balances (db : Db ω) : Prop where
  get : ∀ a b v w, db.balance b (db.setBalance a v w) = if b = a then v else db.balance b w
  same : ∀ a w, db.setBalance a (db.balance a w) w = w
  last : ∀ a u v w, db.setBalance a v (db.setBalance a u w) = db.setBalance a v w

/-- The state after moving the balance of `a` to `b`. -/
def moved (db : Db ω) (a b : Address) (w : ω) : ω :=
  if a = b then w else db.setBalance a 0 (db.setBalance b (db.balance b w + db.balance a w) w)

/-- Destroying an account moves its balance to the beneficiary: it makes no difference whether that has been done before. -/
def Moves (db : Db ω) : Prop := ∀ a b w, (db.selfDestruct a b (moved db a b w)).2 = (db.selfDestruct a b w).2

/-- The database `D` shows the database `d` on a part `π` of its state: the same answers, and the same changes.  Accounts are destroyed
by the account `me` only; hashes are asked for blocks whose number is an `int64`. -/
structure Mirrors (π : σ → ω) (me : Address) (D : Db σ) (d : Db ω) : Prop where
  accountExists : ∀ a s, D.accountExists a s = d.accountExists a (π s)
  balance : ∀ a s, D.balance a s = d.balance a (π s)
  nonce : ∀ a s, D.nonce a s = d.nonce a (π s)
  code : ∀ a s, D.code a s = d.code a (π s)
  codeHash : ∀ a s, D.codeHash a s = d.codeHash a (π s)
  codeSize : ∀ a s, D.codeSize a s = d.codeSize a (π s)
  storage : ∀ a k s, D.storage a k s = d.storage a k (π s)
  transient : ∀ a k s, D.transient a k s = d.transient a k (π s)
  blockHash : ∀ n s, 0 ≤ n → n < 2 ^ 63 → D.blockHash n s = d.blockHash n (π s)
  setNonce : ∀ a n s, π (D.setNonce a n s) = d.setNonce a n (π s)
  setCode : ∀ a x s, π (D.setCode a x s) = d.setCode a x (π s)
  setTransient : ∀ a k v s, π (D.setTransient a k v s) = d.setTransient a k v (π s)
  emitLog : ∀ l s, π (D.emitLog l s) = d.emitLog l (π s)
  setStorage : ∀ a k v s, (D.setStorage a k v s).1 = (d.setStorage a k v (π s)).1 ∧ π (D.setStorage a k v s).2 = (d.setStorage a k v (π s)).2
  accessAccount : ∀ a s, (D.accessAccount a s).1 = (d.accessAccount a (π s)).1 ∧ π (D.accessAccount a s).2 = (d.accessAccount a (π s)).2
  accessStorage : ∀ a k s, (D.accessStorage a k s).1 = (d.accessStorage a k (π s)).1 ∧ π (D.accessStorage a k s).2 = (d.accessStorage a k (π s)).2
  selfDestruct : ∀ b s, (D.selfDestruct me b s).1 = (d.selfDestruct me b (π s)).1 ∧ π (D.selfDestruct me b s).2 = (d.selfDestruct me b (π s)).2

/-- The client's database, except that destroying an account first credits its balance to the beneficiary, without taking it away. -/
def credited (db : Db ω) : Db ω :=
  { db with
    selfDestruct := fun a b w =>
      ((db.selfDestruct a b w).1, (db.selfDestruct a b (db.setBalance b (db.balance b w + db.balance a w) w)).2) }

/-- Nested calls through the adapters answer and act as those on the client's state. -/
def CallsAgree (π : σ → ω) (call' : CallFn σ) (call : CallFn ω) : Prop :=
  ∀ kind p s, (call' kind p s).1 = (call kind p (π s)).1 ∧ π (call' kind p s).2 = (call kind p (π s)).2

/-- The account on which a call made in geth's EVM by the contract `self` works: `evm.DelegateCall` and `evm.CallCode` work on the
caller's (third-party: geth's interface). -/
def worksOn (self : Address) (q : GethCall) : Address :=
  match q.kind with
  | .delegateCall | .callCode => self
  | _ => q.address

/-- What a request of a contract `self` looks like: calls and static calls run the code of the account that they are for, delegate calls
and code calls run other code on the account itself (Tosca's `CallParameters`). -/
def WellFormed (self : Address) (kind : Kind) (p : CallParameters) : Prop :=
  match kind with
  | .call | .staticCall => p.codeAddress = p.recipient
  | .delegateCall | .callCode => p.recipient = self
  | .create | .create2 => True

end Tosca.Spec.Geth
