import Verif.Shared.Go

/-!
# The client's world state

What is assumed about a world state (`Db`), and the quantities the claims about calls and transactions speak of.
-/

namespace Tosca.Spec.Go

open Tosca.Go

variable {ω : Type}

/-- A modification of the world state. -/
inductive DbOp
  | setBalance (a : Address) (v : U256)
  | setNonce (a : Address) (n : BitVec 64)
  | setCode (a : Address) (code : List Byte)
  | setStorage (a : Address) (k v : U256)
  | setTransient (a : Address) (k v : U256)
  | accessAccount (a : Address)
  | accessStorage (a : Address) (k : U256)
  | selfDestruct (a b : Address)
  | emitLog (l : Log)

/-- The state after a modification. -/
def DbOp.apply (db : Db ω) (w : ω) : DbOp → ω
  | .setBalance a v => db.setBalance a v w
  | .setNonce a n => db.setNonce a n w
  | .setCode a c => db.setCode a c w
  | .setStorage a k v => (db.setStorage a k v w).2
  | .setTransient a k v => db.setTransient a k v w
  | .accessAccount a => (db.accessAccount a w).2
  | .accessStorage a k => (db.accessStorage a k w).2
  | .selfDestruct a b => (db.selfDestruct a b w).2
  | .emitLog l => db.emitLog l w

/-- Modifications that are not visible in account balances. -/
def DbOp.moneyless : DbOp → Prop
  | .setBalance .. | .selfDestruct .. => False
  | _ => True

/-- The sum of the balances of all 2^160 accounts. -/
@[irreducible] def supply (db : Db ω) (w : ω) : Nat :=
  ((List.range (2 ^ 160)).map fun n => (db.balance (BitVec.ofNat 160 n) w).toNat).sum

/-- A world state: what is written is read back, and nothing else changes. -/
structure DbOk (db : Db ω) : Prop where
  setBalance : ∀ a b v w, db.balance b (db.setBalance a v w) = if b = a then v else db.balance b w
  balance : ∀ (op : DbOp) a w, op.moneyless → db.balance a (op.apply db w) = db.balance a w
  setNonce : ∀ a b n w, db.nonce b (db.setNonce a n w) = if b = a then n else db.nonce b w
  nonce : ∀ (op : DbOp) a w, (∀ b n, op ≠ .setNonce b n) → db.nonce a (op.apply db w) = db.nonce a w
  setCode : ∀ a c w, c.length ≤ 24576 → db.code a (db.setCode a c w) = c
  setCode_other : ∀ a b c w, b ≠ a → db.code b (db.setCode a c w) = db.code b w
  code : ∀ (op : DbOp) a w, (∀ b c, op ≠ .setCode b c) → db.code a (op.apply db w) = db.code a w

end Tosca.Spec.Go
