import Verif.Spec.Ledger
import Verif.Spec.Word

/-!
# The state contract

The methods the driver may call to modify the world state.
-/

namespace Tosca.Spec.Go

open Tosca.Go

variable {ω : Type}

inductive StateMethod
  | setBalance | copyCode | swapCode | setStorage | incNonce
  deriving DecidableEq

namespace StateMethod

/-- The signature whose hash selects the method. -/
def signature : StateMethod → String
  | setBalance => "setBalance(address,uint256)"
  | copyCode => "copyCode(address,address)"
  | swapCode => "swapCode(address,address)"
  | setStorage => "setStorage(address,bytes32,bytes32)"
  | incNonce => "incNonce(address,uint256)"

/-- The number of arguments, of 32 bytes each. -/
def arity : StateMethod → Nat
  | setStorage => 3
  | _ => 2

/-- The `i`-th argument; the input starts with the four bytes of the selector. -/
def argument (input : List Byte) (i : Nat) : U256 := Word.ofBytes ((input.drop (4 + 32 * i)).take 32)
def account (input : List Byte) (i : Nat) : Address := Word.toAddress (argument input i)

/-- The price of storing code is 203 per byte. -/
def cost (db : Db ω) (input : List Byte) (w : ω) : StateMethod → Nat
  | setBalance => 9000
  | copyCode => 32000 + 203 * (db.code (account input 1) w).length
  | swapCode => 64000 + 203 * ((db.code (account input 0) w).length + (db.code (account input 1) w).length) / 2
  | setStorage => 20000
  | incNonce => 9000

/-- The caller's own balance and nonce are out of reach; nonces are incremented by 1 to 255 (the upper 24 bytes of the
argument are ignored). -/
def Allowed (caller : Address) (input : List Byte) : StateMethod → Prop
  | setBalance => account input 0 ≠ caller
  | incNonce => account input 0 ≠ caller ∧ 0 < (argument input 1).toNat % 2 ^ 64 ∧ (argument input 1).toNat % 2 ^ 64 < 256
  | _ => True

instance (caller : Address) (input : List Byte) (m : StateMethod) : Decidable (m.Allowed caller input) := by
  unfold Allowed; split <;> infer_instance

/-- The effect. -/
def effect (db : Db ω) (input : List Byte) (w : ω) : StateMethod → ω
  | setBalance => db.setBalance (account input 0) (argument input 1) w
  | copyCode => if account input 1 = account input 0 then w else db.setCode (account input 0) (db.code (account input 1) w) w
  | swapCode =>
    if account input 0 = account input 1 then w
    else db.setCode (account input 1) (db.code (account input 0) w) (db.setCode (account input 0) (db.code (account input 1) w) w)
  | setStorage => (db.setStorage (account input 0) (argument input 1) (argument input 2) w).2
  | incNonce => db.setNonce (account input 0) (db.nonce (account input 0) w + BitVec.ofNat 64 (argument input 1).toNat) w

end StateMethod

/-- The state after a transfer, if it is possible: the balance of `a` has to suffice, the one of `b` must not overflow. -/
def transferred (db : Db ω) (v : U256) (a b : Address) (w : ω) : Option ω :=
  if v = 0 then some w
  else if (db.balance a w).toNat < v.toNat then none
  else if a = b then some w
  else if 2 ^ 256 ≤ (db.balance b w).toNat + v.toNat then none
  else some (db.setBalance b (db.balance b w + v) (db.setBalance a (db.balance a w - v) w))

/-- The transfer a call begins with. -/
def payment (db : Db ω) (kind : Kind) (p : CallParameters) (w : ω) : Option ω :=
  if kind = .staticCall ∨ kind = .delegateCall then some w else transferred db p.value p.sender p.recipient w

/-- A call that begins with a transfer: it fails without effect if the transfer is not possible. -/
def afterTransfer (o : Option ω) (w : ω) (rest : ω → Except Err CallRes × ω) : Except Err CallRes × ω :=
  match o with
  | none => (.ok {}, w)
  | some w => rest w

end Tosca.Spec.Go
