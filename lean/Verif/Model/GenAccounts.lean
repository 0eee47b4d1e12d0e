import Verif.Model.Gen

/-!
# The generator of accounts

go/ct/gen/accounts.go and the part of go/ct/st/accounts.go it uses.  The conventions are those of `Model/Gen`; in addition maps are iterated in an arbitrary
order, given by a function on lists of keys, and the global random numbers (accounts.go:214) by a function of the account.
-/

namespace Tosca.Model.Gen

open Tosca.Go Tosca.Model.Go

variable {σ : Type}

/-- `NewAddress` (go/ct/common/address.go:18-20). -/
def newAddress (x : U256) : Address := x.setWidth 160

/-- `RandomAddress` (go/ct/common/address.go:30-34). -/
def randomAddress (src : Source σ) (s : σ) : Address × σ :=
  let (b, s) := src.read 20 s
  (BitVec.ofNat 160 (b.foldl (fun n x => n * 256 + x.toNat) 0), s)

/-- `RandU256Between` (go/ct/common/u256.go:83-93); `Mod` by zero is zero. -/
def randBetween (src : Source σ) (min max : U256) (s : σ) : U256 × σ :=
  let range := max - min + 1
  let (x, s) := src.word s
  (min + (if range = 0 then 0 else x % range), s)

/-- `st.Accounts` (go/ct/st/accounts.go:28-43): balance and code of the accounts, the warm ones. -/
structure GenAccounts where
  account : Address → Option (U256 × List Byte) := fun _ => none
  warm : Address → Bool := fun _ => false

/-- `GetBalance` (go/ct/st/accounts.go:65-67). -/
def GenAccounts.balance (t : GenAccounts) (a : Address) : U256 := ((t.account a).getD (0, [])).1
/-- `GetCode` (go/ct/st/accounts.go:75-77). -/
def GenAccounts.code (t : GenAccounts) (a : Address) : List Byte := ((t.account a).getD (0, [])).2
/-- `SetBalance` of the builder (go/ct/st/accounts.go:208-213, 222-229). -/
def GenAccounts.setBalance (t : GenAccounts) (a : Address) (x : U256) : GenAccounts :=
  { t with account := fun b => if b = a then some (x, t.code a) else t.account b }
/-- `SetCode` of the builder (go/ct/st/accounts.go:215-229). -/
def GenAccounts.setCode (t : GenAccounts) (a : Address) (x : List Byte) : GenAccounts :=
  { t with account := fun b => if b = a then some (t.balance a, x) else t.account b }
/-- `SetWarm` of the builder (go/ct/st/accounts.go:231-237). -/
def GenAccounts.setWarm (t : GenAccounts) (a : Address) : GenAccounts := { t with warm := fun b => if b = a then true else t.warm b }
/-- `IsEmpty` (go/ct/st/accounts.go:54-59). -/
def GenAccounts.isEmpty (t : GenAccounts) (a : Address) : Bool := decide ((t.account a).getD (0, []) = (0, []))

/-- `AccountsGenerator` (accounts.go:26-31): the constraints in the order in which `Generate` goes through them (it sorts those on emptiness and
those on warm and cold). -/
structure AccountsGenerator where
  emptyAccounts : List (Variable × Bool) := []
  minBalance : List (Variable × U256) := []
  maxBalance : List (Variable × U256) := []
  warmCold : List (Variable × Bool) := []

/-- What the generation of accounts works on: the accounts, the variables, the addresses in use, the random numbers. -/
structure AccountsRun (σ : Type) where
  accounts : GenAccounts := {}
  assignment : Assignment
  used : List Address
  rnd : σ

/-- The loop of `getUnusedAddress` (accounts.go:169-176). -/
def drawAddress (src : Source σ) (used : List Address) : Nat → σ → Option (Address × σ)
  | 0, _ => none
  | n + 1, s =>
    let (x, s) := randomAddress src s
    if x ∉ used then some (x, s) else drawAddress src used n s

/-- `getUnusedAddress` (accounts.go:168-177). -/
def unusedAddress (src : Source σ) (fuel : Nat) (t : AccountsRun σ) : Option (Address × AccountsRun σ) :=
  (drawAddress src t.used fuel t.rnd).map fun (x, s) => (x, { t with used := x :: t.used, rnd := s })

/-- `getBoundOrBindNewAddress` (accounts.go:179-188). -/
def getAddress (src : Source σ) (fuel : Nat) (v : Variable) (t : AccountsRun σ) : Option (Address × AccountsRun σ) :=
  match t.assignment v with
  | some x => some (newAddress x, t)
  | none => (unusedAddress src fuel t).map fun (x, t) => (x, { t with assignment := t.assignment.set v (x.setWidth 256) })

/-- One constraint on emptiness (accounts.go:195-208): the accounts that must be empty and those that must not. -/
def classify (src : Source σ) (fuel : Nat) (c : Variable × Bool) (t : AccountsRun σ × List Address × List Address) :
    Option (AccountsRun σ × List Address × List Address) :=
  (getAddress src fuel c.1 t.1).bind fun (x, r) =>
  if c.2 then
    if x ∈ t.2.2 then none else some (r, t.2.1.insert x, t.2.2)
  else
    if x ∈ t.2.1 then none else some (r, t.2.1, t.2.2.insert x)

/-- An account that must be empty (accounts.go:209-212). -/
def makeEmpty (t : GenAccounts) (x : Address) : GenAccounts := (t.setBalance x 0).setCode x []
/-- An account that must not be empty (accounts.go:213-223); `coin` is the global `rand.Intn(3)`. -/
def makeNonEmpty (coin : Address → Nat) (t : GenAccounts) (x : Address) : GenAccounts :=
  match coin x with
  | 0 => t.setBalance x 1
  | 1 => t.setCode x [1]
  | _ => (t.setBalance x 1).setCode x [1]

/-- One constraint on warm and cold (accounts.go:226-231). -/
def placeWarmAccount (src : Source σ) (fuel : Nat) (c : Variable × Bool) (t : AccountsRun σ) : Option (AccountsRun σ) :=
  (getAddress src fuel c.1 t).map fun (x, t) => if c.2 then { t with accounts := t.accounts.setWarm x } else t

/-- Bounds of balances by account: a map and its keys. -/
structure Bounds where
  keys : List Address := []
  at_ : Address → Option U256 := fun _ => none

/-- `bounds[address] = value`. -/
def Bounds.set (b : Bounds) (x : Address) (value : U256) : Bounds := ⟨b.keys.insert x, fun y => if y = x then some value else b.at_ y⟩

/-- One lower bound (accounts.go:274-280). -/
def lowerStep (src : Source σ) (fuel : Nat) (c : Variable × U256) (t : AccountsRun σ × Bounds) : Option (AccountsRun σ × Bounds) :=
  (getAddress src fuel c.1 t.1).map fun (x, r) => (r, if (t.2.at_ x).getD 0 < c.2 then t.2.set x c.2 else t.2)

/-- One upper bound (accounts.go:283-289). -/
def upperStep (src : Source σ) (fuel : Nat) (c : Variable × U256) (t : AccountsRun σ × Bounds) : Option (AccountsRun σ × Bounds) :=
  (getAddress src fuel c.1 t.1).map fun (x, r) =>
    (r, match t.2.at_ x with
      | none => t.2.set x c.2
      | some current => if c.2 < current then t.2.set x c.2 else t.2)

/-- The balance of one account (accounts.go:303-319). -/
def placeBalance (src : Source σ) (lower upper : Bounds) (x : Address) (t : AccountsRun σ) : Option (AccountsRun σ) :=
  let l := (lower.at_ x).getD 0
  let u := (upper.at_ x).getD (BitVec.allOnes 256)
  if u < l then none
  else
    let (b, s) := randBetween src l u t.rnd
    some { t with accounts := t.accounts.setBalance x b, rnd := s }

/-- One random entry (accounts.go:246-252). -/
def randomAccount (src : Source σ) (x : Address) (accounts : GenAccounts) (s : σ) : GenAccounts × σ :=
  let (b, s) := src.word s
  let accounts := accounts.setBalance x b
  let (withCode, s) := src.intn 2 s
  let (accounts, s) := if withCode = 1 then (accounts.setCode x (src.read 42 s).1, (src.read 42 s).2) else (accounts, s)
  let (warm, s) := src.intn 2 s
  (if warm = 1 then accounts.setWarm x else accounts, s)

/-- The random entries (accounts.go:244-253). -/
def randomAccounts (src : Source σ) (fuel : Nat) : Nat → AccountsRun σ → Option (AccountsRun σ)
  | 0, t => some t
  | n + 1, t =>
    (unusedAddress src fuel t).bind fun (x, t) =>
    let r := randomAccount src x t.accounts t.rnd
    randomAccounts src fuel n { t with accounts := r.1, rnd := r.2 }

/-- The account that executes the code (accounts.go:255-259). -/
def ownAccount (src : Source σ) (self : Address) (t : AccountsRun σ) : AccountsRun σ :=
  let t : AccountsRun σ :=
    if (t.accounts.account self).isSome then t
    else
      let (b, s) := src.word t.rnd
      { t with accounts := t.accounts.setBalance self b, rnd := s }
  let (code, s) := src.read 42 t.rnd
  { t with accounts := t.accounts.setCode self code, rnd := s }

/-- `AccountsGenerator.Generate` (accounts.go:138-322): `order` is the order in which maps are iterated. -/
def AccountsGenerator.generate (src : Source σ) (fuel : Nat) (order : List Address → List Address) (coin : Address → Nat) (g : AccountsGenerator)
    (a : Assignment) (s : σ) (self : Address) : Option (GenAccounts × Assignment × σ) :=
  if conflict (fun x y : Variable × Bool => decide (x.1 = y.1) && decide (x.2 ≠ y.2)) g.emptyAccounts then none
  else if conflict (fun x y : Variable × Bool => decide (x.1 = y.1) && decide (x.2 ≠ y.2)) g.warmCold then none
  else
    let used := self :: ((g.warmCold.map (·.1)).filterMap a).map newAddress
    (forEach (classify src fuel) g.emptyAccounts ({ assignment := a, used := used, rnd := s }, [], [])).bind fun (t, empty, nonEmpty) =>
    let accounts := (order empty).foldl makeEmpty t.accounts
    let accounts := (order nonEmpty).foldl (makeNonEmpty coin) accounts
    (forEach (placeWarmAccount src fuel) g.warmCold { t with accounts := accounts }).bind fun t =>
    (forEach (lowerStep src fuel) g.minBalance (t, {})).bind fun (t, lower) =>
    (forEach (upperStep src fuel) g.maxBalance (t, {})).bind fun (t, upper) =>
    let upper := empty.foldl (fun b x => b.set x 0) upper
    let keys := order (lower.keys ++ upper.keys.filter (· ∉ lower.keys))
    (forEach (placeBalance src lower upper) keys t).bind fun t =>
    let (n, s) := src.intn 5 t.rnd
    (randomAccounts src fuel n { t with rnd := s }).map fun t =>
    let t := ownAccount src self t
    (t.accounts, t.assignment, t.rnd)

end Tosca.Model.Gen
