import Verif.Shared.Go

/-!
# Currency values and gas in Go (go/tosca/types.go)
-/

namespace Tosca.Model.Go

/-- `Value.getInternalUint64` (types.go:206-210): the big-endian `uint64` in bytes `24-8*index … 32-8*index`. -/
def limb (v : U256) (index : Nat) : BitVec 64 := v.extractLsb' (64 * index) 64

/-- `bits.Add64` (Go standard library): sum and carry. -/
def add64 (x y : BitVec 64) (carry : Nat) : BitVec 64 × Nat :=
  (BitVec.ofNat 64 (x.toNat + y.toNat + carry), (x.toNat + y.toNat + carry) / 2 ^ 64)

/-- `bits.Sub64` (Go standard library): difference and borrow. -/
def sub64 (x y : BitVec 64) (borrow : Nat) : BitVec 64 × Nat :=
  (BitVec.ofInt 64 (x.toNat - y.toNat - borrow), if x.toNat < y.toNat + borrow then 1 else 0)

/-- Writing the four `uint64` into the array, most significant first (`binary.BigEndian.PutUint64`, types.go:95-98 and
111-114). -/
def ofLimbs (l3 l2 l1 l0 : BitVec 64) : U256 := (l3 ++ l2 ++ l1 ++ l0 : BitVec (64 + 64 + 64 + 64))

/-- `tosca.Add` (types.go:87-101). -/
def add (a b : U256) : U256 :=
  let (z0, carry) := add64 (limb a 0) (limb b 0) 0
  let (z1, carry) := add64 (limb a 1) (limb b 1) carry
  let (z2, carry) := add64 (limb a 2) (limb b 2) carry
  let (z3, _) := add64 (limb a 3) (limb b 3) carry
  ofLimbs z3 z2 z1 z0

/-- `tosca.Sub` (types.go:103-117). -/
def sub (a b : U256) : U256 :=
  let (z0, carry) := sub64 (limb a 0) (limb b 0) 0
  let (z1, carry) := sub64 (limb a 1) (limb b 1) carry
  let (z2, carry) := sub64 (limb a 2) (limb b 2) carry
  let (z3, _) := sub64 (limb a 3) (limb b 3) carry
  ofLimbs z3 z2 z1 z0

/-- The array `[32]byte` of a value: its bytes, most significant first. -/
def beBytes (v : U256) : List Byte := (List.range 32).map fun i => v.extractLsb' (8 * (31 - i)) 8

/-- `bytes.Compare` (Go standard library): lexicographic comparison. -/
def compareBytes : List Byte → List Byte → Int
  | [], [] => 0
  | [], _ :: _ => -1
  | _ :: _, [] => 1
  | a :: as, b :: bs => if a.toNat < b.toNat then -1 else if b.toNat < a.toNat then 1 else compareBytes as bs

/-- `Value.Cmp` (types.go:58-60). -/
def cmp (v o : U256) : Int := compareBytes (beBytes v) (beBytes o)

/-- `Value.Scale` (types.go:119-122): `uint256.Mul` with a `uint64`, modulo 2^256. -/
def scale (v : U256) (s : BitVec 64) : U256 := v * s.setWidth 256

/-- `binary.BigEndian.PutUint64` at bytes `8*i … 8*i+8` of a value (counted from the most significant end). -/
def putLimb (v : U256) (i : Nat) (x : BitVec 64) : U256 :=
  (v &&& ~~~((BitVec.allOnes 64).setWidth 256 <<< (64 * (3 - i)))) ||| (x.setWidth 256 <<< (64 * (3 - i)))

/-- The loop of `NewValue` (types.go:70-74). -/
def newValueLoop (offset : Nat) : Nat → List (BitVec 64) → U256 → U256
  | _, [], result => result
  | i, x :: xs, result => newValueLoop offset (i + 1) xs (putLimb result (offset + i) x)

/-- `NewValue` (types.go:65-76); `none` is the panic. -/
def newValue (args : List (BitVec 64)) : Option U256 :=
  if args.length > 4 then none else some (newValueLoop (4 - args.length) 0 args 0)

/-! ### Text (types.go:30-36, 124-150)

Texts are byte strings.  `fmt.Sprintf("%x", …)` and `hex.DecodeString` of the Go standard library are written out. -/

/-- A digit of `%x`. -/
def hexDigit (n : Nat) : Byte := BitVec.ofNat 8 (if n < 10 then 48 + n else 87 + n)

/-- `bytesToText` (types.go:132-134). -/
def bytesToText (data : List Byte) : List Byte :=
  48 :: 120 :: data.flatMap fun b => [hexDigit (b.toNat / 16), hexDigit (b.toNat % 16)]

/-- The value of a digit accepted by `hex.DecodeString`. -/
def digitValue (c : Byte) : Option Nat :=
  if 48 ≤ c.toNat ∧ c.toNat ≤ 57 then some (c.toNat - 48)
  else if 97 ≤ c.toNat ∧ c.toNat ≤ 102 then some (c.toNat - 87)
  else if 65 ≤ c.toNat ∧ c.toNat ≤ 70 then some (c.toNat - 55)
  else none

/-- `hex.DecodeString` (Go standard library); `none` is an error. -/
def hexDecode : List Byte → Option (List Byte)
  | [] => some []
  | [_] => none
  | a :: b :: rest =>
    match digitValue a, digitValue b with
    | some x, some y =>
      match hexDecode rest with
      | some l => some (BitVec.ofNat 8 (16 * x + y) :: l)
      | none => none
    | _, _ => none

/-- `textToBytes` (types.go:136-150) for a target of `size` bytes; `none` is an error (the target is not changed). -/
def textToBytes (size : Nat) (data : List Byte) : Option (List Byte) :=
  if data.take 2 ≠ [48, 120] then none
  else match hexDecode (data.drop 2) with
    | none => none
    | some l => if size ≠ l.length then none else some l

/-! ### Storage status and sizes (utils.go) -/

/-- `GetStorageStatus` (utils.go:18-69). -/
def getStorageStatus (original current new : U256) : StorageStatus :=
  let zero : U256 := 0
  if current = new then .assigned
  else if original = zero ∧ current = zero ∧ new ≠ zero then .added
  else if original ≠ zero ∧ current = original ∧ new = zero then .deleted
  else if original ≠ zero ∧ current = original ∧ new ≠ zero ∧ new ≠ original then .modified
  else if original ≠ zero ∧ current = zero ∧ new ≠ original ∧ new ≠ zero then .deletedAdded
  else if original ≠ zero ∧ current ≠ original ∧ current ≠ zero ∧ new = zero then .modifiedDeleted
  else if original ≠ zero ∧ current = zero ∧ new = original then .deletedRestored
  else if original = zero ∧ current ≠ zero ∧ new = zero then .addedDeleted
  else if original ≠ zero ∧ current ≠ original ∧ current ≠ zero ∧ new = original then .modifiedRestored
  else .assigned

/-- `SizeInWords` (utils.go:73-78). -/
def sizeInWords (size : BitVec 64) : BitVec 64 :=
  if size.toNat > 2 ^ 64 - 1 - 31 then BitVec.ofNat 64 ((2 ^ 64 - 1) / 32 + 1)
  else BitVec.ofNat 64 (((size + 31#64).toNat) / 32)

/-- The `int64` with the bits of the exact result `x`: Go's signed arithmetic wraps around. -/
def i64 (x : Int) : Int := x.bmod (2 ^ 64)

/-- `uint64(x)` of an `int64`. -/
def u64 (x : Int) : BitVec 64 := BitVec.ofInt 64 x

/-- `int64(x)` of a `uint64`. -/
def s64 (x : BitVec 64) : Int := x.toInt

end Tosca.Model.Go
