import Verif.Spec.Storage

/-!
# Values, texts and storage slots of the Go interface
-/

namespace Tosca.Spec.Go

/-- The number written by 64-bit digits, the most significant first. -/
def ofDigits : List (BitVec 64) → Nat
  | [] => 0
  | x :: xs => x.toNat * (2 ^ 64) ^ xs.length + ofDigits xs

/-- The value of a hexadecimal digit, of either case. -/
inductive Digit : Byte → Nat → Prop
  | dec (n : Nat) : n < 10 → Digit (BitVec.ofNat 8 (48 + n)) n
  | lower (n : Nat) : n < 6 → Digit (BitVec.ofNat 8 (97 + n)) (10 + n)
  | upper (n : Nat) : n < 6 → Digit (BitVec.ofNat 8 (65 + n)) (10 + n)

/-- `text` spells the bytes by two digits each. -/
inductive Spells : List Byte → List Byte → Prop
  | nil : Spells [] []
  | cons (a b : Byte) (x y : Nat) (text bytes : List Byte) : Digit a x → Digit b y → Spells text bytes →
      Spells (a :: b :: text) (BitVec.ofNat 8 (16 * x + y) :: bytes)

/-- The refunds for writing the listed values to a slot, one after the other; a write is given with the warmth of the
slot. -/
def slotRefund (rev : Revision) (status : U256 → U256 → U256 → StorageStatus) (original : U256) : U256 → List (Bool × U256) → Int
  | _, [] => 0
  | current, (warm, new) :: rest => sstoreRefund rev warm (status original current new) + slotRefund rev status original new rest

end Tosca.Spec.Go
