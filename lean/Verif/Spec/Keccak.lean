import Verif.Shared.Types

/-!
# Keccak-256, following the definition of the Keccak team (the padding is `10*1` without the domain bits of SHA-3)
-/

namespace Tosca.Spec.Keccak

/-- The state: lanes by their coordinates `x`, `y` (modulo 5). -/
abbrev Lanes := Nat → Nat → BitVec 64

/-- θ: the parity of the columns to the left and (rotated) to the right is added. -/
def theta (a : Lanes) : Lanes :=
  let c : Nat → BitVec 64 := fun x => a x 0 ^^^ a x 1 ^^^ a x 2 ^^^ a x 3 ^^^ a x 4
  fun x y => a x y ^^^ (c ((x + 4) % 5) ^^^ (c ((x + 1) % 5)).rotateLeft 1)

/-- The lanes in the order in which ρ visits them, with the offsets: starting at (1, 0), the lane after (x, y) is (y, 2x + 3y); the `t`-th has
offset (t + 1)(t + 2)/2. -/
def walk : Nat → List ((Nat × Nat) × Nat)
  | 0 => []
  | n + 1 => walk n ++ [((Nat.repeat (fun (x, y) => (y, (2 * x + 3 * y) % 5)) n (1, 0)), (n + 1) * (n + 2) / 2 % 64)]

/-- ρ's offset of a lane (0 for (0, 0)). -/
def offset (x y : Nat) : Nat := (((walk 24).find? fun p => p.1 = (x, y)).map (·.2)).getD 0

/-- ρ: lanes are rotated. -/
def rho (a : Lanes) : Lanes := fun x y => (a x y).rotateLeft (offset x y)

/-- π: lanes change places. -/
def pi (a : Lanes) : Lanes := fun x y => a ((x + 3 * y) % 5) x

/-- χ: the only non-linear step. -/
def chi (a : Lanes) : Lanes := fun x y => a x y ^^^ (~~~(a ((x + 1) % 5) y) &&& a ((x + 2) % 5) y)

/-- The shift register that generates the round constants; bit 0 is the output. -/
def register (r : BitVec 8) : BitVec 8 := (r <<< 1) ^^^ (if r.getLsbD 7 then 0x71 else 0)

/-- Its output after `t` steps. -/
def rc (t : Nat) : Bool := (Nat.repeat register t 1).getLsbD 0

/-- The constant of a round: bits 2^j - 1. -/
def roundConstant (n : Nat) : BitVec 64 :=
  (List.range 7).foldl (fun acc j => acc ^^^ (if rc (j + 7 * n) then BitVec.twoPow 64 (2 ^ j - 1) else 0)) 0

/-- ι: the round constant is added to lane (0, 0). -/
def iota (n : Nat) (a : Lanes) : Lanes := fun x y => if x = 0 ∧ y = 0 then a x y ^^^ roundConstant n else a x y

def round (n : Nat) (a : Lanes) : Lanes := iota n (chi (pi (rho (theta a))))

/-- Keccak-f[1600]: the 24 rounds, `0` first. -/
def f (a : Lanes) : Lanes := (List.range 24).foldl (fun a n => round n a) a

/-- The number of bytes absorbed at once. -/
def rate : Nat := 136

/-- Padding to a multiple of the rate: a first bit 1, a last bit 1, zeros between. -/
def padded (m : List Byte) : List Byte :=
  let q := rate - m.length % rate
  m ++ (if q = 1 then [0x81] else 0x01 :: (List.replicate (q - 2) 0 ++ [0x80]))

/-- The little-endian number made of bytes `8 i` to `8 i + 7`. -/
def lane (bytes : List Byte) (i : Nat) : BitVec 64 :=
  BitVec.ofNat 64 ((List.range 8).foldr (fun k acc => (bytes.getD (8 * i + k) 0).toNat + 256 * acc) 0)

/-- Absorbing a block: its 17 lanes are added to the lanes of the state (row by row), then the permutation is applied. -/
def absorbBlock (a : Lanes) (block : List Byte) : Lanes :=
  f fun x y => if x + 5 * y < 17 then a x y ^^^ lane block (x + 5 * y) else a x y

/-- Absorbing the first `n` blocks of a message. -/
def absorb (m : List Byte) : Nat → Lanes
  | 0 => fun _ _ => 0
  | n + 1 => absorbBlock (absorb m n) ((m.drop (rate * n)).take rate)

/-- Byte `k` of the state. -/
def byteOf (a : Lanes) (k : Nat) : Byte := (a (k / 8 % 5) (k / 8 / 5) >>> (8 * (k % 8))).setWidth 8

/-- Keccak-256. -/
def keccak256 (m : List Byte) : List Byte :=
  (List.range 32).map (byteOf (absorb (padded m) ((padded m).length / rate)))

end Tosca.Spec.Keccak
