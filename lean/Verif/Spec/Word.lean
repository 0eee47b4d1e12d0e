import Verif.Shared.Types

/-!
# Word operations, by integer arithmetic

The EVM's arithmetic over 256-bit words, stated with `toNat` (unsigned value), `toInt`
(two's complement value) and reduction modulo 2^256 (`BitVec.ofNat`, `BitVec.ofInt`).
-/

namespace Tosca.Spec.Word

/-- The word congruent to a natural number modulo 2^256. -/
def ofN (n : Nat) : U256 := BitVec.ofNat 256 n
/-- The word congruent to an integer modulo 2^256. -/
def ofI (i : Int) : U256 := BitVec.ofInt 256 i
/-- A truth value as a word. -/
def ofProp (p : Prop) [Decidable p] : U256 := if p then 1 else 0

def add (a b : U256) : U256 := ofN (a.toNat + b.toNat)
def mul (a b : U256) : U256 := ofN (a.toNat * b.toNat)
def sub (a b : U256) : U256 := ofI (a.toNat - b.toNat)
def div (a b : U256) : U256 := if b.toNat = 0 then 0 else ofN (a.toNat / b.toNat)
/-- Signed division truncates towards zero. -/
def sdiv (a b : U256) : U256 := if b.toNat = 0 then 0 else ofI (a.toInt.tdiv b.toInt)
def mod (a b : U256) : U256 := if b.toNat = 0 then 0 else ofN (a.toNat % b.toNat)
/-- The signed remainder takes the sign of the dividend. -/
def smod (a b : U256) : U256 := if b.toNat = 0 then 0 else ofI (a.toInt.tmod b.toInt)
def addmod (a b m : U256) : U256 := if m.toNat = 0 then 0 else ofN ((a.toNat + b.toNat) % m.toNat)
def mulmod (a b m : U256) : U256 := if m.toNat = 0 then 0 else ofN ((a.toNat * b.toNat) % m.toNat)
def exp (a b : U256) : U256 := ofN (a.toNat ^ b.toNat)
/-- Number of bytes of a natural number without leading zeros. -/
def byteLen (n : Nat) : Nat := if n = 0 then 0 else n.log2 / 8 + 1

/-- The integer whose two's complement representation with `bits` bits is `v mod 2^bits`. -/
def signedValue (bits v : Nat) : Int :=
  if 2 * (v % 2 ^ bits) < 2 ^ bits then (v % 2 ^ bits : Nat)
  else ((v % 2 ^ bits : Nat) : Int) - (2 ^ bits : Nat)
/-- SIGNEXTEND: the low `k+1` bytes of `x`, as a signed number. -/
def signextend (k x : U256) : U256 :=
  if k.toNat < 31 then ofI (signedValue (8 * (k.toNat + 1)) x.toNat) else x

def lt (a b : U256) : U256 := ofProp (a.toNat < b.toNat)
def gt (a b : U256) : U256 := ofProp (a.toNat > b.toNat)
def slt (a b : U256) : U256 := ofProp (a.toInt < b.toInt)
def sgt (a b : U256) : U256 := ofProp (a.toInt > b.toInt)
def eq (a b : U256) : U256 := ofProp (a.toNat = b.toNat)
def iszero (a : U256) : U256 := ofProp (a.toNat = 0)
def and (a b : U256) : U256 := ofN (a.toNat &&& b.toNat)
def or (a b : U256) : U256 := ofN (a.toNat ||| b.toNat)
def xor (a b : U256) : U256 := ofN (a.toNat ^^^ b.toNat)
def not (a : U256) : U256 := ofN (2 ^ 256 - 1 - a.toNat)
/-- Byte `i` of `x`, counted from the most significant one. -/
def byte (i x : U256) : U256 :=
  if i.toNat < 32 then ofN (x.toNat / 256 ^ (31 - i.toNat) % 256) else 0
def shl (s x : U256) : U256 := if s.toNat < 256 then ofN (x.toNat * 2 ^ s.toNat) else 0
def shr (s x : U256) : U256 := if s.toNat < 256 then ofN (x.toNat / 2 ^ s.toNat) else 0
/-- Arithmetic shift: floor division of the signed value; saturates at 0 or -1. -/
def sar (s x : U256) : U256 :=
  if s.toNat < 256 then ofI (x.toInt / (2 ^ s.toNat : Nat))
  else if x.toInt < 0 then ofI (-1) else 0

/-- The value of a big-endian byte string. -/
def beNat (l : List Byte) : Nat := l.foldl (fun acc b => acc * 256 + b.toNat) 0
/-- The word whose big-endian bytes are `l`. -/
def ofBytes (l : List Byte) : U256 := ofN (beNat l)
/-- The 32 big-endian bytes of a word. -/
def toBytes (v : U256) : List Byte :=
  (List.range 32).map fun i => BitVec.ofNat 8 (v.toNat / 256 ^ (31 - i))

/-- The address in the low 20 bytes of a word. -/
def toAddress (v : U256) : Address := BitVec.ofNat 160 v.toNat
/-- An address as a word. -/
def ofAddress (a : Address) : U256 := ofN a.toNat

end Tosca.Spec.Word
