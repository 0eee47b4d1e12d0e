import Verif.Shared.Types

/-!
# EVM memory: an infinite zero-initialised byte array with a size in bytes
-/

namespace Tosca.Spec

/-- Smallest number of 32-byte words covering `n` bytes. -/
def words (n : Nat) : Nat := (n + 31) / 32

/-- Total gas cost of a memory of `w` words. -/
def memGas (w : Nat) : Nat := 3 * w + w * w / 512

/-- The byte at offset `i` of a string that is followed by infinitely many zeros. -/
def byteAt (l : List Byte) (i : Nat) : Byte := l.getD i 0

/-- `n` bytes from offset `off` of a string that is followed by infinitely many zeros. -/
def slice (l : List Byte) (off n : Nat) : List Byte := (List.range n).map fun i => byteAt l (off + i)

structure Mem where
  /-- Size in bytes. -/
  size : Nat
  get : Nat → Byte

namespace Mem

def empty : Mem := ⟨0, fun _ => 0⟩

/-- `n` bytes from offset `off`. -/
def read (m : Mem) (off n : Nat) : List Byte := (List.range n).map fun i => m.get (off + i)

/-- Overwrites the bytes from offset `off` on. -/
def write (m : Mem) (off : Nat) (l : List Byte) : Mem :=
  { m with get := fun i => if off ≤ i ∧ i < off + l.length then byteAt l (i - off) else m.get i }

/-- The size after touching `n` bytes at `off`: nothing for an empty range, else the least
multiple of 32 covering the range, never shrinking. -/
def sizeAfter (m : Mem) (off n : Nat) : Nat :=
  if n = 0 then m.size else max m.size (32 * words (off + n))

/-- Touching a range. -/
def expand (m : Mem) (off n : Nat) : Mem := { m with size := m.sizeAfter off n }

/-- Gas for growing the memory to `newSize` bytes. -/
def growGas (m : Mem) (newSize : Nat) : Nat := memGas (words newSize) - memGas (words m.size)

end Mem

end Tosca.Spec
