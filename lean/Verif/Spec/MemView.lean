import Verif.Spec.Setting

/-!
# Memory of a `StepN` input: contents, size, price of growth

The memory is the given byte string followed by zeros; its size is rounded up to a multiple of 32.
-/

namespace Tosca

open Tosca.Spec

variable {σ : Type}

/-- The bytes `f 0, …, f (n - 1)`. -/
def bytes (n : Nat) (f : Nat → Byte) : List Byte := (List.range n).map f

/-- The byte at offset `i`; zero beyond what was written. -/
def StepIn.byte (x : StepIn σ) (i : Nat) : Byte := byteAt x.memory i

/-- Size in bytes. -/
def StepIn.size (x : StepIn σ) : Nat := 32 * words x.memory.length

/-- The size after touching `n` bytes at `off`: unchanged for an empty range, else the least multiple of 32 that
covers the old memory and the range. -/
def StepIn.sizeAfter (x : StepIn σ) (off n : U256) : Nat :=
  if n = 0 then x.size else max x.size (32 * words (off.toNat + n.toNat))

/-- The price of growing to `size` bytes: `C(new) - C(old)` with `C(w) = 3w + w²/512`. -/
def StepIn.growth (x : StepIn σ) (size : Nat) : Nat :=
  (3 * words size + words size * words size / 512) -
    (3 * words x.memory.length + words x.memory.length * words x.memory.length / 512)

/-- Overwriting the bytes from `off` on by `l`. -/
def overwrite (f : Nat → Byte) (off : Nat) (l : List Byte) (i : Nat) : Byte :=
  if off ≤ i ∧ i < off + l.length then byteAt l (i - off) else f i

end Tosca
