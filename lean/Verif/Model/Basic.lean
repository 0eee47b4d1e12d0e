import Verif.Shared.Types

/-!
# Machine-level basics of the model

Outcomes of C++ operations, 64-bit arithmetic, and the byte view of words.
-/

namespace Tosca.Model

/-- Undefined behaviour, as a distinct outcome of the model. -/
inductive UB
  | stackOutOfBounds      -- access through `top` outside the 1024-slot buffer
  | codeOutOfBounds       -- `*pc` (or an immediate) outside `padded_code`, or null `pc`
  | memoryOutOfBounds     -- access outside the memory vector
  | danglingSpan          -- use of a span into memory after the vector was resized
  | arrayOutOfBounds      -- `std::array`/`span` index or sub-span out of range
  | signedOverflow        -- signed integer overflow
  | hostBufferOverflow    -- the host reports more bytes written than the buffer holds
  | badPointer            -- null or dangling pointer in the LRU list
  | divideByZero
  deriving DecidableEq, Repr

/-- The outcome of a C++ computation: a value or undefined behaviour. -/
abbrev M := Except UB

/-- Largest `int64_t`; `kMaxGas` in cpp/vm/evmzero/interpreter.h:91. -/
def int64Max : Int := 9223372036854775807
/-- Smallest `int64_t`. -/
def int64Min : Int := -9223372036854775808
/-- Number of `uint64_t` values. -/
def u64Mod : Nat := 18446744073709551616

/-- Result of a signed 64-bit operation whose exact value is `x`: overflow is undefined. -/
def chk64 (x : Int) : M Int :=
  if int64Min ≤ x ∧ x ≤ int64Max then .ok x else .error .signedOverflow

/-- Signed 32-bit counterpart of `chk64`. -/
def chk32 (x : Int) : M Int :=
  if -2147483648 ≤ x ∧ x ≤ 2147483647 then .ok x else .error .signedOverflow

/-- `__builtin_{add,mul}_overflow` with an `int64_t` result (cpp/common/macros.h:25-26):
`none` when the exact result does not fit. -/
def fits64 (x : Int) : Option Int :=
  if int64Min ≤ x ∧ x ≤ int64Max then some x else none

/-- `__builtin_add_overflow` with a `uint64_t` result (cpp/common/macros.h:25). -/
def fitsU64 (x : Nat) : Option Nat := if x < u64Mod then some x else none

/-- `static_cast<int64_t>` of a `uint64_t` (two's complement, C++20). -/
def toInt64 (n : Nat) : Int := if n < 9223372036854775808 then n else (n : Int) - 18446744073709551616

/-- Conversion of a (possibly negative) `int64_t` to `uint256_t`: intx stores it as the
`uint64_t` in the lowest word, i.e. modulo 2^64. -/
def ofInt64 (x : Int) : U256 := BitVec.ofNat 256 (x % 18446744073709551616).toNat

/-- `static_cast<uint64_t>(uint256_t)`: the lowest word. -/
def lo64 (x : U256) : Nat := x.toNat % u64Mod

/-- Byte `i` of the little-endian representation (cpp/vm/evmzero/uint256.h:42-44,
`ToByteArrayLe(v)[i]`); the array has 32 elements. -/
def byteLe (v : U256) (i : Nat) : M Byte :=
  if i < 32 then .ok ((v >>> (8 * i)).setWidth 8) else .error .arrayOutOfBounds

/-- The 32 bytes of the in-memory (little-endian) representation,
`ToBytes` in cpp/vm/evmzero/uint256.h:27-28. -/
def leBytes (v : U256) : List Byte := (List.range 32).map fun i => (v >>> (8 * i)).setWidth 8

/-- Inverse view: the word whose little-endian bytes are `l` (writing through `ToBytes`). -/
def ofLeBytes (l : List Byte) : U256 := l.foldr (fun b acc => (acc <<< 8) ||| b.setWidth 256) 0

/-- `intx::bswap`: reverses the byte order. -/
def bswap (v : U256) : U256 := ofLeBytes (leBytes v).reverse

/-- `ToEvmcAddress` (cpp/vm/evmzero/uint256.h:33): the low 160 bits. -/
def toAddress (v : U256) : Address := v.setWidth 160
/-- `ToUint256(evmc_address)` (cpp/vm/evmzero/uint256.h:34). -/
def ofAddress (a : Address) : U256 := a.setWidth 256

/-- A C++ `bool` used as a number. -/
def ofBool (b : Bool) : U256 := if b then 1 else 0

end Tosca.Model
