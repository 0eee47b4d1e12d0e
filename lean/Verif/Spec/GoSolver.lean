/-!
# Specification: the constraint solvers of the test generators (C77)

What a user of a solver says: the values of an integer type of Go, and the constraints
put on a variable of that type.
-/
namespace Tosca.Spec.Solver

/-- An integer type of Go: `bits` wide, signed or not. -/
structure Ty where
  bits : Nat
  signed : Bool
deriving DecidableEq, Repr

/-- The integer types of Go: 8, 16, 32 and 64 bits. -/
def Ty.Known (t : Ty) : Prop := t.bits = 8 ∨ t.bits = 16 ∨ t.bits = 32 ∨ t.bits = 64

/-- The smallest value of a type. -/
def Ty.min (t : Ty) : Int := if t.signed then -(2 ^ (t.bits - 1) : Int) else 0
/-- The largest value of a type. -/
def Ty.max (t : Ty) : Int := if t.signed then (2 ^ (t.bits - 1) : Int) - 1 else (2 ^ t.bits : Int) - 1

/-- The value belongs to the type. -/
def Ty.Has (t : Ty) (x : Int) : Prop := t.min ≤ x ∧ x ≤ t.max

/-- `uint64`. -/
def uint64 : Ty := ⟨64, false⟩
/-- `int64`, the type of `tosca.Gas`. -/
def int64 : Ty := ⟨64, true⟩

/-- One constraint on the variable. -/
inductive Clause where
  | atLeast (c : Int)
  | atMost (c : Int)
  | equals (c : Int)
  /-- outside of `[a, b]` (no constraint when `b < a`) -/
  | outside (a b : Int)
deriving DecidableEq, Repr

/-- The value meets the constraint. -/
def Clause.Holds (x : Int) : Clause → Prop
  | .atLeast c => c ≤ x
  | .atMost c => x ≤ c
  | .equals c => x = c
  | .outside a b => ¬ (a ≤ x ∧ x ≤ b)

/-- The constants of the constraint belong to the type. -/
def Clause.Typed (t : Ty) : Clause → Prop
  | .atLeast c => t.Has c
  | .atMost c => t.Has c
  | .equals c => t.Has c
  | .outside a b => t.Has a ∧ t.Has b

/-- The values between `lo` and `hi` that meet all constraints. -/
def Solution (lo hi : Int) (cs : List Clause) (x : Int) : Prop :=
  lo ≤ x ∧ x ≤ hi ∧ ∀ c ∈ cs, c.Holds x

/-- What the solvers expect of a random number generator: `Uint64` gives a 64-bit
number and `Uint64n(n)` one below `n`. -/
structure Rnd where
  uint64 : Nat
  uint64n : Nat → Nat
  uint64_lt : uint64 < 2 ^ 64
  uint64n_lt : ∀ n, 0 < n → n < 2 ^ 64 → uint64n n < n

end Tosca.Spec.Solver
