import Verif.Spec.GoSolver
/-!
# The constraint solvers of the test generators

`go/ct/gen/range_solver.go` and `go/ct/gen/interval_solver.go`. The Go code is generic in
an integer type; a value is an `Int` within the type, arithmetic of the type wraps around
(`wrap`). Printing is left out.
-/
namespace Tosca.Model.Solver
open Tosca.Spec.Solver

/-- Arithmetic of an integer type of Go: the result modulo `2^bits`, as a value of the type
(the language, not a line of the repository). -/
def wrap (t : Ty) (x : Int) : Int :=
  if t.signed then Int.bmod x (2 ^ t.bits) else x % (2 ^ t.bits)

/-- The conversion `uint64(x)`. -/
def u64 (x : Int) : Nat := (x % 2 ^ 64).toNat

/-- `RangeSolver` (range_solver.go:29). -/
structure RangeSolver where
  min : Int
  max : Int
deriving DecidableEq, Repr

/-- `AddLowerBoundary` (range_solver.go:41). -/
def RangeSolver.lower (s : RangeSolver) (v : Int) : RangeSolver :=
  if v > s.min then { s with min := v } else s

/-- `AddUpperBoundary` (range_solver.go:51). -/
def RangeSolver.upper (s : RangeSolver) (v : Int) : RangeSolver :=
  if v < s.max then { s with max := v } else s

/-- `AddEqualityConstraint` (range_solver.go:57). -/
def RangeSolver.equal (s : RangeSolver) (v : Int) : RangeSolver := (s.lower v).upper v

/-- `IsSatisfiable` (range_solver.go:62). -/
def RangeSolver.isSatisfiable (s : RangeSolver) : Bool := !(decide (s.min > s.max))

/-- `Generate` (range_solver.go:74); `none` is `ErrUnsatisfiable`. -/
def RangeSolver.generate (t : Ty) (s : RangeSolver) (r : Rnd) : Option Int :=
  if s.min > s.max then none
  else
    let diff := wrap t (s.max - s.min)
    if u64 diff = 2 ^ 64 - 1 then some (wrap t r.uint64)
    else some (wrap t (wrap t (r.uint64n ((u64 diff + 1) % 2 ^ 64)) + s.min))

/-- The methods called for a constraint (the range solver has none for excluded ranges). -/
def RangeSolver.add (s : RangeSolver) : Clause → RangeSolver
  | .atLeast c => s.lower c
  | .atMost c => s.upper c
  | .equals c => s.equal c
  | .outside _ _ => s

/-- `interval` (interval_solver.go:158). -/
structure Interval where
  low : Int
  high : Int
deriving DecidableEq, Repr

/-- `interval.contains` (interval_solver.go:162). -/
def Interval.contains (i : Interval) (x : Int) : Bool := decide (i.low ≤ x) && decide (x ≤ i.high)

/-- `interval.isEmpty` (interval_solver.go:166). -/
def Interval.isEmpty (i : Interval) : Bool := decide (i.low > i.high)

/-- `relation` (interval_solver.go:170). -/
inductive Relation where
  | isEqual | isBefore | isAfter | isSubset | isSuperset | intersectsWithStart | intersectsWithEnd
deriving DecidableEq, Repr

/-- `getRelationTo` (interval_solver.go:182). -/
def Interval.relationTo (i other : Interval) : Relation :=
  if i = other then .isEqual
  else if i.high < other.low then .isBefore
  else if i.low > other.high then .isAfter
  else if i.low < other.low ∧ other.high < i.high then .isSubset
  else if other.low ≤ i.low ∧ i.high ≤ other.high then .isSuperset
  else if other.low ≤ i.high ∧ i.high ≤ other.high then .intersectsWithEnd
  else .intersectsWithStart

/-- `NewIntervalSolver` (interval_solver.go:33). -/
def newInterval (min max : Int) : List Interval :=
  if (Interval.mk min max).isEmpty then [] else [⟨min, max⟩]

/-- What the loop of `Exclude` appends for one interval (interval_solver.go:51). -/
def cut (t : Ty) (min max : Int) (cur : Interval) : List Interval :=
  let newLeft : Interval := ⟨cur.low, wrap t (min - 1)⟩
  let newRight : Interval := ⟨wrap t (max + 1), cur.high⟩
  match cur.relationTo ⟨min, max⟩ with
  | .isEqual => []
  | .isSubset => [newLeft, newRight]
  | .isSuperset => []
  | .intersectsWithStart => [newRight]
  | .intersectsWithEnd => [newLeft]
  | _ => [cur]

/-- `Exclude` (interval_solver.go:45). -/
def exclude (t : Ty) (s : List Interval) (min max : Int) : List Interval :=
  if max < min then s else s.flatMap (cut t min max)

/-- `Contains` (interval_solver.go:75). -/
def contains (s : List Interval) (x : Int) : Bool := s.any (·.contains x)

/-- `AddLowerBoundary` (interval_solver.go:89). -/
def lower (t : Ty) (s : List Interval) (v : Int) : List Interval :=
  match s with
  | [] => s
  | i :: _ => if v ≤ i.low then s else exclude t s i.low (wrap t (v - 1))

/-- `AddUpperBoundary` (interval_solver.go:100). -/
def upper (t : Ty) (s : List Interval) (v : Int) : List Interval :=
  match s.getLast? with
  | none => s
  | some i => if v ≥ i.high then s else exclude t s (wrap t (v + 1)) i.high

/-- `AddEqualityConstraint` (interval_solver.go:84). -/
def equal (t : Ty) (s : List Interval) (v : Int) : List Interval := lower t (upper t s v) v

/-- `IsSatisfiable` (interval_solver.go:111). -/
def isSatisfiable (s : List Interval) : Bool := decide (s.length > 0)

/-- The number of values of an interval as computed by `Generate`
(interval_solver.go:123, 132). -/
def Interval.size (t : Ty) (i : Interval) : Nat := u64 (wrap t (wrap t (i.high - i.low) + 1))

/-- `domainSize` (interval_solver.go:121). -/
def domainSize (t : Ty) (s : List Interval) : Nat :=
  s.foldl (fun a i => (a + i.size t) % 2 ^ 64) 0

/-- What `Generate` gives. -/
inductive Drawn where
  | unsatisfiable
  | value (x : Int)
  | internalError
deriving DecidableEq, Repr

/-- The second loop of `Generate` (interval_solver.go:131). -/
def pick (t : Ty) : List Interval → Nat → Drawn
  | [], _ => .internalError
  | i :: rest, sample =>
    if i.size t > sample then .value (wrap t (i.low + wrap t sample))
    else pick t rest (sample - i.size t)

/-- `Generate` (interval_solver.go:116). -/
def generate (t : Ty) (s : List Interval) (r : Rnd) : Drawn :=
  if s.length = 0 then .unsatisfiable
  else if domainSize t s = 0 then .value (wrap t r.uint64)
  else pick t s (r.uint64n (domainSize t s))

/-- The methods called for a constraint. -/
def add (t : Ty) (s : List Interval) : Clause → List Interval
  | .atLeast c => lower t s c
  | .atMost c => upper t s c
  | .equals c => equal t s c
  | .outside a b => exclude t s a b

end Tosca.Model.Solver
