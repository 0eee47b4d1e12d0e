import Verif.Proofs.Solver
/-!
# C77: the constraint solvers of the test generators are sound and complete

The conformance tests of the interpreters are made by generators that collect constraints
on a value (gas, refund, stack size, block number) in a solver and let it draw one.
-/
namespace Tosca
open Spec.Solver Model.Solver Proofs.Solver

/-- A range solver after `NewRangeSolver(lo, hi)` and the constraints, in this order. -/
def rangeOf (lo hi : Int) (cs : List Clause) : RangeSolver := cs.foldl RangeSolver.add ⟨lo, hi⟩

/-- An interval solver after `NewIntervalSolver(lo, hi)` and the constraints, in this order. -/
def intervalsOf (t : Ty) (lo hi : Int) (cs : List Clause) : List Interval := cs.foldl (add t) (newInterval lo hi)

/-- `GetMin` and `GetMax` of a range solver delimit exactly the values that meet all constraints, and it
is satisfiable if and only if there is one. -/
theorem C77_range_domain (lo hi : Int) (cs : List Clause) (hc : ∀ c ∈ cs, ∀ a b, c ≠ .outside a b) :
    (∀ x, ((rangeOf lo hi cs).min ≤ x ∧ x ≤ (rangeOf lo hi cs).max) ↔ Solution lo hi cs x) ∧
    ((rangeOf lo hi cs).isSatisfiable = true ↔ ∃ x, Solution lo hi cs x) := by
  have h := range_all cs ⟨lo, hi⟩ hc
  refine ⟨h, ?_⟩
  simp only [RangeSolver.isSatisfiable, Bool.not_eq_true', decide_eq_false_iff_not]
  constructor
  · intro hle
    exact ⟨(rangeOf lo hi cs).min, (h _).1 ⟨Int.le_refl _, by unfold rangeOf at *; omega⟩⟩
  · rintro ⟨x, hx⟩
    have := (h x).2 hx
    unfold rangeOf; omega

/-- `Generate` of a range solver over an unsigned type or a type of 64 bits: an error if and only if no
value meets the constraints; otherwise a value that meets them, whatever the random numbers are, and every
such value for some random numbers. -/
theorem C77_range_generate (t : Ty) (ht : t.Known) (hs : t.signed = false ∨ t.bits = 64) (lo hi : Int)
    (hlo : t.Has lo) (hhi : t.Has hi) (cs : List Clause) (hc : ∀ c ∈ cs, ∀ a b, c ≠ .outside a b)
    (htc : ∀ c ∈ cs, c.Typed t) :
    (∀ r, (rangeOf lo hi cs).generate t r = none ↔ ¬ ∃ x, Solution lo hi cs x) ∧
    (∀ r x, (rangeOf lo hi cs).generate t r = some x → Solution lo hi cs x) ∧
    (∀ x, Solution lo hi cs x → ∃ r, (rangeOf lo hi cs).generate t r = some x) := by
  obtain ⟨hd, hsat⟩ := C77_range_domain lo hi cs hc
  obtain ⟨t1, t2⟩ := range_typed cs ⟨lo, hi⟩ hlo hhi htc
  by_cases hle : (rangeOf lo hi cs).min ≤ (rangeOf lo hi cs).max
  · have hex : ∃ x, Solution lo hi cs x := ⟨_, (hd _).1 ⟨Int.le_refl _, hle⟩⟩
    refine ⟨fun r => ?_, fun r x hx => ?_, fun x hx => range_every ht hs _ t1 t2 x ((hd x).2 hx)⟩
    · obtain ⟨x, hx, _⟩ := range_generate ht hs _ t1 t2 hle r
      change (rangeOf lo hi cs).generate t r = some x at hx
      simp [hx, hex]
    · obtain ⟨y, hy, hr⟩ := range_generate ht hs _ t1 t2 hle r
      change (rangeOf lo hi cs).generate t r = some y at hy
      rw [hy] at hx
      cases hx
      exact (hd _).1 hr
  · have hno : ¬ ∃ x, Solution lo hi cs x := by
      rintro ⟨x, hx⟩; have := (hd x).2 hx; omega
    have hg : ∀ r, (rangeOf lo hi cs).generate t r = none := fun r => by
      unfold RangeSolver.generate; rw [if_pos (by omega)]
    exact ⟨fun r => (by simp [hg, hno]), fun r x hx => (by rw [hg] at hx; cases hx),
      fun x hx => absurd ⟨x, hx⟩ hno⟩

/-- The interval solver contains exactly the values that meet all constraints, for every integer type, and
is satisfiable if and only if there is one. -/
theorem C77_interval_domain (t : Ty) (ht : t.Known) (lo hi : Int) (hlo : t.Has lo) (hhi : t.Has hi)
    (cs : List Clause) (htc : ∀ c ∈ cs, c.Typed t) :
    (∀ x, contains (intervalsOf t lo hi cs) x = true ↔ Solution lo hi cs x) ∧
    (isSatisfiable (intervalsOf t lo hi cs) = true ↔ ∃ x, Solution lo hi cs x) := by
  obtain ⟨n1, n2⟩ := new_spec (t := t) hlo hhi
  obtain ⟨a1, a2⟩ := all_spec ht cs htc n1
  have hd : ∀ x, contains (intervalsOf t lo hi cs) x = true ↔ Solution lo hi cs x := fun x => by
    unfold intervalsOf Solution
    rw [a2, n2, and_assoc]
  refine ⟨hd, ?_⟩
  change Sorted t t.min (intervalsOf t lo hi cs) at a1
  cases he : intervalsOf t lo hi cs with
  | nil =>
    rw [he] at hd
    constructor
    · intro h; simp [isSatisfiable] at h
    · rintro ⟨x, hx⟩; have := (hd x).2 hx; simp [contains] at this
  | cons i r =>
    rw [he] at hd a1
    constructor
    · intro _; exact ⟨i.low, (hd _).1 (by rw [contains_cons]; left; exact ⟨Int.le_refl _, a1.2.1⟩)⟩
    · intro _; simp [isSatisfiable]

/-- Two interval solvers are `Equal` if and only if the same values meet their constraints, whatever the
order and form of these. -/
theorem C77_interval_equals (t : Ty) (ht : t.Known) (lo hi lo' hi' : Int) (hlo : t.Has lo) (hhi : t.Has hi)
    (hlo' : t.Has lo') (hhi' : t.Has hi') (cs cs' : List Clause) (htc : ∀ c ∈ cs, c.Typed t)
    (htc' : ∀ c ∈ cs', c.Typed t) :
    intervalsOf t lo hi cs = intervalsOf t lo' hi' cs' ↔ ∀ x, Solution lo hi cs x ↔ Solution lo' hi' cs' x := by
  have d1 := (C77_interval_domain t ht lo hi hlo hhi cs htc).1
  have d2 := (C77_interval_domain t ht lo' hi' hlo' hhi' cs' htc').1
  constructor
  · intro h x; rw [← d1, ← d2, h]
  · intro h
    refine sorted_ext (all_spec ht cs htc (new_spec (t := t) hlo hhi).1).1
      (all_spec ht cs' htc' (new_spec (t := t) hlo' hhi').1).1 fun x => ?_
    exact (d1 x).trans ((h x).trans (d2 x).symm)

/-- `Generate` of an interval solver over an unsigned type or a type of 64 bits: `ErrUnsatisfiable` if and only
if no value meets the constraints; otherwise a value that meets them, whatever the random numbers are, and
every such value for some random numbers; never the internal error. -/
theorem C77_interval_generate (t : Ty) (ht : t.Known) (hs : t.signed = false ∨ t.bits = 64) (lo hi : Int)
    (hlo : t.Has lo) (hhi : t.Has hi) (cs : List Clause) (htc : ∀ c ∈ cs, c.Typed t) :
    (∀ r, generate t (intervalsOf t lo hi cs) r = .unsatisfiable ↔ ¬ ∃ x, Solution lo hi cs x) ∧
    (∀ r x, generate t (intervalsOf t lo hi cs) r = .value x → Solution lo hi cs x) ∧
    (∀ x, Solution lo hi cs x → ∃ r, generate t (intervalsOf t lo hi cs) r = .value x) ∧
    (∀ r, generate t (intervalsOf t lo hi cs) r ≠ .internalError) := by
  obtain ⟨hd, hsat⟩ := C77_interval_domain t ht lo hi hlo hhi cs htc
  have hsorted : Sorted t t.min (intervalsOf t lo hi cs) := (all_spec ht cs htc (new_spec (t := t) hlo hhi).1).1
  by_cases hne : intervalsOf t lo hi cs = []
  · have hno : ¬ ∃ x, Solution lo hi cs x := by rw [← hsat, hne]; simp [isSatisfiable]
    have hg : ∀ r, generate t (intervalsOf t lo hi cs) r = .unsatisfiable := fun r => by simp [generate, hne]
    exact ⟨fun r => (by simp [hg, hno]), fun r x hx => (by rw [hg] at hx; cases hx),
      fun x hx => absurd ⟨x, hx⟩ hno, fun r => by rw [hg]; simp⟩
  · obtain ⟨g1, g2⟩ := generate_spec ht hs hsorted hne
    have hex : ∃ x, Solution lo hi cs x := by
      rw [← hsat]; simp only [isSatisfiable, decide_eq_true_eq]
      exact List.length_pos_iff.2 hne
    refine ⟨fun r => ?_, fun r x hx => ?_, fun x hx => g2 x ((hd x).2 hx), fun r => ?_⟩
    · obtain ⟨y, hy, _⟩ := g1 r; simp [hy, hex]
    · obtain ⟨y, hy, hr⟩ := g1 r
      rw [hy] at hx; cases hx; exact (hd _).1 hr
    · obtain ⟨y, hy, _⟩ := g1 r; rw [hy]; simp

/-- The restriction on the type is needed: for every signed type narrower than 64 bits there is a satisfiable
range for which `Generate` gives a value outside of it (the difference of the bounds overflows). -/
theorem C77_narrow (t : Ty) (ht : t.Known) (hs : t.signed = true) (hb : t.bits < 64) :
    ∃ (lo hi : Int) (r : Rnd) (x : Int), t.Has lo ∧ t.Has hi ∧ lo ≤ hi ∧
      (rangeOf lo hi []).generate t r = some x ∧ ¬ Solution lo hi [] x := by
  refine ⟨t.min, t.max - 1, ⟨0, fun n => if 2 ^ t.bits - 1 < n then 2 ^ t.bits - 1 else 0, by decide,
    fun n h _ => by split <;> omega⟩, t.max, ?_⟩
  rcases known_cases ht with rfl | rfl | rfl | rfl | rfl | rfl | rfl | rfl <;>
    first
    | (exfalso; simp at hs hb; done)
    | (refine ⟨by constructor <;> decide, by constructor <;> decide, by decide, by decide, ?_⟩
       simp [Solution])

/-! Concrete cases. -/

/-- Constraints that leave `{3} ∪ [8, 12]`. -/
def someClauses : List Clause := [.atLeast 3, .outside 4 7, .atMost 12]

example : intervalsOf uint64 0 (2 ^ 64 - 1) someClauses = [⟨3, 3⟩, ⟨8, 12⟩] := by decide
example : (∀ c ∈ someClauses, c.Typed uint64) ∧ uint64.Known ∧ uint64.Has 0 ∧ uint64.Has (2 ^ 64 - 1) := by
  refine ⟨?_, ?_, ?_, ?_⟩
  · intro c hc
    simp only [someClauses, List.mem_cons, List.not_mem_nil, or_false] at hc
    rcases hc with rfl | rfl | rfl <;> simp [Clause.Typed, Ty.Has, Ty.min, Ty.max, uint64]
  all_goals simp [Ty.Known, Ty.Has, Ty.min, Ty.max, uint64]
example : Solution 0 (2 ^ 64 - 1) someClauses 9 ∧ ¬ Solution 0 (2 ^ 64 - 1) someClauses 5 := by
  simp [Solution, someClauses, Clause.Holds]
/-- Removing the two ends of the type, where `min - 1` and `max + 1` wrap around. -/
example : intervalsOf uint64 0 (2 ^ 64 - 1) [.outside 0 3, .outside 100 (2 ^ 64 - 1)] = [⟨4, 99⟩] := by decide
example : intervalsOf int64 (-5) 5 [.equals 7] = [] := by decide
example : rangeOf (-500000000000) 500000000000 [.atLeast 3, .atMost 2] = ⟨3, 2⟩ := by decide
/-- A generator, and the value it leads to. -/
def someRnd : Rnd := ⟨42, fun n => if 3 < n then 3 else 0, by decide, fun n h _ => by split <;> omega⟩
example : generate uint64 (intervalsOf uint64 0 (2 ^ 64 - 1) someClauses) someRnd = .value 10 := by decide
example : generate uint64 (intervalsOf uint64 0 (2 ^ 64 - 1) []) someRnd = .value 42 := by decide
example : (rangeOf (-5) 5 [.atLeast (-4)]).generate int64 someRnd = some (-1) := by decide
/-- The overflow of narrow signed types, at `int8`. -/
example : (rangeOf (-128) 126 []).generate ⟨8, true⟩
    ⟨0, fun n => if 255 < n then 255 else 0, by decide, fun n h _ => by split <;> omega⟩ = some 127 := by decide

end Tosca
