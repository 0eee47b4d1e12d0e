import Verif.Model.Solver
import Mathlib.Tactic.Tauto
import Mathlib.Tactic.NormNum
/-!
# Proofs about the constraint solvers of the test generators
-/
namespace Tosca.Proofs.Solver
open Tosca.Spec.Solver Tosca.Model.Solver

theorem known_cases {t : Ty} (h : t.Known) :
    t = ⟨8, true⟩ ∨ t = ⟨16, true⟩ ∨ t = ⟨32, true⟩ ∨ t = ⟨64, true⟩ ∨
    t = ⟨8, false⟩ ∨ t = ⟨16, false⟩ ∨ t = ⟨32, false⟩ ∨ t = ⟨64, false⟩ := by
  obtain ⟨b, s⟩ := t
  rcases h with h | h | h | h <;> cases s <;> simp_all

theorem wrap_of_has {t : Ty} (ht : t.Known) {x : Int} (h : t.Has x) : wrap t x = x := by
  rcases known_cases ht with rfl | rfl | rfl | rfl | rfl | rfl | rfl | rfl <;>
    simp only [wrap, Ty.Has, Ty.min, Ty.max, if_true, if_false, Bool.false_eq_true, Int.bmod_def] at * <;>
    norm_num at * <;> omega

theorem wrap_has {t : Ty} (ht : t.Known) (x : Int) : t.Has (wrap t x) := by
  rcases known_cases ht with rfl | rfl | rfl | rfl | rfl | rfl | rfl | rfl <;>
    simp only [wrap, Ty.Has, Ty.min, Ty.max, if_true, if_false, Bool.false_eq_true, Int.bmod_def] at * <;>
    norm_num at * <;> omega

/-! ## Range solver -/

theorem range_add (s : RangeSolver) (c : Clause) (hc : ∀ a b, c ≠ .outside a b) (x : Int) :
    ((s.add c).min ≤ x ∧ x ≤ (s.add c).max) ↔ (s.min ≤ x ∧ x ≤ s.max ∧ c.Holds x) := by
  cases c with
  | atLeast c =>
    simp only [RangeSolver.add, RangeSolver.lower, Clause.Holds]; split <;> simp <;> omega
  | atMost c =>
    simp only [RangeSolver.add, RangeSolver.upper, Clause.Holds]; split <;> simp <;> omega
  | equals c =>
    simp only [RangeSolver.add, RangeSolver.equal, RangeSolver.upper, RangeSolver.lower, Clause.Holds]
    split <;> split <;> simp_all <;> omega
  | outside a b => exact absurd rfl (hc a b)

theorem range_all (cs : List Clause) : ∀ (s : RangeSolver), (∀ c ∈ cs, ∀ a b, c ≠ .outside a b) → ∀ x,
    ((cs.foldl RangeSolver.add s).min ≤ x ∧ x ≤ (cs.foldl RangeSolver.add s).max) ↔
      Solution s.min s.max cs x := by
  induction cs with
  | nil => intro s _ x; simp [Solution]
  | cons c cs ih =>
    intro s h x
    rw [List.foldl_cons, ih (s.add c) (fun c' h' => h c' (List.mem_cons_of_mem _ h')) x]
    have := range_add s c (h c (List.mem_cons_self ..)) x
    simp only [Solution, List.mem_cons, forall_eq_or_imp]
    tauto

theorem range_typed {t : Ty} (cs : List Clause) : ∀ (s : RangeSolver), t.Has s.min → t.Has s.max →
    (∀ c ∈ cs, c.Typed t) →
    t.Has (cs.foldl RangeSolver.add s).min ∧ t.Has (cs.foldl RangeSolver.add s).max := by
  induction cs with
  | nil => intro s h1 h2 _; exact ⟨h1, h2⟩
  | cons c cs ih =>
    intro s h1 h2 h
    have hc := h c (List.mem_cons_self ..)
    have : t.Has (s.add c).min ∧ t.Has (s.add c).max := by
      cases c <;> simp only [RangeSolver.add, RangeSolver.equal, RangeSolver.upper, RangeSolver.lower, Clause.Typed] at *
      all_goals (try split) <;> (try split) <;> simp_all
    exact ih _ this.1 this.2 (fun c' h' => h c' (List.mem_cons_of_mem _ h'))

/-- The difference of two values of a type, as computed. -/
theorem diff_small {t : Ty} (ht : t.Known) (h : t.signed = false ∨ t.bits = 64) {a b : Int}
    (ha : t.Has a) (hb : t.Has b) (hab : a ≤ b) : (u64 (wrap t (b - a)) : Int) = b - a := by
  rcases known_cases ht with rfl | rfl | rfl | rfl | rfl | rfl | rfl | rfl <;>
    simp only [wrap, u64, Ty.Has, Ty.min, Ty.max, if_true, if_false, Bool.false_eq_true, Int.bmod_def] at * <;>
    norm_num at * <;> omega

theorem wrap_add {t : Ty} (ht : t.Known) (a b : Int) : wrap t (a + wrap t b) = wrap t (a + b) := by
  rcases known_cases ht with rfl | rfl | rfl | rfl | rfl | rfl | rfl | rfl <;>
    simp only [wrap, if_true, if_false, Bool.false_eq_true, Int.bmod_def] <;>
    norm_num <;> omega

/-- Only the full type is as large as `uint64`. -/
theorem full_of_diff {t : Ty} (ht : t.Known) {a b : Int} (ha : t.Has a) (hb : t.Has b)
    (h : b - a = 2 ^ 64 - 1) : a = t.min ∧ b = t.max := by
  rcases known_cases ht with rfl | rfl | rfl | rfl | rfl | rfl | rfl | rfl <;>
    simp only [Ty.Has, Ty.min, Ty.max, if_true, if_false, Bool.false_eq_true] at * <;>
    norm_num at * <;> omega

theorem range_generate {t : Ty} (ht : t.Known) (hs : t.signed = false ∨ t.bits = 64) (s : RangeSolver)
    (h1 : t.Has s.min) (h2 : t.Has s.max) (hle : s.min ≤ s.max) (r : Rnd) :
    ∃ x, s.generate t r = some x ∧ s.min ≤ x ∧ x ≤ s.max := by
  unfold RangeSolver.generate
  rw [if_neg (by omega)]
  have hd := diff_small ht hs h1 h2 hle
  simp only
  split
  · rename_i hf
    have := full_of_diff ht h1 h2 (by omega)
    have hw := wrap_has ht (r.uint64 : Int)
    exact ⟨_, rfl, by rw [this.1]; exact hw.1, by rw [this.2]; exact hw.2⟩
  · rename_i hf
    have hu : u64 (wrap t (s.max - s.min)) < 2 ^ 64 := by unfold u64; omega
    have hn := r.uint64n_lt ((u64 (wrap t (s.max - s.min)) + 1) % 2 ^ 64) (by omega) (by omega)
    refine ⟨_, rfl, ?_⟩
    rw [Int.add_comm, wrap_add ht, wrap_of_has ht]
    · omega
    · unfold Ty.Has at *; omega

/-- Every value of the range may be drawn. -/
theorem range_every {t : Ty} (ht : t.Known) (hs : t.signed = false ∨ t.bits = 64) (s : RangeSolver)
    (h1 : t.Has s.min) (h2 : t.Has s.max) (x : Int) (hx : s.min ≤ x ∧ x ≤ s.max) :
    ∃ r : Rnd, s.generate t r = some x := by
  have hd := diff_small ht hs h1 h2 (by omega)
  refine ⟨⟨(x % 2 ^ 64).toNat, fun n => if (x - s.min).toNat < n then (x - s.min).toNat else 0, by omega,
    fun n h _ => by split <;> omega⟩, ?_⟩
  unfold RangeSolver.generate
  rw [if_neg (by omega)]
  simp only
  have hxt : t.Has x := by unfold Ty.Has at *; omega
  have hu : u64 (wrap t (s.max - s.min)) < 2 ^ 64 := by unfold u64; omega
  split
  · rename_i hf
    congr 1
    rcases known_cases ht with rfl | rfl | rfl | rfl | rfl | rfl | rfl | rfl <;>
      simp only [wrap, Ty.Has, Ty.min, Ty.max, if_true, if_false, Bool.false_eq_true, Int.bmod_def] at * <;>
      norm_num at * <;> omega
  · rw [if_pos (by omega), Int.add_comm, wrap_add ht]
    rw [show s.min + ((x - s.min).toNat : Int) = x by omega, wrap_of_has ht hxt]

/-! ## Interval solver -/

/-- The intervals are within the type, not empty, in order, with a gap between them, and all above `a`. -/
def Sorted (t : Ty) : Int → List Interval → Prop
  | _, [] => True
  | a, i :: rest => a ≤ i.low ∧ i.low ≤ i.high ∧ i.high ≤ t.max ∧ Sorted t (i.high + 2) rest

theorem Sorted.weaken {t : Ty} {a b : Int} {s : List Interval} (h : Sorted t a s) (hb : b ≤ a) : Sorted t b s := by
  cases s with
  | nil => trivial
  | cons i rest => exact ⟨by have := h.1; omega, h.2⟩

theorem sorted_contains {t : Ty} : ∀ {s : List Interval} {a : Int}, Sorted t a s → ∀ {x}, contains s x = true →
    a ≤ x ∧ x ≤ t.max := by
  intro s
  induction s with
  | nil => intro a _ x h; simp [contains] at h
  | cons i rest ih =>
    intro a h x hx
    obtain ⟨h1, h2, h3, h4⟩ := h
    simp only [contains, List.any_cons, Bool.or_eq_true, Interval.contains, Bool.and_eq_true,
      decide_eq_true_eq] at hx
    rcases hx with hx | hx
    · omega
    · have := ih h4 (x := x) (by simpa [contains, Interval.contains] using hx)
      omega

theorem contains_cons (i : Interval) (s : List Interval) (x : Int) :
    contains (i :: s) x = true ↔ (i.low ≤ x ∧ x ≤ i.high) ∨ contains s x = true := by
  simp [contains, Interval.contains]

theorem contains_append (s s' : List Interval) (x : Int) :
    contains (s ++ s') x = true ↔ contains s x = true ∨ contains s' x = true := by
  simp [contains]

theorem contains_nil (x : Int) : contains [] x = false := rfl

theorem interval_eq (i : Interval) (a b : Int) : i = ⟨a, b⟩ ↔ i.low = a ∧ i.high = b := by
  cases i; simp

/-- What is left of one interval. -/
theorem cut_spec {t : Ty} (ht : t.Known) {a b : Int} (hab : a ≤ b) {i : Interval}
    (h1 : t.min ≤ i.low) (h2 : i.low ≤ i.high) (h3 : i.high ≤ t.max) :
    (∀ x, contains (cut t a b i) x = true ↔ (i.low ≤ x ∧ x ≤ i.high) ∧ ¬ (a ≤ x ∧ x ≤ b)) ∧
    (∀ rest, Sorted t (i.high + 2) rest → Sorted t i.low (cut t a b i ++ rest)) := by
  by_cases e0 : i = ⟨a, b⟩
  · have : cut t a b i = [] := by simp [cut, Interval.relationTo, e0]
    rw [this]; rw [interval_eq] at e0
    exact ⟨fun x => by simp [contains]; omega, fun rest h => h.weaken (by omega)⟩
  by_cases e1 : i.high < a
  · have : cut t a b i = [i] := by simp [cut, Interval.relationTo, e0, e1]
    rw [this]
    exact ⟨fun x => by simp [contains, Interval.contains]; omega, fun rest h => ⟨by omega, h2, h3, h⟩⟩
  by_cases e2 : i.low > b
  · have : cut t a b i = [i] := by simp [cut, Interval.relationTo, e0, e1, e2]
    rw [this]
    exact ⟨fun x => by simp [contains, Interval.contains]; omega, fun rest h => ⟨by omega, h2, h3, h⟩⟩
  by_cases e3 : i.low < a ∧ b < i.high
  · have : cut t a b i = [⟨i.low, wrap t (a - 1)⟩, ⟨wrap t (b + 1), i.high⟩] := by
      simp [cut, Interval.relationTo, e0, e1, e2, e3]
    rw [this, wrap_of_has ht (by unfold Ty.Has; omega), wrap_of_has ht (by unfold Ty.Has; omega)]
    exact ⟨fun x => by simp [contains, Interval.contains]; omega,
      fun rest h => ⟨by simp, by simp; omega, by simp; omega, by simp; omega, by simp; omega, h3, h⟩⟩
  by_cases e4 : a ≤ i.low ∧ i.high ≤ b
  · have : cut t a b i = [] := by simp [cut, Interval.relationTo, e0, e1, e2, e3, e4]
    rw [this]
    exact ⟨fun x => by simp [contains]; omega, fun rest h => h.weaken (by omega)⟩
  by_cases e5 : a ≤ i.high ∧ i.high ≤ b
  · have : cut t a b i = [⟨i.low, wrap t (a - 1)⟩] := by
      simp only [cut, Interval.relationTo]
      rw [if_neg e0, if_neg e1, if_neg e2, if_neg e3, if_neg e4, if_pos e5]
    rw [this, wrap_of_has ht (by unfold Ty.Has; omega)]
    exact ⟨fun x => by simp [contains, Interval.contains]; omega,
      fun rest h => ⟨by simp, by simp; omega, by simp; omega, h.weaken (by simp; omega)⟩⟩
  · have : cut t a b i = [⟨wrap t (b + 1), i.high⟩] := by
      simp only [cut, Interval.relationTo]
      rw [if_neg e0, if_neg e1, if_neg e2, if_neg e3, if_neg e4, if_neg e5]
    rw [this, wrap_of_has ht (by unfold Ty.Has; omega)]
    exact ⟨fun x => by simp [contains, Interval.contains]; omega,
      fun rest h => ⟨by simp; omega, by simp; omega, h3, h⟩⟩

theorem exclude_spec {t : Ty} (ht : t.Known) {a b : Int} : ∀ (s : List Interval) (m : Int), t.min ≤ m →
    Sorted t m s →
    Sorted t m (exclude t s a b) ∧
    ∀ x, contains (exclude t s a b) x = true ↔ contains s x = true ∧ ¬ (a ≤ x ∧ x ≤ b) := by
  by_cases hab : b < a
  · intro s m _ h
    rw [exclude, if_pos hab]
    exact ⟨h, fun x => ⟨fun hx => ⟨hx, by omega⟩, fun hx => hx.1⟩⟩
  · intro s
    unfold exclude
    rw [if_neg hab]
    induction s with
    | nil => intro m _ _; exact ⟨trivial, fun x => by simp [contains]⟩
    | cons i rest ih =>
      intro m hm h
      obtain ⟨h1, h2, h3, h4⟩ := h
      obtain ⟨i1, i2⟩ := ih (i.high + 2) (by omega) h4
      obtain ⟨c1, c2⟩ := cut_spec (a := a) (b := b) ht (by omega) (show t.min ≤ i.low by omega) h2 h3
      refine ⟨?_, fun x => ?_⟩
      · rw [List.flatMap_cons]
        exact (c2 _ i1).weaken h1
      · rw [List.flatMap_cons, contains_append, c1, i2, contains_cons]
        tauto

theorem lower_spec {t : Ty} (ht : t.Known) {v : Int} (hv : t.Has v) {s : List Interval}
    (h : Sorted t t.min s) : Sorted t t.min (lower t s v) ∧
    ∀ x, contains (lower t s v) x = true ↔ contains s x = true ∧ v ≤ x := by
  cases s with
  | nil => exact ⟨trivial, fun x => by simp [lower, contains]⟩
  | cons i rest =>
    have hc : ∀ x, contains (i :: rest) x = true → i.low ≤ x := fun x hx =>
      (sorted_contains (a := i.low) (show Sorted t i.low (i :: rest) from ⟨Int.le_refl _, h.2⟩) hx).1
    unfold lower
    simp only
    split
    · exact ⟨h, fun x => ⟨fun hx => ⟨hx, by have := hc x hx; omega⟩, fun hx => hx.1⟩⟩
    · rename_i hn
      have hi := h.1
      rw [wrap_of_has ht (by unfold Ty.Has at *; omega)]
      obtain ⟨e1, e2⟩ := exclude_spec (a := i.low) (b := v - 1) ht _ _ (Int.le_refl _) h
      refine ⟨e1, fun x => ?_⟩
      rw [e2]
      constructor
      · rintro ⟨hx, hn⟩; have := hc x hx; exact ⟨hx, by omega⟩
      · rintro ⟨hx, hv⟩; exact ⟨hx, by omega⟩

theorem last_bound {t : Ty} : ∀ {s : List Interval} {m : Int}, Sorted t m s → ∀ {i}, s.getLast? = some i →
    (∀ x, contains s x = true → x ≤ i.high) ∧ i.high ≤ t.max := by
  intro s
  induction s with
  | nil => intro m _ i h; simp at h
  | cons j rest ih =>
    intro m h i hi
    obtain ⟨h1, h2, h3, h4⟩ := h
    cases rest with
    | nil =>
      simp at hi; subst hi
      exact ⟨fun x hx => by simp [contains, Interval.contains] at hx; omega, h3⟩
    | cons k rest' =>
      rw [List.getLast?_cons_cons] at hi
      obtain ⟨b1, b2⟩ := ih h4 hi
      refine ⟨fun x hx => ?_, b2⟩
      rw [contains_cons] at hx
      rcases hx with hx | hx
      · have := b1 k.low (by rw [contains_cons]; left; exact ⟨Int.le_refl _, h4.2.1⟩)
        have := h4.1
        omega
      · exact b1 x hx

theorem upper_spec {t : Ty} (ht : t.Known) {v : Int} (hv : t.Has v) {s : List Interval}
    (h : Sorted t t.min s) : Sorted t t.min (upper t s v) ∧
    ∀ x, contains (upper t s v) x = true ↔ contains s x = true ∧ x ≤ v := by
  unfold upper
  cases hl : s.getLast? with
  | none =>
    have : s = [] := by simpa using hl
    subst this
    exact ⟨trivial, fun x => by simp [contains]⟩
  | some i =>
    obtain ⟨b1, b2⟩ := last_bound h hl
    simp only
    split
    · exact ⟨h, fun x => ⟨fun hx => ⟨hx, by have := b1 x hx; omega⟩, fun hx => hx.1⟩⟩
    · rw [wrap_of_has ht (by unfold Ty.Has at *; omega)]
      obtain ⟨e1, e2⟩ := exclude_spec (a := v + 1) (b := i.high) ht _ _ (Int.le_refl _) h
      refine ⟨e1, fun x => ?_⟩
      rw [e2]
      constructor
      · rintro ⟨hx, hn⟩; have := b1 x hx; exact ⟨hx, by omega⟩
      · rintro ⟨hx, hv⟩; exact ⟨hx, by omega⟩

theorem add_spec {t : Ty} (ht : t.Known) {c : Clause} (hc : c.Typed t) {s : List Interval}
    (h : Sorted t t.min s) : Sorted t t.min (add t s c) ∧
    ∀ x, contains (add t s c) x = true ↔ contains s x = true ∧ c.Holds x := by
  cases c with
  | atLeast v => exact lower_spec ht hc h
  | atMost v => exact upper_spec ht hc h
  | equals v =>
    obtain ⟨u1, u2⟩ := upper_spec ht hc h
    obtain ⟨l1, l2⟩ := lower_spec ht hc u1
    refine ⟨l1, fun x => ?_⟩
    show contains (lower t (upper t s v) v) x = true ↔ _ ∧ x = v
    rw [l2, u2, and_assoc]
    exact and_congr_right fun _ => by omega
  | outside a b => exact exclude_spec ht _ _ (Int.le_refl _) h

theorem new_spec {t : Ty} {lo hi : Int} (h1 : t.Has lo) (h2 : t.Has hi) :
    Sorted t t.min (newInterval lo hi) ∧
    ∀ x, contains (newInterval lo hi) x = true ↔ lo ≤ x ∧ x ≤ hi := by
  unfold newInterval
  by_cases h : lo > hi
  · rw [if_pos (by simp [Interval.isEmpty, h])]
    exact ⟨trivial, fun x => by simp [contains]; omega⟩
  · rw [if_neg (by simp [Interval.isEmpty]; omega)]
    exact ⟨⟨h1.1, by simp; omega, h2.2, trivial⟩, fun x => by simp [contains, Interval.contains]⟩

theorem all_spec {t : Ty} (ht : t.Known) (cs : List Clause) : ∀ {s : List Interval}, (∀ c ∈ cs, c.Typed t) →
    Sorted t t.min s → Sorted t t.min (cs.foldl (add t) s) ∧
    ∀ x, contains (cs.foldl (add t) s) x = true ↔ contains s x = true ∧ ∀ c ∈ cs, c.Holds x := by
  induction cs with
  | nil => intro s _ h; exact ⟨h, fun x => by simp⟩
  | cons c cs ih =>
    intro s hc h
    obtain ⟨a1, a2⟩ := add_spec ht (hc c (List.mem_cons_self ..)) h
    obtain ⟨r1, r2⟩ := ih (fun c' h' => hc c' (List.mem_cons_of_mem _ h')) a1
    refine ⟨r1, fun x => ?_⟩
    rw [List.foldl_cons, r2, a2]
    simp only [List.mem_cons, forall_eq_or_imp]
    tauto

/-- Lists of intervals in order with gaps are determined by their values. -/
theorem sorted_ext {t : Ty} : ∀ {s s' : List Interval} {a a' : Int}, Sorted t a s → Sorted t a' s' →
    (∀ x, contains s x = true ↔ contains s' x = true) → s = s' := by
  intro s
  induction s with
  | nil =>
    intro s' a a' _ h' hx
    cases s' with
    | nil => rfl
    | cons j r =>
      have := (hx j.low).2 (by rw [contains_cons]; left; exact ⟨Int.le_refl _, h'.2.1⟩)
      simp [contains] at this
  | cons i r ih =>
    intro s' a a' h h' hx
    cases s' with
    | nil =>
      have := (hx i.low).1 (by rw [contains_cons]; left; exact ⟨Int.le_refl _, h.2.1⟩)
      simp [contains] at this
    | cons j r' =>
      obtain ⟨h1, h2, h3, h4⟩ := h
      obtain ⟨g1, g2, g3, g4⟩ := h'
      have mem : ∀ (k : Interval) (q : List Interval) (a : Int), Sorted t (k.high + 2) q → ∀ x,
          contains (k :: q) x = true → (k.low ≤ x ∧ x ≤ k.high) ∨ k.high + 2 ≤ x := by
        intro k q a hq x hx
        rw [contains_cons] at hx
        rcases hx with hx | hx
        · exact Or.inl hx
        · exact Or.inr (sorted_contains hq hx).1
      have ci : ∀ x, i.low ≤ x → x ≤ i.high → contains (i :: r) x = true := fun x p q => by
        rw [contains_cons]; exact Or.inl ⟨p, q⟩
      have cj : ∀ x, j.low ≤ x → x ≤ j.high → contains (j :: r') x = true := fun x p q => by
        rw [contains_cons]; exact Or.inl ⟨p, q⟩
      have mi := mem i r a h4
      have mj := mem j r' a' g4
      have l1 := mj i.low ((hx _).1 (ci _ (Int.le_refl _) h2))
      have l2 := mi j.low ((hx _).2 (cj _ (Int.le_refl _) g2))
      have l3 := mj i.high ((hx _).1 (ci _ h2 (Int.le_refl _)))
      have l4 := mi j.high ((hx _).2 (cj _ g2 (Int.le_refl _)))
      have hl : i.low = j.low := by omega
      have hh : i.high = j.high := by
        by_cases hlt : i.high < j.high
        · have := mi (i.high + 1) ((hx _).2 (cj _ (by omega) (by omega))); omega
        · by_cases hgt : j.high < i.high
          · have := mj (j.high + 1) ((hx _).1 (ci _ (by omega) (by omega))); omega
          · omega
      have hij : i = j := by cases i; cases j; simp_all
      subst hij
      congr 1
      refine ih h4 g4 fun x => ?_
      have := hx x
      rw [contains_cons, contains_cons] at this
      constructor
      · intro hr
        have := sorted_contains h4 hr
        rcases (‹_ ↔ _›).1 (Or.inr hr) with hh | hh
        · omega
        · exact hh
      · intro hr
        have := sorted_contains g4 hr
        rcases (‹_ ↔ _›).2 (Or.inr hr) with hh | hh
        · omega
        · exact hh

/-! ### Drawing a value -/

/-- The size of an interval, as computed. -/
theorem size_spec {t : Ty} (ht : t.Known) (hs : t.signed = false ∨ t.bits = 64) {i : Interval}
    (h1 : t.min ≤ i.low) (h2 : i.low ≤ i.high) (h3 : i.high ≤ t.max) :
    (i.size t : Int) = i.high - i.low + 1 ∨ (i.size t = 0 ∧ i.low = t.min ∧ i.high = t.max) := by
  obtain ⟨lo, hi⟩ := i
  rcases known_cases ht with rfl | rfl | rfl | rfl | rfl | rfl | rfl | rfl <;>
    simp only [Interval.size, wrap, u64, Ty.min, Ty.max, if_true, if_false, Bool.false_eq_true, Int.bmod_def] at * <;>
    norm_num at * <;> omega

/-- The number of values of the intervals. -/
def total : List Interval → Int
  | [] => 0
  | i :: rest => (i.high - i.low + 1) + total rest

theorem total_nonneg {t : Ty} : ∀ {s : List Interval} {a : Int}, Sorted t a s → 0 ≤ total s := by
  intro s
  induction s with
  | nil => intro _ _; exact Int.le_refl _
  | cons i r ih => intro a h; have := ih h.2.2.2; have := h.2.1; unfold total; omega

theorem total_le {t : Ty} : ∀ {s : List Interval} {a : Int}, Sorted t a s → a ≤ t.max + 1 → total s ≤ t.max - a + 1 := by
  intro s
  induction s with
  | nil => intro a _ h; unfold total; omega
  | cons i r ih =>
    intro a h ha
    obtain ⟨h1, h2, h3, h4⟩ := h
    cases r with
    | nil => simp only [total]; omega
    | cons j r' =>
      have hj := h4.1
      have := h4.2.1; have := h4.2.2.1
      have := ih h4 (by omega)
      rw [total]; omega

theorem foldl_size {t : Ty} (s : List Interval) : ∀ (a : Nat), a < 2 ^ 64 → 
    (∀ i ∈ s, (i.size t : Int) = i.high - i.low + 1) →
    ((s.foldl (fun a i => (a + i.size t) % 2 ^ 64) a : Nat) : Int) = (a + total s) % 2 ^ 64 := by
  induction s with
  | nil => intro a ha _; simp [total]; omega
  | cons i r ih =>
    intro a ha h
    rw [List.foldl_cons, ih _ (by omega) (fun j hj => h j (List.mem_cons_of_mem _ hj))]
    have := h i (List.mem_cons_self ..)
    rw [total]
    omega

theorem pick_spec {t : Ty} (ht : t.Known) : ∀ {s : List Interval} {a : Int}, t.min ≤ a → Sorted t a s →
    (∀ i ∈ s, (i.size t : Int) = i.high - i.low + 1) → ∀ (k : Nat), (k : Int) < total s →
    ∃ x, pick t s k = .value x ∧ contains s x = true := by
  intro s
  induction s with
  | nil => intro a _ _ _ k hk; unfold total at hk; omega
  | cons i r ih =>
    intro a ha h hz k hk
    obtain ⟨h1, h2, h3, h4⟩ := h
    have hi := hz i (List.mem_cons_self ..)
    unfold pick
    split
    · refine ⟨_, rfl, ?_⟩
      rw [wrap_add ht, wrap_of_has ht (by unfold Ty.Has; omega), contains_cons]
      left; omega
    · obtain ⟨x, hx, hc⟩ := ih (by omega) h4 (fun j hj => hz j (List.mem_cons_of_mem _ hj)) (k - i.size t)
        (by rw [total] at hk; omega)
      exact ⟨x, hx, by rw [contains_cons]; exact Or.inr hc⟩

theorem pick_every {t : Ty} (ht : t.Known) : ∀ {s : List Interval} {a : Int}, t.min ≤ a → Sorted t a s →
    (∀ i ∈ s, (i.size t : Int) = i.high - i.low + 1) → ∀ x, contains s x = true →
    ∃ k : Nat, (k : Int) < total s ∧ pick t s k = .value x := by
  intro s
  induction s with
  | nil => intro a _ _ _ x hx; simp [contains] at hx
  | cons i r ih =>
    intro a ha h hz x hx
    obtain ⟨h1, h2, h3, h4⟩ := h
    have hi := hz i (List.mem_cons_self ..)
    rw [contains_cons] at hx
    have h0 := total_nonneg h4
    rcases hx with hx | hx
    · refine ⟨(x - i.low).toNat, by rw [total]; omega, ?_⟩
      unfold pick
      rw [if_pos (by omega), wrap_add ht, show i.low + ((x - i.low).toNat : Int) = x by omega,
        wrap_of_has ht (by unfold Ty.Has; omega)]
    · obtain ⟨k, hk, hp⟩ := ih (by omega) h4 (fun j hj => hz j (List.mem_cons_of_mem _ hj)) x hx
      refine ⟨k + i.size t, by rw [total]; omega, ?_⟩
      unfold pick
      rw [if_neg (by omega)]
      simpa using hp

theorem sorted_mem {t : Ty} : ∀ {s : List Interval} {a : Int}, Sorted t a s → ∀ i ∈ s,
    a ≤ i.low ∧ i.low ≤ i.high ∧ i.high ≤ t.max := by
  intro s
  induction s with
  | nil => intro a _ i hi; simp at hi
  | cons j r ih =>
    intro a h i hi
    obtain ⟨h1, h2, h3, h4⟩ := h
    rw [List.mem_cons] at hi
    rcases hi with rfl | hi
    · exact ⟨h1, h2, h3⟩
    · have := ih h4 i hi; omega

/-- Either all sizes are exact, or the one interval is the whole type. -/
theorem sizes {t : Ty} (ht : t.Known) (hs : t.signed = false ∨ t.bits = 64) {s : List Interval}
    (h : Sorted t t.min s) : (∀ i ∈ s, (i.size t : Int) = i.high - i.low + 1) ∨
      (s = [⟨t.min, t.max⟩] ∧ Interval.size t ⟨t.min, t.max⟩ = 0) := by
  by_cases hall : ∀ i ∈ s, (i.size t : Int) = i.high - i.low + 1
  · exact Or.inl hall
  · right
    push Not at hall
    obtain ⟨i, hi, hne⟩ := hall
    obtain ⟨m1, m2, m3⟩ := sorted_mem h i hi
    rcases size_spec ht hs m1 m2 m3 with he | ⟨hz, h1, h2⟩
    · exact absurd he hne
    · have hie : i = ⟨t.min, t.max⟩ := by rw [interval_eq]; exact ⟨h1, h2⟩
      subst hie
      cases s with
      | nil => simp at hi
      | cons j r =>
        obtain ⟨k1, k2, k3, k4⟩ := h
        rw [List.mem_cons] at hi
        rcases hi with hj | hr
        · subst hj
          cases r with
          | nil => exact ⟨rfl, hz⟩
          | cons q r' => have := k4.1; have := k4.2.1; have := k4.2.2.1; simp at *; omega
        · have := sorted_mem k4 _ hr; simp at *; omega

theorem type_size {t : Ty} (ht : t.Known) : t.max - t.min + 1 ≤ 2 ^ 64 ∧ t.min < t.max := by
  rcases known_cases ht with rfl | rfl | rfl | rfl | rfl | rfl | rfl | rfl <;> decide

theorem total_pos {t : Ty} {s : List Interval} {a : Int} (h : Sorted t a s) (hne : s ≠ []) : 0 < total s := by
  cases s with
  | nil => exact absurd rfl hne
  | cons i r => have := total_nonneg h.2.2.2; have := h.2.1; unfold total; omega

/-- All values of the type are in the intervals when they are as many as the type has. -/
theorem full_of_total {t : Ty} {s : List Interval} {a : Int} (h : Sorted t a s) (ha : a ≤ t.max)
    (ht : total s = t.max - a + 1) : s = [⟨a, t.max⟩] := by
  cases s with
  | nil => unfold total at ht; omega
  | cons i r =>
    obtain ⟨h1, h2, h3, h4⟩ := h
    cases r with
    | nil =>
      simp only [total] at ht
      have : i = ⟨a, t.max⟩ := by rw [interval_eq]; omega
      rw [this]
    | cons j r' =>
      have := h4.1; have := h4.2.1; have := h4.2.2.1
      have := total_le h4 (by omega)
      rw [total] at ht; omega

theorem generate_spec {t : Ty} (ht : t.Known) (hs : t.signed = false ∨ t.bits = 64) {s : List Interval}
    (h : Sorted t t.min s) (hne : s ≠ []) :
    (∀ r, ∃ x, generate t s r = .value x ∧ contains s x = true) ∧
    (∀ x, contains s x = true → ∃ r, generate t s r = .value x) := by
  have hl : ¬ s.length = 0 := fun e => hne (List.eq_nil_of_length_eq_zero e)
  have whole : s = [⟨t.min, t.max⟩] → domainSize t s = 0 →
      (∀ r, ∃ x, generate t s r = .value x ∧ contains s x = true) ∧
      (∀ x, contains s x = true → ∃ r, generate t s r = .value x) := by
    intro he hd
    have hg : ∀ r, generate t s r = .value (wrap t r.uint64) := fun r => by
      unfold generate; rw [if_neg hl, if_pos hd]
    refine ⟨fun r => ⟨_, hg r, ?_⟩, fun x hx => ?_⟩
    · rw [he, contains_cons]; exact Or.inl (wrap_has ht _)
    · have hxt := sorted_contains h hx
      refine ⟨⟨(x % 2 ^ 64).toNat, fun _ => 0, by omega, fun n h _ => h⟩, ?_⟩
      rw [hg]
      congr 1
      rcases known_cases ht with rfl | rfl | rfl | rfl | rfl | rfl | rfl | rfl <;>
        simp only [wrap, Ty.min, Ty.max, if_true, if_false, Bool.false_eq_true, Int.bmod_def] at hxt ⊢ <;>
        norm_num at * <;> omega
  rcases sizes ht hs h with hz | ⟨he, hz⟩
  · have hd := foldl_size (t := t) s 0 (by decide) hz
    have hts := type_size ht
    have ht1 := total_le h (by omega)
    have ht2 := total_pos h hne
    by_cases hfull : total s = 2 ^ 64
    · refine whole (full_of_total h (by omega) (by omega)) ?_
      unfold domainSize; omega
    · have hd' : (domainSize t s : Int) = total s := by unfold domainSize; omega
      have hg : ∀ r, generate t s r = pick t s (r.uint64n (domainSize t s)) := fun r => by
        unfold generate; rw [if_neg hl, if_neg (by omega)]
      refine ⟨fun r => ?_, fun x hx => ?_⟩
      · rw [hg]
        exact pick_spec ht (Int.le_refl _) h hz _ (by
          have := r.uint64n_lt (domainSize t s) (by omega) (by omega); omega)
      · obtain ⟨k, hk, hp⟩ := pick_every ht (Int.le_refl _) h hz x hx
        refine ⟨⟨0, fun n => if k < n then k else 0, by decide, fun n h _ => by split <;> omega⟩, ?_⟩
        rw [hg]
        simp only
        rw [if_pos (by omega), hp]
  · refine whole he ?_
    rw [he]; simp [domainSize, hz]

end Tosca.Proofs.Solver
