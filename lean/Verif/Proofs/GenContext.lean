import Verif.Spec.GoGenContext
import Verif.Props.Solver

/-! # Proofs about the generators of contexts (C82) -/

namespace Tosca.Proofs.GenContext

open Tosca.Go Tosca.Model.Go Tosca.Model.Gen Tosca.Spec.Gen
open Tosca.Spec.Solver (Clause uint64 Solution Ty)
open Tosca.Model.Solver (RangeSolver newInterval)

variable {σ : Type}

theorem known64 : uint64.Known := by simp [Ty.Known, uint64]
theorem has64 (x : Int) : uint64.Has x ↔ 0 ≤ x ∧ x < 2 ^ 64 := by
  simp only [Ty.Has, Ty.min, Ty.max, uint64]; simp; omega

/-! ### Revisions -/

theorem revisionForBlock_eq (n : Nat) : revisionForBlock n = revisionOf n := by
  have hr : List.range 7 = [0, 1, 2, 3, 4, 5, 6] := rfl
  unfold revisionForBlock revisionOf
  rw [hr]
  by_cases h1 : n < 1000
  · simp [List.find?, forkBlock, h1, show n < 6000 by omega]; omega
  by_cases h2 : n < 2000
  · simp [List.find?, forkBlock, h1, h2, show n < 6000 by omega]; omega
  by_cases h3 : n < 3000
  · simp [List.find?, forkBlock, h1, h2, h3, show n < 6000 by omega]; omega
  by_cases h4 : n < 4000
  · simp [List.find?, forkBlock, h1, h2, h3, h4, show n < 6000 by omega]; omega
  by_cases h5 : n < 5000
  · simp [List.find?, forkBlock, h1, h2, h3, h4, h5, show n < 6000 by omega]; omega
  by_cases h6 : n < 6000
  · simp [List.find?, forkBlock, h1, h2, h3, h4, h5, h6]; omega
  · simp [List.find?, forkBlock, h1, h2, h3, h4, h5, h6]

/-- The last block of a revision. -/
def lastBlock (u : Nat) : Nat := if u ≤ 5 then u * 1000 + 999 else 2 ^ 64 - 1

theorem forkBlock_le {l n : Nat} (hl : KnownRevision l) (hn : forkBlock l ≤ n) : l ≤ revisionOf n := by
  unfold revisionOf
  rcases hl with h | rfl
  · have : l = 0 ∨ l = 1 ∨ l = 2 ∨ l = 3 ∨ l = 4 ∨ l = 5 := by omega
    rcases this with rfl | rfl | rfl | rfl | rfl | rfl <;> simp [forkBlock] at hn <;> split <;> omega
  · simp [forkBlock] at hn; split <;> omega

theorem le_lastBlock {u n : Nat} (hu : KnownRevision u) (hn : n ≤ lastBlock u) : revisionOf n ≤ u := by
  unfold revisionOf
  unfold lastBlock at hn
  rcases hu with h | rfl
  · rw [if_pos h] at hn
    rw [if_pos (by omega)]
    omega
  · split <;> omega

theorem forkBlock_iff {l n : Nat} (hl : KnownRevision l) : forkBlock l ≤ n ↔ l ≤ revisionOf n := by
  refine ⟨forkBlock_le hl, fun h => ?_⟩
  unfold revisionOf at h
  rcases hl with h' | rfl
  · have : l = 0 ∨ l = 1 ∨ l = 2 ∨ l = 3 ∨ l = 4 ∨ l = 5 := by omega
    rcases this with rfl | rfl | rfl | rfl | rfl | rfl <;> simp [forkBlock] <;> split at h <;> omega
  · simp only [forkBlock]; split at h <;> omega

theorem lastBlock_iff {u n : Nat} (hu : KnownRevision u) (hn : n < 2 ^ 64) : n ≤ lastBlock u ↔ revisionOf n ≤ u := by
  refine ⟨le_lastBlock hu, fun h => ?_⟩
  unfold revisionOf at h
  unfold lastBlock
  rcases hu with h' | rfl
  · rw [if_pos h']; split at h <;> omega
  · rw [if_neg (by omega)]; omega

theorem forkBlock_lt (l : Nat) : forkBlock l ≤ 6000 := by unfold forkBlock; split <;> omega

/-- The bounds that `AddRevisionBounds` computes. -/
theorem bound_eq {u : Nat} (hu : KnownRevision u) :
    (if blockRangeLength u ≥ 2 ^ 64 - 1 - forkBlock u then 2 ^ 64 - 1 else forkBlock u + blockRangeLength u - 1) = lastBlock u := by
  rcases hu with h | rfl
  · have : u = 0 ∨ u = 1 ∨ u = 2 ∨ u = 3 ∨ u = 4 ∨ u = 5 := by omega
    rcases this with rfl | rfl | rfl | rfl | rfl | rfl <;> simp [lastBlock, blockRangeLength, forkBlock]
  · simp [lastBlock, blockRangeLength, forkBlock]

/-! ### The generator after calls -/

/-- What the generator stores of the calls. -/
structure Stored (calls : List BlockCall) (g : BlockGenerator) : Prop where
  sat : g.unsatisfiable = false
  offsets : ∀ v o, (v, o) ∈ g.value ↔ .offset v o ∈ calls
  ranges : ∀ v b, (v, b) ∈ g.range ↔ .recent v b ∈ calls
  offsetsOnce : (g.value.map (·.1)).Nodup
  rangesOnce : (g.range.map (·.1)).Nodup
  noSolver : g.solver = none → ∀ l u, .revisions l u ∉ calls
  solver : ∀ s, g.solver = some s → uint64.Has s.min ∧ uint64.Has s.max ∧
    ∀ n : Nat, n < 2 ^ 64 → ((s.min ≤ n ∧ n ≤ s.max) ↔ ∀ l u, .revisions l u ∈ calls → l ≤ revisionOf n ∧ revisionOf n ≤ u)

/-- If there are only bounds of revisions, no block number meets them. -/
def Hopeless (calls : List BlockCall) : Prop := (∀ c ∈ calls, ∃ l u, c = .revisions l u) →
  ¬ ∃ n < 2 ^ 64, ∀ l u, .revisions l u ∈ calls → l ≤ revisionOf n ∧ revisionOf n ≤ u

theorem hopeless_append {calls rest : List BlockCall} (h : Hopeless calls) : Hopeless (calls ++ rest) := fun hc ⟨n, hn, hm⟩ =>
  h (fun c hc' => hc c (by simp [hc'])) ⟨n, hn, fun l u hlu => hm l u (by simp [hlu])⟩

theorem hopeless_of {calls : List BlockCall} {c : BlockCall} (hm : c ∈ calls) (h : ∀ l u, c ≠ .revisions l u) : Hopeless calls := fun hc =>
  absurd (hc c hm) (fun ⟨l, u, e⟩ => h l u e)

/-- The calls are stored, or there is a contradiction. -/
def Inv (calls : List BlockCall) (g : BlockGenerator) : Prop := (g.unsatisfiable = true ∧ Hopeless calls) ∨ Stored calls g

theorem stored_start : Stored [] {} := by
  refine ⟨rfl, ?_, ?_, ?_, ?_, ?_, ?_⟩ <;> simp

theorem find_key {β : Type} {l : List (Variable × β)} (v : Variable) :
    (∃ b, l.find? (fun c => c.1 = v) = some (v, b) ∧ (v, b) ∈ l) ∨ (l.find? (fun c => c.1 = v) = none ∧ v ∉ l.map (·.1)) := by
  cases h : l.find? (fun c => c.1 = v) with
  | some c =>
    have h1 := List.find?_some h
    have h2 := List.mem_of_find?_eq_some h
    obtain ⟨w, b⟩ := c
    simp at h1
    subst h1
    exact .inl ⟨b, rfl, h2⟩
  | none =>
    refine .inr ⟨rfl, ?_⟩
    rw [List.find?_eq_none] at h
    intro hm
    obtain ⟨c, hc, hv⟩ := List.mem_map.1 hm
    exact h c hc (by simp [hv])

theorem key_unique {β : Type} {l : List (Variable × β)} (hn : (l.map (·.1)).Nodup) {v : Variable} {b b' : β} (h : (v, b) ∈ l) (h' : (v, b') ∈ l) : b = b' := by
  induction l with
  | nil => cases h
  | cons c l ih =>
    rw [List.map_cons, List.nodup_cons] at hn
    rcases List.mem_cons.1 h with rfl | h1
    · rcases List.mem_cons.1 h' with h2 | h2
      · cases h2; rfl
      · exact absurd (List.mem_map.2 ⟨_, h2, rfl⟩) hn.1
    · rcases List.mem_cons.1 h' with rfl | h2
      · exact absurd (List.mem_map.2 ⟨_, h1, rfl⟩) hn.1
      · exact ih hn.2 h1 h2

theorem nodup_append_one {α : Type} {l : List α} {x : α} (h : l.Nodup) (hx : x ∉ l) : (l ++ [x]).Nodup := by
  rw [List.nodup_append]
  exact ⟨h, by simp, fun a ha b hb => by simp at hb; subst hb; exact fun e => hx (e ▸ ha)⟩

theorem stored_step {calls : List BlockCall} {g : BlockGenerator} (c : BlockCall) (hc : Spec.Gen.BlockCall.Proper c) (h : Stored calls g) :
    Inv (calls ++ [c]) (c.apply g) := by
  have hs := h.sat
  cases c with
  | revisions l u =>
    obtain ⟨hl, hu⟩ := hc
    simp only [BlockCall.apply, BlockGenerator.revisions, hs, Bool.false_eq_true, if_false]
    by_cases hlu : l > u
    · rw [if_pos hlu]
      exact .inl ⟨rfl, fun _ ⟨n, _, hm⟩ => (by have := hm l u (by simp); omega)⟩
    · rw [if_neg hlu, bound_eq hu]
      have hb : ∀ n : Nat, n < 2 ^ 64 → ((forkBlock l ≤ n ∧ n ≤ lastBlock u) ↔ l ≤ revisionOf n ∧ revisionOf n ≤ u) := fun n hn => by
        rw [forkBlock_iff hl, lastBlock_iff hu hn]
      have hlast : lastBlock u < 2 ^ 64 := by unfold lastBlock; split <;> omega
      have hfork := forkBlock_lt l
      obtain ⟨s', hs', k1, k2, hk⟩ : ∃ s' : RangeSolver, g.narrow (forkBlock l) (lastBlock u) = s' ∧ uint64.Has s'.min ∧ uint64.Has s'.max ∧
          ∀ n : Nat, n < 2 ^ 64 → ((s'.min ≤ n ∧ n ≤ s'.max) ↔ ∀ l' u', .revisions l' u' ∈ calls ++ [BlockCall.revisions l u] → l' ≤ revisionOf n ∧ revisionOf n ≤ u') := by
        unfold BlockGenerator.narrow
        cases hsol : g.solver with
        | none =>
          have hno := h.noSolver hsol
          refine ⟨_, rfl, (has64 _).2 (by simp only; omega), (has64 _).2 (by simp only; omega), fun n hn => ?_⟩
          have := hb n hn
          simp only
          constructor
          · intro hx l' u' hm
            simp only [List.mem_append, List.mem_singleton] at hm
            rcases hm with hm | hm
            · exact absurd hm (hno l' u')
            · cases hm; exact this.1 (by omega)
          · intro hx; have := this.2 (hx l u (by simp)); omega
        | some s0 =>
          obtain ⟨k1, k2, k3⟩ := h.solver s0 hsol
          rw [has64] at k1 k2
          have hmin : ((s0.lower (forkBlock l)).upper (lastBlock u)).min = max s0.min (forkBlock l) := by
            unfold RangeSolver.upper RangeSolver.lower; (repeat' split) <;> (try simp only at *) <;> omega
          have hmax : ((s0.lower (forkBlock l)).upper (lastBlock u)).max = min s0.max (lastBlock u) := by
            unfold RangeSolver.upper RangeSolver.lower; (repeat' split) <;> (try simp only at *) <;> omega
          refine ⟨_, rfl, ?_⟩
          simp only
          rw [hmin, hmax]
          refine ⟨(has64 _).2 (by omega), (has64 _).2 (by omega), fun n hn => ?_⟩
          have e1 := hb n hn
          have e2 := k3 n hn
          have e3 : (max s0.min (forkBlock l : Int) ≤ n ∧ (n : Int) ≤ min s0.max (lastBlock u : Int)) ↔
              (s0.min ≤ n ∧ n ≤ s0.max) ∧ (forkBlock l ≤ n ∧ n ≤ lastBlock u) := by omega
          rw [e3, e1, e2]
          constructor
          · rintro ⟨x1, x2⟩ l' u' hm
            simp only [List.mem_append, List.mem_singleton] at hm
            rcases hm with hm | hm
            · exact x1 l' u' hm
            · cases hm; exact x2
          · intro hx
            exact ⟨fun l' u' hm => hx l' u' (by simp [hm]), hx l u (by simp)⟩
      rw [hs']
      cases hsat : s'.isSatisfiable with
      | false =>
        simp only [Bool.false_eq_true, if_false]
        refine .inl ⟨rfl, fun _ ⟨n, hn, hm⟩ => ?_⟩
        have := (hk n hn).2 hm
        simp only [RangeSolver.isSatisfiable, Bool.not_eq_false', decide_eq_true_eq] at hsat
        omega
      | true =>
        simp only [if_true]
        right
        refine ⟨rfl, ?_, ?_, h.offsetsOnce, h.rangesOnce, ?_, ?_⟩
        · intro v o; simp [h.offsets]
        · intro v o; simp [h.ranges]
        · intro hn; cases hn
        · intro s2 he
          simp only [Option.some.injEq] at he
          subst he
          exact ⟨k1, k2, hk⟩
  | offset v o =>
    simp only [BlockCall.apply, BlockGenerator.offset, hs, Bool.false_eq_true, if_false]
    rcases find_key (l := g.value) v with ⟨b, hb, hm⟩ | ⟨hb, hm⟩
    · rw [hb]
      simp only
      split
      · exact .inl ⟨rfl, hopeless_of (c := .offset v o) (by simp) (by simp)⟩
      · rename_i hne
        have hne : b = o := by simpa using hne
        subst hne
        right
        refine ⟨hs, ?_, ?_, h.offsetsOnce, h.rangesOnce, ?_, ?_⟩
        · intro w q
          have := h.offsets w q
          simp only [List.mem_append, List.mem_singleton, this]
          constructor
          · exact .inl
          · rintro (h1 | h1)
            · exact h1
            · cases h1; exact (h.offsets v b).1 hm
        · intro w q; simp [h.ranges]
        · intro hn l u; simp [h.noSolver hn l u]
        · intro s he
          obtain ⟨k1, k2, k3⟩ := h.solver s he
          exact ⟨k1, k2, fun n hn => (k3 n hn).trans (by simp)⟩
    · rw [hb]
      simp only
      right
      refine ⟨rfl, ?_, ?_, ?_, h.rangesOnce, ?_, ?_⟩
      · intro w q; simp [h.offsets, eq_comm]
      · intro w q; simp [h.ranges]
      · simp only [List.map_append, List.map_cons, List.map_nil]; exact nodup_append_one h.offsetsOnce hm
      · intro hn l u; simp [h.noSolver hn l u]
      · intro s he
        obtain ⟨k1, k2, k3⟩ := h.solver s he
        exact ⟨k1, k2, fun n hn => (k3 n hn).trans (by simp)⟩
  | recent v o =>
    simp only [BlockCall.apply, BlockGenerator.restrict, hs, Bool.false_eq_true, if_false]
    rcases find_key (l := g.range) v with ⟨b, hb, hm⟩ | ⟨hb, hm⟩
    · rw [hb]
      simp only
      split
      · rename_i hne
        subst hne
        right
        refine ⟨hs, ?_, ?_, h.offsetsOnce, h.rangesOnce, ?_, ?_⟩
        · intro w q; simp [h.offsets]
        · intro w q
          have := h.ranges w q
          simp only [List.mem_append, List.mem_singleton, this]
          constructor
          · exact .inl
          · rintro (h1 | h1)
            · exact h1
            · cases h1; exact (h.ranges v b).1 hm
        · intro hn l u; simp [h.noSolver hn l u]
        · intro s he
          obtain ⟨k1, k2, k3⟩ := h.solver s he
          exact ⟨k1, k2, fun n hn => (k3 n hn).trans (by simp)⟩
      · exact .inl ⟨rfl, hopeless_of (c := .recent v o) (by simp) (by simp)⟩
    · rw [hb]
      simp only
      right
      refine ⟨rfl, ?_, ?_, h.offsetsOnce, ?_, ?_, ?_⟩
      · intro w q; simp [h.offsets]
      · intro w q; simp [h.ranges, eq_comm]
      · simp only [List.map_append, List.map_cons, List.map_nil]; exact nodup_append_one h.rangesOnce hm
      · intro hn l u; simp [h.noSolver hn l u]
      · intro s he
        obtain ⟨k1, k2, k3⟩ := h.solver s he
        exact ⟨k1, k2, fun n hn => (k3 n hn).trans (by simp)⟩

theorem apply_unsat (c : BlockCall) {g : BlockGenerator} (h : g.unsatisfiable = true) : (c.apply g).unsatisfiable = true := by
  cases c <;> simp [BlockCall.apply, BlockGenerator.revisions, BlockGenerator.offset, BlockGenerator.restrict, h]

theorem inv_all : ∀ (rest calls : List BlockCall) (g : BlockGenerator), (∀ c ∈ rest, Spec.Gen.BlockCall.Proper c) → Inv calls g → Inv (calls ++ rest) (rest.foldl BlockCall.apply g)
  | [], calls, g, _, h => by simpa using h
  | c :: rest, calls, g, hp, h => by
    have := inv_all rest (calls ++ [c]) (c.apply g) (fun x hx => hp x (by simp [hx]))
      (h.elim (fun h => .inl ⟨apply_unsat c h.1, hopeless_append h.2⟩) (stored_step c (hp c (by simp))))
    simpa using this

/-! ### The block number -/

theorem addOffset_spec {x : U256} {o : Int} (h : -2 ^ 63 < o ∧ o < 2 ^ 63) (ho : (addOffset x o).2 = false) :
    ((addOffset x o).1.toNat : Int) = x.toNat + o := by
  have hx := x.isLt
  unfold addOffset at ho ⊢
  by_cases hneg : o < 0
  · have hi : i64 (-o) = -o := by unfold i64; rw [Int.bmod_def]; omega
    rw [if_pos hneg] at ho ⊢
    simp only [hi, decide_eq_false_iff_not] at ho
    simp only [hi]
    obtain ⟨k, hk⟩ : ∃ k : Nat, -o = k := ⟨(-o).toNat, by omega⟩
    have hu : Model.Solver.u64 (-o) = k := by unfold Model.Solver.u64; omega
    rw [hu] at ho ⊢
    have hkt : (BitVec.ofNat 256 k).toNat = k := by rw [BitVec.toNat_ofNat, Nat.mod_eq_of_lt (by omega)]
    rw [BitVec.toNat_sub, hkt] at ho ⊢
    by_cases hle : k ≤ x.toNat
    · have : (2 ^ 256 - k + x.toNat) % 2 ^ 256 = x.toNat - k := by
        rw [show 2 ^ 256 - k + x.toNat = (x.toNat - k) + 2 ^ 256 by omega, Nat.add_mod_right, Nat.mod_eq_of_lt (by omega)]
      rw [this]; omega
    · exfalso
      have : (2 ^ 256 - k + x.toNat) % 2 ^ 256 = 2 ^ 256 - k + x.toNat := Nat.mod_eq_of_lt (by omega)
      rw [this] at ho; omega
  · rw [if_neg hneg] at ho ⊢
    simp only [decide_eq_false_iff_not] at ho
    simp only
    obtain ⟨k, hk⟩ : ∃ k : Nat, o = k := ⟨o.toNat, by omega⟩
    have hu : Model.Solver.u64 o = k := by unfold Model.Solver.u64; omega
    rw [hu] at ho ⊢
    have hkt : (BitVec.ofNat 256 k).toNat = k := by rw [BitVec.toNat_ofNat, Nat.mod_eq_of_lt (by omega)]
    rw [BitVec.toNat_add, hkt] at ho ⊢
    by_cases hle : x.toNat + k < 2 ^ 256
    · rw [Nat.mod_eq_of_lt hle]; omega
    · exfalso
      have : (x.toNat + k) % 2 ^ 256 = x.toNat + k - 2 ^ 256 := by
        rw [Nat.mod_eq_sub_mod (by omega), Nat.mod_eq_of_lt (by omega)]
      rw [this] at ho; omega

theorem valueClauses_spec {a : Assignment} : ∀ {vs : List (Variable × Int)} {l : List Clause}, (∀ c ∈ vs, -2 ^ 63 < c.2 ∧ c.2 < 2 ^ 63) →
    valueClauses a vs = some l → (∀ c ∈ l, c.Typed uint64 ∧ ∀ i j, c ≠ .outside i j) ∧
      ∀ v o x, (v, o) ∈ vs → a v = some x → .equals ((x.toNat : Int) + o) ∈ l
  | [], l, _, h => by simp [valueClauses] at h; subst h; simp
  | (v, o) :: rest, l, hp, h => by
    have hp' : ∀ c ∈ rest, -2 ^ 63 < c.2 ∧ c.2 < 2 ^ 63 := fun c hc => hp c (by simp [hc])
    rw [valueClauses] at h
    cases ha : a v with
    | none =>
      rw [ha] at h
      obtain ⟨i1, i2⟩ := valueClauses_spec hp' h
      refine ⟨i1, fun w q x hm hx => ?_⟩
      rcases List.mem_cons.1 hm with e | hm
      · cases e; rw [ha] at hx; cases hx
      · exact i2 w q x hm hx
    | some x =>
      rw [ha] at h
      simp only at h
      split at h
      · cases h
      · rename_i hno
        simp only [not_or, not_not, Bool.not_eq_true] at hno
        cases hr : valueClauses a rest with
        | none => rw [hr] at h; cases h
        | some l' =>
          rw [hr] at h
          simp only [Option.map_some, Option.some.injEq] at h
          subst h
          obtain ⟨i1, i2⟩ := valueClauses_spec hp' hr
          have hval := addOffset_spec (hp (v, o) (by simp)) hno.1
          simp only at hval
          refine ⟨?_, ?_⟩
          · intro c hc
            rcases List.mem_cons.1 hc with rfl | hc
            · exact ⟨(has64 _).2 (by have := hno.2; omega), by simp⟩
            · exact i1 c hc
          · intro w q y hm hy
            rcases List.mem_cons.1 hm with e | hm
            · cases e; rw [ha] at hy; cases hy; rw [← hval]; simp
            · exact List.mem_cons_of_mem _ (i2 w q y hm hy)

theorem rangeClauses_spec {a : Assignment} : ∀ {vs : List (Variable × Bool)} {l : List Clause},
    rangeClauses a vs = some l → (∀ c ∈ l, c.Typed uint64) ∧
      (∀ v, (v, true) ∈ vs → (a v = none → .atLeast 1 ∈ l) ∧ ∀ x, a v = some x → .atLeast (x.toNat + 1) ∈ l)
  | [], l, h => by simp [rangeClauses] at h; subst h; simp
  | (v, b) :: rest, l, h => by
    rw [rangeClauses] at h
    cases ha : a v with
    | none =>
      rw [ha] at h
      cases hr : rangeClauses a rest with
      | none => rw [hr] at h; cases h
      | some l' =>
        rw [hr] at h
        simp only [Option.map_some, Option.some.injEq] at h
        subst h
        obtain ⟨i1, i2⟩ := rangeClauses_spec hr
        refine ⟨?_, ?_⟩
        · intro c hc
          split at hc
          · rcases List.mem_cons.1 hc with rfl | hc
            · exact (has64 _).2 (by omega)
            · exact i1 c hc
          · exact i1 c hc
        · intro w hm
          rcases List.mem_cons.1 hm with e | hm
          · cases e
            exact ⟨fun _ => by simp, fun x hx => (by rw [ha] at hx; cases hx)⟩
          · refine ⟨fun hn => ?_, fun x hx => ?_⟩
            · have := (i2 w hm).1 hn; split <;> simp [this]
            · have := (i2 w hm).2 x hx; split <;> simp [this]
    | some x =>
      rw [ha] at h
      cases hr : rangeClauses a rest with
      | none => rw [hr] at h; simp only [Option.map_none] at h; (repeat' split at h) <;> cases h
      | some l' =>
        rw [hr] at h
        obtain ⟨i1, i2⟩ := rangeClauses_spec hr
        simp only [Option.map_some] at h
        cases b with
        | true =>
          simp only [if_true] at h
          split at h
          · cases h
          · rename_i h1
            split at h
            · rename_i h2
              simp only [Option.some.injEq] at h
              subst h
              refine ⟨?_, ?_⟩
              · intro c hc
                rw [List.mem_append, List.mem_cons] at hc
                rcases hc with (rfl | hc) | hc
                · exact (has64 _).2 (by omega)
                · split at hc
                  · simp only [List.mem_singleton] at hc; subst hc; exact (has64 _).2 (by omega)
                  · cases hc
                · exact i1 c hc
              · intro w hm
                rcases List.mem_cons.1 hm with e | hm
                · cases e
                  refine ⟨fun hn => (by rw [ha] at hn; cases hn), fun y hy => ?_⟩
                  rw [ha] at hy; cases hy; simp
                · refine ⟨fun hn => ?_, fun y hy => ?_⟩
                  · simp [(i2 w hm).1 hn]
                  · simp [(i2 w hm).2 y hy]
            · cases h
        | false =>
          simp only [Bool.false_eq_true, if_false] at h
          have key : ∀ w, (w, true) ∈ (v, false) :: rest → (w, true) ∈ rest := fun w hm => by
            rcases List.mem_cons.1 hm with e | hm
            · cases e
            · exact hm
          split at h
          · rename_i h1
            simp only [Option.some.injEq] at h
            subst h
            refine ⟨?_, ?_⟩
            · intro c hc
              rcases List.mem_cons.1 hc with rfl | hc
              · exact ⟨(has64 _).2 (by omega), (has64 _).2 (by split <;> omega)⟩
              · exact i1 c hc
            · intro w hm
              have hm := key w hm
              exact ⟨fun hn => by simp [(i2 w hm).1 hn], fun y hy => by simp [(i2 w hm).2 y hy]⟩
          · simp only [Option.some.injEq] at h
            subst h
            exact ⟨i1, fun w hm => i2 w (key w hm)⟩

theorem interval_value {lo hi : Int} {cs : List Clause} {r : Spec.Solver.Rnd} {x : Int} (hlo : uint64.Has lo) (hhi : uint64.Has hi) (hc : ∀ c ∈ cs, c.Typed uint64)
    (h : Model.Solver.generate uint64 (cs.foldl (Model.Solver.add uint64) (newInterval lo hi)) r = .value x) : Solution lo hi cs x :=
  (C77_interval_generate uint64 known64 (.inl rfl) lo hi hlo hhi cs hc).2.1 r x h

theorem range_value {lo hi : Int} {r : Spec.Solver.Rnd} {x : Int} (hlo : uint64.Has lo) (hhi : uint64.Has hi)
    (h : RangeSolver.generate uint64 ⟨lo, hi⟩ r = some x) : lo ≤ x ∧ x ≤ hi := by
  have := (C77_range_generate uint64 known64 (.inl rfl) lo hi hlo hhi [] (by simp) (by simp)).2.1 r x h
  exact ⟨this.1, this.2.1⟩

/-- The constraints on the block number that come from the revisions. -/
def startClauses (g : BlockGenerator) : List Clause :=
  match g.solver with
  | some s => [.atLeast s.min, .atMost s.max]
  | none => []

theorem startClauses_typed {calls : List BlockCall} {g : BlockGenerator} (hg : Stored calls g) : ∀ c ∈ startClauses g, c.Typed uint64 := by
  intro c hc
  unfold startClauses at hc
  cases hs : g.solver with
  | none => rw [hs] at hc; cases hc
  | some s =>
    rw [hs] at hc
    obtain ⟨k1, k2, _⟩ := hg.solver s hs
    simp only [List.mem_cons, List.not_mem_nil, or_false] at hc
    rcases hc with rfl | rfl
    · exact k1
    · exact k2

theorem startClauses_holds {calls : List BlockCall} {g : BlockGenerator} (hg : Stored calls g) {n : Nat} (hn : n < 2 ^ 64) :
    (∀ c ∈ startClauses g, c.Holds n) ↔ ∀ l u, .revisions l u ∈ calls → l ≤ revisionOf n ∧ revisionOf n ≤ u := by
  unfold startClauses
  cases hs : g.solver with
  | none =>
    have := hg.noSolver hs
    exact ⟨fun _ l u hm => absurd hm (this l u), fun _ c hc => by cases hc⟩
  | some s =>
    obtain ⟨_, _, k⟩ := hg.solver s hs
    rw [← k n hn]
    simp [Clause.Holds]

theorem blockNumber_spec {src : Source σ} {g : BlockGenerator} {calls : List BlockCall} {vs : List (Variable × Int)} {rs : List (Variable × Bool)} {a : Assignment} {s s' : σ}
    {n : Nat} (hg : Stored calls g) (hv : ∀ c ∈ vs, -2 ^ 63 < c.2 ∧ c.2 < 2 ^ 63) (h : blockNumber src g vs rs a s = some (n, s')) :
    n < 2 ^ 64 ∧ (∀ l u, .revisions l u ∈ calls → l ≤ revisionOf n ∧ revisionOf n ≤ u) ∧
    (∀ v o x, (v, o) ∈ vs → a v = some x → (x.toNat : Int) + o = n) ∧
    (∀ v, (v, true) ∈ rs → (a v = none → 1 ≤ n) ∧ ∀ x, a v = some x → x.toNat < n) := by
  unfold blockNumber at h
  simp only [Option.bind_eq_some_iff] at h
  obtain ⟨l1, h1, l2, h2, h⟩ := h
  change (match Model.Solver.generate uint64 ((startClauses g ++ l1 ++ l2).foldl (Model.Solver.add uint64) (newInterval 0 (2 ^ 64 - 1))) (src.solver s).1 with
    | .value x => some (x.toNat, (src.solver s).2)
    | _ => none) = some (n, s') at h
  obtain ⟨t1, t2⟩ := valueClauses_spec hv h1
  obtain ⟨t3, t4⟩ := rangeClauses_spec h2
  cases hgen : Model.Solver.generate uint64 ((startClauses g ++ l1 ++ l2).foldl (Model.Solver.add uint64) (newInterval 0 (2 ^ 64 - 1))) (src.solver s).1 with
  | unsatisfiable => rw [hgen] at h; cases h
  | internalError => rw [hgen] at h; cases h
  | value x =>
    rw [hgen] at h
    simp only [Option.some.injEq, Prod.mk.injEq] at h
    obtain ⟨hx, _⟩ := h
    obtain ⟨b1, b2, b3⟩ := interval_value ((has64 _).2 (by omega)) ((has64 _).2 (by omega)) (fun c hc => by
      simp only [List.mem_append] at hc
      rcases hc with (hc | hc) | hc
      · exact startClauses_typed hg c hc
      · exact (t1 c hc).1
      · exact t3 c hc) hgen
    have hxn : x = (n : Int) := by omega
    subst hxn
    have hn : n < 2 ^ 64 := by omega
    refine ⟨hn, (startClauses_holds hg hn).1 (fun c hc => b3 c (by simp [hc])), fun v o x hm ha => ?_, fun v hm => ⟨fun ha => ?_, fun x ha => ?_⟩⟩
    · have := b3 _ (List.mem_append_left _ (List.mem_append_right _ (t2 v o x hm ha)))
      exact this.symm
    · have := b3 _ (List.mem_append_right _ ((t4 v hm).1 ha))
      simp only [Clause.Holds] at this; omega
    · have := b3 _ (List.mem_append_right _ ((t4 v hm).2 x ha))
      simp only [Clause.Holds] at this; omega

/-! ### The variables -/

theorem toNat_ofNat64 {n : Nat} (h : n < 2 ^ 64) : (BitVec.ofNat 256 n).toNat = n := by
  rw [BitVec.toNat_ofNat, Nat.mod_eq_of_lt (by omega)]

theorem toNat_ofInt64 {x : Int} (h : 0 ≤ x ∧ x < 2 ^ 64) : ((BitVec.ofInt 256 x).toNat : Int) = x := by
  rw [BitVec.toNat_ofInt]
  have : x % ((2 ^ 256 : Nat) : Int) = x := Int.emod_eq_of_lt h.1 (by omega)
  rw [this]; omega

theorem set_extends {a : Assignment} {v : Variable} {x : U256} (h : a v = none) : Extends (a.set v x) a := fun u y hu => by
  unfold Assignment.set
  split
  · rename_i e; subst e; rw [h] at hu; cases hu
  · exact hu

theorem extends_trans {a b c : Assignment} (h : Extends b a) (h' : Extends c b) : Extends c a := fun v x hx => h' v x (h v x hx)

theorem bindOffsets_spec {n : Nat} (hn : n < 2 ^ 64) : ∀ {vs : List (Variable × Int)} {a a' : Assignment}, (∀ c ∈ vs, -2 ^ 63 < c.2 ∧ c.2 < 2 ^ 63) →
    (vs.map (·.1)).Nodup → bindOffsets n vs a = some a' →
    Extends a' a ∧ (∀ v, v ∉ vs.map (·.1) → a' v = a v) ∧ ∀ v o, (v, o) ∈ vs → ∃ x, a' v = some x ∧ (a v = some x ∨ (x.toNat : Int) + o = n)
  | [], a, a', _, _, h => by
    simp only [bindOffsets, Option.some.injEq] at h
    subst h
    exact ⟨fun _ _ h => h, fun _ _ => rfl, fun _ _ h => by cases h⟩
  | (v, o) :: rest, a, a', hp, hnd, h => by
    rw [List.map_cons, List.nodup_cons] at hnd
    rw [bindOffsets] at h
    split at h
    · cases h
    · rename_i hw
      have hpo := hp (v, o) (by simp)
      simp only at hpo
      have hi : i64 (-o) = -o := by unfold i64; rw [Int.bmod_def]; omega
      have hval := addOffset_spec (x := BitVec.ofNat 256 n) (o := i64 (-o)) (by omega) (by simpa using hw)
      rw [toNat_ofNat64 hn, hi] at hval
      rw [hi] at h
      obtain ⟨i1, i2, i3⟩ := bindOffsets_spec hn (fun c hc => hp c (by simp [hc])) hnd.2 h
      have hv := i2 v hnd.1
      cases ha : a v with
      | some y =>
        rw [ha] at h i1 i2 i3 hv
        simp only at h i1 i2 i3 hv
        refine ⟨i1, fun u hu => i2 u (fun h => hu (by simp [h])), fun u q hm => ?_⟩
        rcases List.mem_cons.1 hm with e | hm
        · cases e; exact ⟨y, by rw [hv, ha], .inl ha⟩
        · exact i3 u q hm
      | none =>
        rw [ha] at h i1 i2 i3 hv
        simp only at h i1 i2 i3 hv
        refine ⟨extends_trans (set_extends ha) i1, fun u hu => ?_, fun u q hm => ?_⟩
        · simp only [List.map_cons, List.mem_cons, not_or] at hu
          rw [i2 u hu.2]
          unfold Assignment.set; rw [if_neg hu.1]
        · rcases List.mem_cons.1 hm with e | hm'
          · cases e
            exact ⟨_, by rw [hv]; unfold Assignment.set; rw [if_pos rfl], .inr (by omega)⟩
          · obtain ⟨x, hx, hc⟩ := i3 u q hm'
            refine ⟨x, hx, hc.imp_left fun hc => ?_⟩
            unfold Assignment.set at hc
            split at hc
            · rename_i e; subst e; exact absurd (show u ∈ rest.map (·.1) from List.mem_map.2 ⟨(u, q), hm', rfl⟩) hnd.1
            · exact hc

theorem wrap64_of {x : Int} (h : 0 ≤ x ∧ x < 2 ^ 64) : Model.Solver.wrap uint64 x = x := by
  unfold Model.Solver.wrap uint64
  simp only [Bool.false_eq_true, if_false]
  omega

theorem wrap64_has (x : Int) : uint64.Has (Model.Solver.wrap uint64 x) := by
  rw [has64]
  unfold Model.Solver.wrap uint64
  simp only [Bool.false_eq_true, if_false]
  omega

theorem bindRanges_spec {src : Source σ} {n : Nat} (hn : n < 2 ^ 64) : ∀ {rs : List (Variable × Bool)} {a a' : Assignment} {s s' : σ},
    (rs.map (·.1)).Nodup → (∀ v, (v, true) ∈ rs → a v = none → 1 ≤ n) → bindRanges src n rs a s = some (a', s') →
    Extends a' a ∧ (∀ v, v ∉ rs.map (·.1) → a' v = a v) ∧
    ∀ v b, (v, b) ∈ rs → ∃ x, a' v = some x ∧
      ((∃ _ : a v = some x, b = isInRange (n - 256) x n) ∨
       (a v = none ∧ (b = true → Recent n x) ∧ (b = false → 256 ≤ n ∨ n = 0 → ¬ Recent n x)))
  | [], a, a', s, s', _, _, h => by
    simp only [bindRanges, Option.some.injEq, Prod.mk.injEq] at h
    obtain ⟨rfl, _⟩ := h
    exact ⟨fun _ _ h => h, fun _ _ => rfl, fun _ _ h => by cases h⟩
  | (v, b) :: rest, a, a', s, s', hnd, hpos, h => by
    rw [List.map_cons, List.nodup_cons] at hnd
    have hlow : (if n > 256 then n - 256 else 0) = n - 256 := by split <;> omega
    have hset : ∀ (x : U256), a v = none → (∀ w, (w, true) ∈ rest → (a.set v x) w = none → 1 ≤ n) := fun x ha w hm hw => by
      unfold Assignment.set at hw
      split at hw
      · cases hw
      · exact hpos w (by simp [hm]) hw
    have finish : ∀ (x : U256) (s1 : σ), a v = none → bindRanges src n rest (a.set v x) s1 = some (a', s') →
        ((b = true → Recent n x) ∧ (b = false → 256 ≤ n ∨ n = 0 → ¬ Recent n x)) →
        Extends a' a ∧ (∀ w, w ∉ v :: rest.map (·.1) → a' w = a w) ∧
        ∀ w c, (w, c) ∈ (v, b) :: rest → ∃ x, a' w = some x ∧
          ((∃ _ : a w = some x, c = isInRange (n - 256) x n) ∨
           (a w = none ∧ (c = true → Recent n x) ∧ (c = false → 256 ≤ n ∨ n = 0 → ¬ Recent n x))) := fun x s1 ha hr hx => by
      obtain ⟨i1, i2, i3⟩ := bindRanges_spec hn hnd.2 (hset x ha) hr
      have hother : ∀ w, w ≠ v → (a.set v x) w = a w := fun w hw => by unfold Assignment.set; rw [if_neg hw]
      refine ⟨extends_trans (set_extends ha) i1, fun w hw => ?_, fun w c hm => ?_⟩
      · simp only [List.mem_cons, not_or] at hw
        rw [i2 w hw.2, hother w hw.1]
      · rcases List.mem_cons.1 hm with e | hm
        · cases e
          refine ⟨x, ?_, .inr ⟨ha, hx⟩⟩
          rw [i2 v hnd.1]; unfold Assignment.set; rw [if_pos rfl]
        · have hne : w ≠ v := fun e => hnd.1 (List.mem_map.2 ⟨_, hm, e⟩)
          have := i3 w c hm
          rwa [hother w hne] at this
    rw [bindRanges] at h
    simp only [hlow] at h
    rw [List.map_cons]
    cases ha : a v with
    | some x =>
      rw [ha] at h
      simp only at h
      split at h
      · cases h
      · rename_i hb
        have hb : b = isInRange (n - 256) x n := by simpa using hb
        obtain ⟨i1, i2, i3⟩ := bindRanges_spec hn hnd.2 (fun w hm => hpos w (by simp [hm])) h
        refine ⟨i1, fun w hw => i2 w (fun h => hw (by simp [h])), fun w c hm => ?_⟩
        rcases List.mem_cons.1 hm with e | hm
        · cases e
          exact ⟨x, by rw [i2 v hnd.1, ha], .inl ⟨ha, hb⟩⟩
        · exact i3 w c hm
    | none =>
      rw [ha] at h
      simp only at h
      cases b with
      | true =>
        simp only [if_true, Option.bind_eq_some_iff] at h
        obtain ⟨x, hx, h⟩ := h
        have h1 := hpos v (by simp) ha
        rw [wrap64_of (by omega)] at hx
        have hr := range_value ((has64 _).2 (by omega)) ((has64 _).2 (by omega)) hx
        refine finish _ _ ha h ⟨fun _ => ?_, fun h => (by cases h)⟩
        have := toNat_ofInt64 (x := x) (by omega)
        exact ⟨by omega, by omega⟩
      | false =>
        simp only [Bool.false_eq_true, if_false] at h
        split at h
        · rename_i x hx
          obtain ⟨b1, b2, b3⟩ := interval_value (cs := [.outside (Model.Solver.wrap uint64 ((n : Int) - 256)) (Model.Solver.wrap uint64 ((n : Int) - 1))]) ((has64 _).2 (by omega)) ((has64 _).2 (by omega))
            (fun c hc => by simp only [List.mem_singleton] at hc; subst hc; exact ⟨wrap64_has _, wrap64_has _⟩) hx
          refine finish _ _ ha h ⟨fun h => (by cases h), fun _ hor hrec => ?_⟩
          have e := toNat_ofInt64 (x := x) (by omega)
          obtain ⟨r1, r2⟩ := hrec
          rcases hor with h256 | h0
          · have := b3 _ (List.mem_singleton.2 rfl)
            rw [wrap64_of (by omega), wrap64_of (by omega)] at this
            simp only [Clause.Holds] at this
            omega
          · omega
        · cases h

theorem isInRange_true {n : Nat} {x : U256} (h : true = isInRange (n - 256) x n) : x.toNat ≤ n ∧ n ≤ x.toNat + 256 := by
  have h := h.symm
  simp only [isInRange, decide_eq_true_eq] at h
  omega

theorem isInRange_false {n : Nat} {x : U256} (hn : n < 2 ^ 64) (h : false = isInRange (n - 256) x n) : ¬ Recent n x := by
  have h := h.symm
  simp only [isInRange, decide_eq_false_iff_not] at h
  unfold Recent; omega

theorem timeStamp_spec {n : Nat} (hn : n < 6000) (r : Spec.Solver.Rnd) : revisionOf n * 1000 ≤ timeStamp n r ∧ timeStamp n r < revisionOf n * 1000 + 1000 := by
  unfold timeStamp
  rw [revisionForBlock_eq]
  have hr : revisionOf n ≤ 5 := by unfold revisionOf; rw [if_pos hn]; omega
  obtain ⟨q, hq⟩ : ∃ q, q = revisionOf n := ⟨_, rfl⟩
  rw [← hq] at hr ⊢
  have hf : forkTime q = q * 1000 ∧ forkTime (q + 1) = q * 1000 + 1000 := by
    have : q = 0 ∨ q = 1 ∨ q = 2 ∨ q = 3 ∨ q = 4 ∨ q = 5 := by omega
    rcases this with rfl | rfl | rfl | rfl | rfl | rfl <;> simp [forkTime]
  simp only [hf.1, hf.2]
  have e : q * 1000 + 1000 - q * 1000 = 1000 := by omega
  rw [e]
  have := r.uint64n_lt 1000 (by omega) (by omega)
  rw [if_neg (by omega)]
  omega

/-! ### Blob hashes -/

/-- What the generator stores of the calls. -/
structure BlobsStored (calls : List (Variable × Bool)) (g : BlobGenerator) : Prop where
  sat : g.unsatisfiable = false
  same : ∀ v b, (v, b) ∈ g.indices ↔ (v, b) ∈ calls
  once : (g.indices.map (·.1)).Nodup

theorem require_unsat (c : Variable × Bool) {g : BlobGenerator} (h : g.unsatisfiable = true) : (g.require c.1 c.2).unsatisfiable = true := by
  unfold BlobGenerator.require; simp [h]

/-- Two calls contradict each other. -/
def Contradicts (calls : List (Variable × Bool)) : Prop := ∃ v, (v, true) ∈ calls ∧ (v, false) ∈ calls

theorem blobs_step {calls : List (Variable × Bool)} {g : BlobGenerator} (c : Variable × Bool) (h : BlobsStored calls g) :
    Contradicts (calls ++ [c]) ∧ (g.require c.1 c.2).unsatisfiable = true ∨ BlobsStored (calls ++ [c]) (g.require c.1 c.2) := by
  obtain ⟨v, b⟩ := c
  have hs := h.sat
  unfold BlobGenerator.require
  simp only [hs, Bool.false_eq_true, if_false]
  rcases find_key (l := g.indices) v with ⟨b', hb, hm⟩ | ⟨hb, hm⟩
  · rw [hb]
    simp only
    split
    · rename_i e
      subst e
      right
      refine ⟨hs, fun w q => ?_, h.once⟩
      simp only [List.mem_append, List.mem_singleton, h.same]
      constructor
      · exact .inl
      · rintro (h1 | h1)
        · exact h1
        · cases h1; exact (h.same v b').1 hm
    · rename_i e
      left
      refine ⟨⟨v, ?_⟩, rfl⟩
      have := (h.same v b').1 hm
      cases b <;> cases b' <;> simp_all
  · rw [hb]
    simp only
    right
    refine ⟨rfl, fun w q => (by simp [h.same, eq_comm]), ?_⟩
    simp only [List.map_append, List.map_cons, List.map_nil]; exact nodup_append_one h.once hm

theorem blobs_unsat : ∀ (rest : List (Variable × Bool)) (g : BlobGenerator), g.unsatisfiable = true →
    (rest.foldl (fun g c => g.require c.1 c.2) g).unsatisfiable = true
  | [], _, h => h
  | c :: rest, _, h => blobs_unsat rest _ (require_unsat c h)

theorem blobs_all : ∀ (rest calls : List (Variable × Bool)) (g : BlobGenerator), BlobsStored calls g →
    Contradicts (calls ++ rest) ∧ (rest.foldl (fun g c => g.require c.1 c.2) g).unsatisfiable = true ∨
      BlobsStored (calls ++ rest) (rest.foldl (fun g c => g.require c.1 c.2) g)
  | [], calls, g, h => .inr (by simpa using h)
  | c :: rest, calls, g, h => by
    rcases blobs_step c h with ⟨⟨v, h1, h2⟩, h3⟩ | h1
    · refine .inl ⟨⟨v, ?_, ?_⟩, blobs_unsat rest _ h3⟩
      · rw [List.append_cons]; exact List.mem_append_left _ h1
      · rw [List.append_cons]; exact List.mem_append_left _ h2
    · have := blobs_all rest (calls ++ [c]) _ h1
      simpa using this

theorem blobBounds_spec {a : Assignment} : ∀ {l : List (Variable × Bool)} {b r : Nat × Nat}, blobBounds a l b = some r →
    (b.1 ≤ r.1 ∧ r.2 ≤ b.2) ∧
    (r.1 = b.1 ∨ ∃ v x, (v, true) ∈ l ∧ a v = some x ∧ x.toNat = r.1) ∧
    (r.2 = b.2 ∨ ∃ v x, (v, false) ∈ l ∧ a v = some x ∧ x.toNat = r.2) ∧
    (∀ v x, (v, true) ∈ l → a v = some x → x.toNat ≤ r.1) ∧
    (∀ v x, (v, false) ∈ l → a v = some x → r.2 ≤ x.toNat ∨ 2 ^ 64 ≤ x.toNat)
  | [], b, r, h => by
    simp only [blobBounds, Option.some.injEq] at h
    subst h
    simp
  | (v, p) :: rest, (max, min), r, h => by
    rw [blobBounds] at h
    cases ha : a v with
    | none =>
      rw [ha] at h
      obtain ⟨i1, i2, i3, i4, i5⟩ := blobBounds_spec h
      refine ⟨i1, i2.imp_right ?_, i3.imp_right ?_, ?_, ?_⟩
      · rintro ⟨w, x, h1, h2⟩; exact ⟨w, x, by simp [h1], h2⟩
      · rintro ⟨w, x, h1, h2⟩; exact ⟨w, x, by simp [h1], h2⟩
      · intro w x hm hx
        rcases List.mem_cons.1 hm with e | hm
        · cases e; rw [ha] at hx; cases hx
        · exact i4 w x hm hx
      · intro w x hm hx
        rcases List.mem_cons.1 hm with e | hm
        · cases e; rw [ha] at hx; cases hx
        · exact i5 w x hm hx
    | some y =>
      rw [ha] at h
      cases p with
      | true =>
        simp only [if_true] at h
        split at h
        · cases h
        · obtain ⟨i1, i2, i3, i4, i5⟩ := blobBounds_spec h
          simp only at i1 i2 i3
          refine ⟨⟨?_, i1.2⟩, ?_, i3.imp_right ?_, ?_, ?_⟩
          · have := i1.1; split at this <;> simp only <;> omega
          · rcases i2 with i2 | ⟨w, x, h1, h2⟩
            · split at i2
              · exact .inr ⟨v, y, by simp, ha, i2.symm⟩
              · exact .inl i2
            · exact .inr ⟨w, x, by simp [h1], h2⟩
          · rintro ⟨w, x, h1, h2⟩; exact ⟨w, x, by simp [h1], h2⟩
          · intro w x hm hx
            rcases List.mem_cons.1 hm with e | hm
            · cases e; rw [ha] at hx; cases hx
              have := i1.1; split at this <;> omega
            · exact i4 w x hm hx
          · intro w x hm hx
            rcases List.mem_cons.1 hm with e | hm
            · cases e
            · exact i5 w x hm hx
      | false =>
        simp only [Bool.false_eq_true, if_false] at h
        obtain ⟨i1, i2, i3, i4, i5⟩ := blobBounds_spec h
        simp only at i1 i2 i3
        refine ⟨⟨i1.1, ?_⟩, i2.imp_right ?_, ?_, ?_, ?_⟩
        · have := i1.2; split at this <;> simp only <;> omega
        · rintro ⟨w, x, h1, h2⟩; exact ⟨w, x, by simp [h1], h2⟩
        · rcases i3 with i3 | ⟨w, x, h1, h2⟩
          · split at i3
            · exact .inr ⟨v, y, by simp, ha, i3.symm⟩
            · exact .inl i3
          · exact .inr ⟨w, x, by simp [h1], h2⟩
        · intro w x hm hx
          rcases List.mem_cons.1 hm with e | hm
          · cases e
          · exact i4 w x hm hx
        · intro w x hm hx
          rcases List.mem_cons.1 hm with e | hm
          · cases e; rw [ha] at hx; cases hx
            have := i1.2; split at this <;> omega
          · exact i5 w x hm hx

theorem blobBounds_some {a : Assignment} : ∀ {l : List (Variable × Bool)} {b : Nat × Nat}, (∀ v x, (v, true) ∈ l → a v = some x → x.toNat < 2 ^ 64) →
    ∃ r, blobBounds a l b = some r
  | [], b, _ => ⟨b, rfl⟩
  | (v, p) :: rest, (max, min), h => by
    have ih : ∀ b, ∃ r, blobBounds a rest b = some r := fun b => blobBounds_some (fun w x hm hx => h w x (by simp [hm]) hx)
    rw [blobBounds]
    cases ha : a v with
    | none => exact ih _
    | some x =>
      cases p with
      | true =>
        simp only [if_true]
        rw [if_neg (not_not.2 (h v x (by simp) ha))]
        exact ih _
      | false => exact ih _

theorem bindBlobs_spec {src : Source σ} {count : Nat} (hc : count < 2 ^ 64) : ∀ {l : List (Variable × Bool)} {a : Assignment} {s : σ},
    (l.map (·.1)).Nodup → (∀ v, (v, true) ∈ l → a v = none → 1 ≤ count) →
    ∃ a' s', bindBlobs src count l a s = some (a', s') ∧ Extends a' a ∧ (∀ v, v ∉ l.map (·.1) → a' v = a v) ∧
      ∀ v p, (v, p) ∈ l → ∃ x, a' v = some x ∧ (a v = some x ∨ (x.toNat < count ↔ p = true))
  | [], a, s, _, _ => ⟨a, s, rfl, fun _ _ h => h, fun _ _ => rfl, fun _ _ h => by cases h⟩
  | (v, p) :: rest, a, s, hnd, hpos => by
    rw [List.map_cons, List.nodup_cons] at hnd
    rw [bindBlobs]
    cases ha : a v with
    | some y =>
      obtain ⟨a', s', h, i1, i2, i3⟩ := bindBlobs_spec (src := src) hc (s := s) hnd.2 (fun w hm hw => hpos w (by simp [hm]) hw)
      refine ⟨a', s', h, i1, fun w hw => i2 w (fun hm => hw (by simp [hm])), fun w q hm => ?_⟩
      rcases List.mem_cons.1 hm with e | hm
      · cases e; exact ⟨y, by rw [i2 v hnd.1, ha], .inl ha⟩
      · exact i3 w q hm
    | none =>
      obtain ⟨lo, hi, hsolver, hlo, hhi, hle, hmeans⟩ : ∃ lo hi : Int, (if p = true then (⟨0, Model.Solver.wrap uint64 ((count : Int) - 1)⟩ : RangeSolver) else ⟨count, 2 ^ 64 - 1⟩) = ⟨lo, hi⟩ ∧
          uint64.Has lo ∧ uint64.Has hi ∧ lo ≤ hi ∧ ∀ x : Int, lo ≤ x ∧ x ≤ hi → (x < count ↔ p = true) := by
        cases p with
        | true =>
          have h1 := hpos v (by simp) ha
          refine ⟨_, _, if_pos rfl, (has64 _).2 (by omega), wrap64_has _, ?_, ?_⟩
          · rw [wrap64_of (by omega)]; omega
          · intro x hx; rw [wrap64_of (by omega)] at hx; simp; omega
        | false =>
          refine ⟨_, _, if_neg (by simp), (has64 _).2 (by omega), (has64 _).2 (by omega), by omega, fun x hx => ?_⟩
          simp; omega
      simp only
      rw [hsolver]
      have hgen := C77_range_generate uint64 known64 (.inl rfl) lo hi hlo hhi [] (by simp) (by simp)
      cases hx : RangeSolver.generate uint64 ⟨lo, hi⟩ (src.solver s).1 with
      | none => exact absurd ⟨lo, by simp [Solution, hle]⟩ ((hgen.1 (src.solver s).1).1 hx)
      | some x =>
        have hxr := hgen.2.1 _ x hx
        have hxr : lo ≤ x ∧ x ≤ hi := ⟨hxr.1, hxr.2.1⟩
        rw [has64] at hlo hhi
        have hxn := toNat_ofInt64 (x := x) (by omega)
        have hother : ∀ w, w ≠ v → (a.set v (BitVec.ofInt 256 x)) w = a w := fun w hw => by unfold Assignment.set; rw [if_neg hw]
        obtain ⟨a', s', h, i1, i2, i3⟩ := bindBlobs_spec (src := src) hc (a := a.set v (BitVec.ofInt 256 x)) (s := (src.solver s).2) hnd.2 (fun w hm hw => by
          rw [hother w (fun e => hnd.1 (List.mem_map.2 ⟨_, hm, e⟩))] at hw
          exact hpos w (by simp [hm]) hw)
        refine ⟨a', s', h, extends_trans (set_extends ha) i1, fun w hw => ?_, fun w q hm => ?_⟩
        · simp only [List.map_cons, List.mem_cons, not_or] at hw
          rw [i2 w hw.2, hother w hw.1]
        · rcases List.mem_cons.1 hm with e | hm
          · cases e
            refine ⟨_, by rw [i2 v hnd.1]; unfold Assignment.set; rw [if_pos rfl], .inr ?_⟩
            rw [← hmeans x hxr]; omega
          · have := i3 w q hm
            rwa [hother w (fun e => hnd.1 (List.mem_map.2 ⟨_, hm, e⟩))] at this

theorem bindBlobs_extends {src : Source σ} {count : Nat} : ∀ {l : List (Variable × Bool)} {a a' : Assignment} {s s' : σ},
    bindBlobs src count l a s = some (a', s') → Extends a' a
  | [], a, a', s, s', h => by
    simp only [bindBlobs, Option.some.injEq, Prod.mk.injEq] at h
    obtain ⟨rfl, _⟩ := h
    exact fun _ _ h => h
  | (v, p) :: rest, a, a', s, s', h => by
    rw [bindBlobs] at h
    cases ha : a v with
    | some y => rw [ha] at h; exact bindBlobs_extends h
    | none =>
      rw [ha] at h
      simp only [Option.bind_eq_some_iff] at h
      obtain ⟨x, _, h⟩ := h
      exact extends_trans (set_extends ha) (bindBlobs_extends h)

end Tosca.Proofs.GenContext
