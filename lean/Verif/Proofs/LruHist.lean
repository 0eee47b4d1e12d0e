import Verif.Model.LruThreads
import Verif.Proofs.Sha3
import Mathlib.Data.List.Perm.Subperm
import Mathlib.Data.List.Nodup

/-!
# Histories of cache calls
-/

namespace Tosca.Proofs.Lru

open Tosca.Model Tosca.Model.Lru
open Tosca.Lru (Op)

set_option linter.unusedSectionVars false

variable {K V : Type} [DecidableEq K]

/-- The keys of an abstract map. -/
abbrev keys (l : List (K × V)) : List K := l.map (·.1)

theorem lookup_isSome (l : List (K × V)) (k : K) : (Spec.Lru.lookup l k).isSome ↔ k ∈ keys l := by
  unfold Spec.Lru.lookup
  rw [Option.isSome_map, List.find?_isSome]
  simp

theorem lookup_cases (l : List (K × V)) (k : K) :
    (k ∈ keys l ∧ ∃ v, Spec.Lru.lookup l k = some v) ∨ (k ∉ keys l ∧ Spec.Lru.lookup l k = none) := by
  have := lookup_isSome l k
  cases h : Spec.Lru.lookup l k with
  | some v => rw [h] at this; exact .inl ⟨this.1 rfl, v, rfl⟩
  | none => rw [h] at this; exact .inr ⟨fun hk => by simpa using this.2 hk, rfl⟩

theorem keys_filter (l : List (K × V)) (k : K) :
    keys (l.filter fun p => p.1 ≠ k) = (keys l).filter (· ≠ k) := by
  unfold keys
  rw [List.filter_map]
  rfl

/-- The keys after a call. -/
theorem keys_apply (cap : Nat) (l : List (K × V)) (op : Op K V) :
    keys (Spec.Lru.apply cap l op).2 =
      match op with
      | .get k => if k ∈ keys l then k :: (keys l).filter (· ≠ k) else keys l
      | .insertOrAssign k _ => if k ∈ keys l then keys l else (k :: keys l).take cap
      | .getOrInsert k _ =>
        if k ∈ keys l then k :: (keys l).filter (· ≠ k) else (k :: keys l).take cap
      | .clear => [] := by
  have hass : ∀ k v, keys (l.map fun p => if p.1 = k then (k, v) else p) = keys l := by
    intro k v
    unfold keys
    rw [List.map_map]
    apply List.map_congr_left
    intro p _
    simp only [Function.comp]
    split
    · rename_i h; exact h.symm
    · rfl
  cases op with
  | get k =>
    simp only [Spec.Lru.apply, Spec.Lru.get]
    rcases lookup_cases l k with ⟨hk, v, hv⟩ | ⟨hk, hv⟩
    · rw [hv, if_pos hk, ← keys_filter]; rfl
    · rw [hv, if_neg hk]
  | insertOrAssign k v =>
    simp only [Spec.Lru.apply, Spec.Lru.insertOrAssign]
    rcases lookup_cases l k with ⟨hk, x, hv⟩ | ⟨hk, hv⟩
    · rw [hv, if_pos hk]; exact hass k v
    · rw [hv, if_neg hk]; unfold keys; rw [List.map_take]; rfl
  | getOrInsert k v =>
    simp only [Spec.Lru.apply, Spec.Lru.getOrInsert, Spec.Lru.get]
    rcases lookup_cases l k with ⟨hk, x, hv⟩ | ⟨hk, hv⟩
    · rw [hv, if_pos hk, ← keys_filter]; rfl
    · rw [hv, if_neg hk]
      simp only [Spec.Lru.insertOrAssign, hv]
      unfold keys; rw [List.map_take]; rfl
  | clear => rfl

/-- Duplicate-free and within the capacity. -/
structure KeysOk (cap : Nat) (l : List (K × V)) : Prop where
  nodup : (keys l).Nodup
  bound : (keys l).length ≤ cap

theorem keysOk_apply {cap : Nat} {l : List (K × V)} (h : KeysOk cap l) (op : Op K V) :
    KeysOk cap (Spec.Lru.apply cap l op).2 := by
  have key := keys_apply cap l op
  constructor
  all_goals rw [key]
  · cases op with
    | get k =>
      dsimp only
      split
      · exact List.nodup_cons.2 ⟨by simp, h.nodup.filter _⟩
      · exact h.nodup
    | insertOrAssign k v =>
      dsimp only
      split
      · exact h.nodup
      · rename_i hk; exact (List.nodup_cons.2 ⟨hk, h.nodup⟩).sublist (List.take_sublist _ _)
    | getOrInsert k v =>
      dsimp only
      split
      · exact List.nodup_cons.2 ⟨by simp, h.nodup.filter _⟩
      · rename_i hk; exact (List.nodup_cons.2 ⟨hk, h.nodup⟩).sublist (List.take_sublist _ _)
    | clear => exact List.nodup_nil
  · have hf : ∀ k, k ∈ keys l → (k :: (keys l).filter (· ≠ k)).length ≤ cap := by
      intro k hk
      refine Nat.le_trans ?_ h.bound
      apply List.Subperm.length_le
      apply List.subperm_of_subset (List.nodup_cons.2 ⟨by simp, h.nodup.filter _⟩)
      intro x hx
      rcases List.mem_cons.1 hx with rfl | hx
      · exact hk
      · exact (List.mem_filter.1 hx).1
    cases op with
    | get k =>
      dsimp only
      split
      · rename_i hk; exact hf k hk
      · exact h.bound
    | insertOrAssign k v =>
      dsimp only
      split
      · exact h.bound
      · rw [List.length_take]; omega
    | getOrInsert k v =>
      dsimp only
      split
      · rename_i hk; exact hf k hk
      · rw [List.length_take]; omega
    | clear => simp

/-! ## Refinement of whole histories -/

theorem apply_R (dk : K) (dv : V) (c : Cache K V) (l : List (K × V)) (h : R c l) (h2 : 2 ≤ c.cap) (op : Op K V) :
    ∃ c', apply dk dv c op = .ok ((Spec.Lru.apply c.cap l op).1, c') ∧
      R c' (Spec.Lru.apply c.cap l op).2 ∧ c'.cap = c.cap := by
  cases op with
  | get k => exact get_R c l h k
  | insertOrAssign k v =>
    obtain ⟨c', h1, h2, h3⟩ := insertOrAssign_R c l h k v
    exact ⟨c', by simp [apply, h1, bind, Except.bind, pure, Except.pure, Spec.Lru.apply], h2, h3⟩
  | getOrInsert k v =>
    obtain ⟨c', h1, h2, h3⟩ := getOrInsert_R c l h k fun _ => v
    exact ⟨c', by simp [apply, h1, bind, Except.bind, pure, Except.pure, Spec.Lru.apply], h2, h3⟩
  | clear =>
    obtain ⟨c', h1, h2, h3⟩ := clear_R c.cap dk dv h2
    exact ⟨c', by simp [apply, h1, bind, Except.bind, pure, Except.pure, Spec.Lru.apply], h2, h3⟩

theorem runOps_R (dk : K) (dv : V) (ops : List (Op K V)) : ∀ (c : Cache K V) (l : List (K × V)), R c l → 2 ≤ c.cap →
    ∃ c', runOps dk dv c ops = .ok ((Spec.Lru.run c.cap l ops).1, c') ∧
      R c' (Spec.Lru.run c.cap l ops).2 ∧ c'.cap = c.cap := by
  induction ops with
  | nil => intro c l h _; exact ⟨c, rfl, h, rfl⟩
  | cons op ops ih =>
    intro c l h h2
    obtain ⟨c1, e1, r1, p1⟩ := apply_R dk dv c l h h2 op
    obtain ⟨c2, e2, r2, p2⟩ := ih c1 _ r1 (by omega)
    rw [p1] at e2 r2 p2
    refine ⟨c2, ?_, r2, p2⟩
    simp only [runOps, e1, bind, Except.bind, e2, pure, Except.pure, Spec.Lru.run]

/-- `Get` finds a key iff the abstract map has it. -/
theorem present_iff {c : Cache K V} {l : List (K × V)} (h : R c l) (k : K) :
    (∃ v c', get c k = .ok (some v, c')) ↔ k ∈ keys l := by
  obtain ⟨c', e, _, _⟩ := get_R c l h k
  rw [e]
  have hg : (Spec.Lru.get l k).1 = Spec.Lru.lookup l k := by
    unfold Spec.Lru.get; cases hl : Spec.Lru.lookup l k <;> rfl
  rw [hg, ← lookup_isSome]
  constructor
  · rintro ⟨v, c'', h⟩
    cases hl : Spec.Lru.lookup l k with
    | some x => rfl
    | none => rw [hl] at h; cases h
  · intro hs
    obtain ⟨v, hv⟩ := Option.isSome_iff_exists.1 hs
    exact ⟨v, c', by rw [hv]⟩

/-! ## Retention -/

/-- The keys before `k` in the recency order. -/
def Ahead (k : K) (D : List K) (ks : List K) : Prop := ∃ p s, ks = p ++ k :: s ∧ p ⊆ D ∧ k ∉ p

theorem ahead_apply {cap : Nat} {l : List (K × V)} (hok : KeysOk cap l) {k : K} {D : List K} (hD : D.length < cap)
    (ha : Ahead k D (keys l)) {op : Op K V} (hc : op ≠ .clear) (hk : op.key? = some k ∨ ∃ j ∈ D, op.key? = some j) :
    Ahead k D (keys (Spec.Lru.apply cap l op).2) := by
  obtain ⟨p, s, hks, hp, hkp⟩ := ha
  have hkm : k ∈ keys l := by rw [hks]; simp
  have hnd : p.Nodup := by
    have := hok.nodup; rw [hks] at this; exact (List.nodup_append.1 this).1
  have front : ∀ j, (j = k ∨ j ∈ D) → j ∈ keys l → Ahead k D (j :: (keys l).filter (· ≠ j)) := by
    intro j hj _
    by_cases hjk : j = k
    · subst hjk; exact ⟨[], _, rfl, by simp, by simp⟩
    · refine ⟨j :: p.filter (· ≠ j), s.filter (· ≠ j), ?_, ?_, ?_⟩
      · rw [hks, List.filter_append, List.filter_cons_of_pos (by simpa using Ne.symm hjk)]
        rfl
      · intro x hx
        rcases List.mem_cons.1 hx with rfl | hx
        · exact hj.resolve_left hjk
        · exact hp (List.mem_filter.1 hx).1
      · simp only [List.mem_cons, List.mem_filter, not_or]
        exact ⟨Ne.symm hjk, fun h => hkp h.1⟩
  have insert : ∀ j, (j = k ∨ j ∈ D) → j ∉ keys l → Ahead k D ((j :: keys l).take cap) := by
    intro j hj hjn
    have hjk : j ≠ k := fun h => hjn (h ▸ hkm)
    have hjD := hj.resolve_left hjk
    have hjp : j ∉ p := fun h => hjn (by rw [hks]; simp [h])
    have hlen : (j :: p).length ≤ D.length := by
      apply List.Subperm.length_le
      apply List.subperm_of_subset (List.nodup_cons.2 ⟨hjp, hnd⟩)
      intro x hx
      rcases List.mem_cons.1 hx with rfl | hx
      · exact hjD
      · exact hp hx
    refine ⟨j :: p, s.take (cap - (p.length + 2)), ?_, ?_, ?_⟩
    · rw [hks]
      have : cap = (j :: p).length + (1 + (cap - (p.length + 2))) := by
        simp only [List.length_cons] at hlen ⊢; omega
      conv => lhs; rw [this]
      rw [show j :: (p ++ k :: s) = (j :: p) ++ k :: s from rfl, List.take_length_add_append, Nat.add_comm 1,
        List.take_succ_cons]
    · intro x hx
      rcases List.mem_cons.1 hx with rfl | hx
      · exact hjD
      · exact hp hx
    · simp only [List.mem_cons, not_or]; exact ⟨Ne.symm hjk, hkp⟩
  have hj : ∀ j, op.key? = some j → j = k ∨ j ∈ D := by
    intro j hj
    rcases hk with h | ⟨i, hi, h⟩
    · rw [h] at hj; cases hj; exact .inl rfl
    · rw [h] at hj; cases hj; exact .inr hi
  rw [keys_apply]
  cases op with
  | get j =>
    dsimp only
    split
    · rename_i hm; exact front j (hj j rfl) hm
    · exact ⟨p, s, hks, hp, hkp⟩
  | insertOrAssign j v =>
    dsimp only
    split
    · exact ⟨p, s, hks, hp, hkp⟩
    · rename_i hm; exact insert j (hj j rfl) hm
  | getOrInsert j v =>
    dsimp only
    split
    · rename_i hm; exact front j (hj j rfl) hm
    · rename_i hm; exact insert j (hj j rfl) hm
  | clear => exact absurd rfl hc

theorem keysOk_run {cap : Nat} (ops : List (Op K V)) : ∀ {l : List (K × V)}, KeysOk cap l →
    KeysOk cap (Spec.Lru.run cap l ops).2 := by
  induction ops with
  | nil => intro l h; exact h
  | cons op ops ih => intro l h; exact ih (keysOk_apply h op)

theorem ahead_run {cap : Nat} {k : K} {D : List K} (hD : D.length < cap) (ops : List (Op K V)) :
    ∀ {l : List (K × V)}, KeysOk cap l → Ahead k D (keys l) →
    (∀ op ∈ ops, op ≠ .clear ∧ (op.key? = some k ∨ ∃ j ∈ D, op.key? = some j)) →
    Ahead k D (keys (Spec.Lru.run cap l ops).2) := by
  induction ops with
  | nil => intro l _ h _; exact h
  | cons op ops ih =>
    intro l hok h hm
    obtain ⟨h1, h2⟩ := hm op (by simp)
    exact ih (keysOk_apply hok op) (ahead_apply hok hD h h1 h2) fun o ho => hm o (by simp [ho])

/-- A use of a key: `GetOrInsert`, a hit, or the insertion of an absent key. -/
theorem front_apply {cap : Nat} (hcap : 0 < cap) {l : List (K × V)} {op : Op K V} {k : K}
    (h : (∃ v, op = .getOrInsert k v) ∨ (op = .get k ∧ k ∈ keys l) ∨ (∃ v, op = .insertOrAssign k v) ∧ k ∉ keys l) :
    ∃ s, keys (Spec.Lru.apply cap l op).2 = k :: s ∧ ∀ x ∈ s, x ∈ keys l := by
  obtain ⟨m, rfl⟩ : ∃ m, cap = m + 1 := ⟨cap - 1, by omega⟩
  rw [keys_apply]
  rcases h with ⟨v, rfl⟩ | ⟨rfl, hk⟩ | ⟨⟨v, rfl⟩, hk⟩
  · dsimp only
    split
    · exact ⟨_, rfl, fun x hx => (List.mem_filter.1 hx).1⟩
    · exact ⟨_, List.take_succ_cons, fun x hx => List.mem_of_mem_take hx⟩
  · exact ⟨_, if_pos hk, fun x hx => (List.mem_filter.1 hx).1⟩
  · dsimp only
    rw [if_neg hk]
    exact ⟨_, List.take_succ_cons, fun x hx => List.mem_of_mem_take hx⟩

/-! ## Eviction order -/

/-- Wherever `k` occurs, `k'` occurs before it. -/
def Before (k' k : K) (ks : List K) : Prop := ∀ p s, ks = p ++ k :: s → k' ∈ p

theorem before_take {k' k : K} {ks : List K} (h : Before k' k ks) (n : Nat) : Before k' k (ks.take n) := by
  intro p s hp
  apply h p (s ++ ks.drop n)
  have := List.take_append_drop n ks
  rw [hp] at this
  simpa using this.symm

theorem before_cons {k' k j : K} {ks : List K} (hj : j ≠ k) (h : j = k' ∨ Before k' k ks) : Before k' k (j :: ks) := by
  intro p s hp
  cases p with
  | nil => simp at hp; exact absurd hp.1 hj
  | cons x p =>
    simp only [List.cons_append, List.cons.injEq] at hp
    rcases h with rfl | h
    · rw [hp.1]; simp
    · exact List.mem_cons_of_mem _ (h p s hp.2)

theorem before_filter {k' k j : K} {ks : List K} (hj' : j ≠ k') (h : Before k' k ks) :
    Before k' k (ks.filter (· ≠ j)) := by
  intro p s hp
  obtain ⟨l1, l2, rfl, h1, h2⟩ := List.filter_eq_append_iff.1 hp
  obtain ⟨l3, l4, rfl, h3, h4, h5⟩ := List.filter_eq_cons_iff.1 h2
  have hm := h (l1 ++ l3) l4 (by simp)
  rcases List.mem_append.1 hm with hm | hm
  · rw [← h1]; exact List.mem_filter.2 ⟨hm, by simpa using Ne.symm hj'⟩
  · exact absurd (h3 k' hm) (by simpa using Ne.symm hj')

theorem before_apply {cap : Nat} {l : List (K × V)} {k' k : K} (h : Before k' k (keys l)) {op : Op K V}
    (hk : op.key? ≠ some k) : Before k' k (keys (Spec.Lru.apply cap l op).2) := by
  have front : ∀ j, j ≠ k → Before k' k (j :: (keys l).filter (· ≠ j)) := by
    intro j hj
    by_cases hj' : j = k'
    · exact before_cons hj (.inl hj')
    · exact before_cons hj (.inr (before_filter hj' h))
  rw [keys_apply]
  cases op with
  | get j =>
    dsimp only
    have hj : j ≠ k := fun e => hk (by rw [e]; rfl)
    split
    · exact front j hj
    · exact h
  | insertOrAssign j v =>
    dsimp only
    have hj : j ≠ k := fun e => hk (by rw [e]; rfl)
    split
    · exact h
    · exact before_take (before_cons hj (.inr h)) _
  | getOrInsert j v =>
    dsimp only
    have hj : j ≠ k := fun e => hk (by rw [e]; rfl)
    split
    · exact front j hj
    · exact before_take (before_cons hj (.inr h)) _
  | clear => intro p s hp; simp at hp

theorem before_run {cap : Nat} {k' k : K} (ops : List (Op K V)) : ∀ {l : List (K × V)}, Before k' k (keys l) →
    (∀ op ∈ ops, op.key? ≠ some k) → Before k' k (keys (Spec.Lru.run cap l ops).2) := by
  induction ops with
  | nil => intro l h _; exact h
  | cons op ops ih =>
    intro l h hm
    exact ih (before_apply h (hm op (by simp))) fun o ho => hm o (by simp [ho])

/-! ## The value returned -/

/-- Everything the map holds was last seen with that value. -/
def Seen (l : List (K × V)) (log : List (Op K V × Option V)) : Prop :=
  ∀ k v, Spec.Lru.lookup l k = some v → Spec.Lru.lastSeen k log = some v

theorem lookup_cons (l : List (K × V)) (p : K × V) (k : K) :
    Spec.Lru.lookup (p :: l) k = if p.1 = k then some p.2 else Spec.Lru.lookup l k := by
  unfold Spec.Lru.lookup
  by_cases h : p.1 = k
  · simp [h]
  · simp [h]

theorem lookup_filter (l : List (K × V)) (j k : K) (h : k ≠ j) :
    Spec.Lru.lookup (l.filter fun p => p.1 ≠ j) k = Spec.Lru.lookup l k := by
  induction l with
  | nil => rfl
  | cons p l ih =>
    by_cases hp : p.1 = j
    · rw [List.filter_cons_of_neg (by simpa using hp), ih, lookup_cons, if_neg]
      rw [hp]; exact Ne.symm h
    · rw [List.filter_cons_of_pos (by simpa using hp), lookup_cons, lookup_cons, ih]

theorem lookup_take (l : List (K × V)) (n : Nat) (k : K) (v : V) :
    Spec.Lru.lookup (l.take n) k = some v → Spec.Lru.lookup l k = some v := by
  induction l generalizing n with
  | nil => simp
  | cons p l ih =>
    cases n with
    | zero => simp [Spec.Lru.lookup]
    | succ n =>
      rw [List.take_succ_cons, lookup_cons, lookup_cons]
      split
      · exact id
      · exact ih n

theorem lookup_assign (l : List (K × V)) (j k : K) (v : V) :
    Spec.Lru.lookup (l.map fun p => if p.1 = j then (j, v) else p) k =
      if k = j then (Spec.Lru.lookup l k).map (fun _ => v) else Spec.Lru.lookup l k := by
  induction l with
  | nil => simp [Spec.Lru.lookup]
  | cons p l ih =>
    rw [List.map_cons, lookup_cons, lookup_cons, ih]
    by_cases hp : p.1 = j
    · by_cases hk : k = j
      · subst hk; simp [hp]
      · have h1 : ¬ j = k := fun h => hk h.symm
        have h2 : ¬ p.1 = k := fun h => h1 (hp ▸ h)
        simp [hp, hk, h1]
    · by_cases hk : k = j
      · subst hk; simp [hp]
      · simp [hp, hk]

theorem seen_apply {cap : Nat} {l : List (K × V)} {log : List (Op K V × Option V)} (h : Seen l log) (op : Op K V) :
    Seen (Spec.Lru.apply cap l op).2 ((op, (Spec.Lru.apply cap l op).1) :: log) := by
  intro k v hv
  have other : ∀ (r : Option V), op ≠ .clear → op.key? ≠ some k → Spec.Lru.lookup l k = some v →
      Spec.Lru.lastSeen k ((op, r) :: log) = some v := by
    intro r hc hk hl
    cases r with
    | none =>
      cases op <;> first | exact absurd rfl hc | exact h k v hl
    | some x =>
      cases op <;> first | exact absurd rfl hc | (simp only [Spec.Lru.lastSeen, if_neg hk]; exact h k v hl)
  cases op with
  | clear => simp [Spec.Lru.apply, Spec.Lru.lookup] at hv
  | get j =>
    have e : (Spec.Lru.apply cap l (.get j)) = Spec.Lru.get l j := rfl
    rw [e] at hv ⊢
    unfold Spec.Lru.get at hv ⊢
    rcases lookup_cases l j with ⟨_, x, hx⟩ | ⟨_, hx⟩
    · rw [hx] at hv ⊢
      dsimp only at hv ⊢
      rw [lookup_cons] at hv
      by_cases hj : j = k
      · subst hj
        simp only [Spec.Lru.lastSeen, Op.key?, if_true]
        simpa using hv
      · rw [if_neg hj, lookup_filter l j k (Ne.symm hj)] at hv
        exact other _ (by simp) (by simpa [Op.key?] using hj) hv
    · rw [hx] at hv ⊢
      exact h k v hv
  | insertOrAssign j x =>
    have e : (Spec.Lru.apply cap l (.insertOrAssign j x)) = (some x, Spec.Lru.insertOrAssign cap l j x) := rfl
    rw [e] at hv ⊢
    dsimp only at hv ⊢
    unfold Spec.Lru.insertOrAssign at hv
    by_cases hj : j = k
    · subst hj
      simp only [Spec.Lru.lastSeen, Op.key?, if_true]
      rcases lookup_cases l j with ⟨_, y, hy⟩ | ⟨_, hy⟩
      · rw [hy] at hv
        dsimp only at hv
        rw [lookup_assign, if_pos rfl, hy] at hv
        simpa using hv
      · rw [hy] at hv
        have := lookup_take _ _ _ _ hv
        rw [lookup_cons, if_pos rfl] at this
        exact this
    · apply other _ (by simp) (by simpa [Op.key?] using hj)
      rcases lookup_cases l j with ⟨_, y, hy⟩ | ⟨_, hy⟩
      · rw [hy] at hv
        dsimp only at hv
        rw [lookup_assign, if_neg (Ne.symm hj)] at hv
        exact hv
      · rw [hy] at hv
        have := lookup_take _ _ _ _ hv
        rw [lookup_cons, if_neg hj] at this
        exact this
  | getOrInsert j x =>
    simp only [Spec.Lru.apply, Spec.Lru.getOrInsert, Spec.Lru.get] at hv ⊢
    rcases lookup_cases l j with ⟨_, y, hy⟩ | ⟨_, hy⟩
    · rw [hy] at hv ⊢
      dsimp only at hv ⊢
      rw [lookup_cons] at hv
      by_cases hj : j = k
      · subst hj
        simp only [Spec.Lru.lastSeen, Op.key?, if_true]
        simpa using hv
      · rw [if_neg hj, lookup_filter l j k (Ne.symm hj)] at hv
        exact other _ (by simp) (by simpa [Op.key?] using hj) hv
    · rw [hy] at hv ⊢
      dsimp only at hv ⊢
      simp only [Spec.Lru.insertOrAssign, hy] at hv
      have := lookup_take _ _ _ _ hv
      rw [lookup_cons] at this
      by_cases hj : j = k
      · subst hj
        simp only [Spec.Lru.lastSeen, Op.key?, if_true]
        simpa using this
      · rw [if_neg hj] at this
        exact other _ (by simp) (by simpa [Op.key?] using hj) this

theorem seen_run {cap : Nat} (ops : List (Op K V)) : ∀ {l : List (K × V)} {log : List (Op K V × Option V)}, Seen l log →
    Seen (Spec.Lru.run cap l ops).2 ((ops.zip (Spec.Lru.run cap l ops).1).reverse ++ log) := by
  induction ops with
  | nil => intro l log h; exact h
  | cons op ops ih =>
    intro l log h
    have := ih (seen_apply (cap := cap) h op)
    simpa [Spec.Lru.run] using this

/-! ## Threads -/

/-- All values ever offered for a key are good. -/
def GoodOp (Good : K → V → Prop) : Op K V → Prop
  | .insertOrAssign k v => Good k v
  | .getOrInsert k v => Good k v
  | _ => True

def GoodMap (Good : K → V → Prop) (l : List (K × V)) : Prop := ∀ k v, Spec.Lru.lookup l k = some v → Good k v

theorem good_apply {Good : K → V → Prop} {cap : Nat} {l : List (K × V)} (h : GoodMap Good l) {op : Op K V}
    (hop : GoodOp Good op) : GoodMap Good (Spec.Lru.apply cap l op).2 ∧
      ∀ k v, op.key? = some k → (Spec.Lru.apply cap l op).1 = some v → Good k v := by
  have hget : ∀ j, GoodMap Good (Spec.Lru.get l j).2 ∧ ∀ v, (Spec.Lru.get l j).1 = some v → Good j v := by
    intro j
    unfold Spec.Lru.get
    rcases lookup_cases l j with ⟨_, y, hy⟩ | ⟨_, hy⟩
    · rw [hy]
      dsimp only
      refine ⟨?_, by rintro v hv; cases hv; exact h j y hy⟩
      intro k v hv
      rw [lookup_cons] at hv
      by_cases hj : j = k
      · subst hj; rw [if_pos rfl] at hv; cases hv; exact h j y hy
      · rw [if_neg hj, lookup_filter l j k (Ne.symm hj)] at hv; exact h k v hv
    · rw [hy]; exact ⟨h, by simp⟩
  have hins : ∀ j x, Good j x → GoodMap Good (Spec.Lru.insertOrAssign cap l j x) := by
    intro j x hx k v hv
    unfold Spec.Lru.insertOrAssign at hv
    rcases lookup_cases l j with ⟨_, y, hy⟩ | ⟨_, hy⟩
    · rw [hy] at hv
      dsimp only at hv
      rw [lookup_assign] at hv
      by_cases hj : k = j
      · subst hj; rw [if_pos rfl, hy] at hv; simp at hv; subst hv; exact hx
      · rw [if_neg hj] at hv; exact h k v hv
    · rw [hy] at hv
      have := lookup_take _ _ _ _ hv
      rw [lookup_cons] at this
      by_cases hj : j = k
      · subst hj; rw [if_pos rfl] at this; cases this; exact hx
      · rw [if_neg hj] at this; exact h k v this
  cases op with
  | get j => exact ⟨(hget j).1, by rintro k v ⟨⟩ hv; exact (hget j).2 v hv⟩
  | insertOrAssign j x => exact ⟨hins j x hop, by rintro k v ⟨⟩ ⟨⟩; exact hop⟩
  | getOrInsert j x =>
    simp only [Spec.Lru.apply, Spec.Lru.getOrInsert]
    have hg := hget j
    cases he : Spec.Lru.get l j with
    | mk o l' =>
      rw [he] at hg
      cases o with
      | some y => exact ⟨hg.1, by rintro k v ⟨⟩ ⟨⟩; exact hg.2 y rfl⟩
      | none =>
        have hl' : l' = l := by
          unfold Spec.Lru.get at he
          rcases lookup_cases l j with ⟨_, y, hy⟩ | ⟨_, hy⟩
          · rw [hy] at he; cases he
          · rw [hy] at he; cases he; rfl
        subst hl'
        exact ⟨hins j x hop, by rintro k v ⟨⟩ ⟨⟩; exact hop⟩
  | clear => exact ⟨by intro k v hv; simp [Spec.Lru.apply, Spec.Lru.lookup] at hv, by rintro k v ⟨⟩⟩

/-- What holds of a thread at any time. -/
structure GoodThread (Good : K → V → Prop) (t : Thread K V) : Prop where
  todo : ∀ op ∈ t.todo, GoodOp Good op
  pending : ∀ k v, t.pending = some (k, v) → Good k v
  done : ∀ op r, (op, r) ∈ t.done → (∀ k v, op.key? = some k → r = some v → Good k v)
  total : ∀ k v r, (Op.getOrInsert k v, r) ∈ t.done ∨ (Op.insertOrAssign k v, r) ∈ t.done → r.isSome

/-- All calls of a thread, made or still to be made. -/
def calls (t : Thread K V) : List (Op K V) :=
  (t.pending.map fun p => Op.getOrInsert p.1 p.2).toList ++ t.todo ++ t.done.map (·.1)

theorem act_ok {Good : K → V → Prop} (dk : K) (dv : V) {t : Thread K V} (ht : GoodThread Good t) {c : Cache K V}
    {l : List (K × V)} (h : R c l) (h2 : 2 ≤ c.cap) (hl : GoodMap Good l) :
    ∃ t' c' l', t.act dk dv c = .ok (t', c') ∧ R c' l' ∧ c'.cap = c.cap ∧ GoodMap Good l' ∧ GoodThread Good t' ∧
      (2 * t'.todo.length + (if t'.pending.isSome then 1 else 0) ≤
        2 * t.todo.length + (if t.pending.isSome then 1 else 0) - 1) ∧
      (calls t').Perm (calls t) := by
  unfold Thread.act
  cases hp : t.pending with
  | some kv =>
    obtain ⟨k, v⟩ := kv
    have hg := ht.pending k v hp
    obtain ⟨c', e, r, cp⟩ := insertOrAssign_R c l h k v
    have := good_apply (cap := c.cap) hl (op := .insertOrAssign k v) hg
    refine ⟨{ t with pending := none, done := (.getOrInsert k v, some v) :: t.done }, c', _, ?_, r, cp, this.1, ?_, ?_, ?_⟩
    · simp [e, bind, Except.bind, pure, Except.pure]
    · refine ⟨ht.todo, by simp, ?_, ?_⟩
      · intro op r hm
        rcases List.mem_cons.1 hm with hm | hm
        · cases hm; rintro k' v' ⟨⟩ ⟨⟩; exact hg
        · exact ht.done op r hm
      · rintro k' v' r (hm | hm)
        · rcases List.mem_cons.1 hm with hm | hm
          · cases hm; rfl
          · exact ht.total k' v' r (.inl hm)
        · rcases List.mem_cons.1 hm with hm | hm
          · cases hm
          · exact ht.total k' v' r (.inr hm)
    · simp
    · unfold calls; rw [hp]; simp
  | none =>
    cases hd : t.todo with
    | nil =>
      exact ⟨t, c, l, rfl, h, rfl, hl, ht, by simp [hd, hp], List.Perm.refl _⟩
    | cons op rest =>
      have hop := ht.todo op (by simp [hd])
      have hrest : ∀ o ∈ rest, GoodOp Good o := fun o ho => ht.todo o (by simp [hd, ho])
      have plain : (∀ k v, op ≠ .getOrInsert k v) → ∃ c' l', (do
            let (r, c) ← apply dk dv c op
            pure ({ t with todo := rest, done := (op, r) :: t.done }, c) : M (Thread K V × Cache K V)) =
          .ok ({ t with todo := rest, done := (op, (Spec.Lru.apply c.cap l op).1) :: t.done }, c') ∧ R c' l' ∧
          c'.cap = c.cap ∧ GoodMap Good l' ∧
          GoodThread Good { t with todo := rest, done := (op, (Spec.Lru.apply c.cap l op).1) :: t.done } := by
        intro hne
        obtain ⟨c', e, r, cp⟩ := apply_R dk dv c l h h2 op
        have hga := good_apply (cap := c.cap) hl hop
        refine ⟨c', _, by simp [e, bind, Except.bind, pure, Except.pure], r, cp, hga.1, hrest, ht.pending, ?_, ?_⟩
        · intro o r hm
          rcases List.mem_cons.1 hm with hm | hm
          · cases hm; intro k v hk hr; exact hga.2 k v hk hr
          · exact ht.done o r hm
        · rintro k v r (hm | hm)
          · rcases List.mem_cons.1 hm with hm | hm
            · injection hm with h1 h2; exact absurd h1.symm (hne k v)
            · exact ht.total k v r (.inl hm)
          · rcases List.mem_cons.1 hm with hm | hm
            · injection hm with h1 h2; subst h1; rw [h2]; rfl
            · exact ht.total k v r (.inr hm)
      have perm : ∀ r, (calls { t with todo := rest, done := (op, r) :: t.done }).Perm (calls t) := by
        intro r
        unfold calls
        rw [hp, hd]
        simp
      cases op with
      | getOrInsert k v =>
        obtain ⟨c', e, r, cp⟩ := get_R c l h k
        have hga := good_apply (cap := c.cap) hl (op := .get k) trivial
        cases ho : (Spec.Lru.get l k).1 with
        | some x =>
          refine ⟨{ t with todo := rest, done := (.getOrInsert k v, some x) :: t.done }, c', _, ?_, r, cp, hga.1, ?_, ?_, ?_⟩
          · simp [e, ho, hp, bind, Except.bind, pure, Except.pure]
          · refine ⟨hrest, ht.pending, ?_, ?_⟩
            · intro o r hm
              rcases List.mem_cons.1 hm with hm | hm
              · cases hm; rintro k' v' ⟨⟩ ⟨⟩; exact hga.2 k x rfl ho
              · exact ht.done o r hm
            · rintro k' v' r (hm | hm)
              · rcases List.mem_cons.1 hm with hm | hm
                · cases hm; rfl
                · exact ht.total k' v' r (.inl hm)
              · rcases List.mem_cons.1 hm with hm | hm
                · cases hm
                · exact ht.total k' v' r (.inr hm)
          · simp [hp]; omega
          · exact perm _
        | none =>
          refine ⟨{ t with todo := rest, pending := some (k, v) }, c', _, ?_, r, cp, hga.1, ?_, ?_, ?_⟩
          · simp [e, ho, hp, bind, Except.bind, pure, Except.pure]
          · refine ⟨hrest, ?_, ht.done, ht.total⟩
            rintro k' v' ⟨⟩; exact hop
          · simp; omega
          · unfold calls; rw [hp, hd]; simp
      | get k =>
        obtain ⟨c', l', e, r, cp, hm, hg⟩ := plain (by simp)
        refine ⟨_, c', l', by dsimp only; rw [hp] at e; exact e, r, cp, hm, by rw [hp] at hg; exact hg, ?_, ?_⟩
        · simp; omega
        · simp only [hp] at perm; exact perm _
      | insertOrAssign k v =>
        obtain ⟨c', l', e, r, cp, hm, hg⟩ := plain (by simp)
        refine ⟨_, c', l', by dsimp only; rw [hp] at e; exact e, r, cp, hm, by rw [hp] at hg; exact hg, ?_, ?_⟩
        · simp; omega
        · simp only [hp] at perm; exact perm _
      | clear =>
        obtain ⟨c', l', e, r, cp, hm, hg⟩ := plain (by simp)
        refine ⟨_, c', l', by dsimp only; rw [hp] at e; exact e, r, cp, hm, by rw [hp] at hg; exact hg, ?_, ?_⟩
        · simp; omega
        · simp only [hp] at perm; exact perm _

end Tosca.Proofs.Lru
