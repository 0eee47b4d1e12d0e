import Mathlib.Data.List.Nodup
import Mathlib.Data.List.Perm.Subperm
import Verif.Proofs.Owners
import Verif.Spec.Owners

/-!
# C50: code analyses live exactly as long as they are used
-/

namespace Tosca

open Tosca.Model Tosca.Model.Owners Tosca.Spec.Owners Tosca.Proofs.Owners

private theorem started_eq (as : List Action) : startedCodes as = as.flatMap startedOf := by
  induction as with
  | nil => rfl
  | cons a as ih =>
    cases a <;> simp [startedCodes, startedOf] at ih ⊢ <;> exact ih

private theorem actOk {codeOf : U256 → List Byte} {as : List Action} (h : HashesName codeOf as) : ∀ a ∈ as, ActOk codeOf a := by
  intro a ha
  cases a with
  | start hash code =>
    cases hash with
    | none => exact trivial
    | some x => exact h x code ha
  | insert i => exact trivial
  | finish i => exact trivial

private theorem reach {codeOf : U256 → List Byte} {as : List Action} {s : State} (hs : Fresh s) (h : HashesName codeOf as) :
    ∃ s', execAll s as = .ok s' ∧ Inv codeOf (startedCodes as) s' := by
  obtain ⟨heap, cache, calls⟩ := s
  obtain ⟨h1, h2, cap, key, hc, hcl⟩ := hs
  dsimp only at h1 h2 hcl
  subst h1; subst h2
  obtain ⟨s', e1, e2⟩ := execAll_inv as (init_inv codeOf hc hcl) (actOk h)
  rw [started_eq]
  exact ⟨s', e1, by simpa using e2⟩

private theorem alive_iff {h : Heap} {p : Nat} : Alive h p ↔ 0 < count h p := by
  unfold Alive count
  constructor
  · rintro ⟨info, n, h1, h2⟩; rw [h1]; exact Nat.pos_of_ne_zero h2
  · intro hp
    cases hh : h[p]? with
    | none => rw [hh] at hp; exact absurd hp (Nat.lt_irrefl 0)
    | some x => rw [hh] at hp; exact ⟨x.1, x.2, rfl, Nat.ne_of_gt hp⟩

/-- Whatever calls are made of a new VM and however they overlap, no pointer to an analysis is
followed after the analysis was deleted, and none is released twice. -/
theorem C50_no_dangling (codeOf : U256 → List Byte) (as : List Action) (s : State) (hs : Fresh s) (h : HashesName codeOf as) :
    ∃ s', execAll s as = .ok s' := by
  obtain ⟨s', h1, _⟩ := reach hs h
  exact ⟨s', h1⟩

/-- As long as a call is in progress it reads the analysis of its own code, whatever other calls have
evicted or overwritten in the cache since. -/
theorem C50_reads_own_analysis (codeOf : U256 → List Byte) (as : List Action) (s s' : State) (hs : Fresh s) (h : HashesName codeOf as)
    (hr : execAll s as = .ok s') (i p : Nat) (hi : s'.calls[i]? = some (.running p)) :
    ∃ code, (startedCodes as)[i]? = some code ∧ Owners.read s' i = .ok (computeContractInfo code) := by
  obtain ⟨s'', h1, hinv⟩ := reach hs h
  rw [hr] at h1
  cases h1
  obtain ⟨code, hc, hinfo⟩ := hinv.calls i _ p hi rfl
  refine ⟨code, hc, ?_⟩
  unfold Owners.read
  rw [hi]
  obtain ⟨info, hl, hinfo'⟩ := look_ok (h := s'.heap) (p := p) (by rw [hinv.ref]; exact owner_call hi rfl)
  rw [hinfo] at hinfo'
  cases hinfo'
  exact hl

/-- An analysis is deleted exactly when nothing refers to it any more: nothing in use is deleted and
nothing unused is kept. -/
theorem C50_alive_iff_referenced (codeOf : U256 → List Byte) (as : List Action) (s s' : State) (hs : Fresh s) (h : HashesName codeOf as)
    (hr : execAll s as = .ok s') (p : Nat) : Alive s'.heap p ↔ Referenced s' p := by
  obtain ⟨s'', h1, hinv⟩ := reach hs h
  rw [hr] at h1
  cases h1
  rw [alive_iff, hinv.ref, owners_pos]
  unfold Referenced
  constructor
  · rintro (h | ⟨i, cl, h1, h2⟩)
    · obtain ⟨n, hn, he⟩ := List.mem_map.1 h
      exact Or.inr (Or.inr ⟨n, List.mem_range.1 hn, he⟩)
    · cases cl with
      | inserting hh q => cases h2; exact Or.inl ⟨i, hh, h1⟩
      | running q => cases h2; exact Or.inr (Or.inl ⟨i, h1⟩)
      | ended => cases h2
  · rintro (⟨i, hh, h1⟩ | ⟨i, h1⟩ | ⟨n, hn, he⟩)
    · exact Or.inr ⟨i, _, h1, rfl⟩
    · exact Or.inr ⟨i, _, h1, rfl⟩
    · exact Or.inl (List.mem_map.2 ⟨n, List.mem_range.2 hn, he⟩)

/-- At any time at most as many analyses exist as there are cache entries and calls in progress. -/
theorem C50_no_leak (codeOf : U256 → List Byte) (as : List Action) (s s' : State) (hs : Fresh s) (h : HashesName codeOf as)
    (hr : execAll s as = .ok s') (ps : List Nat) (hnd : ps.Nodup) (hal : ∀ p ∈ ps, Alive s'.heap p) :
    ps.length ≤ s'.cache.cap + (s'.calls.filter (· ≠ .ended)).length := by
  have hsub : ∀ p ∈ ps, some p ∈ nodes s'.cache ++ (s'.calls.filter (· ≠ .ended)).map holds := by
    intro p hp
    rcases (C50_alive_iff_referenced codeOf as s s' hs h hr p).1 (hal p hp) with ⟨i, hh, h1⟩ | ⟨i, h1⟩ | ⟨n, hn, he⟩
    · exact List.mem_append_right _ (List.mem_map.2 ⟨_, List.mem_filter.2 ⟨List.mem_of_getElem? h1, by simp⟩, rfl⟩)
    · exact List.mem_append_right _ (List.mem_map.2 ⟨_, List.mem_filter.2 ⟨List.mem_of_getElem? h1, by simp⟩, rfl⟩)
    · exact List.mem_append_left _ (List.mem_map.2 ⟨n, List.mem_range.2 hn, he⟩)
  have h1 : (ps.map some).Nodup := hnd.map (fun a b he => Option.some.inj he)
  have h2 := (List.subperm_of_subset h1 (l₂ := nodes s'.cache ++ (s'.calls.filter (· ≠ .ended)).map holds) (by
    intro x hx
    obtain ⟨p, hp, rfl⟩ := List.mem_map.1 hx
    exact hsub p hp)).length_le
  simpa [nodes] using h2

/-- When no call is in progress, destroying the VM deletes every analysis. -/
theorem C50_destroy (codeOf : U256 → List Byte) (as : List Action) (s s' : State) (hs : Fresh s) (h : HashesName codeOf as)
    (hr : execAll s as = .ok s') (hq : Quiet s') : ∃ heap, destroyVm s' = .ok heap ∧ ∀ p, ¬ Alive heap p := by
  obtain ⟨s'', h1, hinv⟩ := reach hs h
  rw [hr] at h1
  cases h1
  obtain ⟨heap, h1, h2⟩ := dropAll_ok (nodes s'.cache) (h := s'.heap) (by
    intro p
    rw [hinv.ref]
    unfold owners
    have : (s'.calls.map holds).countP (· = some p) = 0 := by
      rw [List.countP_eq_zero]
      intro a ha
      obtain ⟨c, hc, rfl⟩ := List.mem_map.1 ha
      obtain ⟨i, hi⟩ := List.getElem?_of_mem hc
      rw [hq i c hi]
      simp [holds]
    rw [this]; rfl)
  refine ⟨heap, h1, fun p hp => ?_⟩
  rw [alive_iff, h2 p] at hp
  exact absurd hp (Nat.lt_irrefl 0)

/-! A case: a cache of two entries; the first call runs on while three other codes push its analysis
out of the cache.  The first call still reads its analysis, which goes away when it returns. -/

/-- Code number `n` is the single byte `n`. -/
def codeByNumber (h : U256) : List Byte := [BitVec.ofNat 8 h.toNat]

/-- The calls of the example. -/
def crowd : List Action :=
  [.start (some 1) (codeByNumber 1), .insert 0, .start (some 2) (codeByNumber 2), .insert 1, .start (some 3) (codeByNumber 3),
    .insert 2, .finish 1, .start (some 3) (codeByNumber 3), .start none [7]]

/-- A new VM with room for two analyses. -/
def twoEntries : State :=
  { cache := { cap := 2
               entries := fun i => { key := 0, value := none, pred := if i > 0 then some (i - 1) else none, succ := if i < 2 then some (i + 1) else none }
               index := [], head := some 0, tail := some 1 } }

example : Fresh twoEntries := ⟨rfl, rfl, 2, 0, by decide, rfl⟩

example : HashesName codeByNumber crowd := by
  intro h code hm
  simp [crowd] at hm
  rcases hm with ⟨rfl, h⟩ | ⟨rfl, h⟩ | ⟨rfl, h⟩ <;> exact h.symm

/-- The state the calls lead to, if defined. -/
def afterCrowd : Option State := (execAll twoEntries crowd).toOption

-- the counts: the first analysis is owned by its call only, the second by the cache only, the third by
-- the cache and two calls, the fourth by its call
example : afterCrowd.map (fun s => s.heap.map (·.2)) = some [1, 1, 3, 1] := by decide +kernel

-- the first call still reads its analysis
example : (afterCrowd.map fun s => (Owners.read s 0).toOption) = some (some (computeContractInfo [1])) := by decide +kernel

-- when it returns the analysis is deleted
example : ((execAll twoEntries (crowd ++ [.finish 0])).toOption.map fun s => s.heap.map (·.2)) = some [0, 1, 3, 1] := by decide +kernel

-- when all have returned, destroying the VM deletes the rest
example : (((execAll twoEntries (crowd ++ [.finish 0, .finish 2, .finish 3, .finish 4])).bind destroyVm).toOption.map
    fun h => h.map (·.2)) = some [0, 0, 0, 0] := by decide +kernel

end Tosca
