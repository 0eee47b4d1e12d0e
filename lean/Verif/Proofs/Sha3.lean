import Verif.Model.Reach
import Verif.Proofs.Lru

/-!
# The keccak cache is transparent
-/

namespace Tosca.Proofs

open Tosca.Model Tosca.Proofs.Lru

section
variable {K V : Type} [DecidableEq K]

/-- Every cached value is the value of `f` at its key. -/
def Correct (f : K → V) (l : List (K × V)) : Prop := ∀ p ∈ l, p.2 = f p.1

theorem lookup_correct (f : K → V) (l : List (K × V)) (h : Correct f l) (k : K) (v : V)
    (hl : Spec.Lru.lookup l k = some v) : v = f k := by
  unfold Spec.Lru.lookup at hl
  obtain ⟨p, hp, rfl⟩ := Option.map_eq_some_iff.1 hl
  have := List.find?_some hp
  simp only [decide_eq_true_eq] at this
  rw [← this]
  exact h p (List.mem_of_find?_eq_some hp)

theorem get_correct (f : K → V) (l : List (K × V)) (h : Correct f l) (k : K) :
    Correct f (Spec.Lru.get l k).2 ∧ ∀ v, (Spec.Lru.get l k).1 = some v → v = f k := by
  unfold Spec.Lru.get
  cases hl : Spec.Lru.lookup l k with
  | none => exact ⟨h, by simp⟩
  | some v =>
    have hv := lookup_correct f l h k v hl
    refine ⟨?_, ?_⟩
    · intro p hp
      rcases List.mem_cons.1 hp with rfl | hp
      · exact hv
      · exact h p (List.mem_filter.1 hp).1
    · intro w hw; simp at hw; rw [← hw, hv]

theorem insert_correct (f : K → V) (cap : Nat) (l : List (K × V)) (h : Correct f l) (k : K) :
    Correct f (Spec.Lru.insertOrAssign cap l k (f k)) := by
  unfold Spec.Lru.insertOrAssign
  cases hl : Spec.Lru.lookup l k with
  | some v =>
    intro p hp
    obtain ⟨q, hq, rfl⟩ := List.mem_map.1 hp
    split
    · rfl
    · exact h q hq
  | none =>
    intro p hp
    rcases List.mem_cons.1 (List.mem_of_mem_take hp) with rfl | hp
    · rfl
    · exact h p hp

theorem getOrInsert_correct (f : K → V) (cap : Nat) (l : List (K × V)) (h : Correct f l) (k : K) :
    (Spec.Lru.getOrInsert cap l k fun _ => f k).1 = f k ∧
    Correct f (Spec.Lru.getOrInsert cap l k fun _ => f k).2 := by
  have hg := get_correct f l h k
  unfold Spec.Lru.getOrInsert
  cases he : Spec.Lru.get l k with
  | mk o l' =>
    rw [he] at hg
    cases o with
    | some v => exact ⟨hg.2 v rfl, hg.1⟩
    | none => exact ⟨rfl, insert_correct f cap l' hg.1 k⟩

/-- A concrete cache holding only values of `f`. -/
def CacheOk (f : K → V) (c : Lru.Cache K V) : Prop := ∃ l, R c l ∧ Correct f l

theorem getOrInsert_CacheOk (f : K → V) (c : Lru.Cache K V) (h : CacheOk f c) (k : K) :
    ∃ c', Lru.getOrInsert c k (fun _ => f k) = .ok (f k, c') ∧ CacheOk f c' := by
  obtain ⟨l, hr, hc⟩ := h
  obtain ⟨c', h1, h2, _⟩ := getOrInsert_R c l hr k fun _ => f k
  obtain ⟨g1, g2⟩ := getOrInsert_correct f c.cap l hc k
  exact ⟨c', by rw [h1, g1], _, h2, g2⟩

end

/-- A cache used only through its public methods holds only correct values. -/
theorem reached_ok {K V : Type} [DecidableEq K] {cap : Nat} {f : K → V} (h2 : 2 ≤ cap) {c : Lru.Cache K V}
    (h : Lru.Reached cap f c) : CacheOk f c := by
  induction h with
  | new dk dv hc =>
    obtain ⟨a, ha, ra, _⟩ := clear_R cap dk dv h2
    rw [ha] at hc
    cases hc
    exact ⟨[], ra, by simp [Correct]⟩
  | get k _ hg ih =>
    obtain ⟨l, hr, hl⟩ := ih
    obtain ⟨c', h1, h2, _⟩ := get_R _ l hr k
    rw [h1] at hg
    cases hg
    exact ⟨_, h2, (get_correct f l hl k).1⟩
  | insert k _ hg ih =>
    obtain ⟨l, hr, hl⟩ := ih
    obtain ⟨c', h1, h2, _⟩ := insertOrAssign_R _ l hr k (f k)
    rw [h1] at hg
    cases hg
    exact ⟨_, h2, insert_correct f _ l hl k⟩

/-- `GetOrInsert` on such a cache returns the value of its key. -/
theorem reached_getOrInsert {K V : Type} [DecidableEq K] {cap : Nat} {f : K → V} (h2 : 2 ≤ cap) {c : Lru.Cache K V}
    (h : Lru.Reached cap f c) (k : K) :
    ∃ c', Lru.getOrInsert c k (fun _ => f k) = .ok (f k, c') ∧ Lru.Reached cap f c' := by
  obtain ⟨l, hr, hl⟩ := reached_ok h2 h
  obtain ⟨c1, h1, hr1, _⟩ := get_R c l hr k
  have hg := Lru.Reached.get k h h1
  have hcor := get_correct f l hl k
  unfold Lru.getOrInsert
  rw [h1]
  cases ho : (Spec.Lru.get l k).1 with
  | some v =>
    rw [hcor.2 v ho] at *
    exact ⟨c1, rfl, hg⟩
  | none =>
    obtain ⟨c2, h3, _, _⟩ := insertOrAssign_R c1 _ hr1 k (f k)
    exact ⟨c2, h3, .insert k hg h3⟩

theorem sha3_new (keccak : List Byte → U256) : ∃ s, Sha3Cache.new = .ok s ∧ Sha3Ok keccak s := by
  obtain ⟨a, ha, _, _⟩ := clear_R 1024 (List.replicate 32 (0 : Byte)) (0 : U256) (by omega)
  obtain ⟨b, hb, _, _⟩ := clear_R 1024 (List.replicate 64 (0 : Byte)) (0 : U256) (by omega)
  refine ⟨⟨a, b⟩, ?_, .new _ _ ha, .new _ _ hb⟩
  simp only [Sha3Cache.new, ha, hb, bind, Except.bind, pure, Except.pure]

theorem sha3_hash (keccak : List Byte → U256) (s : Sha3Cache) (h : Sha3Ok keccak s)
    (key : List Byte) :
    ∃ s', Sha3Cache.hash keccak s key = .ok (keccak key, s') ∧ Sha3Ok keccak s' := by
  unfold Sha3Cache.hash
  split
  · obtain ⟨c, h1, h2⟩ := reached_getOrInsert (by omega) h.1 key
    exact ⟨{ s with cache32 := c }, by simp [h1, bind, Except.bind, pure, Except.pure], h2, h.2⟩
  · split
    · obtain ⟨c, h1, h2⟩ := reached_getOrInsert (by omega) h.2 key
      exact ⟨{ s with cache64 := c }, by simp [h1, bind, Except.bind, pure, Except.pure], h.1, h2⟩
    · exact ⟨s, rfl, h⟩

end Tosca.Proofs
