import Verif.Proofs.LruHist

/-!
# The LRU cache (C28) and its concurrent use (C29)
-/

namespace Tosca

open Tosca.Model Tosca.Model.Lru Tosca.Proofs Tosca.Proofs.Lru
open Tosca.Lru (Op)

set_option linter.unusedSectionVars false

variable {K V : Type} [DecidableEq K]

/-! ### C28: histories of calls -/

/-- A cache that came out of the constructor (`Clear`) and a sequence of calls. -/
def Arises (cap : Nat) (c : Cache K V) : Prop :=
  ∃ dk dv c0 ops rs, Lru.clear cap dk dv = .ok c0 ∧ runOps dk dv c0 ops = .ok (rs, c)

/-- `Get` would find the key. -/
def Present (c : Cache K V) (k : K) : Prop := ∃ v c', Lru.get c k = .ok (some v, c')

/-- The call makes the key the most recently used one: `GetOrInsert`, a `Get` that hits, or
`InsertOrAssign` of a key that is not stored (assigning to a stored key is no use). -/
def Uses (c : Cache K V) (op : Op K V) (k : K) : Prop :=
  (∃ v, op = .getOrInsert k v) ∨ (op = .get k ∧ Present c k) ∨ (∃ v, op = .insertOrAssign k v) ∧ ¬ Present c k

theorem arises_R {cap : Nat} (hcap : 2 ≤ cap) {c : Cache K V} (h : Arises cap c) :
    c.cap = cap ∧ ∃ l, R c l ∧ KeysOk cap l := by
  obtain ⟨dk, dv, c0, ops, rs, h0, h1⟩ := h
  obtain ⟨c0', e, r, p⟩ := clear_R cap dk dv hcap
  rw [e] at h0
  cases h0
  obtain ⟨c', e1, r1, p1⟩ := runOps_R dk dv ops c0 [] r (by omega)
  rw [e1] at h1
  cases h1
  rw [p] at r1 p1
  exact ⟨p1, _, r1, keysOk_run ops ⟨by simp, by simp⟩⟩

/-- C28.  Every sequence of calls on a new cache runs without undefined behaviour and returns, call
by call, what the abstract LRU map returns. -/
theorem C28_refines (cap : Nat) (hcap : 2 ≤ cap) (dk : K) (dv : V) (ops : List (Op K V)) :
    ∃ c0 c, Lru.clear cap dk dv = .ok c0 ∧ runOps dk dv c0 ops = .ok ((Spec.Lru.run cap [] ops).1, c) := by
  obtain ⟨c0, e, r, p⟩ := clear_R cap dk dv hcap
  obtain ⟨c', e1, _, _⟩ := runOps_R dk dv ops c0 [] r (by omega)
  rw [p] at e1
  exact ⟨c0, c', e, e1⟩

-- capacity 2: the third insertion evicts key 2, because key 1 was hit more recently
example : (Spec.Lru.run 2 [] [.insertOrAssign 1 10, .insertOrAssign 2 20, .get 1, .insertOrAssign 3 30, .get 2, .get 1,
    .getOrInsert 4 40, .get 3, .clear, .get 4]).1 =
    [some 10, some 20, some 10, some 30, none, some 10, some 40, none, none, (none : Option Nat)] := by decide

/-- C28.  A hit returns the value last shown for the key since the last `Clear` (the value last
stored, as every store returns the value it leaves in the cache). -/
theorem C28_value {cap : Nat} (hcap : 2 ≤ cap) {dk : K} {dv : V} {c0 c c' : Cache K V} {ops : List (Op K V)}
    {rs : List (Option V)} {k : K} {r : Option V} (h0 : Lru.clear cap dk dv = .ok c0)
    (h : runOps dk dv c0 ops = .ok (rs, c)) (hg : Lru.get c k = .ok (r, c')) :
    r = none ∨ r = Spec.Lru.lastSeen k (ops.zip rs).reverse := by
  obtain ⟨c0', e, r0, p⟩ := clear_R cap dk dv hcap
  rw [e] at h0
  cases h0
  obtain ⟨c1, e1, r1, p1⟩ := runOps_R dk dv ops c0 [] r0 (by omega)
  rw [e1] at h
  cases h
  obtain ⟨c2, e2, _, _⟩ := get_R c _ r1 k
  rw [e2] at hg
  have hs := seen_run (cap := c0.cap) ops (l := []) (log := []) (by intro k v hv; simp [Spec.Lru.lookup] at hv)
  have hl : (Spec.Lru.get (Spec.Lru.run c0.cap [] ops).2 k).1 = Spec.Lru.lookup (Spec.Lru.run c0.cap [] ops).2 k := by
    unfold Spec.Lru.get; cases hl : Spec.Lru.lookup (Spec.Lru.run c0.cap [] ops).2 k <;> rfl
  rw [hl] at hg
  cases hv : Spec.Lru.lookup (Spec.Lru.run c0.cap [] ops).2 k with
  | none => rw [hv] at hg; cases hg; exact .inl rfl
  | some v =>
    rw [hv] at hg
    cases hg
    have := hs k v hv
    rw [List.append_nil] at this
    exact .inr this.symm

/-- C28.  What the storing calls return: `InsertOrAssign` the given value; `GetOrInsert` the stored
value if `Get` would find one, else the given one.  Afterwards `Get` finds that value. -/
theorem C28_stores {cap : Nat} (hcap : 2 ≤ cap) {c : Cache K V} (h : Arises cap c) (dk : K) (dv : V) (k : K) (v : V) :
    (∃ c1 c2, apply dk dv c (.insertOrAssign k v) = .ok (some v, c1) ∧ Lru.get c1 k = .ok (some v, c2)) ∧
    ∃ c1 c2 x, apply dk dv c (.getOrInsert k v) = .ok (some x, c1) ∧ Lru.get c1 k = .ok (some x, c2) ∧
      (¬ Present c k → x = v) ∧ ∀ y c', Lru.get c k = .ok (some y, c') → x = y := by
  obtain ⟨hc, l, hr, hok⟩ := arises_R hcap h
  obtain ⟨m, rfl⟩ : ∃ m, cap = m + 1 := ⟨cap - 1, by omega⟩
  have hget : ∀ {c' : Cache K V} {l' : List (K × V)}, R c' l' → ∀ x, Spec.Lru.lookup l' k = some x →
      ∃ c2, Lru.get c' k = .ok (some x, c2) := by
    intro c' l' hr' x hx
    obtain ⟨c2, e, _, _⟩ := get_R c' l' hr' k
    refine ⟨c2, ?_⟩
    rw [e]; unfold Spec.Lru.get; rw [hx]
  have hins : Spec.Lru.lookup (Spec.Lru.insertOrAssign (m + 1) l k v) k = some v := by
    unfold Spec.Lru.insertOrAssign
    rcases lookup_cases l k with ⟨_, y, hy⟩ | ⟨_, hy⟩
    · rw [hy]; dsimp only; rw [lookup_assign, if_pos rfl, hy]; rfl
    · rw [hy]; dsimp only; rw [List.take_succ_cons, lookup_cons, if_pos rfl]
  refine ⟨?_, ?_⟩
  · obtain ⟨c1, e1, r1, _⟩ := apply_R dk dv c l hr (by omega) (.insertOrAssign k v)
    rw [hc] at e1 r1
    obtain ⟨c2, e2⟩ := hget r1 v hins
    exact ⟨c1, c2, e1, e2⟩
  · obtain ⟨c1, e1, r1, _⟩ := apply_R dk dv c l hr (by omega) (.getOrInsert k v)
    rw [hc] at e1 r1
    obtain ⟨c3, e3, _, _⟩ := get_R c l hr k
    have hp := present_iff hr k
    rcases lookup_cases l k with ⟨hk, y, hy⟩ | ⟨hk, hy⟩
    · have hx : (Spec.Lru.apply (m + 1) l (.getOrInsert k v)) = (some y, (k, y) :: l.filter fun p => p.1 ≠ k) := by
        simp [Spec.Lru.apply, Spec.Lru.getOrInsert, Spec.Lru.get, hy]
      rw [hx] at e1 r1
      obtain ⟨c2, e2⟩ := hget r1 y (by rw [lookup_cons, if_pos rfl])
      refine ⟨c1, c2, y, e1, e2, fun hn => absurd (hp.2 hk) hn, ?_⟩
      intro z c' hz
      rw [e3] at hz
      simp only [Spec.Lru.get, hy] at hz
      cases hz; rfl
    · have hx : (Spec.Lru.apply (m + 1) l (.getOrInsert k v)) = (some v, Spec.Lru.insertOrAssign (m + 1) l k v) := by
        simp [Spec.Lru.apply, Spec.Lru.getOrInsert, Spec.Lru.get, hy]
      rw [hx] at e1 r1
      obtain ⟨c2, e2⟩ := hget r1 v hins
      refine ⟨c1, c2, v, e1, e2, fun _ => rfl, ?_⟩
      intro z c' hz
      exact absurd (hp.1 ⟨z, c', hz⟩) hk

/-- C28.  The cache never holds more keys than its capacity. -/
theorem C28_size {cap : Nat} (hcap : 2 ≤ cap) {c : Cache K V} (h : Arises cap c) (ks : List K) (hn : ks.Nodup)
    (hk : ∀ k ∈ ks, Present c k) : ks.length ≤ cap := by
  obtain ⟨_, l, hr, hok⟩ := arises_R hcap h
  refine Nat.le_trans (List.Subperm.length_le (List.subperm_of_subset hn ?_)) hok.bound
  intro k hm
  exact (present_iff hr k).1 (hk k hm)

/-- C28.  Nothing is evicted without need: a key stays as long as fewer than `cap` other keys were
mentioned since its last use (and the cache was not cleared). -/
theorem C28_retained {cap : Nat} (hcap : 2 ≤ cap) {c c1 c2 : Cache K V} (h : Arises cap c) {dk : K} {dv : V} {op : Op K V}
    {k : K} {r : Option V} {ops : List (Op K V)} {rs : List (Option V)} (hu : Uses c op k)
    (h1 : apply dk dv c op = .ok (r, c1)) (h2 : runOps dk dv c1 ops = .ok (rs, c2)) (others : List K)
    (ho : others.length < cap)
    (hm : ∀ op ∈ ops, op ≠ .clear ∧ (op.key? = some k ∨ ∃ j ∈ others, op.key? = some j)) : Present c2 k := by
  obtain ⟨hc, l, hr, hok⟩ := arises_R hcap h
  obtain ⟨c1', e1, r1, p1⟩ := apply_R dk dv c l hr (by omega) op
  rw [e1] at h1
  cases h1
  obtain ⟨c2', e2, r2, p2⟩ := runOps_R dk dv ops c1 _ r1 (by omega)
  rw [e2] at h2
  cases h2
  rw [p1, hc] at r2
  rw [hc] at r1
  have hp := present_iff hr k
  obtain ⟨s, hs, _⟩ := front_apply (cap := cap) (l := l) (op := op) (k := k) (by omega) (by
    rcases hu with h | ⟨h, hk⟩ | ⟨h, hk⟩
    · exact .inl h
    · exact .inr (.inl ⟨h, hp.1 hk⟩)
    · exact .inr (.inr ⟨h, fun hm => hk (hp.2 hm)⟩))
  obtain ⟨p, s', e, _, _⟩ := ahead_run ho ops (keysOk_apply hok op) ⟨[], s, hs, by simp, by simp⟩ hm
  exact (present_iff r2 k).2 (by rw [e]; simp)

/-- C28.  Eviction is in the order of last use: if `k'` was used after the last mention of `k` and `k` is
still there, then so is `k'`. -/
theorem C28_order {cap : Nat} (hcap : 2 ≤ cap) {c c1 c2 : Cache K V} (h : Arises cap c) {dk : K} {dv : V} {op : Op K V}
    {k k' : K} {r : Option V} {ops : List (Op K V)} {rs : List (Option V)} (hne : k ≠ k') (hu : Uses c op k')
    (h1 : apply dk dv c op = .ok (r, c1)) (h2 : runOps dk dv c1 ops = .ok (rs, c2))
    (hm : ∀ op ∈ ops, op.key? ≠ some k) (hk : Present c2 k) : Present c2 k' := by
  obtain ⟨hc, l, hr, hok⟩ := arises_R hcap h
  obtain ⟨c1', e1, r1, p1⟩ := apply_R dk dv c l hr (by omega) op
  rw [e1] at h1
  cases h1
  obtain ⟨c2', e2, r2, p2⟩ := runOps_R dk dv ops c1 _ r1 (by omega)
  rw [e2] at h2
  cases h2
  rw [p1, hc] at r2
  have hp := present_iff hr k'
  obtain ⟨s, hs, _⟩ := front_apply (cap := cap) (l := l) (op := op) (k := k') (by omega) (by
    rcases hu with h | ⟨h, hk⟩ | ⟨h, hk⟩
    · exact .inl h
    · exact .inr (.inl ⟨h, hp.1 hk⟩)
    · exact .inr (.inr ⟨h, fun hm => hk (hp.2 hm)⟩))
  have hb : Before k' k (keys (Spec.Lru.apply cap l op).2) := by
    rw [hs]; exact before_cons (Ne.symm hne) (.inl rfl)
  have hf := before_run (cap := cap) ops hb hm
  have hk2 := (present_iff r2 k).1 hk
  obtain ⟨p, q, e⟩ := List.append_of_mem hk2
  exact (present_iff r2 k').2 (by rw [e]; exact List.mem_append_left _ (hf p q e))

-- the hypotheses of the four theorems above are met: 1, 2, 3 inserted into a cache of capacity 3,
-- a hit of 1, then 4 inserted: 2 is gone, 1 (used after 3) and 3 are there
example : ∃ c c1 c2 rs, Arises 3 c ∧ Uses c (.get 1) 1 ∧ apply 0 0 c (.get 1) = .ok (some 10, c1) ∧
    runOps 0 0 c1 [.insertOrAssign 4 (40 : Nat)] = .ok (rs, c2) ∧ Present c2 3 ∧ Present c2 1 ∧ ¬ Present c2 2 := by
  obtain ⟨c0, e, r, p⟩ := clear_R 3 (0 : Nat) (0 : Nat) (by omega)
  obtain ⟨c, e1, r1, p1⟩ := runOps_R 0 0 [.insertOrAssign 1 10, .insertOrAssign 2 20, .insertOrAssign 3 30] c0 [] r (by omega)
  obtain ⟨c1, e2, r2, p2⟩ := apply_R 0 0 c _ r1 (by omega) (.get 1)
  rw [p1, p] at e2 r2 p2
  rw [p] at e1 r1
  obtain ⟨c2, e3, r3, p3⟩ := runOps_R 0 0 [.insertOrAssign 4 40] c1 _ r2 (by omega)
  rw [p2] at e3 r3
  refine ⟨c, c1, c2, _, ⟨0, 0, c0, _, _, e, e1⟩, .inr (.inl ⟨rfl, (present_iff r1 1).2 (by decide)⟩), e2, e3,
    (present_iff r3 3).2 (by decide), (present_iff r3 1).2 (by decide), fun h => absurd ((present_iff r3 2).1 h) (by decide)⟩

/-- C28, limits: with capacity 1 the first insertion dereferences a null pointer
(`tail_->pred` is null, lru_cache.h:127-128). -/
theorem C28_capacity_one (dk k : K) (dv v : V) : ∃ c0, Lru.clear 1 dk dv = .ok c0 ∧
    Lru.insertOrAssign c0 k v = .error .badPointer := by
  refine ⟨_, rfl, ?_⟩
  simp [Lru.insertOrAssign, Lru.find, Lru.getNewHead, Lru.deref, bind, Except.bind]

/-- C28, limits: with capacity 0 the constructor itself takes the address of a non-existing element. -/
theorem C28_capacity_zero (dk : K) (dv : V) : Lru.clear 0 dk dv = .error .badPointer := rfl

/-! ### C29: threads -/

/-- Every value the call may store for its key is good. -/
def Offers (Good : K → V → Prop) (op : Op K V) : Prop :=
  ∀ k v, op = .insertOrAssign k v ∨ op = .getOrInsert k v → Good k v

theorem runThreads_ok {Good : K → V → Prop} (dk : K) (dv : V) (sched : List Nat) :
    ∀ (ts : Nat → Thread K V) (c : Cache K V) (l : List (K × V)), R c l → 2 ≤ c.cap → GoodMap Good l →
    (∀ i, GoodThread Good (ts i)) →
    ∃ ts' c', runThreads dk dv ts c sched = .ok (ts', c') ∧ (∀ i, GoodThread Good (ts' i)) ∧
      (∀ i, (calls (ts' i)).Perm (calls (ts i))) ∧
      ∀ i, 2 * (ts' i).todo.length + (if (ts' i).pending.isSome then 1 else 0) ≤
        2 * (ts i).todo.length + (if (ts i).pending.isSome then 1 else 0) - sched.count i := by
  induction sched with
  | nil => intro ts c l _ _ _ h; exact ⟨ts, c, rfl, h, fun _ => List.Perm.refl _, by simp⟩
  | cons i sched ih =>
    intro ts c l hr h2 hl ht
    obtain ⟨t, c1, l1, e, r1, p1, hl1, ht1, hm, hperm⟩ := act_ok dk dv (ht i) hr h2 hl
    obtain ⟨ts', c', e', ht', hp', hm'⟩ := ih (fun j => if j = i then t else ts j) c1 l1 r1 (by omega) hl1 (by
      intro j; split
      · exact ht1
      · exact ht j)
    refine ⟨ts', c', ?_, ht', ?_, ?_⟩
    · simp only [runThreads, e, bind, Except.bind]; exact e'
    · intro j
      refine (hp' j).trans ?_
      split
      · rename_i h; subst h; exact hperm
      · exact List.Perm.refl _
    · intro j
      have := hm' j
      by_cases hj : j = i
      · subst hj
        rw [if_pos rfl] at this
        rw [List.count_cons_self]
        omega
      · rw [if_neg hj] at this
        rw [List.count_cons_of_ne (Ne.symm hj)]
        exact this

/-- C29.  Any number of threads, each with any sequence of calls, under any interleaving of the atomic
cache operations: no undefined behaviour, and if only good values are offered for each key, then
every call that returns a value for a key returns a good one; `GetOrInsert` and `InsertOrAssign`
always return a value.  No call is lost or duplicated. -/
theorem C29_threads (cap : Nat) (hcap : 2 ≤ cap) (dk : K) (dv : V) (Good : K → V → Prop)
    (progs : Nat → List (Op K V)) (hgood : ∀ i, ∀ op ∈ progs i, Offers Good op) (sched : List Nat) :
    ∃ c0 ts c, Lru.clear cap dk dv = .ok c0 ∧
      runThreads dk dv (fun i => { todo := progs i }) c0 sched = .ok (ts, c) ∧
      (∀ i op r, (op, r) ∈ (ts i).done → ∀ k v, op.key? = some k → r = some v → Good k v) ∧
      (∀ i k v r, (Op.getOrInsert k v, r) ∈ (ts i).done ∨ (Op.insertOrAssign k v, r) ∈ (ts i).done → r.isSome) ∧
      ∀ i, ((ts i).pending.map fun p => Op.getOrInsert p.1 p.2).toList ++ (ts i).todo ++ (ts i).done.map (·.1) |>.Perm
        (progs i) := by
  obtain ⟨c0, e, r, p⟩ := clear_R cap dk dv hcap
  obtain ⟨ts, c, e1, h1, h2, _⟩ := runThreads_ok (Good := Good) dk dv sched (fun i => { todo := progs i }) c0 [] r
    (by omega) (by intro k v hv; simp [Spec.Lru.lookup] at hv)
    (fun i => ⟨fun op hop => by
      have := hgood i op hop
      cases op with
      | get k => trivial
      | clear => trivial
      | insertOrAssign k v => exact this k v (.inl rfl)
      | getOrInsert k v => exact this k v (.inr rfl), by simp, by simp, by simp⟩)
  refine ⟨c0, ts, c, e, e1, fun i => (h1 i).done, fun i => (h1 i).total, fun i => ?_⟩
  have := h2 i
  unfold calls at this
  simpa using this

/-- C29, the case the interpreter relies on: if every stored value is `f key`, then every
`GetOrInsert` and every hit returns `f key`, under every interleaving. -/
theorem C29_function (cap : Nat) (hcap : 2 ≤ cap) (dk : K) (dv : V) (f : K → V) (keys : Nat → List K) (sched : List Nat) :
    ∃ c0 ts c, Lru.clear cap dk dv = .ok c0 ∧
      runThreads dk dv (fun i => { todo := (keys i).map fun k => .getOrInsert k (f k) }) c0 sched = .ok (ts, c) ∧
      ∀ i op r, (op, r) ∈ (ts i).done → ∃ k, op = .getOrInsert k (f k) ∧ r = some (f k) := by
  obtain ⟨c0, ts, c, e, e1, h1, h2, h3⟩ := C29_threads cap hcap dk dv (fun k v => v = f k)
    (fun i => (keys i).map fun k => .getOrInsert k (f k)) (by
      intro i op hop
      obtain ⟨k, _, rfl⟩ := List.mem_map.1 hop
      rintro k' v' (h | h) <;> cases h
      rfl) sched
  refine ⟨c0, ts, c, e, e1, ?_⟩
  intro i op r hm
  have hop : op ∈ (keys i).map fun k => Op.getOrInsert k (f k) := by
    rw [← (h3 i).mem_iff]
    exact List.mem_append_right _ (List.mem_map.2 ⟨_, hm, rfl⟩)
  obtain ⟨k, _, rfl⟩ := List.mem_map.1 hop
  refine ⟨k, rfl, ?_⟩
  have hs := h2 i k (f k) r (.inl hm)
  obtain ⟨v, rfl⟩ := Option.isSome_iff_exists.1 hs
  rw [h1 i _ _ hm k v rfl rfl]

/-- C29, progress: a thread that is scheduled twice per call has completed all its calls, whatever the
other threads do. -/
theorem C29_progress (cap : Nat) (hcap : 2 ≤ cap) (dk : K) (dv : V) (progs : Nat → List (Op K V)) (sched : List Nat)
    {c0 c : Cache K V} {ts : Nat → Thread K V} (h0 : Lru.clear cap dk dv = .ok c0)
    (h : runThreads dk dv (fun i => { todo := progs i }) c0 sched = .ok (ts, c)) (i : Nat)
    (hi : 2 * (progs i).length ≤ sched.count i) :
    (ts i).todo = [] ∧ (ts i).pending = none ∧ (ts i).done.length = (progs i).length := by
  obtain ⟨c0', e, r, p⟩ := clear_R cap dk dv hcap
  rw [e] at h0
  cases h0
  obtain ⟨ts', c', e1, _, h2, h3⟩ := runThreads_ok (Good := fun _ _ => True) dk dv sched (fun i => { todo := progs i }) c0 []
    r (by omega) (by intro k v hv; trivial)
    (fun i => ⟨fun op _ => by cases op <;> trivial, by simp, by simp, by simp⟩)
  rw [e1] at h
  cases h
  have hm := h3 i
  simp only [Option.isSome_none, Bool.false_eq_true, if_false] at hm
  have ht : (ts i).todo = [] := by
    apply List.length_eq_zero_iff.1; omega
  have hp : (ts i).pending = none := by
    cases hq : (ts i).pending with
    | none => rfl
    | some x => rw [hq] at hm; simp at hm; omega
  refine ⟨ht, hp, ?_⟩
  have := (h2 i).length_eq
  unfold calls at this
  rw [ht, hp] at this
  simpa using this

-- two threads racing for the same key: both miss before either inserts; both return 7·key
example : ∃ c0 ts c, Lru.clear 2 0 (0 : Nat) = .ok c0 ∧
    runThreads 0 0 (fun i => { todo := if i < 2 then [.getOrInsert 5 35, .getOrInsert 6 42] else [] }) c0
      [0, 1, 0, 1, 1, 0, 0, 1] = .ok (ts, c) ∧
    (ts 0).done = [(.getOrInsert 6 42, some 42), (.getOrInsert 5 35, some 35)] ∧
    (ts 1).done = [(.getOrInsert 6 42, some 42), (.getOrInsert 5 35, some 35)] := by
  refine ⟨_, _, _, rfl, rfl, ?_, ?_⟩ <;> decide +kernel

end Tosca
