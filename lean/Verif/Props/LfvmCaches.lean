import Verif.Props.Lfvm
import Verif.Proofs.LfvmHash

/-!
# The caches of the long-form EVM (C70, C71)
-/

namespace Tosca

open Tosca.Model Tosca.Spec Tosca.Proofs Tosca.Go Tosca.Model.Go Tosca.Spec.Go
open Tosca.Model.Lfvm.Hash

/-! ### C70: the cache for SHA3 hashes -/

section
variable {K H : Type} [DecidableEq K]

/-- C70.  A cache of any capacity, whatever is asked of it in whatever order, answers every request with the hash of the key and never
dereferences nil.  It holds the hashes of the keys an LRU map of its capacity (at least 2) would hold that started with the zero value. -/
theorem C70_cache (capacity : Nat) (hash : K → H) (key0 : K) (hash0 : H) (keys : List K) :
    ∃ c c', newCache capacity hash key0 hash0 = some c ∧ c.getHashes hash keys = some (keys.map hash, c') ∧
      (∀ k, (c'.find k).map (fun e => (c'.entries e).hash) =
        Spec.Lru.lookup (Spec.Lru.run (max 2 capacity) [(key0, hash key0)] (keys.map fun k => .getOrInsert k (hash k))).2 k) ∧
      c'.index.length ≤ max 2 capacity := by
  obtain ⟨c, h1, h2, h3, h4, h5⟩ := Lfvm.Hash.newCache_ok capacity hash key0 hash0
  obtain ⟨c', o', g1, g2, g3, g4, g5⟩ := Lfvm.Hash.getHashes_ok hash keys h2 (fun x hx => by
    rw [List.mem_singleton.1 hx, h4, h5])
  refine ⟨c, c', h1, g1, fun k => ?_, ?_⟩
  · rw [← Lfvm.Hash.lookup_find g2 k, g5, h3]
    unfold Lfvm.Hash.contents
    rw [List.map_cons, h4, h5]
    rfl
  · have := g2.room
    rw [g2.index.length_eq, List.length_map, g2.len, ← h3, ← g4]
    exact this

/-- No thread waits, inside a call, while `n` or more actions (locked sections or reads) of other threads happen. -/
def NoLongWait (n : Nat) (sched : List Nat) : Prop :=
  ∀ a b c i, sched = a ++ i :: (b ++ i :: c) → i ∉ b → b.length < n

/-- C70.  Threads sharing a cache under any schedule in which no thread is overtaken by as many actions as the cache has entries: nothing panics,
every answer is the hash of its key, and no request is lost: the requests answered, the one being worked on and those to come are those the thread had. -/
theorem C70_threads (capacity : Nat) (hash : K → H) (key0 : K) (hash0 : H) (requests : Nat → List K) (sched : List Nat)
    (hs : NoLongWait (max 2 capacity) sched) :
    ∃ c ts c', newCache capacity hash key0 hash0 = some c ∧ runThreads hash (fun i => { todo := requests i }) c sched = some (ts, c') ∧
      ∀ i, (∀ x ∈ (ts i).done, x.2 = hash x.1) ∧
        ((ts i).pending = none → (ts i).done.reverse.map (·.1) ++ (ts i).todo = requests i) := by
  obtain ⟨c, h1, h2, h3, h4, h5⟩ := Lfvm.Hash.newCache_ok capacity hash key0 hash0
  obtain ⟨ts, c', o', g1, g2, g3, g4, g5⟩ := Lfvm.Hash.runThreads_ok hash sched (ts := fun i => { todo := requests i }) (fun _ => 0) h2
    (fun x hx => by rw [List.mem_singleton.1 hx, h4, h5]) (fun i x hx => by cases hx) (fun i _ k e hc => by cases hc)
    (by rw [h3]; exact hs) (fun b d i _ _ hc => absurd rfl hc)
  refine ⟨c, ts, c', h1, g1, fun i => ⟨g4 i, fun hp => ?_⟩⟩
  have := g5 i
  unfold Lfvm.Hash.Thread.keys at this
  rw [hp] at this
  simpa using this

end

/-- Finding: the entry is read after the lock was released.  Two threads, a cache of two entries (the smallest): the first thread finds the hash of 0, the second
one asks for 1 and 2, whereupon the entry is recycled, and the first thread returns the hash of 2 for 0. -/
theorem C70_race :
    (newCache 2 (fun k : Nat => k + 100) 0 0).bind (fun c =>
      (runThreads (fun k : Nat => k + 100) (fun i => if i = 0 then { todo := [0] } else { todo := [1, 2] }) c [0, 1, 1, 1, 1, 0]).map fun x => (x.1 0).done)
    = some [(0, 102)] := by decide +kernel

/-- C70_cache and C70_threads on a concrete case: three requests on a cache of capacity 2. -/
example : (newCache 2 (fun k : Nat => k + 100) 0 0).bind (fun c => (c.getHashes (fun k : Nat => k + 100) [5, 0, 6, 5]).map (·.1)) = some [105, 100, 106, 105] := by
  decide +kernel

example : NoLongWait (max 2 2) [0, 1, 0, 1, 1, 1] := by
  intro a b c i h hb
  have : b.length ≤ 1 := by
    match a with
    | [] =>
      match b with
      | [] => decide
      | [_] => exact Nat.le_refl _
      | x :: y :: b => simp at h; obtain ⟨rfl, rfl, rfl, h⟩ := h; simp at hb
    | [_] =>
      match b with
      | [] => decide
      | [_] => exact Nat.le_refl _
      | x :: y :: b => simp at h; obtain ⟨_, rfl, rfl, rfl, h⟩ := h; simp at hb
    | [_, _] =>
      match b with
      | [] => decide
      | [_] => exact Nat.le_refl _
      | [x, y] => simp at h; omega
      | x :: y :: z :: b => simp at h
    | [_, _, _] =>
      match b with
      | [] => decide
      | [_] => exact Nat.le_refl _
      | x :: y :: b => simp at h
    | _ :: _ :: _ :: _ :: a =>
      have := congrArg List.length h
      simp at this
      omega
  omega

/-- C70.  The SHA3 cache of the interpreter answers every sequence of requests of any sizes with the Keccak hashes. -/
theorem C70_sha3 {H : Type} (keccak keccak32 : List Byte → H) (hash0 : H) (capacity32 capacity64 : Nat) (h32 : ∀ d, d.length = 32 → keccak32 d = keccak d)
    (data : List (List Byte)) :
    ∃ s s', newSha3 keccak keccak32 hash0 capacity32 capacity64 = some s ∧ s.hashes keccak keccak32 data = some (data.map keccak, s') := by
  obtain ⟨c32, a1, a2, a3, a4, a5⟩ := Lfvm.Hash.newCache_ok capacity32 keccak32 (List.replicate 32 (0 : Byte)) hash0
  obtain ⟨c64, b1, b2, b3, b4, b5⟩ := Lfvm.Hash.newCache_ok capacity64 keccak (List.replicate 64 (0 : Byte)) hash0
  have main : ∀ (data : List (List Byte)) (s : Sha3 H),
      (∃ o, Lfvm.Hash.Inv s.cache32 o ∧ Lfvm.Hash.Right keccak32 s.cache32 o) → (∃ o, Lfvm.Hash.Inv s.cache64 o ∧ Lfvm.Hash.Right keccak s.cache64 o) →
      ∃ s', s.hashes keccak keccak32 data = some (data.map keccak, s') := by
    intro data
    induction data with
    | nil => intro s _ _; exact ⟨s, rfl⟩
    | cons d data ih =>
      intro s h1 h2
      have step : ∃ s', s.hash keccak keccak32 d = some (keccak d, s') ∧
          (∃ o, Lfvm.Hash.Inv s'.cache32 o ∧ Lfvm.Hash.Right keccak32 s'.cache32 o) ∧ (∃ o, Lfvm.Hash.Inv s'.cache64 o ∧ Lfvm.Hash.Right keccak s'.cache64 o) := by
        unfold Sha3.hash
        split
        · rename_i hd
          obtain ⟨o, i1, i2⟩ := h1
          obtain ⟨c', o', g1, g2, g3, _, _⟩ := Lfvm.Hash.getHash_ok keccak32 i1 i2 d
          rw [g1, h32 d hd]
          exact ⟨_, rfl, ⟨o', g2, g3⟩, h2⟩
        · split
          · obtain ⟨o, i1, i2⟩ := h2
            obtain ⟨c', o', g1, g2, g3, _, _⟩ := Lfvm.Hash.getHash_ok keccak i1 i2 d
            rw [g1]
            exact ⟨_, rfl, h1, ⟨o', g2, g3⟩⟩
          · exact ⟨s, rfl, h1, h2⟩
      obtain ⟨s', e1, e2, e3⟩ := step
      obtain ⟨s'', e4⟩ := ih s' e2 e3
      refine ⟨s'', ?_⟩
      unfold Sha3.hashes
      rw [e1]
      dsimp only [Option.bind]
      rw [e4]
      rfl
  obtain ⟨s', hs'⟩ := main data ⟨c32, c64⟩ ⟨_, a2, fun x hx => by rw [List.mem_singleton.1 hx, a4, a5]⟩
    ⟨_, b2, fun x hx => by rw [List.mem_singleton.1 hx, b4, b5]⟩
  refine ⟨⟨c32, c64⟩, s', ?_, hs'⟩
  unfold newSha3
  rw [a1]
  dsimp only [Option.bind]
  rw [b1]

/-! ### C71: the cache for converted code -/

/-- The requests use code hashes that identify the code. -/
def HashesCodes (codeOf : U256 → List Byte) (requests : List (List Byte × Option U256)) : Prop :=
  ∀ r ∈ requests, ∀ h, r.2 = some h → codeOf h = r.1

/-- The entries of the cache are right. -/
def CodesOk (codeOf : U256 → List Byte) (c : Lfvm.Converter) : Prop :=
  ∀ x ∈ c.cache, Model.Lfvm.convert (codeOf x.1) c.withSuper = some x.2

theorem convert_step {codeOf : U256 → List Byte} {c : Lfvm.Converter} (h : CodesOk codeOf c) {code : List Byte} {hash : Option U256}
    (hh : ∀ x, hash = some x → codeOf x = code) {C : Model.Lfvm.Code} (hC : Model.Lfvm.convert code c.withSuper = some C) :
    ∃ c', c.convert code hash = some (C, c') ∧ CodesOk codeOf c' ∧ c'.withSuper = c.withSuper ∧ c'.capacity = c.capacity ∧
      (∀ n, c.capacity = some n → c.cache.length ≤ n → c'.cache.length ≤ n) := by
  have plain : ∃ c', ((Model.Lfvm.convert code c.withSuper).bind fun res => some (res, c)) = some (C, c') ∧ CodesOk codeOf c' ∧ c'.withSuper = c.withSuper ∧
      c'.capacity = c.capacity ∧ (∀ n, c.capacity = some n → c.cache.length ≤ n → c'.cache.length ≤ n) := by
    rw [hC]; exact ⟨c, rfl, h, rfl, rfl, fun _ _ h => h⟩
  unfold Lfvm.Converter.convert
  cases hcap : c.capacity with
  | none => rw [hcap] at plain; exact plain
  | some capacity =>
    cases hash with
    | none => rw [hcap] at plain; exact plain
    | some x =>
      dsimp only
      have hx := hh x rfl
      cases hg : Lfvm.lruGet c.cache x with
      | some r =>
        obtain ⟨res, cache⟩ := r
        unfold Lfvm.lruGet at hg
        cases hf : c.cache.find? fun p => p.1 = x with
        | none => rw [hf] at hg; cases hg
        | some p =>
          rw [hf] at hg
          injection hg with hg
          injection hg with g1 g2
          subst g1; subst g2
          have hm := List.mem_of_find?_eq_some hf
          have hp := List.find?_some hf
          simp only [decide_eq_true_eq] at hp
          have := h p hm
          rw [hp, hx, hC] at this
          injection this with this
          subst this
          refine ⟨_, rfl, ?_, rfl, rfl, ?_⟩
          · intro y hy
            rcases List.mem_cons.1 hy with rfl | hy
            · exact h _ hm
            · exact h y (List.mem_of_mem_filter hy)
          · intro n _ hn
            refine Nat.le_trans ?_ hn
            show (p :: c.cache.filter fun q => q.1 ≠ x).length ≤ _
            rw [List.length_cons]
            have hlt : (c.cache.filter fun q => q.1 ≠ x).length < c.cache.length := by
              rw [List.length_filter_lt_length_iff_exists]
              exact ⟨p, hm, by simp [hp]⟩
            omega
      | none =>
        rw [hC]
        dsimp only [Option.bind]
        split
        · exact ⟨c, rfl, h, rfl, hcap, fun _ _ h => h⟩
        · refine ⟨_, rfl, ?_, rfl, rfl, ?_⟩
          · intro y hy
            have hy' := List.mem_of_mem_take hy
            rcases List.mem_cons.1 hy' with rfl | hy'
            · show Model.Lfvm.convert (codeOf x) c.withSuper = some C
              rw [hx, hC]
            · exact h y (List.mem_of_mem_filter hy')
          · intro n hn _
            cases hn
            exact List.length_take_le _ _

theorem converts_ok {codeOf : U256 → List Byte} : ∀ (requests : List (List Byte × Option U256)) {c : Lfvm.Converter}, CodesOk codeOf c → c.withSuper = false →
    HashesCodes codeOf requests → (∀ r ∈ requests, r.1.length ≤ 2 ^ 16) →
    ∃ rs c', c.converts requests = some (rs, c') ∧ rs.map some = requests.map (fun r => Model.Lfvm.convert r.1 false) ∧ CodesOk codeOf c' ∧
      c'.withSuper = false ∧ c'.capacity = c.capacity ∧ (∀ n, c.capacity = some n → c.cache.length ≤ n → c'.cache.length ≤ n) := by
  intro requests
  induction requests with
  | nil => intro c h hw _ _; exact ⟨[], c, rfl, rfl, h, hw, rfl, fun _ _ h => h⟩
  | cons r rest ih =>
    intro c h hw hh hl
    obtain ⟨code, hash⟩ := r
    obtain ⟨C, hC, _⟩ := C67_convert (hl _ (List.mem_cons_self ..))
    obtain ⟨c1, e1, e2, e3, e4, e5⟩ := convert_step h (hh _ (List.mem_cons_self ..)) (by rw [hw]; exact hC)
    obtain ⟨rs, c2, f1, f2, f3, f4, f5, f6⟩ := ih e2 (e3.trans hw) (fun r hr => hh r (List.mem_cons_of_mem _ hr)) (fun r hr => hl r (List.mem_cons_of_mem _ hr))
    refine ⟨C :: rs, c2, ?_, ?_, f3, f4, f5.trans e4, fun n hn hlen => f6 n (e4.trans hn) (e5 n hn hlen)⟩
    · unfold Lfvm.Converter.converts
      rw [e1]
      dsimp only [Option.bind]
      rw [f1]
    · rw [List.map_cons, List.map_cons, f2, hC]

theorem newConverter_empty {cacheSize : Int} {c : Lfvm.Converter} (hc : Lfvm.newConverter false cacheSize = some c) : c.cache = [] ∧ c.withSuper = false := by
  unfold Lfvm.newConverter at hc
  dsimp only at hc
  generalize (if cacheSize = 0 then (2 ^ 30 : Int) else cacheSize) = n at hc
  by_cases hn : n > 0
  · rw [if_pos hn] at hc
    by_cases hk : n.toNat / Lfvm.maxCachedCodeLength / 4 = 0
    · rw [if_pos hk] at hc; cases hc
    · rw [if_neg hk] at hc; cases hc; exact ⟨rfl, rfl⟩
  · rw [if_neg hn] at hc; cases hc; exact ⟨rfl, rfl⟩

/-- C71.  A converter with a cache of any size, or without one, converts every sequence of codes as if it had no cache, provided that
code hashes given identify the code; the cache stays within its capacity. -/
theorem C71_convert (cacheSize : Int) {c : Lfvm.Converter} (hc : Lfvm.newConverter false cacheSize = some c) {codeOf : U256 → List Byte}
    {requests : List (List Byte × Option U256)} (hh : HashesCodes codeOf requests) (hl : ∀ r ∈ requests, r.1.length ≤ 2 ^ 16) :
    ∃ rs c', c.converts requests = some (rs, c') ∧ rs.map some = requests.map (fun r => Model.Lfvm.convert r.1 false) ∧
      ∀ n, c.capacity = some n → c'.cache.length ≤ n := by
  have h0 := newConverter_empty hc
  obtain ⟨rs, c', f1, f2, _, _, _, f6⟩ := converts_ok requests (c := c) (fun x hx => by rw [h0.1] at hx; cases hx) h0.2 hh hl
  exact ⟨rs, c', f1, f2, fun n hn => f6 n hn (by rw [h0.1]; exact Nat.zero_le _)⟩

/-- C71.  A run on an interpreter that has converted any codes before finds what C65, C66, C68 and C69 ask for, whatever stack it takes from the pool. -/
theorem C71_found (cacheSize : Int) {c c' : Lfvm.Converter} (hc : Lfvm.newConverter false cacheSize = some c) {codeOf : U256 → List Byte}
    {requests : List (List Byte × Option U256)} (hh : HashesCodes codeOf requests) (hl : ∀ r ∈ requests, r.1.length ≤ 2 ^ 16) {rs : List Model.Lfvm.Code}
    (hr : c.converts requests = some (rs, c')) {keccak : List Byte → U256} (p : Parameters) (data : Nat → U256)
    (hp : ∀ h, p.codeHash = some h → codeOf h = p.code) :
    LfvmFound keccak p (c'.found p data keccak) ∧
    ∀ C, Model.Lfvm.convertCached p.code false (c'.found p data keccak).cached = some C → ∃ c'', c'.convert p.code p.codeHash = some (C, c'') := by
  have h0 := newConverter_empty hc
  obtain ⟨rs', c1, f1, f2, f3, f4, _, f6⟩ := converts_ok requests (c := c) (fun x hx => by rw [h0.1] at hx; cases hx) h0.2 hh hl
  rw [hr] at f1
  injection f1 with f1
  injection f1 with g1 g2
  subst g1; subst g2
  have hfound : LfvmFound keccak p (c'.found p data keccak) := by
    refine ⟨rfl, fun C hC => ?_⟩
    unfold Lfvm.Converter.found at hC
    dsimp only at hC
    cases hcap : c'.capacity with
    | none => rw [hcap] at hC; cases hC
    | some n =>
      rw [hcap] at hC
      cases hhash : p.codeHash with
      | none => rw [hhash] at hC; cases hC
      | some x =>
        rw [hhash] at hC
        dsimp only [Option.bind] at hC
        obtain ⟨q, hq, rfl⟩ := Option.map_eq_some_iff.1 hC
        have hm := List.mem_of_find?_eq_some hq
        have he := List.find?_some hq
        simp only [decide_eq_true_eq] at he
        have := f3 q hm
        rw [he, hp x hhash, f4] at this
        exact this
  refine ⟨hfound, fun C hC => ?_⟩
  have hconv : Model.Lfvm.convert p.code c'.withSuper = some C := by
    rw [f4]
    unfold Model.Lfvm.convertCached at hC
    cases hcd : (c'.found p data keccak).cached with
    | some D =>
      rw [hcd] at hC
      injection hC with hC
      rw [← hC]
      exact hfound.cached D hcd
    | none => rw [hcd] at hC; exact hC
  obtain ⟨c'', e, _⟩ := convert_step f3 hp hconv
  exact ⟨c'', e⟩

/-- The production configuration: 10922 entries. -/
example : ∃ c, Lfvm.newConverter false 0 = some c ∧ c.capacity = some 10922 := ⟨_, rfl, by decide⟩

/-- Sizes below one entry are rejected. -/
example : Lfvm.newConverter false 5 = none := by decide +kernel

example : HashesCodes (fun h => [h.setWidth 8, 0]) [([5, 0], some 5), ([6, 0], some 6), ([5, 0], some 5), ([1, 2, 3], none)] ∧
    ∀ r ∈ ([([5, 0], some 5), ([6, 0], some 6), ([5, 0], some 5), ([1, 2, 3], none)] : List (List Byte × Option U256)), r.1.length ≤ 2 ^ 16 := by
  refine ⟨?_, ?_⟩
  · intro r hr h hh
    simp only [List.mem_cons, List.not_mem_nil, or_false] at hr
    rcases hr with rfl | rfl | rfl | rfl <;> cases hh <;> decide
  · intro r hr
    simp only [List.mem_cons, List.not_mem_nil, or_false] at hr
    rcases hr with rfl | rfl | rfl | rfl <;> decide

end Tosca
