import Verif.Model.LfvmRun

/-!
# The long-form EVM: cache for SHA3 hashes and cache for converted code

go/interpreter/lfvm: hash_cache.go, converter.go:36-93.
-/

namespace Tosca.Model.Lfvm.Hash

variable {K H : Type} [DecidableEq K]

/-- `hashCacheEntry` (hash_cache.go:156-164); pointers to entries are indices into the array of entries, `none` is `nil`. -/
structure Entry (K H : Type) where
  key : K
  hash : H
  pred : Option Nat := none
  succ : Option Nat := none

/-- `hashCache` (hash_cache.go:57-64) without the hash function and the lock.  `capacity` is the length of `entries`.  The map `index` is a list of pairs
with at most one pair per key. -/
structure Cache (K H : Type) where
  capacity : Nat
  entries : Nat → Entry K H
  index : List (K × Nat) := []
  head : Option Nat := none
  tail : Option Nat := none
  nextFree : Nat := 0

/-- Assignment to fields of an entry. -/
def Cache.upd (c : Cache K H) (i : Nat) (f : Entry K H → Entry K H) : Cache K H :=
  { c with entries := fun j => if j = i then f (c.entries j) else c.entries j }

/-- `h.index[key]`. -/
def Cache.find (c : Cache K H) (k : K) : Option Nat := (c.index.find? (fun p => p.1 = k)).map (·.2)

/-- `getFree` (hash_cache.go:140-153); `none` is a panic (a nil dereference). -/
def Cache.getFree (c : Cache K H) : Option (Nat × Cache K H) :=
  if c.nextFree < c.capacity then some (c.nextFree, { c with nextFree := c.nextFree + 1 })
  else
    c.tail.bind fun res =>
    let c := { c with tail := (c.entries res).pred }
    c.tail.bind fun t =>
    let c := c.upd t fun n => { n with succ := none }
    some (res, { c with index := c.index.filter fun p => p.1 ≠ (c.entries res).key })

/-- `newHashCache` (hash_cache.go:69-91): `key0`, `hash0` are the zero values of the types.  The index of the first entry is set directly. -/
def newCache (capacity : Nat) (hash : K → H) (key0 : K) (hash0 : H) : Option (Cache K H) :=
  let capacity := if capacity < 2 then 2 else capacity
  let res : Cache K H := { capacity := capacity, entries := fun _ => { key := key0, hash := hash0 } }
  res.getFree.bind fun (i, res) =>
  let res := { res with head := some i, tail := some i }
  let res := res.upd i fun n => { n with hash := hash key0 }
  some { res with index := (key0, i) :: res.index }

/-- `entry` becomes the head (hash_cache.go:106-109 and 131-134). -/
def Cache.pushFront (c : Cache K H) (e : Nat) : Option (Cache K H) :=
  let c := c.upd e fun n => { n with pred := none }
  let c := c.upd e fun n => { n with succ := c.head }
  c.head.bind fun h =>
  let c := c.upd h fun n => { n with pred := some e }
  some { c with head := some e }

/-- The first locked section of `getHash` for an entry in the cache (hash_cache.go:95-111): it is moved to the front. -/
def Cache.touch (c : Cache K H) (e : Nat) : Option (Cache K H) :=
  if some e = c.head then some c
  else
    (c.entries e).pred.bind fun p =>
    let c := c.upd p fun n => { n with succ := (c.entries e).succ }
    match (c.entries e).succ with
    | some s => (c.upd s fun n => { n with pred := (c.entries e).pred }).pushFront e
    | none => Cache.pushFront { c with tail := (c.entries e).pred } e

/-- The last locked section of `getHash` (hash_cache.go:118-136): adds a hash that is not in the cache. -/
def Cache.add (c : Cache K H) (k : K) (h : H) : Option (Cache K H) :=
  match c.find k with
  | some _ => some c
  | none =>
    c.getFree.bind fun (e, c) =>
    let c := c.upd e fun n => { n with key := k }
    let c := c.upd e fun n => { n with hash := h }
    (c.pushFront e).bind fun c =>
    some { c with index := (k, e) :: c.index }

/-- `getHash` (hash_cache.go:93-138) without interference. -/
def Cache.getHash (hash : K → H) (c : Cache K H) (k : K) : Option (H × Cache K H) :=
  match c.find k with
  | some e => (c.touch e).bind fun c => some ((c.entries e).hash, c)
  | none =>
    let h := hash k
    (c.add k h).bind fun c => some (h, c)

/-- A sequence of calls. -/
def Cache.getHashes (hash : K → H) (c : Cache K H) : List K → Option (List H × Cache K H)
  | [] => some ([], c)
  | k :: ks =>
    (c.getHash hash k).bind fun (h, c) =>
    (Cache.getHashes hash c ks).bind fun (hs, c) =>
    some (h :: hs, c)

/-! ### Several threads -/

/-- What a thread is about to do when it does not hold the lock in `getHash`: read the hash of an entry it has found (line 112) or add a hash it has computed
(lines 116-121). -/
inductive Pending (K : Type) where
  | read (key : K) (entry : Nat)
  | insert (key : K)

/-- A thread: the keys it still has to hash, the call it is in, the calls it has completed with their results, latest first. -/
structure Thread (K H : Type) where
  todo : List K
  pending : Option (Pending K) := none
  done : List (K × H) := []

/-- The next action of a thread: a locked section, or reading `entry.hash`, which happens after the lock was released (lines 111-112). -/
def Thread.act (hash : K → H) (t : Thread K H) (c : Cache K H) : Option (Thread K H × Cache K H) :=
  match t.pending with
  | some (.read k e) => some ({ t with pending := none, done := (k, (c.entries e).hash) :: t.done }, c)
  | some (.insert k) =>
    let h := hash k
    (c.add k h).bind fun c => some ({ t with pending := none, done := (k, h) :: t.done }, c)
  | none =>
    match t.todo with
    | [] => some (t, c)
    | k :: rest =>
      match c.find k with
      | some e => (c.touch e).bind fun c => some ({ t with todo := rest, pending := some (.read k e) }, c)
      | none => some ({ t with todo := rest, pending := some (.insert k) }, c)

/-- Threads under a schedule: each element names the thread that acts next. -/
def runThreads (hash : K → H) (ts : Nat → Thread K H) (c : Cache K H) : List Nat → Option ((Nat → Thread K H) × Cache K H)
  | [] => some (ts, c)
  | i :: sched =>
    ((ts i).act hash c).bind fun (t, c) =>
    runThreads hash (fun j => if j = i then t else ts j) c sched

/-! ### Hashes of data -/

/-- `sha3HashCache` (hash_cache.go:23-26).  Keys of 32 and 64 bytes are lists of these lengths. -/
structure Sha3 (H : Type) where
  cache32 : Cache (List Byte) H
  cache64 : Cache (List Byte) H

/-- `newSha3HashCache` (hash_cache.go:29-38): `keccak32` is `Keccak256For32byte`. -/
def newSha3 (keccak keccak32 : List Byte → H) (hash0 : H) (capacity32 capacity64 : Nat) : Option (Sha3 H) :=
  (newCache capacity32 keccak32 (List.replicate 32 0) hash0).bind fun c32 =>
  (newCache capacity64 keccak (List.replicate 64 0) hash0).bind fun c64 =>
  some ⟨c32, c64⟩

/-- `sha3HashCache.hash` (hash_cache.go:41-53). -/
def Sha3.hash (keccak keccak32 : List Byte → H) (s : Sha3 H) (data : List Byte) : Option (H × Sha3 H) :=
  if data.length = 32 then (s.cache32.getHash keccak32 data).bind fun (h, c) => some (h, { s with cache32 := c })
  else if data.length = 64 then (s.cache64.getHash keccak data).bind fun (h, c) => some (h, { s with cache64 := c })
  else some (keccak data, s)

/-- A sequence of calls of `sha3HashCache.hash`. -/
def Sha3.hashes (keccak keccak32 : List Byte → H) (s : Sha3 H) : List (List Byte) → Option (List H × Sha3 H)
  | [] => some ([], s)
  | d :: ds =>
    (s.hash keccak keccak32 d).bind fun (h, s) =>
    (Sha3.hashes keccak keccak32 s ds).bind fun (hs, s) =>
    some (h :: hs, s)

end Tosca.Model.Lfvm.Hash

/-! ### The cache for converted code -/

namespace Tosca.Model.Lfvm

open Tosca.Go Tosca.Model.Go

/-- `Converter` (converter.go:37-40).  `lru.Cache` of hashicorp's golang-lru is a list of entries, most recently used first, of at most `capacity` entries. -/
structure Converter where
  withSuper : Bool := false
  /-- `none`: no cache. -/
  capacity : Option Nat
  cache : List (U256 × Code) := []

/-- `lru.Cache.Get`. -/
def lruGet (l : List (U256 × Code)) (h : U256) : Option (Code × List (U256 × Code)) :=
  match l.find? fun p => p.1 = h with
  | some p => some (p.2, p :: l.filter fun p => p.1 ≠ h)
  | none => none

/-- `lru.Cache.Add`. -/
def lruAdd (capacity : Nat) (l : List (U256 × Code)) (h : U256) (c : Code) : List (U256 × Code) :=
  ((h, c) :: l.filter fun p => p.1 ≠ h).take capacity

/-- `maxCachedCodeLength` (converter.go:93). -/
def maxCachedCodeLength : Nat := 2 ^ 14 + 2 ^ 13

/-- `NewConverter` (converter.go:43-62); instructions have 4 bytes; `none` is the error of `lru.New` for a size that is not positive. -/
def newConverter (withSuper : Bool) (cacheSize : Int) : Option Converter :=
  let cacheSize := if cacheSize = 0 then 2 ^ 30 else cacheSize
  if cacheSize > 0 then
    let capacity := cacheSize.toNat / maxCachedCodeLength / 4
    if capacity = 0 then none else some { withSuper := withSuper, capacity := some capacity }
  else some { withSuper := withSuper, capacity := none }

/-- `Converter.Convert` (converter.go:67-84); `none` is a panic. -/
def Converter.convert (c : Converter) (code : List Byte) (codeHash : Option U256) : Option (Code × Converter) :=
  match c.capacity, codeHash with
  | some capacity, some h =>
    match lruGet c.cache h with
    | some (res, cache) => some (res, { c with cache := cache })
    | none =>
      (Lfvm.convert code c.withSuper).bind fun res =>
      if res.length > maxCachedCodeLength then some (res, c)
      else some (res, { c with cache := lruAdd capacity c.cache h res })
  | _, _ => (Lfvm.convert code c.withSuper).bind fun res => some (res, c)

/-- A sequence of conversions. -/
def Converter.converts (c : Converter) : List (List Byte × Option U256) → Option (List Code × Converter)
  | [] => some ([], c)
  | (code, h) :: rest =>
    (c.convert code h).bind fun (r, c) =>
    (Converter.converts c rest).bind fun (rs, c) =>
    some (r :: rs, c)

/-- What a run finds: the entry of the converter's cache for its code hash, a pooled stack, and the hash function. -/
def Converter.found (c : Converter) (p : Parameters) (data : Nat → U256) (hash : List Byte → U256) : Found where
  cached := c.capacity.bind fun _ => p.codeHash.bind fun h => (c.cache.find? fun p => p.1 = h).map (·.2)
  data := data
  hash := hash

end Tosca.Model.Lfvm
