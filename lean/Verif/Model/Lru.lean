import Verif.Model.Basic

/-!
# `LruCache` (cpp/common/lru_cache.h)

Pointer-level model: `entries_` is an array of `cap` nodes, `Entry*` is an
optional array index which may be out of range (`Clear` stores the address one
past the last element).  Dereferencing null or an out-of-range index is UB.
`absl::flat_hash_map` is a list of key/pointer pairs with at most one pair per
key.  Every public method holds `mutex_` for its whole body and is therefore
atomic; `GetOrInsert` is a composition of two atomic calls.
-/

namespace Tosca.Model.Lru

/-- `struct Entry` (lru_cache.h:96-101); `none` is `nullptr`. -/
structure Entry (K V : Type) where
  key : K
  value : V
  pred : Option Nat
  succ : Option Nat

/-- Data members (lru_cache.h:143-148); `cap` is the template parameter `Capacity`. -/
structure Cache (K V : Type) where
  cap : Nat
  entries : Nat → Entry K V
  index : List (K × Nat)
  head : Option Nat
  tail : Option Nat

variable {K V : Type} [DecidableEq K]

/-- `e->…`: the index a pointer denotes, UB if null or out of range. -/
def deref (c : Cache K V) (p : Option Nat) : M Nat :=
  match p with
  | none => .error .badPointer
  | some i => if i < c.cap then .ok i else .error .badPointer

/-- Assignment to a node. -/
def upd (c : Cache K V) (i : Nat) (f : Entry K V → Entry K V) : Cache K V :=
  { c with entries := fun j => if j = i then f (c.entries j) else c.entries j }

/-- `index_.find(key)`. -/
def find (c : Cache K V) (k : K) : Option Nat := (c.index.find? (fun p => p.1 = k)).map (·.2)

/-- `Clear` (lru_cache.h:81-93).  Line 87 compares `i < entries_.size()`, which always holds,
so the last node's `succ` is the address one past the end.  `&entries_[0]` and
`&entries_[Capacity - 1]` need a non-zero capacity. -/
def clear (cap : Nat) (dk : K) (dv : V) : M (Cache K V) :=
  if cap = 0 then .error .badPointer
  else .ok {
    cap := cap
    entries := fun i =>
      { key := dk, value := dv
        pred := if i > 0 then some (i - 1) else none
        succ := if i < cap then some (i + 1) else none }
    index := []
    head := some 0
    tail := some (cap - 1) }

/-- Linking a detached node in front of the list, the last lines of both `Touch`
(lru_cache.h:119-122) and `GetNewHead` (lru_cache.h:135-138). -/
def linkAsHead (c : Cache K V) (e : Nat) : M (Cache K V) := do
  let c := upd c e fun n => { n with pred := none }
  let c := upd c e fun n => { n with succ := c.head }
  let h ← deref c c.head
  let c := upd c h fun n => { n with pred := some e }
  pure { c with head := some e }

/-- `Touch` (lru_cache.h:104-123). -/
def touch (c : Cache K V) (e : Nat) : M (Cache K V) :=
  if some e = c.head then .ok c
  else do
    let p ← deref c (c.entries e).pred
    let c := upd c p fun n => { n with succ := (c.entries e).succ }
    match (c.entries e).succ with
    | some _ => do
      let s ← deref c (c.entries e).succ
      linkAsHead (upd c s fun n => { n with pred := (c.entries e).pred }) e
    | none => linkAsHead { c with tail := (c.entries e).pred } e

/-- `index_.erase(entry->key)` when the cache is full (lru_cache.h:130-132). -/
def evict (c : Cache K V) (t : Nat) : Cache K V :=
  if c.index.length ≥ c.cap
    then { c with index := c.index.filter fun p => p.1 ≠ (c.entries t).key } else c

/-- `GetNewHead` (lru_cache.h:125-141). -/
def getNewHead (c : Cache K V) : M (Nat × Cache K V) := do
  let t ← deref c c.tail
  let newTail := (c.entries t).pred
  let nt ← deref c newTail
  let c := upd c nt fun n => { n with succ := none }
  let c := evict c t
  let c ← linkAsHead { c with tail := newTail } t
  pure (t, c)

/-- `Get` (lru_cache.h:37-45). -/
def get (c : Cache K V) (k : K) : M (Option V × Cache K V) :=
  match find c k with
  | some e => do
    let e ← deref c (some e)
    let c ← touch c e
    pure (some (c.entries e).value, c)
  | none => pure (none, c)

/-- `InsertOrAssign` (lru_cache.h:49-65).  `index_[key] = entry` for an absent key adds a pair. -/
def insertOrAssign (c : Cache K V) (k : K) (v : V) : M (V × Cache K V) :=
  match find c k with
  | some e => do
    let e ← deref c (some e)
    let c := upd c e fun n => { n with value := v }
    pure ((c.entries e).value, c)
  | none => do
    let (e, c) ← getNewHead c
    let c := upd c e fun n => { n with key := k }
    let c := upd c e fun n => { n with value := v }
    let c := { c with index := (k, e) :: c.index }
    pure ((c.entries e).value, c)

/-- `GetOrInsert` (lru_cache.h:71-77), without interference between its two calls
(the interleaved version is in `Verif/Model/LruThreads.lean`). -/
def getOrInsert (c : Cache K V) (k : K) (makeValue : Unit → V) : M (V × Cache K V) := do
  let (r, c) ← get c k
  match r with
  | some v => pure (v, c)
  | none => insertOrAssign c k (makeValue ())

/-- `GetMaxSize` (lru_cache.h:79). -/
def getMaxSize (c : Cache K V) : Nat := c.cap

end Tosca.Model.Lru
