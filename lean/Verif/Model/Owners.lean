import Verif.Model.Vm

/-!
# Shared ownership of code analyses (cpp/vm/evmzero/evmzero.cc:124-135, 176-188, 315-325, 333)

`ComputeContractInfo` puts the analysis on the heap; the analysis cache and the calls in progress
hold it by `std::shared_ptr`.  The model makes the reference counts explicit: copying a pointer
increments the count, destroying or overwriting one decrements it, and at zero the object is deleted.
Access to a deleted object is undefined behaviour.  `std::shared_ptr` itself (its atomic counts) is
part of the C++ library.
-/

namespace Tosca.Model.Owners

/-- The heap of `ContractInfo` objects with their reference counts, by address; count zero means
deleted. -/
abbrev Heap := List (ContractInfo × Nat)

/-- The count of an object; zero for addresses where there never was an object. -/
def count (h : Heap) (p : Nat) : Nat :=
  match h[p]? with
  | some (_, n) => n
  | none => 0

/-- `std::make_shared` (evmzero.cc:321). -/
def make (h : Heap) (info : ContractInfo) : Nat × Heap := (h.length, h ++ [(info, 1)])

/-- Dereferencing a pointer. -/
def look (h : Heap) (p : Nat) : M ContractInfo :=
  match h[p]? with
  | some (info, n) => if n = 0 then .error .badPointer else .ok info
  | none => .error .badPointer

/-- Copying a pointer. -/
def copy (h : Heap) (p : Nat) : M Heap := do
  let info ← look h p
  return h.set p (info, count h p + 1)

/-- Destroying a pointer. -/
def drop (h : Heap) (p : Nat) : M Heap := do
  let info ← look h p
  return h.set p (info, count h p - 1)

/-- Destroying a pointer that may be null. -/
def dropOpt (h : Heap) : Option Nat → M Heap
  | none => .ok h
  | some p => drop h p

/-- A call in progress: between the two halves of `GetOrInsert` it owns the pointer made for
`InsertOrAssign`; then the local variable `contract_info` owns a pointer (evmzero.cc:129, 182), until
the call returns. -/
inductive Call
  | inserting (hash : U256) (p : Nat)
  | running (p : Nat)
  | ended
  deriving DecidableEq

/-- The heap, the analysis cache (whose nodes own pointers, null at first), and the calls made so
far. -/
structure State where
  heap : Heap := []
  cache : Lru.Cache U256 (Option Nat)
  calls : List Call := []

/-- The value that `InsertOrAssign` overwrites (lru_cache.h:53, 59): that of the node with the key,
or of the node that becomes the new head. -/
def overwritten (c : Lru.Cache U256 (Option Nat)) (h : U256) : M (Option Nat) :=
  match Lru.find c h with
  | some e => do
    let e ← Lru.deref c (some e)
    return (c.entries e).value
  | none => do
    let e ← Lru.deref c c.tail
    return (c.entries e).value

/-- Atomic actions: a call starts (with the code hash if the cache is used), inserts its analysis,
returns. -/
inductive Action
  | start (hash : Option U256) (code : List Byte)
  | insert (i : Nat)
  | finish (i : Nat)

/-- The effect of an action. -/
def exec (s : State) : Action → M State
  -- evmzero.cc:131-132, lru_cache.h:72: `Get` copies the pointer out of the node
  | .start (some h) code => do
    let (r, cache) ← Lru.get s.cache h
    match r with
    | some (some p) => do
      let heap ← copy s.heap p
      return { heap := heap, cache := cache, calls := s.calls ++ [.running p] }
    | some none => .error .badPointer
    | none =>
      let (p, heap) := make s.heap (computeContractInfo code)
      return { heap := heap, cache := cache, calls := s.calls ++ [.inserting h p] }
  -- evmzero.cc:134
  | .start none code =>
    let (p, heap) := make s.heap (computeContractInfo code)
    .ok { s with heap := heap, calls := s.calls ++ [.running p] }
  -- lru_cache.h:49-65, 75: the pointer moves into the node, the node's old pointer is destroyed, and
  -- the result is a copy of the node's pointer
  | .insert i =>
    match s.calls[i]? with
    | some (.inserting h p) => do
      let old ← overwritten s.cache h
      let (r, cache) ← Lru.insertOrAssign s.cache h (some p)
      let heap ← dropOpt s.heap old
      match r with
      | some q => do
        let heap ← copy heap q
        return { heap := heap, cache := cache, calls := s.calls.set i (.running q) }
      | none => .error .badPointer
    | _ => .ok s
  -- evmzero.cc:174: `contract_info` is destroyed
  | .finish i =>
    match s.calls[i]? with
    | some (.running p) => do
      let heap ← drop s.heap p
      return { s with heap := heap, calls := s.calls.set i .ended }
    | _ => .ok s

/-- A sequence of actions. -/
def execAll (s : State) : List Action → M State
  | [] => .ok s
  | a :: as => do
    let s ← exec s a
    execAll s as

/-- What a call in progress reads through `contract_info` (evmzero.cc:138-139, and through the spans
in the context while it runs). -/
def read (s : State) (i : Nat) : M ContractInfo :=
  match s.calls[i]? with
  | some (.running p) => look s.heap p
  | _ => .error .badPointer

/-- The pointers of the nodes, in array order. -/
def nodes (c : Lru.Cache U256 (Option Nat)) : List (Option Nat) := (List.range c.cap).map fun i => (c.entries i).value

/-- Destroying a sequence of pointers. -/
def dropAll (h : Heap) : List (Option Nat) → M Heap
  | [] => .ok h
  | p :: ps => do
    let h ← dropOpt h p
    dropAll h ps

/-- Destroying the VM (evmzero.cc:327-340, 375-385): the nodes of the cache are destroyed. -/
def destroyVm (s : State) : M Heap := dropAll s.heap (nodes s.cache)

end Tosca.Model.Owners
