import Verif.Model.Lru
import Verif.Shared.LruOp

/-!
# Histories of cache calls: one caller, and several threads

`Get`, `InsertOrAssign` and `Clear` hold `mutex_` from their first statement to their return
(lru_cache.h:38, 50, 82), so each is one atomic action.  `GetOrInsert` (lru_cache.h:71-77) takes no
lock itself: other threads may act between its `Get` and its `InsertOrAssign`.
-/

namespace Tosca.Model.Lru

open Tosca.Lru (Op)

variable {K V : Type} [DecidableEq K]

/-- One call by a single caller; the result of `Clear` (which is `void`) is `none`.  `dk`, `dv` are
the default-constructed key and value of `entries_.resize` (lru_cache.h:84). -/
def apply (dk : K) (dv : V) (c : Cache K V) : Op K V → M (Option V × Cache K V)
  | .get k => get c k
  | .insertOrAssign k v => do
    let (r, c) ← insertOrAssign c k v
    pure (some r, c)
  | .getOrInsert k v => do
    let (r, c) ← getOrInsert c k fun _ => v
    pure (some r, c)
  | .clear => do
    let c ← Lru.clear c.cap dk dv
    pure (none, c)

/-- A sequence of calls on a cache: all results and the final cache. -/
def runOps (dk : K) (dv : V) (c : Cache K V) : List (Op K V) → M (List (Option V) × Cache K V)
  | [] => pure ([], c)
  | op :: ops => do
    let (r, c) ← apply dk dv c op
    let (rs, c) ← runOps dk dv c ops
    pure (r :: rs, c)

/-- A thread using the cache: the calls it still has to make, whether it is between the two halves
of a `GetOrInsert` (the key and the value it is about to insert, lru_cache.h:75), and the calls it
has completed with their results, latest first. -/
structure Thread (K V : Type) where
  todo : List (Op K V)
  pending : Option (K × V) := none
  done : List (Op K V × Option V) := []

/-- The next atomic action of a thread. -/
def Thread.act (dk : K) (dv : V) (t : Thread K V) (c : Cache K V) : M (Thread K V × Cache K V) :=
  match t.pending with
  | some (k, v) => do
    let (r, c) ← insertOrAssign c k v
    pure ({ t with pending := none, done := (.getOrInsert k v, some r) :: t.done }, c)
  | none =>
    match t.todo with
    | [] => pure (t, c)
    | .getOrInsert k v :: rest => do
      let (r, c) ← get c k
      match r with
      | some x => pure ({ t with todo := rest, done := (.getOrInsert k v, some x) :: t.done }, c)
      | none => pure ({ t with todo := rest, pending := some (k, v) }, c)
    | op :: rest => do
      let (r, c) ← apply dk dv c op
      pure ({ t with todo := rest, done := (op, r) :: t.done }, c)

/-- Running threads under a schedule: each element names the thread that acts next (a thread
that has finished does nothing). -/
def runThreads (dk : K) (dv : V) (ts : Nat → Thread K V) (c : Cache K V) :
    List Nat → M ((Nat → Thread K V) × Cache K V)
  | [] => pure (ts, c)
  | i :: sched => do
    let (t, c) ← (ts i).act dk dv c
    runThreads dk dv (fun j => if j = i then t else ts j) c sched

end Tosca.Model.Lru
