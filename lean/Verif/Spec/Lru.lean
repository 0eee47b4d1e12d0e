import Verif.Shared.LruOp

/-!
# Abstract LRU map: key/value pairs, most recently used first
-/

namespace Tosca.Spec.Lru

variable {K V : Type} [DecidableEq K]

/-- The value stored for a key. -/
def lookup (l : List (K × V)) (k : K) : Option V := (l.find? fun p => p.1 = k).map (·.2)

/-- A hit makes the entry the most recent one. -/
def get (l : List (K × V)) (k : K) : Option V × List (K × V) :=
  match lookup l k with
  | some v => (some v, (k, v) :: l.filter fun p => p.1 ≠ k)
  | none => (none, l)

/-- Replaces the value of an existing key (its recency is not changed), or adds a new most
recent entry, dropping the least recent one if the capacity is exceeded. -/
def insertOrAssign (cap : Nat) (l : List (K × V)) (k : K) (v : V) : List (K × V) :=
  match lookup l k with
  | some _ => l.map fun p => if p.1 = k then (k, v) else p
  | none => ((k, v) :: l).take cap

/-- The stored value, or the newly made one. -/
def getOrInsert (cap : Nat) (l : List (K × V)) (k : K) (make : Unit → V) : V × List (K × V) :=
  match get l k with
  | (some v, l) => (v, l)
  | (none, l) => (make (), insertOrAssign cap l k (make ()))

open Tosca.Lru (Op)

/-- One call on the abstract map. -/
def apply (cap : Nat) (l : List (K × V)) : Op K V → Option V × List (K × V)
  | .get k => get l k
  | .insertOrAssign k v => (some v, insertOrAssign cap l k v)
  | .getOrInsert k v =>
    let r := getOrInsert cap l k fun _ => v
    (some r.1, r.2)
  | .clear => (none, [])

/-- A sequence of calls on the abstract map. -/
def run (cap : Nat) (l : List (K × V)) : List (Op K V) → List (Option V) × List (K × V)
  | [] => ([], l)
  | op :: ops =>
    let r := apply cap l op
    let rs := run cap r.2 ops
    (r.1 :: rs.1, rs.2)

/-- The value a history of calls with their results (latest first) last showed for a key since the
last `Clear`: the value last inserted for it, or returned for it by a hit. -/
def lastSeen (k : K) : List (Op K V × Option V) → Option V
  | [] => none
  | (.clear, _) :: _ => none
  | (op, some v) :: rest => if op.key? = some k then some v else lastSeen k rest
  | (_, none) :: rest => lastSeen k rest

end Tosca.Spec.Lru
