import Verif.Shared.Types

/-!
# Calls on a cache (data type shared by model and specification)
-/

namespace Tosca.Lru

/-- The public operations (lru_cache.h:37, 49, 72, 81); the value of `getOrInsert` is the one
`make_value` computes. -/
inductive Op (K V : Type)
  | get (k : K)
  | insertOrAssign (k : K) (v : V)
  | getOrInsert (k : K) (v : V)
  | clear
  deriving DecidableEq, Repr

/-- The key a call is about. -/
def Op.key? {K V : Type} : Op K V → Option K
  | .get k => some k
  | .insertOrAssign k _ => some k
  | .getOrInsert k _ => some k
  | .clear => none

end Tosca.Lru
