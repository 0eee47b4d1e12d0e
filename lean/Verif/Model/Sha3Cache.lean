import Verif.Model.Lru

/-!
# `Sha3Cache` (cpp/vm/evmzero/sha3_cache.h)

`ethash::keccak256` is an arbitrary function.  The two caches are keyed by
32-byte and 64-byte arrays; the model uses the byte list as key.
-/

namespace Tosca.Model

/-- Data members (sha3_cache.h:55-56). -/
structure Sha3Cache where
  cache32 : Lru.Cache (List Byte) U256
  cache64 : Lru.Cache (List Byte) U256

namespace Sha3Cache

/-- Default construction: both caches cleared with capacity 1024 (sha3_cache.h:55-56). -/
def new : M Sha3Cache := do
  let a ← Lru.clear 1024 (List.replicate 32 0) 0
  let b ← Lru.clear 1024 (List.replicate 64 0) 0
  pure { cache32 := a, cache64 := b }

/-- `Hash` (sha3_cache.h:31-49). -/
def hash (keccak : List Byte → U256) (s : Sha3Cache) (key : List Byte) : M (U256 × Sha3Cache) :=
  if key.length = 32 then do
    let (v, c) ← Lru.getOrInsert s.cache32 key fun _ => keccak key
    pure (v, { s with cache32 := c })
  else if key.length = 64 then do
    let (v, c) ← Lru.getOrInsert s.cache64 key fun _ => keccak key
    pure (v, { s with cache64 := c })
  else pure (keccak key, s)

end Sha3Cache

end Tosca.Model
