import Verif.Model.GenContext

/-!
# Specification: what the generators of block and transaction contexts have to produce (C82)
-/

namespace Tosca.Spec.Gen

open Tosca.Go Tosca.Model.Go Tosca.Model.Gen

/-- The revision of a block: a thousand blocks for each of Istanbul (0) to Cancun (5), then the unknown next one (99). -/
def revisionOf (block : Nat) : Nat := if block < 6000 then block / 1000 else 99

/-- Revisions a test may ask for. -/
def KnownRevision (r : Nat) : Prop := r ≤ 5 ∨ r = 99

/-- The arguments of a call are what the callers may pass: known revisions, offsets of 64 bits that have a negation. -/
def BlockCall.Proper : BlockCall → Prop
  | .revisions l u => KnownRevision l ∧ KnownRevision u
  | .offset _ o => -2 ^ 63 < o ∧ o < 2 ^ 63
  | .recent _ _ => True

/-- The block `x` is one of the 256 blocks before block `n`. -/
def Recent (n : Nat) (x : U256) : Prop := x.toNat < n ∧ n ≤ x.toNat + 256

/-- The block number, the time stamp and the assignment meet the constraints of the calls. -/
structure BlockMeets (calls : List BlockCall) (n time : Nat) (a : Assignment) : Prop where
  number : n < 2 ^ 64
  revisions : ∀ l u, .revisions l u ∈ calls → l ≤ revisionOf n ∧ revisionOf n ≤ u
  offsets : ∀ v o, .offset v o ∈ calls → ∃ x, a v = some x ∧ (x.toNat : Int) + o = n
  recent : ∀ v, .recent v true ∈ calls → ∃ x, a v = some x ∧ Recent n x
  others : ∀ v, .recent v false ∈ calls → ∃ x, a v = some x ∧ ¬ Recent n x
  time : n < 6000 → revisionOf n * 1000 ≤ time ∧ time < revisionOf n * 1000 + 1000

/-- The number of blob hashes and the assignment meet the constraints: an index is present if it is below the number of hashes. -/
def BlobsMeet (calls : List (Variable × Bool)) (count : Nat) (a : Assignment) : Prop :=
  ∀ c ∈ calls, ∃ x, a c.1 = some x ∧ (x.toNat < count ↔ c.2 = true)

/-- The assignment keeps what is bound. -/
def Extends (a' a : Assignment) : Prop := ∀ v x, a v = some x → a' v = some x

end Tosca.Spec.Gen
