import Verif.Model.Owners

/-!
# What is expected of the shared code analyses
-/

namespace Tosca.Spec.Owners

open Tosca.Model Tosca.Model.Owners

/-- The codes of the calls started, in order: call number `i` runs the `i`-th code. -/
def startedCodes (as : List Action) : List (List Byte) :=
  as.filterMap fun a => match a with
    | .start _ code => some code
    | _ => none

/-- The hash under which a code is looked up names that code: no two codes share a hash. -/
def HashesName (codeOf : U256 → List Byte) (as : List Action) : Prop :=
  ∀ h code, Action.start (some h) code ∈ as → codeOf h = code

/-- The VM has just been created: an empty cache, no analyses and no calls. -/
def Fresh (s : State) : Prop :=
  s.heap = [] ∧ s.calls = [] ∧ ∃ cap key, 2 ≤ cap ∧ Lru.clear cap key none = .ok s.cache

/-- Some call in progress, or some node of the cache, has a pointer to the object. -/
def Referenced (s : State) (p : Nat) : Prop :=
  (∃ (i : Nat) (h : U256), s.calls[i]? = some (Call.inserting h p)) ∨ (∃ i : Nat, s.calls[i]? = some (Call.running p)) ∨
    ∃ n : Nat, n < s.cache.cap ∧ (s.cache.entries n).value = some p

/-- The object has not been deleted. -/
def Alive (h : Heap) (p : Nat) : Prop := ∃ info n, h[p]? = some (info, n) ∧ n ≠ 0

/-- No call is in progress. -/
def Quiet (s : State) : Prop := ∀ (i : Nat) (c : Call), s.calls[i]? = some c → c = .ended

end Tosca.Spec.Owners
