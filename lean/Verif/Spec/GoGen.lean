import Verif.Model.Gen
import Verif.Spec.GoRules
import Verif.Spec.Storage

/-!
# Specification: what the test generators have to produce (C80)

Constraints of a generator, an assignment of values to variables, and what is generated.
-/

namespace Tosca.Spec.Gen

open Tosca.Go Tosca.Model.Go Tosca.Model.Gen Tosca.Spec.Go

/-- What is expected of a source of random numbers: `Intn(n)` is below `n`, `Read` fills the slice. -/
structure SourceOk {σ : Type} (src : Source σ) : Prop where
  intn : ∀ n s, 0 < n → (src.intn n s).1 < n
  read : ∀ n s, (src.read n s).1.length = n

/-- There is an instruction at position `p` of the code, and it is `op`. -/
def OpAt (code : List Byte) (p : Int) (op : Byte) : Prop :=
  ∃ n : Nat, p = n ∧ n < code.length ∧ Boundary code n ∧ code[n]? = some op

/-- The code and the assignment meet the constraints of the generator. -/
structure CodeMeets (g : CodeGenerator) (code : List Byte) (a : Assignment) : Prop where
  operation : ∀ c ∈ g.constOps, OpAt code c.pos c.op
  variableOperation : ∀ c ∈ g.varOps, ∃ p, a c.1 = some p ∧ OpAt code p.toNat c.2
  isCode : ∀ v ∈ g.isCode, ∃ p, a v = some p ∧ p.toNat < code.length ∧ Boundary code p.toNat ∧ ¬ PushData code p.toNat
  isData : ∀ v ∈ g.isData, ∃ p, a v = some p ∧ p.toNat < code.length ∧ ¬ Boundary code p.toNat ∧ PushData code p.toNat

/-- The value of a storage slot that is not in the map is zero. -/
def original (t : GenStorage) (k : U256) : U256 := (t.original k).getD 0
/-- See `original`. -/
def current (t : GenStorage) (k : U256) : U256 := (t.current k).getD 0

/-- The storage and the assignment meet the constraints: the status of writing the new value to the slot is the one that is asked for, unless another
configuration is for the same slot; what has to be warm is warm; what has to be cold is cold unless another constraint wants the same slot warm. -/
structure StorageMeets (g : StorageGenerator) (t : GenStorage) (a : Assignment) : Prop where
  config : ∀ c ∈ g.cfg, (∀ d ∈ g.cfg, a d.key = a c.key → d = c) →
    ∃ k v, a c.key = some k ∧ a c.newValue = some v ∧ storageStatus (original t k) (current t k) v = c.config
  warm : ∀ v, (v, true) ∈ g.warmCold → ∃ k, a v = some k ∧ t.warm k = true
  cold : ∀ v, (v, false) ∈ g.warmCold → (∀ u, (u, true) ∈ g.warmCold → a u ≠ a v) → ∃ k, a v = some k ∧ t.warm k = false

/-- No unbound variable is both a key and a new value. -/
def Apart (g : StorageGenerator) (a : Assignment) : Prop :=
  ∀ v, v ∈ g.cfg.map (·.key) ∨ v ∈ g.warmCold.map (·.1) → v ∈ g.cfg.map (·.newValue) → (a v).isSome

/-- The values of the transient storage are as the constraints say. -/
def TransientMeets (l : List (Variable × Bool)) (t : U256 → U256) (a : Assignment) : Prop :=
  ∀ v nonZero, (v, nonZero) ∈ l → ∃ k, a v = some k ∧ (t k ≠ 0 ↔ nonZero = true)

/-- The stack meets the constraints: positions are counted from the top. -/
structure StackMeets (g : StackGenerator) (stack : List U256) (a : Assignment) : Prop where
  value : ∀ c ∈ g.constValues, 0 ≤ c.1 ∧ stack[c.1.toNat]? = some c.2
  bound : ∀ c ∈ g.varValues, 0 ≤ c.1 ∧ ∃ x, a c.2 = some x ∧ stack[c.1.toNat]? = some x

end Tosca.Spec.Gen
