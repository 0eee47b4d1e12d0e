import Verif.Model.GenAccounts
import Verif.Spec.GoGen

/-!
# Specification: what the generator of accounts has to produce (C81)
-/

namespace Tosca.Spec.Gen

open Tosca.Go Tosca.Model.Go Tosca.Model.Gen Tosca.Spec.Go

/-- The address that a variable stands for. -/
def addressOf (a : Assignment) (v : Variable) : Option Address := (a v).map newAddress

/-- The variables of a generator. -/
def AccountsGenerator.variables (g : AccountsGenerator) : List Variable :=
  g.emptyAccounts.map (·.1) ++ g.warmCold.map (·.1) ++ g.minBalance.map (·.1) ++ g.maxBalance.map (·.1)

/-- The accounts and the assignment meet the constraints of the generator. -/
structure AccountsMeet (g : AccountsGenerator) (t : GenAccounts) (a : Assignment) : Prop where
  empty : ∀ v, (v, true) ∈ g.emptyAccounts → ∃ x, addressOf a v = some x ∧ t.balance x = 0 ∧ t.code x = []
  nonEmpty : ∀ v, (v, false) ∈ g.emptyAccounts → ∃ x, addressOf a v = some x ∧ ¬ (t.balance x = 0 ∧ t.code x = [])
  atLeast : ∀ v m, (v, m) ∈ g.minBalance → ∃ x, addressOf a v = some x ∧ m.toNat ≤ (t.balance x).toNat
  atMost : ∀ v m, (v, m) ∈ g.maxBalance → ∃ x, addressOf a v = some x ∧ (t.balance x).toNat ≤ m.toNat
  warm : ∀ v, (v, true) ∈ g.warmCold → ∃ x, addressOf a v = some x ∧ t.warm x = true
  cold : ∀ v, (v, false) ∈ g.warmCold → ∃ x, addressOf a v = some x ∧ t.warm x = false

/-- The cases in which the generator is not sound are excluded: an account that has to be empty and is the one that executes the code; an account that must
not be empty with bounds of its balance that allow zero; an account that is to be warm and cold by two names. -/
structure Sheltered (g : AccountsGenerator) (me : Address) (a : Assignment) : Prop where
  empty : ∀ v, (v, true) ∈ g.emptyAccounts → addressOf a v ≠ some me
  nonEmpty : ∀ v, (v, false) ∈ g.emptyAccounts → (∃ c ∈ g.minBalance, addressOf a c.1 = addressOf a v ∧ c.2 ≠ 0) ∨
    ∀ c, c ∈ g.minBalance ∨ c ∈ g.maxBalance → addressOf a c.1 ≠ addressOf a v
  cold : ∀ u v, (u, true) ∈ g.warmCold → (v, false) ∈ g.warmCold → addressOf a u ≠ addressOf a v

/-- The random addresses are none of those the variables of the generator are bound to before. -/
def Misses {σ : Type} (src : Source σ) (g : AccountsGenerator) (a : Assignment) : Prop :=
  ∀ v ∈ AccountsGenerator.variables g, ∀ x, addressOf a v = some x → ∀ s, (randomAddress src s).1 ≠ x

/-- The source yields an address not among `n` others before the fuel is spent. -/
def Productive {σ : Type} (src : Source σ) (fuel n : Nat) : Prop :=
  ∀ (used : List Address) s, used.length ≤ n → (drawAddress src used fuel s).isSome

end Tosca.Spec.Gen
