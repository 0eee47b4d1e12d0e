import Verif.Model.Reach

/-!
# What the caller sees of a call into the VM

The result record and the state of the host afterwards; not the state of the VM (its caches and
options) nor that of the observer.  Running out of fuel (a bound of the model) and undefined
behaviour are outcomes of their own.
-/

namespace Tosca

open Tosca.Model

variable {σ ω : Type}

/-- What the caller of `Execute` sees. -/
def executeOutcome (r : M (Option (EvmcResult × σ × Vm × ω))) : M (Option (EvmcResult × σ)) :=
  match r with
  | .error e => .error e
  | .ok none => .ok none
  | .ok (some (res, w, _, _)) => .ok (some (res, w))

/-- What the caller of `StepN` sees. -/
def stepOutcome (r : M (Option (StepResult × σ × Vm))) : M (Option (StepResult × σ)) :=
  match r with
  | .error e => .error e
  | .ok none => .ok none
  | .ok (some (res, w, _)) => .ok (some (res, w))

end Tosca
