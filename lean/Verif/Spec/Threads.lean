import Verif.Model.Threads
import Verif.Spec.Outcome
import Verif.Spec.Setting

/-!
# What concurrent calls are compared with
-/

namespace Tosca

open Tosca.Model Tosca.Model.Threads Tosca.Spec

variable {σ : Type}

/-- What is assumed about every call: nested executions use the SHA3 cache only through its
interface, and the code hash names the code. -/
structure JobOk (codeOf : U256 → List Byte) (k : List Byte → U256) (job : Job σ) : Prop where
  env : EnvKeeps k job.env
  hash : HashOk codeOf job.message job.code

/-- The call made alone, on any VM and with any contents of the stack block, has the outcome `out`
(a result with the state of the host, or undefined behaviour). -/
def Alone (codeOf : U256 → List Byte) (k : List Byte → U256) (job : Job σ) (out : M (EvmcResult × σ)) : Prop :=
  ∃ bound, ∀ fuel, bound ≤ fuel → ∀ vm, VmOk codeOf k vm → ∀ buf,
    executeOutcome (vm.executeWith job.env noObserver fuel job.code job.message job.revision buf job.world ()) =
      some <$> out

/-- The call runs the frame with parameters `P` (as in `Setting`) with at most 2^54 gas. -/
structure JobFor (codeOf : U256 → List Byte) (P : Params σ) (job : Job σ) : Prop where
  params : ParamsOk P
  env : EnvOk P job.env
  hash : HashOk codeOf P.msg P.code
  code : job.code = P.code
  message : job.message = P.msg
  revision : job.revision = P.rev
  gas : 0 ≤ P.msg.gas ∧ P.msg.gas ≤ 2 ^ 54

/-- Threads that have not started yet. -/
def NotStarted (ts : Nat → Thread σ) : Prop := ∀ i, (ts i).phase = .idle ∧ (ts i).done = []

end Tosca
