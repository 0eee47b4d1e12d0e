import Verif.Model.Reach
import Verif.Spec.Nest

/-!
# evmzero re-entered by its host

`Execute` calls the host, which calls `Execute` again on the same VM (evmzero.cc:124-174;
interpreter.cc:1634, 1781; go/interpreter/evmc/evmc_interpreter.go:276-318 passes calls back to the Go host,
which starts another run).  `Nest`, the part of the host that is not evmzero, is a parameter.
-/

namespace Tosca.Model

open Tosca.Spec

variable {σ : Type}

/-- What a nested `Execute` finds: the VM in whatever state the running executions (of this and of other
threads) left its caches, the storage block its stack gets (stack.cc:61-75), what its own nested runs do to the
SHA3 cache, and a surplus of fuel. -/
structure Found (σ : Type) where
  vm : Vm
  reenter : Message → σ → Sha3Cache → Sha3Cache
  buf : Nat → U256
  fuel : Nat

/-- The outcome of `Execute` as the result of a nested call (`evmc::Result`, evmzero.cc:166-173). -/
def EvmcResult.toCall (r : EvmcResult) : CallResult :=
  { status := r.status, gasLeft := r.gasLeft, gasRefund := r.gasRefund, output := r.output }

/-- The host whose nested calls run `Execute` (evmzero.cc:124-174), up to `d` levels deep.  `find` is what the
nested runs find; `crash` stands for a nested run with undefined behaviour or without end. -/
def nestedHost (N : Nest σ) (find : Nat → Message → σ → Found σ) (crash : CallResult × σ) : Nat → Host σ
  | 0 => N.with fun _ w => ({ status := .failure }, w)
  | d + 1 => N.with fun m w =>
    match N.enter m w with
    | .inl r => r
    | .inr (code, m', w') =>
      let f := find d m w
      match f.vm.execute ⟨nestedHost N find crash d, N.keccak, f.reenter⟩ (m'.gas.toNat + 2 + f.fuel) code m' N.rev f.buf w' with
      | .ok (some (res, w'', _)) => N.leave m w res.toCall w''
      | _ => crash

/-- What nested runs find came about by the operations of the VM; the code hashes of nested messages belong to
the codes. -/
structure FoundOk (N : Nest σ) (codeOf : U256 → List Byte) (find : Nat → Message → σ → Found σ) : Prop where
  vm : ∀ d m w, VmOk codeOf N.keccak (find d m w).vm
  reenter : ∀ d m w m' w' s, Sha3Ok N.keccak s → Sha3Ok N.keccak ((find d m w).reenter m' w' s)
  hash : ∀ m w code m' w', N.enter m w = .inr (code, m', w') → HashOk codeOf m' code

end Tosca.Model
