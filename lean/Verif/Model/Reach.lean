import Verif.Model.Vm

/-!
# Reachable caches and VMs

What the property theorems assume about the caches of a VM: they came into being by a history of
calls of the caches' public methods.  Nothing is assumed about their contents.  The single
`Get` / `InsertOrAssign` calls are the atomic actions (each holds the mutex), so histories with
several threads and with nested executions are covered.
-/

namespace Tosca.Model

/-- Caches that arise from an empty cache by `Get` (lru_cache.h:37-45) and by `InsertOrAssign`
(lru_cache.h:49-65) of the value `f k` for key `k`. -/
inductive Lru.Reached {K V : Type} [DecidableEq K] (cap : Nat) (f : K → V) : Lru.Cache K V → Prop
  | new {c : Lru.Cache K V} (dk : K) (dv : V) : Lru.clear cap dk dv = .ok c → Lru.Reached cap f c
  | get {c c' : Lru.Cache K V} {r : Option V} (k : K) : Lru.Reached cap f c →
      Lru.get c k = .ok (r, c') → Lru.Reached cap f c'
  | insert {c c' : Lru.Cache K V} {r : V} (k : K) : Lru.Reached cap f c →
      Lru.insertOrAssign c k (f k) = .ok (r, c') → Lru.Reached cap f c'

/-- SHA3 caches used only to store hashes of their keys (sha3_cache.h:31-49, 55-56). -/
structure Sha3Ok (keccak : List Byte → U256) (s : Sha3Cache) : Prop where
  cache32 : Lru.Reached 1024 keccak s.cache32
  cache64 : Lru.Reached 1024 keccak s.cache64

/-- VMs whose caches were used only as `Execute` and `StepN` use them (evmzero.cc:129-135,
182-188, 327-340); `codeOf` is the code behind each code hash. -/
structure VmOk (codeOf : U256 → List Byte) (keccak : List Byte → U256) (vm : Vm) : Prop where
  analysis : Lru.Reached 65536 (fun h => computeContractInfo (codeOf h)) vm.contractInfoCache
  sha3 : Sha3Ok keccak vm.sha3Cache

/-- The caller names a code by its hash: the code hash of the message, if given and not zero,
belongs to the code. -/
def HashOk (codeOf : U256 → List Byte) (msg : Message) (code : List Byte) : Prop :=
  ∀ h, msg.codeHash = some h → h ≠ 0 → codeOf h = code

/-- Environments in which nested executions use the shared SHA3 cache only through its
interface. -/
structure EnvKeeps {σ : Type} (k : List Byte → U256) (E : Env σ) : Prop where
  keccak : E.keccak = k
  reenter : ∀ m w s, Sha3Ok k s → Sha3Ok k (E.reenter m w s)

/-- VMs that arise from a new VM by any history of `SetOption`, `Execute` (with any observer) and
`StepN` calls, with arbitrary hosts, messages and states (evmzero.cc:102-296). -/
inductive VmHistory (codeOf : U256 → List Byte) (keccak : List Byte → U256) : Vm → Prop
  | new {vm : Vm} : Vm.new = .ok vm → VmHistory codeOf keccak vm
  | setOption {vm : Vm} (name value : String) : VmHistory codeOf keccak vm →
      VmHistory codeOf keccak (vm.setOption name value).2
  | execute {σ ω : Type} {vm vm' : Vm} {E : Env σ} {obs : Observer σ ω} {fuel : Nat} {code : List Byte}
      {msg : Message} {rev : Revision} {buf : Nat → U256} {w w' : σ} {o o' : ω} {res : EvmcResult} :
      VmHistory codeOf keccak vm → EnvKeeps keccak E → HashOk codeOf msg code →
      vm.executeWith E obs fuel code msg rev buf w o = .ok (some (res, w', vm', o')) →
      VmHistory codeOf keccak vm'
  | stepN {σ : Type} {vm vm' : Vm} {E : Env σ} {fuel : Nat} {code : List Byte} {msg : Message} {rev : Revision}
      {status : StepStatus} {pc : Nat} {refund : Int} {stack : List U256} {memory ret : List Byte} {n : Int}
      {buf : Nat → U256} {w w' : σ} {res : StepResult} :
      VmHistory codeOf keccak vm → EnvKeeps keccak E → HashOk codeOf msg code →
      vm.stepN E fuel code msg rev status pc refund stack memory ret n buf w = .ok (some (res, w', vm')) →
      VmHistory codeOf keccak vm'

end Tosca.Model
