import Verif.Proofs.Twin
import Verif.Spec.Outcome
import Verif.Props.Exec

/-!
# C13, C30, C31, C32: what executions share without influencing each other

The theorems hold for every host, also for one that breaks the EVMC contract, for every code,
message, revision and state, and also say that undefined behaviour, if there is any, is the same.
-/

namespace Tosca

open Tosca.Model Tosca.Proofs

variable {σ ω ω' : Type} {k : List Byte → U256} {codeOf : U256 → List Byte} {E E' : Env σ} {vm vm' : Vm}
  {code : List Byte} {msg : Message} {rev : Revision} {fuel : Nat}

theorem outcome_of_execute (obs : Observer σ ω) (vm : Vm) (buf : Nat → U256) (w : σ) (o : ω) :
    executeOutcome (vm.executeWith E obs fuel code msg rev buf w o) = Twin.seen (vm.execute E fuel code msg rev buf w) := by
  rw [← executeWith_obs obs fuel vm code msg rev buf w o]
  unfold executeOutcome Twin.seen
  cases vm.executeWith E obs fuel code msg rev buf w o with
  | error e => rfl
  | ok r =>
    cases r with
    | none => rfl
    | some r => rfl

theorem stepOutcome_eq (r : M (Option (StepResult × σ × Vm))) : stepOutcome r = Twin.seenStep r := by
  unfold stepOutcome Twin.seenStep
  cases r with
  | error e => rfl
  | ok r =>
    cases r with
    | none => rfl
    | some r => rfl

/-- Two VMs with properly used caches, with any options, any buffer contents and any observers: `Execute`. -/
theorem execute_independent (hE : EnvKeeps k E) (hE' : EnvKeeps k E') (hH : E'.host = E.host)
    (hv : VmOk codeOf k vm) (hv' : VmOk codeOf k vm') (hh : HashOk codeOf msg code)
    (obs : Observer σ ω) (obs' : Observer σ ω') (buf buf' : Nat → U256) (w : σ) (o : ω) (o' : ω') :
    executeOutcome (vm'.executeWith E' obs' fuel code msg rev buf' w o') =
      executeOutcome (vm.executeWith E obs fuel code msg rev buf w o) := by
  rw [outcome_of_execute, outcome_of_execute]
  exact Twin.execute_twin ⟨hH, hE, hE'⟩ hv hv' hh rev fuel buf buf' w

/-- The same for `StepN`. -/
theorem stepN_independent (hE : EnvKeeps k E) (hE' : EnvKeeps k E') (hH : E'.host = E.host)
    (hv : VmOk codeOf k vm) (hv' : VmOk codeOf k vm') (hh : HashOk codeOf msg code) (status : StepStatus) (pc : Nat)
    (refund : Int) (stack : List U256) (memory ret : List Byte) (n : Int) (buf buf' : Nat → U256) (w : σ) :
    stepOutcome (vm'.stepN E' fuel code msg rev status pc refund stack memory ret n buf' w) =
      stepOutcome (vm.stepN E fuel code msg rev status pc refund stack memory ret n buf w) := by
  rw [stepOutcome_eq, stepOutcome_eq]
  exact Twin.stepN_twin ⟨hH, hE, hE'⟩ hv hv' hh rev fuel status pc refund stack memory ret n buf buf' w

/-! ### C13: the recycled stack buffer -/

/-- C13.  The outcome of `Execute` does not depend on what earlier executions left in the stack buffer. -/
theorem C13_execute (hE : EnvKeeps k E) (hv : VmOk codeOf k vm) (hh : HashOk codeOf msg code)
    (obs : Observer σ ω) (buf buf' : Nat → U256) (w : σ) (o : ω) :
    executeOutcome (vm.executeWith E obs fuel code msg rev buf w o) =
      executeOutcome (vm.executeWith E obs fuel code msg rev buf' w o) :=
  execute_independent hE hE rfl hv hv hh obs obs buf' buf w o o

/-- C13.  The outcome of `StepN`, including the reported stack of a failed state, does not depend on what earlier
executions left in the stack buffer. -/
theorem C13_stepN (hE : EnvKeeps k E) (hv : VmOk codeOf k vm) (hh : HashOk codeOf msg code) (status : StepStatus)
    (pc : Nat) (refund : Int) (stack : List U256) (memory ret : List Byte) (n : Int) (buf buf' : Nat → U256) (w : σ) :
    stepOutcome (vm.stepN E fuel code msg rev status pc refund stack memory ret n buf w) =
      stepOutcome (vm.stepN E fuel code msg rev status pc refund stack memory ret n buf' w) :=
  stepN_independent hE hE rfl hv hv hh status pc refund stack memory ret n buf' buf w

/-! ### C30: the SHA3 cache -/

/-- C30.  `Execute` has the same outcome whatever proper SHA3 cache the VM holds, with the cache on or off, and
whatever nested executions do to the cache through its interface. -/
theorem C30_execute (hE : EnvKeeps k E) (hE' : EnvKeeps k E') (hH : E'.host = E.host) (hv : VmOk codeOf k vm)
    (hh : HashOk codeOf msg code) {cache : Sha3Cache} (hc : Sha3Ok k cache) (on : Bool) (obs : Observer σ ω)
    (buf : Nat → U256) (w : σ) (o : ω) :
    executeOutcome (({ vm with sha3Cache := cache, options := { vm.options with sha3Cache := on } } : Vm).executeWith E' obs
        fuel code msg rev buf w o) =
      executeOutcome (vm.executeWith E obs fuel code msg rev buf w o) :=
  execute_independent hE hE' hH hv (vm' := { vm with sha3Cache := cache, options := { vm.options with sha3Cache := on } }) ⟨hv.analysis, hc⟩ hh obs obs buf buf w o o

/-- C30.  The same for `StepN`. -/
theorem C30_stepN (hE : EnvKeeps k E) (hE' : EnvKeeps k E') (hH : E'.host = E.host) (hv : VmOk codeOf k vm)
    (hh : HashOk codeOf msg code) {cache : Sha3Cache} (hc : Sha3Ok k cache) (on : Bool) (status : StepStatus)
    (pc : Nat) (refund : Int) (stack : List U256) (memory ret : List Byte) (n : Int) (buf : Nat → U256) (w : σ) :
    stepOutcome (({ vm with sha3Cache := cache, options := { vm.options with sha3Cache := on } } : Vm).stepN E'
        fuel code msg rev status pc refund stack memory ret n buf w) =
      stepOutcome (vm.stepN E fuel code msg rev status pc refund stack memory ret n buf w) :=
  stepN_independent hE hE' hH hv (vm' := { vm with sha3Cache := cache, options := { vm.options with sha3Cache := on } }) ⟨hv.analysis, hc⟩ hh status pc refund stack memory ret n buf buf w

/-- C30.  `Sha3Cache::Hash` returns the hash of its argument for arguments of all lengths and every history of the
cache, and keeps the cache proper. -/
theorem C30_hash (s : Sha3Cache) (hs : Sha3Ok k s) (input : List Byte) :
    ∃ s', s.hash k input = .ok (k input, s') ∧ Sha3Ok k s' :=
  sha3_hash k s hs input

/-! ### C31: the analysis cache -/

/-- C31.  After any history of calls on a VM, `Execute` has the outcome it has on a new VM with the analysis cache
switched off. -/
theorem C31_execute (hE : EnvKeeps k E) (hv : VmHistory codeOf k vm) (hh : HashOk codeOf msg code)
    (hnew : Vm.new = .ok vm') (obs : Observer σ ω) (buf : Nat → U256) (w : σ) (o : ω) :
    executeOutcome (vm.executeWith E obs fuel code msg rev buf w o) =
      executeOutcome ((vm'.setOption "analysis_cache" "false").2.executeWith E obs fuel code msg rev buf w o) :=
  execute_independent hE hE rfl (history_ok (.setOption _ _ (.new hnew))) (history_ok hv) hh obs obs buf buf w o o

/-- C31.  The same for `StepN`. -/
theorem C31_stepN (hE : EnvKeeps k E) (hv : VmHistory codeOf k vm) (hh : HashOk codeOf msg code)
    (hnew : Vm.new = .ok vm') (status : StepStatus) (pc : Nat) (refund : Int) (stack : List U256)
    (memory ret : List Byte) (n : Int) (buf : Nat → U256) (w : σ) :
    stepOutcome (vm.stepN E fuel code msg rev status pc refund stack memory ret n buf w) =
      stepOutcome ((vm'.setOption "analysis_cache" "false").2.stepN E fuel code msg rev status pc refund stack memory ret n
        buf w) :=
  stepN_independent hE hE rfl (history_ok (.setOption _ _ (.new hnew))) (history_ok hv) hh status pc refund stack memory ret
    n buf buf w

/-- The analysis with the cache switched off is the analysis of the given code. -/
theorem C31_off_is_recomputed (vm : Vm) (msg : Message) (code : List Byte) :
    (vm.setOption "analysis_cache" "false").2.lookupCode msg code =
      .ok (computeContractInfo code, (vm.setOption "analysis_cache" "false").2) := by
  unfold Vm.lookupCode
  cases msg.codeHash with
  | none => rfl
  | some h => exact if_neg (fun hc => absurd hc.1 (by simp [Vm.setOption, setOptionLoop, onOffOptions]))

/-- C31.  Codes without a hash or with the zero hash are never cached, on any VM: `Execute`. -/
theorem C31_execute_uncached (hz : msg.codeHash = none ∨ msg.codeHash = some 0) {obs : Observer σ ω} {buf : Nat → U256}
    {w w1 : σ} {o o1 : ω} {res : EvmcResult}
    (h : vm.executeWith E obs fuel code msg rev buf w o = .ok (some (res, w1, vm', o1))) :
    vm'.contractInfoCache = vm.contractInfoCache := by
  obtain ⟨info, vm1, l, c, oL, hl, _, _, _, rfl, _⟩ := executeWith_inv h
  have : vm1 = vm := by
    unfold Vm.lookupCode at hl
    rcases hz with hz | hz
    · rw [hz] at hl; cases hl; rfl
    · rw [hz] at hl
      dsimp only at hl
      rw [if_neg (fun hc => hc.2 rfl)] at hl
      cases hl; rfl
  subst this
  unfold Vm.putSha3
  split <;> rfl

/-- C31.  The same for `StepN`. -/
theorem C31_stepN_uncached (hz : msg.codeHash = none ∨ msg.codeHash = some 0) {status : StepStatus} {pc : Nat}
    {refund : Int} {stack : List U256} {memory ret : List Byte} {n : Int} {buf : Nat → U256} {w w1 : σ} {res : StepResult}
    (h : vm.stepN E fuel code msg rev status pc refund stack memory ret n buf w = .ok (some (res, w1, vm'))) :
    vm'.contractInfoCache = vm.contractInfoCache := by
  obtain ⟨info, vm1, l, c, c0, hl, _, _, _, _, _, _, _, _, _, _, rfl, _⟩ := stepN_inv h
  have : vm1 = vm := by
    unfold Vm.lookupCode at hl
    rcases hz with hz | hz
    · rw [hz] at hl; cases hl; rfl
    · rw [hz] at hl
      dsimp only at hl
      rw [if_neg (fun hc => hc.2 rfl)] at hl
      cases hl; rfl
  subst this
  unfold Vm.putSha3
  split <;> rfl

/-! ### C32: options -/

/-- The options a VM understands. -/
def knownOptions : List String := ["logging", "analysis_cache", "sha3_cache", "profiling", "profiling_external"]

/-- The value of an option. -/
def optionValue (o : Options) (name : String) : Option Bool :=
  if name = "logging" then some o.logging
  else if name = "analysis_cache" then some o.analysisCache
  else if name = "sha3_cache" then some o.sha3Cache
  else if name = "profiling" then some o.profiling
  else if name = "profiling_external" then some o.profilingExternal
  else none

/-- C32.  A known option given `true` or `false` takes that value and nothing else changes. -/
theorem C32_set (vm : Vm) (name : String) (hn : name ∈ knownOptions) (on : Bool) :
    (vm.setOption name (if on then "true" else "false")).1 = .success ∧
    optionValue (vm.setOption name (if on then "true" else "false")).2.options name = some on ∧
    (∀ other, other ≠ name → optionValue (vm.setOption name (if on then "true" else "false")).2.options other =
      optionValue vm.options other) ∧
    (vm.setOption name (if on then "true" else "false")).2.contractInfoCache = vm.contractInfoCache ∧
    (vm.setOption name (if on then "true" else "false")).2.sha3Cache = vm.sha3Cache := by
  simp only [knownOptions, List.mem_cons, List.not_mem_nil, or_false] at hn
  refine ⟨?_, ?_, ?_, rfl, rfl⟩
  · rcases hn with rfl | rfl | rfl | rfl | rfl <;> cases on <;> rfl
  · rcases hn with rfl | rfl | rfl | rfl | rfl <;> cases on <;> rfl
  · intro other ho
    rcases hn with rfl | rfl | rfl | rfl | rfl <;> cases on <;>
      simp [optionValue, Vm.setOption, setOptionLoop, onOffOptions, ho]

/-- C32.  Any other value of a known option is refused without effect. -/
theorem C32_invalid_value (vm : Vm) (name value : String) (hn : name ∈ knownOptions) (h1 : value ≠ "true")
    (h2 : value ≠ "false") : vm.setOption name value = (.invalidValue, vm) := by
  simp only [knownOptions, List.mem_cons, List.not_mem_nil, or_false] at hn
  rcases hn with rfl | rfl | rfl | rfl | rfl <;>
    simp [Vm.setOption, setOptionLoop, onOffOptions, h1, h2]

/-- C32.  Any other name is refused without effect. -/
theorem C32_invalid_name (vm : Vm) (name value : String) (hn : name ∉ knownOptions) :
    vm.setOption name value = (.invalidName, vm) := by
  simp only [knownOptions, List.mem_cons, List.not_mem_nil, or_false, not_or] at hn
  simp [Vm.setOption, setOptionLoop, onOffOptions, hn]

/-! ### Examples -/

/-- A program that hashes a word of memory and returns the hash, run under a code hash. -/
def hashDemo : Spec.Params Nat :=
  { demo [0x60, 32, 0x5f, 0x20, 0x5f, 0x52, 0x60, 32, 0x5f, 0xf3] with
    msg := { (demo []).msg with codeHash := some 5 } }

theorem hashDemo_env : EnvKeeps demoKeccak (envOf hashDemo) := ⟨rfl, fun _ _ _ h => h⟩

theorem hashDemo_hash : HashOk (fun _ => hashDemo.code) hashDemo.msg hashDemo.code := fun _ _ _ => rfl

/-- It runs on every VM with a history. -/
theorem hashDemo_runs {vm : Vm} (hv : VmHistory (fun _ => hashDemo.code) demoKeccak vm) (buf : Nat → U256) :
    ∃ vm' res, vm.executeWith (envOf hashDemo) noObserver 100002 hashDemo.code hashDemo.msg CANCUN buf 0 () =
      .ok (some (res, 0, vm', ())) ∧ res.status = .success ∧ res.output.length = 32 := by
  have hs : Setting hashDemo (envOf hashDemo) (fun _ => hashDemo.code) vm :=
    ⟨⟨demoHost_ok, by decide, by decide, by decide⟩, envOf_ok _, history_ok hv, hashDemo_hash, by decide⟩
  obtain ⟨s', hf, hx⟩ := C07_execute_conforms hs (by decide) 0
  have hfin : Spec.Final hashDemo (Spec.initial hashDemo 0) (Spec.steps hashDemo 9 (Spec.initial hashDemo 0)) :=
    ⟨(by intro h; cases h), 9, rfl⟩
  cases C07_final_unique hf hfin
  obtain ⟨vm', o', h⟩ := hx Unit noObserver 100002 buf () (by decide)
  exact ⟨vm', _, h, rfl, rfl⟩

-- On a VM that has already run the program (so both caches have an entry for it) and had an option changed, the
-- program runs, and by C31 and C13 as on a new VM without analysis cache and with a clean stack buffer.
example : ∃ vm vm1 vm2 res, Vm.new = .ok vm ∧ VmHistory (fun _ => hashDemo.code) demoKeccak vm1 ∧
    vm1.options.logging = true ∧
    vm1.executeWith (envOf hashDemo) noObserver 100002 hashDemo.code hashDemo.msg CANCUN (fun i => i * 17) 0 () =
      .ok (some (res, 0, vm2, ())) ∧ res.status = .success ∧ res.output.length = 32 ∧
    executeOutcome ((vm.setOption "analysis_cache" "false").2.executeWith (envOf hashDemo) noObserver 100002 hashDemo.code
      hashDemo.msg CANCUN (fun _ => 0) 0 ()) = .ok (some (res, 0)) := by
  obtain ⟨vm, hnew, _, _⟩ := vm_new (fun _ => hashDemo.code) demoKeccak
  obtain ⟨vm0, res0, h0, _, _⟩ := hashDemo_runs (.new hnew) (fun _ => 0)
  have hh : VmHistory (fun _ => hashDemo.code) demoKeccak (vm0.setOption "logging" "true").2 :=
    .setOption _ _ (.execute (.new hnew) hashDemo_env hashDemo_hash h0)
  obtain ⟨vm2, res, h2, h3, h4⟩ := hashDemo_runs hh (fun i => i * 17)
  refine ⟨vm, _, vm2, res, hnew, hh, rfl, h2, h3, h4, ?_⟩
  rw [← C31_execute hashDemo_env hh hashDemo_hash hnew, C13_execute hashDemo_env (history_ok hh) hashDemo_hash _ _ (fun i => i * 17), h2]
  rfl

-- An option that exists, one that does not, and a value that is not understood.
example (cc : Lru.Cache U256 ContractInfo) (sc : Sha3Cache) : (⟨{}, cc, sc⟩ : Vm).setOption "profiling" "true" = (.success, ⟨{ profiling := true }, cc, sc⟩) := rfl
example (vm : Vm) : vm.setOption "Profiling" "true" = (.invalidName, vm) := C32_invalid_name vm _ _ (by decide)
example (vm : Vm) : vm.setOption "profiling" "on" = (.invalidValue, vm) := C32_invalid_value vm _ _ (by decide) (by decide) (by decide)

end Tosca
