import Verif.Props.Demo
import Verif.Proofs.Halt

/-!
# Execution as a whole: conformance, termination, absence of undefined behaviour, gas
(C05, C06, C07, C08, C09, C10, C11, C33)
-/

namespace Tosca

open Tosca.Model Tosca.Spec Tosca.Proofs

variable {σ ω : Type} {P : Params σ} {E : Env σ} {codeOf : U256 → List Byte} {vm : Vm} {x : StepIn σ}

/-! ### C06, C05: StepN -/

/-- C06.  `StepN` with step limit `n` returns, and its result describes the frame the
specification reaches after `n` steps (halted frames do not change). -/
theorem C06_stepN_conforms (h : Setting P E codeOf vm) (hx : InputOk P x) (n : Nat) (hn : n ≤ 2147483646)
    (fuel : Nat) (hf : n + 1 ≤ fuel) (buf : Nat → U256) :
    ∃ res w' vm',
      vm.stepN E fuel P.code P.msg P.rev .running x.pc x.refund x.stack x.memory x.ret n buf x.world =
        .ok (some (res, w', vm')) ∧
      Describes P.rev x.stack.length res w' (steps P n (x.frame P)) := by
  obtain ⟨res, w', vm', h1, _, _, h2, _⟩ := stepN_frame h hx n hn fuel hf buf
  exact ⟨res, w', vm', h1, h2⟩

/-- C05.  One `StepN` step is one step of the specification. -/
theorem C05_one_step (h : Setting P E codeOf vm) (hx : InputOk P x) (fuel : Nat) (hf : 2 ≤ fuel) (buf : Nat → U256) :
    ∃ res w' vm',
      vm.stepN E fuel P.code P.msg P.rev .running x.pc x.refund x.stack x.memory x.ret 1 buf x.world =
        .ok (some (res, w', vm')) ∧
      Describes P.rev x.stack.length res w' (step P (x.frame P)) :=
  C06_stepN_conforms h hx 1 (by omega) fuel hf buf

/-- C05, not failing: everything the result reports is what the specification defines. -/
theorem C05_one_step_exact (h : Setting P E codeOf vm) (hx : InputOk P x)
    (ha : ∀ f, (step P (x.frame P)).status ≠ .failed f) :
    Runs P E vm x 1 (resultOf P.rev (step P (x.frame P))) (step P (x.frame P)).host :=
  runs_step h hx rfl ha

/-- C05, failing: the reported reason is the one of the specification. -/
theorem C05_one_step_failing (h : Setting P E codeOf vm) (hx : InputOk P x) (f : Failure)
    (ha : (step P (x.frame P)).status = .failed f) :
    Fails P E vm x 1 (failureCode f) (step P (x.frame P)).refund (step P (x.frame P)).host :=
  fails_step h hx rfl ha

-- PUSH1 5; ADD on the stack [1, 2]: the hypotheses hold and neither step fails
example : ∃ vm, Setting (demo [0x60, 5, 0x01]) (envOf (demo [0x60, 5, 0x01])) (fun _ => []) vm ∧
    InputOk (demo [0x60, 5, 0x01]) (demoIn [1, 2]) := by
  obtain ⟨vm, h⟩ := demo_setting [0x60, 5, 0x01] (by decide) CANCUN 0
  exact ⟨vm, h, demoIn_ok _ _ _ _ _ (by decide) (by decide)⟩

/-! ### C07: Execute -/

/-- C07.  `Execute` returns the status code, gas, refund, output and host state of the final state
of the specification's run, whatever observer is attached and whatever the stack buffer holds. -/
theorem C07_execute_conforms (h : Setting P E codeOf vm) (hg : P.msg.gas ≤ 2 ^ 54) (w : σ) :
    ∃ s', Final P (initial P w) s' ∧
      Executes P E vm w
        { status := statusCode s'.status, gasLeft := s'.gas, gasRefund := s'.refund, output := s'.ret } s'.host := by
  obtain ⟨_, _, _, _, _, _, _, s', hs, _⟩ := executeWith_ok h.params h.env h.vm h.hash h.gas hg noObserver
    (P.msg.gas.toNat + 2) (Nat.le_refl _) (fun _ => 0) w ()
  refine ⟨s', hs, ?_⟩
  intro ω obs fuel buf o hf
  obtain ⟨res, w', vm', o', h1, _, _, s2, hs2, h2, h3, h4, h5, h6⟩ := executeWith_ok h.params h.env h.vm h.hash h.gas hg
    obs fuel hf buf w o
  have e := final_unique hs hs2
  subst e
  refine ⟨vm', o', ?_⟩
  rw [h1, h6]
  obtain ⟨a, b, c, d⟩ := res
  simp only at h2 h3 h4 h5
  subst h2 h3 h4 h5
  rfl

/-- C07.  The final state is unique, so the result of `Execute` is the only possible one. -/
theorem C07_final_unique {s a b : State σ} (ha : Final P s a) (hb : Final P s b) : a = b := final_unique ha hb

example : ∃ vm, Setting (demo [0x60, 5, 0x60, 0, 0x52, 0x60, 32, 0x60, 0, 0xf3])
    (envOf (demo [0x60, 5, 0x60, 0, 0x52, 0x60, 32, 0x60, 0, 0xf3])) (fun _ => []) vm ∧
    (demo [0x60, 5, 0x60, 0, 0x52, 0x60, 32, 0x60, 0, 0xf3]).msg.gas ≤ 2 ^ 54 := by
  obtain ⟨vm, h⟩ := demo_setting [0x60, 5, 0x60, 0, 0x52, 0x60, 32, 0x60, 0, 0xf3] (by decide) CANCUN 0
  exact ⟨vm, h, by decide⟩

/-! ### C08: termination -/

/-- C08.  `Execute` returns after dispatching at most `gas + 1` instructions (the `counter` observer
counts them), for every code. -/
theorem C08_execute_terminates (h : Setting P E codeOf vm) (hg : P.msg.gas ≤ 2 ^ 54) (w : σ) (buf : Nat → U256)
    (fuel : Nat) (hf : P.msg.gas.toNat + 2 ≤ fuel) :
    ∃ res w' vm' count, vm.executeWith E counter fuel P.code P.msg P.rev buf w 0 = .ok (some (res, w', vm', count)) ∧
      count ≤ P.msg.gas.toNat + 1 := by
  obtain ⟨res, w', vm', o', h1, _⟩ := executeWith_ok h.params h.env h.vm h.hash h.gas hg counter
    (P.msg.gas.toNat + 2) (Nat.le_refl _) buf w 0
  refine ⟨res, w', vm', o', ?_, ?_⟩
  · obtain ⟨k, rfl⟩ : ∃ k, fuel = P.msg.gas.toNat + 2 + k := ⟨fuel - (P.msg.gas.toNat + 2), by omega⟩
    rcases executeWith_mono (E := E) counter (P.msg.gas.toNat + 2) k vm P.code P.msg P.rev buf w 0 with h2 | h2
    · rw [h1] at h2; cases h2
    · rw [h2, h1]
  · obtain ⟨_, _, _, _, oL, _, hlo, _, _, _, ho⟩ := executeWith_inv h1
    have := loop_count _ hlo
    rw [ho]
    show oL ≤ _
    have h0 : (counter (σ := σ)).preRun P.msg 0 = 0 := rfl
    rw [h0] at this
    omega

/-- C08.  The same for the specification: a frame halts within `gas + 1` instructions. -/
theorem C08_specification_halts (hP : ParamsOk P) (hg : P.msg.gas ≤ 2 ^ 54) (w : σ) :
    (steps P (P.msg.gas.toNat + 1) (initial P w)).status ≠ .running :=
  halts_bound hP _ (wf_initial w hg) (Nat.le_refl _)

-- an endless loop: JUMPDEST; PUSH1 0; JUMP
example : ∃ vm, Setting (demo [0x5b, 0x60, 0, 0x56]) (envOf (demo [0x5b, 0x60, 0, 0x56])) (fun _ => []) vm := by
  exact demo_setting _ (by decide) CANCUN 0

/-! ### C09: no undefined behaviour -/

/-- C09.  `Execute` hits no undefined behaviour, at any point of the run (`fuel` cuts the run off
at any number of instructions), with any observer. -/
theorem C09_execute_no_ub (h : Setting P E codeOf vm) (hg : P.msg.gas ≤ 2 ^ 54) (obs : Observer σ ω) (fuel : Nat)
    (buf : Nat → U256) (w : σ) (o : ω) :
    ∃ r, vm.executeWith E obs fuel P.code P.msg P.rev buf w o = .ok r := by
  obtain ⟨res, w', vm', o', h1, _⟩ := executeWith_ok h.params h.env h.vm h.hash h.gas hg obs
    (fuel + (P.msg.gas.toNat + 2)) (by omega) buf w o
  rcases executeWith_mono (E := E) obs fuel (P.msg.gas.toNat + 2) vm P.code P.msg P.rev buf w o with h2 | h2
  · exact ⟨_, h2⟩
  · exact ⟨_, by rw [← h2, h1]⟩

/-- C09.  `StepN` from a running state hits no undefined behaviour, at any point of the run. -/
theorem C09_stepN_no_ub (h : Setting P E codeOf vm) (hx : InputOk P x) (n : Nat) (hn : n ≤ 2147483646) (fuel : Nat)
    (buf : Nat → U256) :
    ∃ r, vm.stepN E fuel P.code P.msg P.rev .running x.pc x.refund x.stack x.memory x.ret n buf x.world = .ok r := by
  obtain ⟨res, w', vm', h1, _⟩ := stepN_frame h hx n hn (fuel + (n + 1)) (by omega) buf
  rcases stepN_mono (E := E) fuel (n + 1) vm P.code P.msg P.rev .running x.pc x.refund x.stack x.memory x.ret n buf
    x.world with h2 | h2 | ⟨e, h2⟩
  · exact ⟨_, h2⟩
  · exact ⟨_, by rw [← h2, h1]⟩
  · rw [h2] at h1; cases h1

/-! ### C10, C11: gas and output, for every host -/

/-- C10.  The gas `Execute` reports is between zero and the gas of the message, for every host
(even one that breaks the EVMC contract), code, option setting and observer. -/
theorem C10_execute_gas {obs : Observer σ ω} {fuel : Nat} {vm vm' : Vm} {code : List Byte} {msg : Message}
    {rev : Revision} {buf : Nat → U256} {w w' : σ} {o o' : ω} {res : EvmcResult} (hg : 0 ≤ msg.gas)
    (h : vm.executeWith E obs fuel code msg rev buf w o = .ok (some (res, w', vm', o'))) :
    0 ≤ res.gasLeft ∧ res.gasLeft ≤ msg.gas :=
  ⟨(executeWith_gas hg h).1, (executeWith_gas hg h).2.1⟩

/-- C10.  No instruction, and no sequence of instructions, increases the available gas, for every
host: the gas after `StepN` with any step limit is between zero and the gas before. -/
theorem C10_stepN_gas {fuel : Nat} {vm vm' : Vm} {code : List Byte} {msg : Message} {rev : Revision}
    {status : StepStatus} {pc : Nat} {refund : Int} {stack : List U256} {memory ret : List Byte} {n : Int}
    {buf : Nat → U256} {w w' : σ} {res : StepResult} (hg : 0 ≤ msg.gas)
    (h : vm.stepN E fuel code msg rev status pc refund stack memory ret n buf w = .ok (some (res, w', vm'))) :
    0 ≤ res.gasLeft ∧ res.gasLeft ≤ msg.gas :=
  ⟨(stepN_gas hg h).1, (stepN_gas hg h).2.1⟩

/-- C11.  If `Execute` reports neither success nor revert, there is no gas left and no output, for
every host. -/
theorem C11_execute_failure {obs : Observer σ ω} {fuel : Nat} {vm vm' : Vm} {code : List Byte} {msg : Message}
    {rev : Revision} {buf : Nat → U256} {w w' : σ} {o o' : ω} {res : EvmcResult} (hg : 0 ≤ msg.gas)
    (h : vm.executeWith E obs fuel code msg rev buf w o = .ok (some (res, w', vm', o')))
    (hs : res.status ≠ .success) (hr : res.status ≠ .revert) : res.gasLeft = 0 ∧ res.output = [] :=
  (executeWith_gas hg h).2.2 hs hr

/-- C11.  If `StepN` reports a failed state, there is no gas left and no return data, for every host. -/
theorem C11_stepN_failure {fuel : Nat} {vm vm' : Vm} {code : List Byte} {msg : Message} {rev : Revision}
    {status : StepStatus} {pc : Nat} {refund : Int} {stack : List U256} {memory ret : List Byte} {n : Int}
    {buf : Nat → U256} {w w' : σ} {res : StepResult} (hg : 0 ≤ msg.gas)
    (h : vm.stepN E fuel code msg rev status pc refund stack memory ret n buf w = .ok (some (res, w', vm')))
    (hs : res.stepStatus = .failed) : res.gasLeft = 0 ∧ res.output = [] ∧ res.lastCallReturnData = [] :=
  (stepN_gas hg h).2.2 hs

/-- C11.  Output comes from RETURN and REVERT only, for every host: if `Execute` reports output, then
the last instruction it dispatched (which the `lastOp` observer remembers) was one of these; the
status REVERT comes from REVERT only. -/
theorem C11_output_from_return {fuel : Nat} {vm vm' : Vm} {code : List Byte} {msg : Message}
    {rev : Revision} {buf : Nat → U256} {w w' : σ} {last : Option OpCode} {res : EvmcResult}
    (h : vm.executeWith E lastOp fuel code msg rev buf w none = .ok (some (res, w', vm', last))) :
    (res.output ≠ [] → last = some .RETURN ∨ last = some .REVERT) ∧ (res.status = .revert → last = some .REVERT) :=
  output_last h

/-- C11.  A `StepN` result that is stopped reports no return data, for every host. -/
theorem C11_stopped_no_output {fuel : Nat} {vm vm' : Vm} {code : List Byte} {msg : Message} {rev : Revision}
    {status : StepStatus} {pc : Nat} {refund : Int} {stack : List U256} {memory ret : List Byte} {n : Int}
    {buf : Nat → U256} {w w' : σ} {res : StepResult}
    (h : vm.stepN E fuel code msg rev status pc refund stack memory ret n buf w = .ok (some (res, w', vm')))
    (hs : res.stepStatus = .stopped) : res.output = [] ∧ res.lastCallReturnData = [] := by
  obtain ⟨info, vm1, l, c, c0, _, _, _, _, h1, _, _, _, h5, h6, _⟩ := stepN_inv h
  rw [h1] at hs
  have hl : l.state = .done := by
    cases hst : l.state <;> rw [hst] at hs <;> simp [toEvmcStepStatusCode] at hs
  have hr : (epilogue true l c).returnData = [] := by
    show (if l.state ≠ .ret ∧ l.state ≠ .revert ∧ l.state ≠ .running then [] else c.returnData) = []
    rw [hl]
    simp
  rw [h5, h6]
  exact ⟨hr, hr⟩

/-- The result of `Execute` can be read off a finite run of the specification. -/
theorem execute_of_steps (h : Setting P E codeOf vm) (hg : P.msg.gas ≤ 2 ^ 54) (w : σ) (n : Nat) (s' : State σ)
    (hs : steps P n (initial P w) = s') (hr : s'.status ≠ .running) :
    Executes P E vm w
      { status := statusCode s'.status, gasLeft := s'.gas, gasRefund := s'.refund, output := s'.ret } s'.host := by
  obtain ⟨s2, h1, h2⟩ := C07_execute_conforms h hg w
  have e := final_unique h1 ⟨hr, n, hs⟩
  subst e
  exact h2

-- a failing run (INVALID), and a run with output (PUSH1 42; PUSH1 0; MSTORE8; PUSH1 1; PUSH1 0; RETURN)
example : ∃ vm, Executes (demo [0xfe]) (envOf (demo [0xfe])) vm 0
    { status := .invalidInstruction, gasLeft := 0, gasRefund := 0, output := [] } 0 := by
  obtain ⟨vm, h⟩ := demo_setting [0xfe] (by decide) CANCUN 0
  exact ⟨vm, execute_of_steps h (by decide) 0 1 _ rfl (by intro h; cases h)⟩

example : ∃ vm, Executes (demo [0x60, 42, 0x60, 0, 0x53, 0x60, 1, 0x60, 0, 0xf3])
    (envOf (demo [0x60, 42, 0x60, 0, 0x53, 0x60, 1, 0x60, 0, 0xf3])) vm 0
    { status := .success, gasLeft := 99982, gasRefund := 0, output := [42] } 0 := by
  obtain ⟨vm, h⟩ := demo_setting [0x60, 42, 0x60, 0, 0x53, 0x60, 1, 0x60, 0, 0xf3] (by decide) CANCUN 0
  exact ⟨vm, execute_of_steps h (by decide) 0 6 _ rfl (by intro h; cases h)⟩

/-! ### C33: status codes -/

/-- C33.  `Execute` reports success iff the program stopped or returned, REVERT iff it reverted. -/
theorem C33_status_codes (h : Setting P E codeOf vm) (hg : P.msg.gas ≤ 2 ^ 54) (w : σ) :
    ∃ s' res, Final P (initial P w) s' ∧ Executes P E vm w res s'.host ∧
      (res.status = .success ↔ s'.status = .stopped ∨ s'.status = .returned) ∧
      (res.status = .revert ↔ s'.status = .reverted) ∧
      (∀ f, s'.status = .failed f → res.status = failureCode f) := by
  obtain ⟨s', h1, h2⟩ := C07_execute_conforms h hg w
  refine ⟨s', _, h1, h2, ?_, ?_, ?_⟩
  · cases hs : s'.status with
    | failed f => cases f <;> simp [statusCode, failureCode]
    | _ => simp [statusCode]
  · cases hs : s'.status with
    | failed f => cases f <;> simp [statusCode, failureCode]
    | _ => simp [statusCode]
  · intro f hs
    rw [hs]; rfl

/-- C33.  No failure is reported as success or revert, and different failures have different codes,
except that exceeding the creation depth and the init code limit are both reported as FAILURE. -/
theorem C33_failure_codes (f g : Failure) :
    failureCode f ≠ .success ∧ failureCode f ≠ .revert ∧
    (failureCode f = failureCode g →
      f = g ∨ (f ∈ [.createDepthExceeded, .initCodeTooLarge] ∧ g ∈ [.createDepthExceeded, .initCodeTooLarge])) := by
  cases f <;> cases g <;> simp [failureCode]

/-- C33.  Step status codes survive the round trip through `StepN` with no steps to do; values outside
the enumeration are reported as failed. -/
theorem C33_step_status_round_trip (h : VmOk codeOf P.keccak vm) (hh : HashOk codeOf P.msg P.code) (status : StepStatus)
    (hs : x.stack.length ≤ 1024) (hm : x.memory.length < 2 ^ 64 - 31) (fuel : Nat) (hf : 1 ≤ fuel) (buf : Nat → U256) :
    ∃ res vm', vm.stepN E fuel P.code P.msg P.rev status x.pc x.refund x.stack x.memory x.ret 0 buf x.world =
        .ok (some (res, x.world, vm')) ∧
      (status ≠ .other → res.stepStatus = status) ∧ (status = .other → res.stepStatus = .failed) := by
  obtain ⟨vm', h1, _⟩ := stepN_idle E P.rev h hh status x.pc x.refund x.stack x.memory x.ret 0 (fun _ => by omega) hs hm fuel hf
    buf x.world
  refine ⟨_, vm', h1, ?_, ?_⟩
  · intro hs; exact if_neg hs
  · intro hs; exact if_pos hs

example : failureCode .outOfGas = .outOfGas ∧ failureCode .stackUnderflow = .stackUnderflow := ⟨rfl, rfl⟩

end Tosca
