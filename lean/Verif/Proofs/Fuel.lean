import Verif.Proofs.AnyHost

/-!
# Fuel: the bound on the interpreter loop of the model
-/

namespace Tosca.Proofs

open Tosca.Model Tosca.Spec

variable {σ ω : Type} {E : Env σ}

/-- More fuel does not change a result, nor an error. -/
theorem loop_mono (obs : Observer σ ω) (stepping : Bool) (n : Int) (k : Nat) (fuel : Nat) :
    ∀ (e : Int) (l : Loc) (c : Ctx σ) (o : ω),
    loop E obs stepping n fuel e l c o = .ok none ∨
    loop E obs stepping n (fuel + k) e l c o = loop E obs stepping n fuel e l c o := by
  induction fuel with
  | zero => intro e l c o; exact .inl rfl
  | succ fuel ih =>
    intro e l c o
    rw [show fuel + 1 + k = (fuel + k) + 1 by omega, loop_succ, loop_succ]
    cases (if stepping = true then chk32 (e + 1) else .ok e : M Int) with
    | error err => exact .inr rfl
    | ok next =>
      dsimp only
      by_cases h1 : stepping = true ∧ e ≥ n
      · simp only [if_pos h1]; exact .inr trivial
      · simp only [if_neg h1]
        by_cases h2 : l.state = .running
        · simp only [if_pos h2]
          cases execOne E obs stepping l c o with
          | error err => exact .inr rfl
          | ok r => exact ih _ _ _ _
        · simp only [if_neg h2]; exact .inr trivial

theorem runInterpreter_mono (obs : Observer σ ω) (stepping : Bool) (n : Int) (fuel k : Nat) (c : Ctx σ) (o : ω) :
    runInterpreter E obs stepping n fuel c o = .ok none ∨
    runInterpreter E obs stepping n (fuel + k) c o = runInterpreter E obs stepping n fuel c o := by
  rw [runInterpreter_eq, runInterpreter_eq]
  rcases loop_mono (E := E) obs stepping n k fuel 0 (startLoc stepping c) c o with h | h
  · rw [h]; exact .inl rfl
  · rw [h]; exact .inr rfl

/-- `Execute`: more fuel does not change a result, nor an error. -/
theorem executeWith_mono (obs : Observer σ ω) (fuel k : Nat) (vm : Vm) (code : List Byte) (msg : Message)
    (rev : Revision) (buf : Nat → U256) (w : σ) (o : ω) :
    vm.executeWith E obs fuel code msg rev buf w o = .ok none ∨
    vm.executeWith E obs (fuel + k) code msg rev buf w o = vm.executeWith E obs fuel code msg rev buf w o := by
  unfold Vm.executeWith interpret
  simp only [bind, Except.bind, pure, Except.pure]
  cases hl : vm.lookupCode msg code with
  | error e => exact .inr rfl
  | ok p =>
    obtain ⟨info, vm1⟩ := p
    dsimp only
    rcases runInterpreter_mono (E := E) obs false (-1) fuel k (initialCtx (vm1.args info msg rev) buf w)
      (obs.preRun (vm1.args info msg rev).message o) with h | h
    · rw [h]; exact .inl rfl
    · rw [h]; exact .inr rfl

/-- `StepN`: more fuel does not change a result, nor an error. -/
theorem stepN_mono (fuel k : Nat) (vm : Vm) (code : List Byte) (msg : Message) (rev : Revision) (status : StepStatus)
    (pc : Nat) (refund : Int) (stack : List U256) (memory ret : List Byte) (n : Int) (buf : Nat → U256) (w : σ) :
    vm.stepN E fuel code msg rev status pc refund stack memory ret n buf w = .ok none ∨
    vm.stepN E (fuel + k) code msg rev status pc refund stack memory ret n buf w =
      vm.stepN E fuel code msg rev status pc refund stack memory ret n buf w ∨
    (∃ e, ∀ fuel, vm.stepN E fuel code msg rev status pc refund stack memory ret n buf w = .error e) := by
  unfold Vm.stepN
  simp only [bind, Except.bind, pure, Except.pure]
  cases hl : vm.lookupCode msg code with
  | error e => exact .inr (.inr ⟨e, fun _ => rfl⟩)
  | ok p =>
    obtain ⟨info, vm1⟩ := p
    dsimp only
    cases hp : Stack.pushAll { buf := buf } stack with
    | error e => exact .inr (.inr ⟨e, fun _ => rfl⟩)
    | ok conv =>
      dsimp only
      unfold interpretNSteps
      simp only [bind, Except.bind, pure, Except.pure]
      generalize hc0 : steppingCtx (σ := σ) _ w = c0
      rcases runInterpreter_mono (E := E) noObserver true (if status = .running then n else 0) fuel k c0 () with h | h
      · rw [h]; exact .inl rfl
      · rw [h]; exact .inr (.inl rfl)

theorem execOne_count {stepping : Bool} {l l' : Loc} {c c' : Ctx σ} {o o' : Nat}
    (h : execOne E counter stepping l c o = .ok (l', c', o')) : o' = o + 1 := by
  unfold execOne at h
  simp only [bind, Except.bind, pure, Except.pure] at h
  split at h
  · cases h
  · split at h
    · cases h
    · injection h with h
      injection h with _ h
      injection h with _ h
      exact h.symm

theorem loop_count {stepping : Bool} {n : Int} (fuel : Nat) : ∀ {e : Int} {l l' : Loc} {c c' : Ctx σ} {o o' : Nat},
    loop E counter stepping n fuel e l c o = .ok (some (l', c', o')) → o' + 1 ≤ o + fuel := by
  induction fuel with
  | zero => intro e l l' c c' o o' h; simp [loop] at h
  | succ fuel ih =>
    intro e l l' c c' o o' h
    rw [loop_succ] at h
    split at h
    · cases h
    · split at h
      · cases h; omega
      · split at h
        · split at h
          · cases h
          · rename_i l1 c1 o1 hr
            have h1 := execOne_count hr
            have h2 := ih h
            omega
        · cases h; omega

end Tosca.Proofs
