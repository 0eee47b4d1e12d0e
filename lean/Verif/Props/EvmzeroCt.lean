import Verif.Proofs.EzCt
import Verif.Props.CtRules

/-!
# evmzero in the conformance tests (C76)

The adapters of go/interpreter/evmzero/ct.go and go/interpreter/evmc/evmc_steppable_interpreter.go, with evmzero behind them.
-/

namespace Tosca

open Tosca.Spec Tosca.Spec.Go Tosca.Go Tosca.Proofs Tosca.Model Tosca.Model.Go Tosca.Model.Ct

variable {keccak : List Byte → U256} {x : Model.Ct.Fixed} {c : S} {rev : Revision} {r : Rule} {f : Found World}

/-- C76.  One step of evmzero, through the adapters: it does not crash and gives no error, and the state returned shows the frame of the reference
after one step. -/
theorem C76_stepN (h : InScope x c) (hroom : Room x c) (hr : revisionOf x.revision = some rev) (B : Binding)
    (hf : FoundFor keccak (toVmParameters keccak x c) f) :
    ∃ c', EvmzeroCt.stepN B keccak f (ctDb x) ctCall (toVmParameters keccak x c) c 1 = some (some c', none) ∧ ExpectedHere keccak x c rev c' :=
  Ez.ez_step h hroom hr B hf

theorem known (h : InScope x c) : revisionOf x.revision = some (ISTANBUL + x.revision.toNat) := by
  unfold revisionOf
  rw [if_pos h.revision]

/-- Away from cold slots that are restored, the state is also what the conformance rules expect. -/
theorem C76_expected (h : InScope x c) (hroom : Room x c) (hr : revisionOf x.revision = some rev) (hc : ¬ ColdRestore x c) (B : Binding)
    (hf : FoundFor keccak (toVmParameters keccak x c) f) :
    ∃ c', EvmzeroCt.stepN B keccak f (ctDb x) ctCall (toVmParameters keccak x c) c 1 = some (some c', none) ∧ Expected keccak x c rev c' := by
  obtain ⟨c', e, hs⟩ := C76_stepN h hroom hr B hf
  refine ⟨c', e, ?_⟩
  have hk := Ez.step_kept (R := failures) (keccak := keccak) (rev := rev) h hroom
  rw [Ez.step_test h] at hk
  unfold ExpectedHere at hs
  unfold Expected
  rw [Ez.step_eip h hr hc] at hs hk
  cases ht : (stepEip (testFrame keccak x c rev) (frameState c)).status with
  | failed e =>
    unfold Shows at hs ⊢
    rw [ht] at hs
    dsimp only
    rw [ht]
    exact hs
  | _ =>
    have hi := (hk (by rw [ht]; simp)).2.2
    rw [hi]
    exact hs

/-- C76.  evmzero passes every conformance test it has room for: whatever rule applies to a state, after one step evmzero is in a state the tests do not tell
apart from the result of the rule. -/
theorem C76_rules (h : InScope x c) (hroom : Room x c) (B : Binding) (hf : FoundFor keccak (toVmParameters keccak x c) f) (hm : r ∈ allRules keccak)
    (ha : r.applies x c = true) :
    ∃ c1 c2, r.effect x c = some c1 ∧
      EvmzeroCt.stepN B keccak f (ctDb x) ctCall (toVmParameters keccak x c) c 1 = some (some c2, none) ∧ Same x.code c1 c2 := by
  obtain ⟨c1, e1, h1⟩ := C75_rules h (known h) hm ha
  have hn : ¬ NoRule x c (byteAt x.code c.pc.toNat).toNat := (C75_complete (keccak := keccak) h).1 ⟨r, hm, ha⟩
  obtain ⟨c2, e2, h2⟩ := C76_expected h hroom (known h) (Ez.rule_warm rfl hn) B hf
  exact ⟨c1, c2, e1, e2, Ct.shows_same h1 h2⟩

/-- C76.  evmzero and the long-form EVM do the same in one step, except for the refund of restoring a cold slot. -/
theorem C76_lfvm (h : InScope x c) (hroom : Room x c) (hpc : c.pc.toNat ≤ x.code.length) (B : Binding)
    (hf : FoundFor keccak (toVmParameters keccak x c) f) {g : Model.Lfvm.CtFound} (hg : StepFound keccak (toVmParameters keccak x c) g) :
    ∃ c1 c2, Model.Lfvm.stepN g (ctDb x) ctCall (toVmParameters keccak x c) c 1 = some (c1, none) ∧
      EvmzeroCt.stepN B keccak f (ctDb x) ctCall (toVmParameters keccak x c) c 1 = some (some c2, none) ∧ (Same x.code c1 c2 ↔ ¬ ColdRestore x c) := by
  obtain ⟨c1, e1, h1⟩ := Ct.lfvm_expected h (known h) hpc hg
  by_cases hc : ColdRestore x c
  · obtain ⟨c2, e2, h2⟩ := C76_stepN h hroom (known h) B hf
    refine ⟨c1, c2, e1, e2, fun hs => ?_, fun hn => absurd hc hn⟩
    exfalso
    obtain ⟨hr, he⟩ := Ez.step_cold (keccak := keccak) h (known h) hc
    have hk := (Ez.step_kept (R := failures) (keccak := keccak) (rev := ISTANBUL + x.revision.toNat) h hroom
      (by rw [Ez.step_test h, he]; dsimp only; rw [hr]; simp)).2.2
    rw [Ez.step_test h, he] at hk
    unfold ExpectedHere Shows at h2
    unfold Expected Shows at h1
    rw [he] at h2
    dsimp only at h1 h2 hk
    rw [hr] at h1 h2
    obtain ⟨a1, _, a3, _⟩ := h1
    obtain ⟨_, _, b3, _⟩ := h2
    obtain ⟨_, hs⟩ := hs
    rcases hs with hs | ⟨_, hs, _⟩
    · rw [a1] at hs; cases hs
    · rw [a3, b3] at hs
      clear a3 b3
      generalize (stepEip (testFrame keccak x c (ISTANBUL + x.revision.toNat)) (frameState c)).refund = a at *
      unfold i64 at hk hs
      rw [Int.bmod_def] at hk hs
      omega
  · obtain ⟨c2, e2, h2⟩ := C76_expected h hroom (known h) hc B hf
    exact ⟨c1, c2, e1, e2, fun _ => hc, fun _ => Ct.shows_same h1 h2⟩

/-- C76.  States that are not running, and revisions evmzero does not know, are handed back unchanged. -/
theorem C76_idle (B : Binding) (db : Db World) (call : CallFn World) (p : Parameters) (s : S) (n : Int)
    (h : s.status ≠ .running ∨ 5 < p.block.revision) :
    EvmzeroCt.stepN B keccak f db call p s n = some (some s, if 5 < p.block.revision then some .unsupportedRevision else none) := by
  unfold EvmzeroCt.stepN
  by_cases h5 : p.block.revision > 5
  · rw [if_pos h5, if_pos h5]
  · rw [if_neg h5, if_neg h5, if_pos (h.resolve_right h5)]

/-! ### Examples -/

/-- What a step may find: a new VM. -/
def ctFound (vm : Vm) : Found World := { vm := vm, reenter := fun _ _ s => s, buf := fun _ => 0, fuel := 0 }

example {vm : Vm} (hvm : Vm.new = .ok vm) : FoundFor demoKeccak (toVmParameters demoKeccak ctStore ctStoreState) (ctFound vm) := by
  obtain ⟨vm', h1, h2, _⟩ := vm_new (fun _ => ctStore.code) demoKeccak
  rw [hvm] at h1
  cases h1
  exact ⟨⟨_, h2, fun _ _ _ => rfl⟩, fun _ _ _ h => h⟩

example : InScope ctStore ctStoreState ∧ Room ctStore ctStoreState := ⟨ctStore_scope, by decide, by decide, by decide⟩

/-- A step of evmzero. -/
def evmzeroResults (x : Model.Ct.Fixed) (c : S) : List (CtStatus × Nat × Int × Int × List Nat) :=
  match Vm.new with
  | .ok vm => match EvmzeroCt.stepN demoBinding demoKeccak (ctFound vm) (ctDb x) ctCall (toVmParameters demoKeccak x c) c 1 with
    | some (some c, none) => [(c.status, c.pc.toNat, c.gas, c.refund, c.stack.map BitVec.toNat)]
    | _ => []
  | _ => []

/-- A step of the long-form EVM. -/
def lfvmResults (x : Model.Ct.Fixed) (c : S) : List (CtStatus × Nat × Int × Int × List Nat) :=
  match Model.Lfvm.stepN ctFresh (ctDb x) ctCall (toVmParameters demoKeccak x c) c 1 with
  | some (c, none) => [(c.status, c.pc.toNat, c.gas, c.refund, c.stack.map BitVec.toNat)]
  | _ => []

example : evmzeroResults ctStore ctStoreState = [(.running, 5, 3100, -3, [9])] := by decide +kernel

/-- Restoring a cold slot: evmzero refunds 4900, the long-form EVM 2800. -/
def ctCold : S := { ctStoreState with world := { current := fun _ => some 7, original := fun _ => some 5 } }

example : ColdRestore ctStore ctCold := ⟨by decide, by decide, by decide, by decide, 0, 5, [9], rfl, rfl, by decide, by decide, by decide⟩

example : evmzeroResults ctStore ctCold = [(.running, 5, 3800, 4897, [9])] := by decide +kernel

example : lfvmResults ctStore ctCold = [(.running, 5, 3800, 2797, [9])] := by decide +kernel

/-- Without room: the refund counter overflows in a call, which is undefined behaviour of evmzero; the long-form EVM goes on with a negative counter. -/
def ctFull : S :=
  { ctStoreState with pc := 0, refund := 2 ^ 62, stack := [500, 0, 0, 0, 0, 0, 0], world := { future := [{ gasRefund := 2 ^ 62 }] } }

example : evmzeroResults { ctStore with code := [0xf1] } ctFull = [] := by decide +kernel

example : lfvmResults { ctStore with code := [0xf1] } ctFull = [(.running, 1, 3400, -9223372036854775808, [0])] := by decide +kernel

example : ¬ Room { ctStore with code := [0xf1] } ctFull := fun h => absurd h.call (by decide)

end Tosca
