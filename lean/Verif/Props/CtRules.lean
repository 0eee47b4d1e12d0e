import Verif.Proofs.CtCover
import Verif.Props.LfvmCt

/-!
# The conformance specification (C75)

The rules of go/ct/spc/specification.go against the EVM of Verif/Spec/Evm; see Spec/GoRules.lean for the states considered and what is expected.
-/

namespace Tosca

open Tosca.Spec Tosca.Spec.Go Tosca.Go Tosca.Proofs Tosca.Model.Go Tosca.Model.Ct

variable {keccak : List Byte → U256} {x : Model.Ct.Fixed} {c : S} {rev : Revision} {r r' : Rule}

/-- C75.  Whatever rule applies, its effect does not panic, and its result is what one step of the reference shows. -/
theorem C75_rules (h : InScope x c) (hr : revisionOf x.revision = some rev) (hm : r ∈ allRules keccak) (ha : r.applies x c = true) :
    ∃ c', r.effect x c = some c' ∧ Expected keccak x c rev c' := by
  obtain ⟨c', e, ha⟩ := Ct.sounds_all r hm x c rev h hr ha
  exact ⟨c', e, Ct.agree_shows h.result ha⟩

/-- C75.  Rules that apply to the same state do not contradict each other. -/
theorem C75_agree (h : InScope x c) (hm : r ∈ allRules keccak) (hm' : r' ∈ allRules keccak) (ha : r.applies x c = true) (ha' : r'.applies x c = true) :
    ∃ c1 c2, r.effect x c = some c1 ∧ r'.effect x c = some c2 ∧ Same x.code c1 c2 := by
  have hr : revisionOf x.revision = some (ISTANBUL + x.revision.toNat) := by
    unfold revisionOf
    rw [if_pos h.revision]
  obtain ⟨c1, e1, h1⟩ := C75_rules h hr hm ha
  obtain ⟨c2, e2, h2⟩ := C75_rules h hr hm' ha'
  exact ⟨c1, c2, e1, e2, Ct.shows_same h1 h2⟩

/-- C75.  The long-form EVM passes every conformance test: after one step it is in a state the tests do not tell apart from the result of the rule. -/
theorem C75_lfvm (h : InScope x c) (hpc : c.pc.toNat ≤ x.code.length) {f : Model.Lfvm.CtFound} (hf : StepFound keccak (toVmParameters keccak x c) f)
    (hm : r ∈ allRules keccak) (ha : r.applies x c = true) :
    ∃ c1 c2, r.effect x c = some c1 ∧ Model.Lfvm.stepN f (ctDb x) ctCall (toVmParameters keccak x c) c 1 = some (c2, none) ∧ Same x.code c1 c2 := by
  have hr : revisionOf x.revision = some (ISTANBUL + x.revision.toNat) := by
    unfold revisionOf
    rw [if_pos h.revision]
  obtain ⟨c1, e1, h1⟩ := C75_rules h hr hm ha
  obtain ⟨c2, e2, h2⟩ := Ct.lfvm_expected h hr hpc hf
  exact ⟨c1, c2, e1, e2, Ct.shows_same h1 h2⟩

/-- C75.  Looking up rules by opcode finds exactly the rules that apply, for every state whatsoever. -/
theorem C75_lookup (keccak : List Byte → U256) (x : Model.Ct.Fixed) (c : S) :
    getRulesFor (allRules keccak) x c = (allRules keccak).filter fun r => r.applies x c := by
  unfold getRulesFor
  rw [List.filter_filter]
  apply List.filter_congr
  intro r hm
  by_cases ha : r.applies x c = true
  · rw [ha, Bool.true_and, decide_eq_true_iff]
    exact Ct.key_ok hm ha
  · rw [Bool.not_eq_true] at ha
    rw [ha]; rfl

/-- C75.  Which states have a rule: all in scope but those of `NoRule`, and those have none. -/
theorem C75_complete (h : InScope x c) : (∃ r ∈ allRules keccak, r.applies x c = true) ↔ ¬ NoRule x c (byteAt x.code c.pc.toNat).toNat := by
  have hr : revisionOf x.revision = some (ISTANBUL + x.revision.toNat) := by
    unfold revisionOf
    rw [if_pos h.revision]
  have hat : Ct.At x c _ _ := ⟨h, hr, Ct.isCode_iff.2 h.pc, rfl⟩
  exact ⟨fun hc hn => Ct.gap_all hat hn hc, Ct.cover_all hat⟩

/-! ### Examples -/

/-- A test: PUSH1 5 PUSH1 0 SSTORE, in Cancun. -/
def ctStore : Model.Ct.Fixed := { revision := 5, code := [0x60, 5, 0x60, 0, 0x55] }

/-- At the SSTORE, with a warm slot holding 7. -/
def ctStoreState : S :=
  { status := .running, pc := 4, gas := 6000, refund := -3, stack := [0, 5, 9], memory := [], lastCallReturnData := [1], returnData := []
    world := { current := fun _ => some 7, original := fun _ => some 7, warmKeys := fun _ => true } }

theorem ctStore_scope : InScope ctStore ctStoreState where
  revision := by decide
  status := rfl
  pc := Ct.isCode_iff.1 (by decide)
  gas := by decide
  memory := rfl
  stack := by decide
  refund := by decide
  code := by decide
  result := rfl
  returned := by decide
  input := by decide
  blockNumber := by decide
  timestamp := by decide
  gasLimit := by decide
  blobHashes := by decide

/-- The results of the rules that apply. -/
def ctResults (x : Model.Ct.Fixed) (c : S) : List (CtStatus × Nat × Int × List Nat × Nat) :=
  ((allRules demoKeccak).filter fun r => r.applies x c).filterMap fun r => (r.effect x c).map fun c =>
    (c.status, c.pc.toNat, c.gas, c.stack.map BitVec.toNat, (c.world.getCurrent 0).toNat)

/-- Exactly one rule applies to it; its effect stores 5, for 2900 gas. -/
example : ctResults ctStore ctStoreState = [(.running, 5, 3100, [9], 5)] := by decide +kernel

/-- A new interpreter may be used. -/
example : StepFound demoKeccak (toVmParameters demoKeccak ctStore ctStoreState) ctFresh := ⟨rfl, fun _ h => (by cases h), fun _ h => (by cases h)⟩

/-- Two rules may apply at once: ADD with too little gas and too small a stack. -/
example : ((allRules demoKeccak).filter fun r => r.applies { ctStore with code := [0x01] } { ctStoreState with pc := 0, gas := 1, stack := [] }).length = 2 := by
  decide +kernel

/-- A state without a rule: the same SSTORE of a slot that was written before, with exactly 2300 gas. -/
def ctGap : S := { ctStoreState with gas := 2300, world := { current := fun _ => some 7, original := fun _ => some 8, warmKeys := fun _ => true } }

example : ¬ NoRule ctStore ctStoreState (byteAt ctStore.code ctStoreState.pc.toNat).toNat := by
  rw [← C75_complete (keccak := demoKeccak) ctStore_scope]
  exact List.any_eq_true.1 (by decide +kernel)

example : NoRule ctStore ctGap (byteAt ctStore.code ctGap.pc.toNat).toNat :=
  .inl ⟨by decide, by decide, 0, 5, [9], rfl, by decide⟩

/-- None of the rules indeed. -/
example : ((allRules demoKeccak).filter fun r => r.applies ctStore ctGap).length = 0 := by decide +kernel

end Tosca
