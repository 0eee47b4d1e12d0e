import Verif.Proofs.LfvmCt
import Verif.Props.Lfvm

/-!
# The long-form EVM under the conformance tests (C74)

A test state stands for a frame of the reference (`frameState`), and shows such a frame (`Shows`): see Spec/GoStep.lean.
-/

namespace Tosca

open Tosca.Spec Tosca.Spec.Go Tosca.Go Tosca.Proofs Tosca.Model.Go

variable {ω : Type} {keccak : List Byte → U256} {db : Db ω} {call : CallFn ω} {p : Parameters} {f : Model.Lfvm.CtFound} {c : CtState ω} {rev : Revision}

/-- C74.  A single step is exactly one step of the reference. -/
theorem C74_step (h : StepSetting keccak db call p f c) (hrev : revisionOf p.block.revision = some rev) :
    ∃ c', Model.Lfvm.stepN f db call p c 1 = some (c', none) ∧ Shows p.code c c' (stepEip (nativeFrame keccak db call p rev) (frameState c)) := by
  obtain ⟨m, c', h1, h2, e, hs, _⟩ := Lfvm.stepN_ok h hrev 1 (Lfvm.stands_frame p.code h.gas.1) (Lfvm.frame_wf rev h)
  have : m = 1 := by omega
  subst this
  exact ⟨c', e, hs⟩

/-- C74.  `n` steps are at most `n` steps of the reference, and at least half as many: inserted jumps count as steps. -/
theorem C74_steps (h : StepSetting keccak db call p f c) (hrev : revisionOf p.block.revision = some rev) (n : Nat) :
    ∃ m c', m ≤ n ∧ n ≤ 2 * m ∧ Model.Lfvm.stepN f db call p c n = some (c', none) ∧
      Shows p.code c c' (stepsEip (nativeFrame keccak db call p rev) m (frameState c)) := by
  obtain ⟨m, c', h1, h2, e, hs, _⟩ := Lfvm.stepN_ok h hrev n (Lfvm.stands_frame p.code h.gas.1) (Lfvm.frame_wf rev h)
  exact ⟨m, c', h1, h2, e, hs⟩

/-- C74.  Single steps, one after the other, follow the reference for any number of steps; what the caches hold in between does not matter. -/
theorem C74_walk (h : StepSetting keccak db call p f c) (hrev : revisionOf p.block.revision = some rev) (fs : List Model.Lfvm.CtFound)
    (hf : ∀ g ∈ fs, StepFound keccak p g) (hne : fs ≠ []) :
    ∃ c', walk db call p fs c = some c' ∧ Shows p.code c c' (stepsEip (nativeFrame keccak db call p rev) fs.length (frameState c)) :=
  Lfvm.walk_ok hrev fs hf h (Lfvm.stands_frame p.code h.gas.1) (Lfvm.frame_wf rev h)
    (h.pc.elim (fun e => .inl (Nat.le_of_eq e.symm)) fun e => .inr e.1) (.inr hne)

/-- C74.  Ended states and states of revisions the interpreter does not know are returned unchanged, the latter with an error. -/
theorem C74_unchanged (f : Model.Lfvm.CtFound) (db : Db ω) (call : CallFn ω) (p : Parameters) (c : CtState ω) (n : Nat) :
    (p.block.revision ≤ 5 → c.status ≠ .running → Model.Lfvm.stepN f db call p c n = some (c, none)) ∧
    (5 < p.block.revision → Model.Lfvm.stepN f db call p c n = some (c, some .unsupportedRevision)) := by
  unfold Model.Lfvm.stepN
  exact ⟨fun h1 h2 => by rw [if_neg (by omega), if_pos h2], fun h => by rw [if_pos h]⟩

/-- C74.  The map of program counters: it exists for all code up to 48 KiB, and every instruction and the end of the code is mapped to a position that
is mapped back to it. -/
theorem C74_pcmap {code : List Byte} (h : code.length ≤ 49152) :
    ∃ m, Model.Lfvm.genPcMap code = some m ∧ ∀ q, q = code.length ∨ (Boundary code q ∧ q < code.length) →
      ∃ p, m.evmToLfvm[q]? = some p ∧ m.lfvmToEvm[p.toNat]? = some (BitVec.ofNat 16 q) := by
  obtain ⟨C, m, _, e, _, _, hm⟩ := Lfvm.genPcMap_ok h
  refine ⟨m, e, fun q hq => ?_⟩
  obtain ⟨p, h1, h2, h3, _⟩ := hm.there q hq
  refine ⟨_, h1, ?_⟩
  rw [BitVec.toNat_ofNat, Nat.mod_eq_of_lt h3, hm.back p q h2, Nat.min_eq_left (by omega)]

/-! ### Examples -/

/-- A new interpreter. -/
def ctFresh : Model.Lfvm.CtFound := { cached := none, map := none, data := fun i => BitVec.ofNat 256 (i + 77), hash := demoKeccak }

/-- One that knows the code. -/
def ctUsed (code : List Byte) : Model.Lfvm.CtFound :=
  { cached := Model.Lfvm.convert code false, map := Model.Lfvm.genPcMap code, data := fun _ => 3, hash := demoKeccak }

theorem ctUsed_ok (p : Parameters) : StepFound demoKeccak p (ctUsed p.code) := ⟨rfl, fun _ h => h, fun _ h => h⟩

/-- The state before SSTORE of the loop of `lfvmLoop`, in the middle of things. -/
def ctLoop : CtState DemoWorld :=
  { status := .running, pc := 5, gas := 5000, refund := 7, stack := [2, 2, 2, 99], memory := [1, 2, 3], lastCallReturnData := [4], returnData := [5], world := {} }

theorem ctLoop_setting {f : Model.Lfvm.CtFound} (hf : StepFound demoKeccak lfvmLoop f) :
    StepSetting demoKeccak smallDb (fun _ _ w => (.ok {}, w)) lfvmLoop f ctLoop where
  call := (lfvmLoop_setting (lfvmFresh_ok _)).call
  access := small_access
  lengths := small_lengths
  run := (lfvmLoop_setting (lfvmFresh_ok _)).run
  input := by show 0 < 2 ^ 63; omega
  code := by show 23 ≤ 49152; omega
  revision := by show (0 : Int) ≤ 5 ∧ (5 : Int) ≤ 5; omega
  status := rfl
  pc := by
    refine .inr ⟨?_, by decide⟩
    have h0 : Boundary lfvmLoop.code 0 := .zero
    have h2 : Boundary lfvmLoop.code 2 := .next (i := .push 1) h0 (by decide) (by decide)
    have h3 : Boundary lfvmLoop.code 3 := .next (i := .jumpdest) h2 (by decide) (by decide)
    have h4 : Boundary lfvmLoop.code 4 := .next (i := .dup 1) h3 (by decide) (by decide)
    exact .next (i := .dup 1) h4 (by decide) (by decide)
  gas := by decide
  refund := by decide
  stack := by decide
  returned := by decide
  found := hf

/-- The hypotheses of C74 are met by this state, on a new interpreter and on one that knows the code. -/
example : StepSetting demoKeccak smallDb (fun _ _ w => (.ok {}, w)) lfvmLoop ctFresh ctLoop ∧
    StepSetting demoKeccak smallDb (fun _ _ w => (.ok {}, w)) lfvmLoop (ctUsed lfvmLoop.code) ctLoop :=
  ⟨ctLoop_setting ⟨rfl, fun _ h => (by cases h), fun _ h => (by cases h)⟩, ctLoop_setting (ctUsed_ok _)⟩

/-- A computable view of a stepped state. -/
def ctView (x : Option (CtState DemoWorld × Option Err)) : Option (CtStatus × Nat × Int × List Nat × Nat) :=
  x.map fun x => (x.1.status, x.1.pc.toNat, x.1.gas, x.1.stack.map BitVec.toNat, x.1.memory.length)

/-- Two steps: SSTORE (not enough gas for the first write of the slot) fails; with more gas, the value is stored and 1 is pushed. -/
example : (ctView (Model.Lfvm.stepN ctFresh smallDb (fun _ _ w => (.ok {}, w)) lfvmLoop ctLoop 2)).map (·.1) = some .failed ∧
    ctView (Model.Lfvm.stepN ctFresh smallDb (fun _ _ w => (.ok {}, w)) lfvmLoop { ctLoop with gas := 50000 } 2) =
      some (.running, 8, 50000 - 22100 - 3, [1, 2, 99], 32) := by
  decide +kernel

/-- The loop from its start. -/
def ctStart : CtState DemoWorld := { ctLoop with pc := 0 }

/-- Steps from the start of the loop. -/
def ctSteps (n : Nat) : Option (CtStatus × Nat × Int × List Nat × Nat) :=
  ctView (Model.Lfvm.stepN ctFresh smallDb (fun _ _ w => (.ok {}, w)) lfvmLoop ctStart n)

/-- The number of steps is not the number of instructions: two steps from the start of the loop execute PUSH1 only, since the inserted jump to the
JUMPDEST counts. -/
example : ctSteps 1 = some (.running, 2, 4997, [3, 2, 2, 2, 99], 32) ∧ ctSteps 2 = some (.running, 2, 4997, [3, 2, 2, 2, 99], 32) ∧
    ctSteps 3 = some (.running, 3, 4996, [3, 2, 2, 2, 99], 32) :=
  ⟨by decide +kernel, by decide +kernel, by decide +kernel⟩

/-- The map of that code: the offsets of the JUMPDEST are the same on both sides, both positions before it are the same instruction or lead to it. -/
example : (Model.Lfvm.genPcMap [0x60, 3, 0x5b, 0x61, 7, 7, 0x50]).map (fun m => (m.evmToLfvm.map BitVec.toNat, m.lfvmToEvm.map BitVec.toNat)) =
    some ([0, 0, 2, 3, 0, 0, 4, 5], [0, 2, 2, 3, 6, 7, 0, 0]) := by
  decide +kernel

end Tosca
