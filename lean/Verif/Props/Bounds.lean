import Verif.Props.Exec
import Verif.Proofs.Bound

/-!
# Bounds along every run: stack (C12), refunds (C37), memory (C14, C38)
-/

namespace Tosca

open Tosca.Model Tosca.Spec Tosca.Proofs

variable {σ : Type} {P : Params σ} {E : Env σ} {codeOf : U256 → List Byte} {vm : Vm} {x : StepIn σ}

/-- What a `StepN` call returns describes the frame of the specification. -/
theorem returns_describes (h : Setting P E codeOf vm) (hx : InputOk P x) {n : Nat} (hn : n ≤ 2147483646) {res : StepResult} {w' : σ}
    (hr : Returns P E vm x n res w') : Describes P.rev x.stack.length res w' (steps P n (x.frame P)) := by
  obtain ⟨fuel, buf, vm', h1⟩ := hr
  obtain ⟨res2, w2, vm2, h2, _, _, h3, _⟩ := stepN_frame h hx n hn (fuel + (n + 1)) (by omega) buf
  rcases stepN_mono (E := E) fuel (n + 1) vm P.code P.msg P.rev .running x.pc x.refund x.stack x.memory x.ret n buf
    x.world with h4 | h4 | ⟨e, h4⟩
  · rw [h1] at h4; cases h4
  · rw [h1, h2] at h4; cases h4; exact h3
  · rw [h4] at h1; cases h1

theorem failed_or (s : Status) : (∃ f, s = .failed f) ∨ ∀ f, s ≠ .failed f := by
  cases s <;> simp

/-- C12.  No state that `StepN` returns has more than 1024 words on the stack, for any number of steps. -/
theorem C12_stack_bounded (h : Setting P E codeOf vm) (hx : InputOk P x) {n : Nat} (hn : n ≤ 2147483646) {res : StepResult} {w' : σ}
    (hr : Returns P E vm x n res w') : res.stack.length ≤ 1024 := by
  have hd := returns_describes h hx hn hr
  rcases failed_or (steps P n (x.frame P)).status with ⟨f, hf⟩ | hf
  · rw [(hd.failed f hf).2.2.2.2.2.2.2]; exact hx.stack
  · rw [hd.ok hf]
    have := (wf_steps_alive h.params n (inputOk_wf hx h.gas) hf).stack
    show (steps P n (x.frame P)).stack.reverse.length ≤ 1024
    rw [List.length_reverse]
    exact this

/-- C37.  During any number of steps the refund counter moves by at most 199 times the gas used, also if
the execution fails. -/
theorem C37_stepN_refund (h : Setting P E codeOf vm) (hx : InputOk P x) {n : Nat} (hn : n ≤ 2147483646) {res : StepResult} {w' : σ}
    (hr : Returns P E vm x n res w') :
    x.refund - 199 * (P.msg.gas - res.gasLeft) ≤ res.gasRefund ∧ res.gasRefund ≤ x.refund + 199 * (P.msg.gas - res.gasLeft) := by
  have hd := returns_describes h hx hn hr
  have hb := (steps_bound h.params n (inputOk_wf hx h.gas) rfl).1
  have hg := h.gas
  have h1 := hb.hi
  have h2 := hb.lo
  have e1 : (((x.frame P).gas : Nat) : Int) = P.msg.gas := Int.toNat_of_nonneg hg
  have e2 : (x.frame P).refund = x.refund := rfl
  rw [e1, e2] at h1 h2
  have hgr : res.gasRefund = (steps P n (x.frame P)).refund ∧ res.gasLeft = (steps P n (x.frame P)).gas := by
    rcases failed_or (steps P n (x.frame P)).status with ⟨f, hf⟩ | hf
    · have := hd.failed f hf
      exact ⟨this.2.2.2.2.1, by rw [this.2.2.2.1, (hd.lost f hf).1]; rfl⟩
    · rw [hd.ok hf]; exact ⟨rfl, rfl⟩
  rw [hgr.1, hgr.2]
  constructor <;> omega

/-- C37.  The refund that `Execute` reports is at most 199 times the gas used, in absolute value. -/
theorem C37_execute_refund (h : Setting P E codeOf vm) (hg : P.msg.gas ≤ 2 ^ 54) {w w' : σ} {res : EvmcResult}
    (hr : Executes P E vm w res w') :
    -(199 * (P.msg.gas - res.gasLeft)) ≤ res.gasRefund ∧ res.gasRefund ≤ 199 * (P.msg.gas - res.gasLeft) ∧
      -2 ^ 63 < res.gasRefund ∧ res.gasRefund < 2 ^ 63 := by
  obtain ⟨vm', o', h1⟩ := hr Unit noObserver (P.msg.gas.toNat + 2) (fun _ => 0) () (Nat.le_refl _)
  obtain ⟨res2, w2, vm2, o2, h2, _, _, s', hf, _, h4, h5, _⟩ := executeWith_ok h.params h.env h.vm h.hash h.gas hg noObserver
    (P.msg.gas.toNat + 2) (Nat.le_refl _) (fun _ => 0) w ()
  rw [h1] at h2
  cases h2
  obtain ⟨_, n, hn⟩ := hf
  have hb := (steps_bound h.params n (wf_initial w hg) rfl).1
  rw [hn] at hb
  have g1 := hb.hi
  have g2 := hb.lo
  have e1 : (((initial P w).gas : Nat) : Int) = P.msg.gas := Int.toNat_of_nonneg h.gas
  have e2 : (initial P w).refund = 0 := rfl
  rw [e1, e2] at g1 g2
  rw [h4, h5]
  refine ⟨?_, ?_, ?_, ?_⟩ <;> omega

/-- C38, C14.  Unless it failed, every state `StepN` returns has a memory that is at least as large as before, a
multiple of 32 bytes long, and whose growth is paid for by the gas used. -/
theorem C38_stepN_memory (h : Setting P E codeOf vm) (hx : InputOk P x) {n : Nat} (hn : n ≤ 2147483646) {res : StepResult} {w' : σ}
    (hr : Returns P E vm x n res w') (hs : res.stepStatus ≠ .failed) :
    x.memory.length ≤ res.memory.length ∧ res.memory.length % 32 = 0 ∧
    (memGas (res.memory.length / 32) : Int) - memGas (words x.memory.length) ≤ P.msg.gas - res.gasLeft := by
  have hd := returns_describes h hx hn hr
  rcases failed_or (steps P n (x.frame P)).status with ⟨f, hf⟩ | hf
  · exact absurd (hd.failed f hf).1 hs
  have hb := (steps_bound h.params n (inputOk_wf hx h.gas) rfl).2 hf
  have ha := (wf_steps_alive h.params n (inputOk_wf hx h.gas) hf).memAligned
  rw [hd.ok hf]
  have e3 : (resultOf P.rev (steps P n (x.frame P))).memory.length = (steps P n (x.frame P)).mem.size := by
    show (Mem.read _ 0 _).length = _
    unfold Mem.read
    rw [List.length_map, List.length_range]
  have e4 : (x.frame P).mem.size = 32 * words x.memory.length := rfl
  rw [e3]
  show _ ∧ _ ∧ _ ≤ P.msg.gas - ((steps P n (x.frame P)).gas : Int)
  have e1 : (((x.frame P).gas : Nat) : Int) = P.msg.gas := Int.toNat_of_nonneg h.gas
  have h1 := hb.size
  have h2 := hb.pot
  rw [e4] at h1 h2
  rw [words_pad] at h2
  have e5 : words (steps P n (x.frame P)).mem.size = (steps P n (x.frame P)).mem.size / 32 := by
    unfold words; omega
  rw [e5] at h2
  refine ⟨?_, ha, by omega⟩
  have : x.memory.length ≤ 32 * words x.memory.length := by unfold words; omega
  omega

/-- C38.  In a run that starts with empty memory, a memory of `w` words has cost at least
`3 * w + w * w / 512` gas. -/
theorem C38_memory_bounded (h : Setting P E codeOf vm) (hx : InputOk P x) (h0 : x.memory = []) {n : Nat} (hn : n ≤ 2147483646)
    {res : StepResult} {w' : σ} (hr : Returns P E vm x n res w') (hs : res.stepStatus ≠ .failed) (w : Nat)
    (hw : res.memory.length = 32 * w) : (3 * w + w * w / 512 : Nat) ≤ P.msg.gas - res.gasLeft := by
  have := (C38_stepN_memory h hx hn hr hs).2.2
  rw [hw, Nat.mul_div_cancel_left w (by omega), h0] at this
  have e : memGas (words ([] : List Byte).length) = 0 := rfl
  rw [e] at this
  unfold memGas at this
  omega

/-- A call that runs returns. -/
theorem runs_returns {n : Nat} {res : StepResult} {w' : σ} (h : Runs P E vm x n res w') : Returns P E vm x n res w' := by
  obtain ⟨vm', h1⟩ := h (n + 1) (fun _ => 0) (Nat.le_refl _)
  exact ⟨_, _, vm', h1⟩

-- PUSH1 100; MLOAD from an empty memory: the memory has 5 words afterwards (132 bytes rounded up)
example : ∃ vm res, Returns (demo [0x60, 100, 0x51]) (envOf (demo [0x60, 100, 0x51])) vm { world := 0 } 2 res 0 ∧
    res.stepStatus ≠ .failed ∧ res.memory.length = 160 := by
  obtain ⟨vm, h⟩ := demo_setting [0x60, 100, 0x51] (by decide) CANCUN 0
  have hx : InputOk (demo [0x60, 100, 0x51]) { world := 0 } :=
    ⟨by decide, by decide, by decide, by decide, by decide, by decide⟩
  exact ⟨vm, _, runs_returns (runs_of h hx (by omega) (fun f hf => by cases hf)), nofun, rfl⟩

end Tosca
