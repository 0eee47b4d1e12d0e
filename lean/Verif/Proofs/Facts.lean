import Verif.Proofs.Vm

/-!
# Further facts about the specification and the entry points
-/

namespace Tosca.Proofs

open Tosca.Model Tosca.Spec

variable {σ ω : Type} {P : Params σ} {E : Env σ}

/-- A frame has at most one final state. -/
theorem final_unique {s a b : State σ} (ha : Final P s a) (hb : Final P s b) : a = b := by
  obtain ⟨ha, n, hn⟩ := ha
  obtain ⟨hb, m, hm⟩ := hb
  have h1 : steps P (n + m) s = a := by rw [steps_add, hn, steps_halted ha]
  have h2 : steps P (m + n) s = b := by rw [steps_add, hm, steps_halted hb]
  rw [← h1, ← h2, Nat.add_comm]

/-- Frames that lose gas with every step halt after at most `gas + 1` steps. -/
theorem halts_bound (hP : ParamsOk P) (n : Nat) : ∀ {s : State σ}, Wf P s → s.gas ≤ n →
    (steps P (n + 1) s).status ≠ .running := by
  induction n with
  | zero =>
    intro s hw hg
    by_cases hr : s.status = .running
    · intro h
      have := (step_wf hP hw hr (by rw [steps_one] at h; rw [h]; simp)).2 h
      omega
    · rw [steps_halted hr]; exact hr
  | succ n ih =>
    intro s hw hg
    by_cases hr : s.status = .running
    · by_cases h1 : (step P s).status = .running
      · have h := step_wf hP hw hr (by rw [h1]; simp)
        have := h.2 h1
        exact ih (s := step P s) h.1 (by omega)
      · show (steps P (n + 1) (step P s)).status ≠ .running
        rw [steps_halted h1]; exact h1
    · rw [steps_halted hr]; exact hr

/-- The specification does not look at the gas of the message once a frame runs. -/
theorem step_msgGas (g : Int) (s : State σ) : step { P with msg := { P.msg with gas := g } } s = step P s := by
  unfold step
  split
  · dsimp only
    cases hd : decode (byteAt P.code s.pc).toNat with
    | none => rfl
    | some i =>
      dsimp only
      unfold execInstr
      cases i <;> rfl
  · rfl

theorem steps_msgGas (g : Int) (n : Nat) : ∀ s : State σ,
    steps { P with msg := { P.msg with gas := g } } n s = steps P n s := by
  induction n with
  | zero => intro s; rfl
  | succ n ih =>
    intro s
    show steps _ n (step _ s) = steps P n (step P s)
    rw [step_msgGas, ih]

theorem paramsOk_msgGas (h : ParamsOk P) (g : Int) : ParamsOk { P with msg := { P.msg with gas := g } } :=
  ⟨h.host, h.code, h.input, h.depth⟩

theorem wf_msgGas {s : State σ} (h : Wf P s) (g : Int) : Wf { P with msg := { P.msg with gas := g } } s :=
  ⟨h.stack, h.memAligned, h.gas, h.refundHi, h.refundLo, h.ret, h.pc⟩

end Tosca.Proofs
