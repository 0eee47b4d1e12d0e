import Verif.Proofs.Kinds

/-!
# Bounds along a run: memory is paid for, refunds are bounded by the gas used
-/

namespace Tosca.Proofs

open Tosca.Model Tosca.Spec

variable {σ : Type} {P : Params σ}

/-- The refund counter of two states differs by at most 199 times the gas used in between. -/
structure Used (s s' : State σ) : Prop where
  gas : s'.gas ≤ s.gas
  hi : s'.refund + 199 * s'.gas ≤ s.refund + 199 * s.gas
  lo : s.refund - 199 * s.gas ≤ s'.refund - 199 * s'.gas

/-- Memory never shrinks and is paid for. -/
structure Paid (s s' : State σ) : Prop where
  size : s.mem.size ≤ s'.mem.size
  pot : s'.gas + memGas (words s'.mem.size) ≤ s.gas + memGas (words s.mem.size)

theorem Used.refl (s : State σ) : Used s s := ⟨Nat.le_refl _, Int.le_refl _, Int.le_refl _⟩
theorem Used.trans {a b c : State σ} (h : Used a b) (k : Used b c) : Used a c :=
  ⟨Nat.le_trans k.gas h.gas, Int.le_trans k.hi h.hi, Int.le_trans h.lo k.lo⟩
theorem Paid.refl (s : State σ) : Paid s s := ⟨Nat.le_refl _, Nat.le_refl _⟩
theorem Paid.trans {a b c : State σ} (h : Paid a b) (k : Paid b c) : Paid a c :=
  ⟨Nat.le_trans h.size k.size, Nat.le_trans k.pot h.pot⟩

theorem used_fail (s : State σ) (f : Failure) : Used s (s.fail f) :=
  ⟨Nat.zero_le _, by show s.refund + 199 * ((0 : Nat) : Int) ≤ _; omega, by show _ ≤ s.refund - 199 * ((0 : Nat) : Int); omega⟩

theorem failed_gas {f : Failure} {A : Failure → Prop} {s s' : State σ} {r : Int} (h : Ends A r s') (hs : s'.status = .failed f)
    (hr : r = s.refund) : Used s s' := by
  obtain ⟨_, e, hg, _⟩ := h f hs
  exact ⟨by omega, by rw [e, hg]; omega, by rw [e, hg]; omega⟩

theorem step_bound (hP : ParamsOk P) {s : State σ} (hw : Wf P s) (hr : s.status = .running) :
    Used s (step P s) ∧ ((∀ f, (step P s).status ≠ .failed f) → Paid s (step P s)) := by
  unfold step
  rw [if_pos hr]
  cases hd : decode (byteAt P.code s.pc).toNat with
  | none => exact ⟨used_fail _ _, fun hf => absurd rfl (hf .invalidInstruction)⟩
  | some i =>
    dsimp only
    unfold execInstr
    by_cases h1 : P.rev < i.since
    · rw [if_pos h1]; exact ⟨used_fail _ _, fun hf => absurd rfl (hf _)⟩
    rw [if_neg h1]
    by_cases h2 : i.writes = true ∧ P.msg.isStatic = true
    · rw [if_pos h2]; exact ⟨used_fail _ _, fun hf => absurd rfl (hf _)⟩
    rw [if_neg h2]
    by_cases h3 : s.stack.length < i.pops
    · rw [if_pos h3]; exact ⟨used_fail _ _, fun hf => absurd rfl (hf _)⟩
    rw [if_neg h3]
    by_cases h4 : s.stack.length + i.pushes > stackLimit + i.pops
    · rw [if_pos h4]; exact ⟨used_fail _ _, fun hf => absurd rfl (hf _)⟩
    rw [if_neg h4]
    by_cases hg : s.gas < i.baseGas
    · rw [charge_poor _ _ _ hg]; exact ⟨used_fail _ _, fun hf => absurd rfl (hf _)⟩
    rw [charge_rich _ _ _ hg]
    dsimp only
    have hpre : Pre i { s with gas := s.gas - i.baseGas, pc := s.pc + i.length } :=
      ⟨hr, by dsimp only; omega, hw.memAligned, by have := hw.gas; dsimp only; omega, hw.ret⟩
    by_cases hf : ∀ f, (exec P s.pc i { s with gas := s.gas - i.baseGas, pc := s.pc + i.length }).status ≠ .failed f
    · have A := exec_adv hP s.pc i _ hpre hf
      have e2 := A.pot
      have e3 := A.refundHi
      have e4 := A.refundLo
      have hcast : ((s.gas - i.baseGas + i.baseGas : Nat) : Int) = s.gas := by omega
      dsimp only at e2 e3 e4
      rw [hcast] at e3 e4
      have e5 := A.memMono
      have hle : (exec P s.pc i { s with gas := s.gas - i.baseGas, pc := s.pc + i.length }).gas ≤ s.gas := by
        generalize (exec P s.pc i { s with gas := s.gas - i.baseGas, pc := s.pc + i.length }) = s' at *
        omega
      exact ⟨⟨hle, e3, e4⟩, fun _ => ⟨e5, by omega⟩⟩
    · obtain ⟨f, hf'⟩ := not_forall.1 hf
      have hf' := not_not.1 hf'
      refine ⟨?_, fun hh => absurd hf' (hh f)⟩
      exact failed_gas (ends_exec s.pc i hr (by show i.pops ≤ s.stack.length; omega)) hf' rfl

/-- The bounds along a run. -/
theorem steps_bound (hP : ParamsOk P) (n : Nat) : ∀ {s : State σ}, Wf P s → s.status = .running →
    Used s (steps P n s) ∧ ((∀ f, (steps P n s).status ≠ .failed f) → Paid s (steps P n s)) := by
  induction n with
  | zero => intro s _ _; exact ⟨Used.refl s, fun _ => Paid.refl s⟩
  | succ n ih =>
    intro s hw hr
    have h1 := step_bound hP hw hr
    show Used s (steps P n (step P s)) ∧ _
    by_cases hr' : (step P s).status = .running
    · have hnf : ∀ f, (step P s).status ≠ .failed f := fun f h => by rw [h] at hr'; cases hr'
      have h2 := ih (step_wf hP hw hr hnf).1 hr'
      exact ⟨h1.1.trans h2.1, fun hf => (h1.2 hnf).trans (h2.2 hf)⟩
    · have e : steps P n (step P s) = step P s := steps_halted hr' n
      show Used s (steps P n (step P s)) ∧ ((∀ f, (steps P n (step P s)).status ≠ .failed f) → Paid s (steps P n (step P s)))
      rw [e]
      exact h1

end Tosca.Proofs
