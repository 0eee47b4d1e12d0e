import Verif.Proofs.Facts
import Verif.Proofs.AnyHost

/-!
# Single steps through the `StepN` interface
-/

namespace Tosca.Proofs

open Tosca.Model Tosca.Spec

variable {σ : Type} {P : Params σ} {E : Env σ} {codeOf : U256 → List Byte} {vm : Vm} {x : StepIn σ}

theorem words_pad (n : Nat) : words (32 * words n) = words n := by
  unfold words; omega

theorem inputOk_wf (h : InputOk P x) (hg : 0 ≤ P.msg.gas) : Wf P (x.frame P) := by
  have e : ((P.msg.gas.toNat : Nat) : Int) = P.msg.gas := Int.toNat_of_nonneg hg
  have := h.gas
  constructor
  · show x.stack.reverse.length ≤ stackLimit
    rw [List.length_reverse]; exact h.stack
  · show (32 * words x.memory.length) % 32 = 0
    omega
  · show P.msg.gas.toNat + memGas (words (32 * words x.memory.length)) ≤ 2 ^ 54
    rw [words_pad]
    omega
  · show x.refund + 199 * (P.msg.gas.toNat : Int) ≤ _
    rw [e]; exact h.refundHi
  · show _ ≤ x.refund - 199 * (P.msg.gas.toNat : Int)
    rw [e]; exact h.refundLo
  · exact h.ret
  · intro _; exact h.pc

theorem stepN_frame (h : Setting P E codeOf vm) (hx : InputOk P x) (n : Nat) (hn : n ≤ 2147483646) (fuel : Nat)
    (hf : n + 1 ≤ fuel) (buf : Nat → U256) :
    ∃ res w' vm', vm.stepN E fuel P.code P.msg P.rev .running x.pc x.refund x.stack x.memory x.ret n buf x.world =
        .ok (some (res, w', vm')) ∧
      VmOk codeOf P.keccak vm' ∧ vm'.options = vm.options ∧
      Describes P.rev x.stack.length res w' (steps P n (x.frame P)) ∧
      ((∀ f, (steps P n (x.frame P)).status ≠ .failed f) → res.memory.length % 32 = 0 ∧
        steps P n (x.frame P) = frame (steps P n (x.frame P)).status res.pc res.gasLeft res.gasRefund res.stack
          res.memory res.lastCallReturnData w') :=
  stepN_ok h.params h.env h.vm h.hash h.gas x.pc x.refund x.stack x.memory x.ret n hn fuel hf buf x.world
    (inputOk_wf hx h.gas)

theorem runs_of (h : Setting P E codeOf vm) (hx : InputOk P x) {n : Nat} (hn : n ≤ 2147483646)
    (ha : ∀ f, (steps P n (x.frame P)).status ≠ .failed f) :
    Runs P E vm x n (resultOf P.rev (steps P n (x.frame P))) (steps P n (x.frame P)).host := by
  intro fuel buf hf
  obtain ⟨res, w', vm', h1, _, _, h2, _⟩ := stepN_frame h hx n hn fuel hf buf
  have e1 := h2.ok ha
  have e2 := h2.host
  subst e1; subst e2
  exact ⟨vm', h1⟩

theorem fails_of (h : Setting P E codeOf vm) (hx : InputOk P x) {n : Nat} (hn : n ≤ 2147483646) {f : Failure}
    (ha : (steps P n (x.frame P)).status = .failed f) :
    Fails P E vm x n (failureCode f) (steps P n (x.frame P)).refund (steps P n (x.frame P)).host := by
  intro fuel buf hf
  obtain ⟨res, w', vm', h1, _, _, h2, _⟩ := stepN_frame h hx n hn fuel hf buf
  obtain ⟨a, b, _, c, d, e, g, _⟩ := h2.failed f ha
  have e2 := h2.host
  subst e2
  exact ⟨res, vm', h1, a, b, c, d, e, g⟩

/-- `StepN` results are unique. -/
theorem runs_unique {n : Nat} {r1 r2 : StepResult} {w1 w2 : σ} (h1 : Runs P E vm x n r1 w1) (h2 : Runs P E vm x n r2 w2) :
    r1 = r2 ∧ w1 = w2 := by
  obtain ⟨v1, e1⟩ := h1 (n + 1) (fun _ => 0) (Nat.le_refl _)
  obtain ⟨v2, e2⟩ := h2 (n + 1) (fun _ => 0) (Nat.le_refl _)
  rw [e1] at e2
  cases e2
  exact ⟨rfl, rfl⟩

/-! ### Reading off one instruction -/

theorem pad32_eq (l : List Byte) : pad32 l = (Mem.ofBytes l).read 0 (Mem.ofBytes l).size := by
  unfold pad32 slice Mem.read Mem.ofBytes
  rfl

theorem steps_one' (s : State σ) : steps P 1 s = step P s := rfl

theorem step_frame {i : Instr} (hd : decode (byteAt P.code x.pc).toNat = some i) :
    step P (x.frame P) = execInstr P i (x.frame P) := by
  show (if Status.running = Status.running then _ else _) = _
  rw [if_pos rfl]
  show (match decode (byteAt P.code x.pc).toNat with | none => _ | some i => _) = _
  rw [hd]

/-- The frame after the common checks: base gas paid, program counter moved on. -/
def started (P : Params σ) (x : StepIn σ) (i : Instr) : State σ :=
  { x.frame P with gas := P.msg.gas.toNat - i.baseGas, pc := x.pc + i.length }

theorem step_started {i : Instr} (hd : decode (byteAt P.code x.pc).toNat = some i) (hr : i.since ≤ P.rev)
    (hs : i.writes = true → P.msg.isStatic = false) (hu : i.pops ≤ x.stack.length)
    (ho : x.stack.length + i.pushes ≤ 1024 + i.pops) (hg : (i.baseGas : Int) ≤ P.msg.gas) :
    step P (x.frame P) = exec P x.pc i (started P x i) := by
  rw [step_frame hd]
  unfold execInstr
  have hl : (x.frame P).stack.length = x.stack.length := List.length_reverse
  have hgg : ¬ (x.frame P).gas < i.baseGas := by
    show ¬ P.msg.gas.toNat < i.baseGas
    omega
  rw [if_neg (Nat.not_lt.mpr hr), if_neg (fun hh => by rw [hs hh.1] at hh; exact Bool.noConfusion hh.2),
    if_neg (by rw [hl]; exact Nat.not_lt.mpr hu), if_neg (by rw [hl]; unfold stackLimit; omega)]
  unfold State.charge
  rw [if_neg hgg]
  rfl

theorem runs_step (h : Setting P E codeOf vm) (hx : InputOk P x) {s' : State σ} (hs : step P (x.frame P) = s')
    (ha : ∀ f, s'.status ≠ .failed f) : Runs P E vm x 1 (resultOf P.rev s') s'.host := by
  have := runs_of (n := 1) h hx (by omega)
  rw [steps_one', hs] at this
  exact this ha

theorem fails_step (h : Setting P E codeOf vm) (hx : InputOk P x) {s' : State σ} (hs : step P (x.frame P) = s') {f : Failure}
    (ha : s'.status = .failed f) : Fails P E vm x 1 (failureCode f) s'.refund s'.host := by
  have := fails_of (n := 1) (f := f) h hx (by omega)
  rw [steps_one', hs] at this
  exact this ha

end Tosca.Proofs
