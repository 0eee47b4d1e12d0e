import Verif.Props.Demo
import Verif.Proofs.Kinds
import Verif.Spec.Checks

/-!
# Checks before execution: stack limits (C12), static mode (C16), revisions (C40), no effects (C42)
-/

namespace Tosca

set_option maxRecDepth 100000

open Tosca.Model Tosca.Spec Tosca.Proofs

variable {σ : Type} {P : Params σ} {E : Env σ} {codeOf : U256 → List Byte} {vm : Vm} {x : StepIn σ}

/-! ### The tables agree with the instruction set of the specification -/

theorem decode_lt {b : Nat} {i : Instr} (h : decode b = some i) : b < 256 := by
  by_contra hb
  have h1 : ¬ (0x60 ≤ b ∧ b ≤ 0x7f) := by omega
  have h2 : ¬ (0x80 ≤ b ∧ b ≤ 0x8f) := by omega
  have h3 : ¬ (0x90 ≤ b ∧ b ≤ 0x9f) := by omega
  have h4 : ¬ (0xa0 ≤ b ∧ b ≤ 0xa4) := by omega
  unfold decode at h
  rw [if_neg h1, if_neg h2, if_neg h3, if_neg h4] at h
  split at h <;> first | omega | cases h

instance (op : Nat) : Decidable (Unassigned op) := by unfold Unassigned; infer_instance
instance (op : Nat) : Decidable (Modifying op) := by unfold Modifying; infer_instance

theorem decode_none_iff (b : Nat) : decode b = none ↔ Unassigned b := by
  by_cases hb : b < 256
  · have := (by decide : ∀ b : Fin 256, (decode b.val).isNone = decide (Unassigned b.val)) ⟨b, hb⟩
    simp only at this
    rw [← Option.isNone_iff_eq_none, this, decide_eq_true_iff]
  · refine ⟨fun _ => by unfold Unassigned; omega, fun _ => ?_⟩
    cases hd : decode b with
    | none => rfl
    | some i => exact absurd (decode_lt hd) hb

theorem writes_iff {b : Nat} {i : Instr} (h : decode b = some i) : i.writes = true ↔ Modifying b := by
  have := (by decide : ∀ b : Fin 256, ((decode b.val).any (·.writes)) = decide (Modifying b.val)) ⟨b, decode_lt h⟩
  simp only [h, Option.any_some] at this
  rw [this, decide_eq_true_iff]

theorem introduced_iff {b : Nat} {i : Instr} (h : decode b = some i) (rev : Revision) :
    rev < i.since ↔ ∃ r, IntroducedIn b r ∧ rev < r := by
  constructor
  · intro hs
    refine ⟨i.since, ?_, hs⟩
    have h0 : i.since ≠ 0 := fun e => by rw [e] at hs; exact Nat.not_lt_zero _ hs
    have := (by decide : ∀ b : Fin 256, ((decode b.val).all fun i => i.since = 0 ∨
      (b.val = 0x48 ∧ i.since = LONDON) ∨ (b.val = 0x5f ∧ i.since = SHANGHAI) ∨
      ((b.val = 0x49 ∨ b.val = 0x4a ∨ b.val = 0x5c ∨ b.val = 0x5d ∨ b.val = 0x5e) ∧ i.since = CANCUN)) = true) ⟨b, decode_lt h⟩
    simp only [h, Option.all_some, decide_eq_true_iff] at this
    rcases this with h1 | ⟨h1, h2⟩ | ⟨h1, h2⟩ | ⟨h1 | h1 | h1 | h1 | h1, h2⟩
    · exact absurd h1 h0
    all_goals subst h1; rw [h2]; constructor
  · rintro ⟨r, hr, hlt⟩
    cases hr <;> (cases h; exact hlt)

theorem allowed_iff {i : Instr} : Allowed P x i ↔
    decode (x.opcode P) = some i ∧ i.since ≤ P.rev ∧ (i.writes = true → P.msg.isStatic = false) := by
  unfold Allowed
  constructor
  · rintro ⟨h1, h2, h3⟩
    refine ⟨h1, ?_, fun hw => ?_⟩
    · by_contra hc
      obtain ⟨r, hr, hlt⟩ := (introduced_iff h1 _).1 (Nat.lt_of_not_le hc)
      exact Nat.lt_irrefl _ (Nat.lt_of_lt_of_le hlt (h2 r hr))
    · cases hs : P.msg.isStatic with
      | false => rfl
      | true => exact absurd ⟨(writes_iff h1).1 hw, hs⟩ h3
  · rintro ⟨h1, h2, h3⟩
    refine ⟨h1, fun r hr => ?_, fun ⟨hm, hs⟩ => ?_⟩
    · by_contra hc
      exact Nat.lt_irrefl _ (Nat.lt_of_lt_of_le ((introduced_iff h1 P.rev).2 ⟨r, hr, Nat.lt_of_not_le hc⟩) h2)
    · rw [h3 ((writes_iff h1).2 hm)] at hs; cases hs

/-! ### C42 -/

/-- C42.  An instruction that is rejected fails with the corresponding code, keeps the refund counter
and leaves the host as it was. (With a recording host this says that the host is not even consulted.) -/
theorem C42_rejected (h : Setting P E codeOf vm) (hx : InputOk P x) {code : EvmcStatus} (hr : Rejected P x code) :
    Fails P E vm x 1 code x.refund x.world := by
  cases hr with
  | unassigned hu => exact fails_unassigned h hx ((decode_none_iff _).2 hu)
  | undefined hi hlt =>
    cases hd : decode (x.opcode P) with
    | none =>
      exfalso
      generalize x.opcode P = op at hi hd
      cases hi <;> cases hd
    | some i => exact fails_since h hx hd ((introduced_iff hd _).2 ⟨_, hi, hlt⟩)
  | static hi hm hs =>
    cases hd : decode (x.opcode P) with
    | none => rw [decode_none_iff] at hd; unfold Unassigned at hd; unfold Modifying at hm; omega
    | some i =>
      refine fails_static h hx hd ?_ ((writes_iff hd).2 hm) hs
      by_contra hc
      obtain ⟨r, hr, hlt⟩ := (introduced_iff hd _).1 (Nat.lt_of_not_le hc)
      exact Nat.lt_irrefl _ (Nat.lt_of_lt_of_le hlt (hi r hr))
  | underflow ha hu => obtain ⟨h1, h2, h3⟩ := allowed_iff.1 ha; exact fails_underflow h hx h1 h2 h3 hu
  | overflow ha hu ho =>
    obtain ⟨h1, h2, h3⟩ := allowed_iff.1 ha; exact fails_overflow h hx h1 h2 h3 hu (by omega)
  | gas ha hu ho hg =>
    obtain ⟨h1, h2, h3⟩ := allowed_iff.1 ha; exact fails_base h hx h1 h2 h3 hu (by omega) hg

/-! ### Which failure is reported -/

/-- A reported failure is the failure of the specification. -/
theorem fails_code (h : Setting P E codeOf vm) (hx : InputOk P x) {c : EvmcStatus} {r : Int} {w : σ} (hf : Fails P E vm x 1 c r w) :
    ∃ f, (step P (x.frame P)).status = .failed f ∧ failureCode f = c := by
  obtain ⟨res, vm', h1, h2, h3, _⟩ := hf 2 (fun _ => 0) (Nat.le_refl _)
  obtain ⟨res', w', vm'', h4, _, _, h5, _⟩ := stepN_frame h hx 1 (by omega) 2 (Nat.le_refl _) (fun _ => 0)
  rw [h1] at h4
  cases h4
  rw [steps_one'] at h5
  by_cases ha : ∀ f, (step P (x.frame P)).status ≠ .failed f
  · have := h5.ok ha
    rw [this] at h2
    cases hs : (step P (x.frame P)).status with
    | failed f => exact absurd hs (ha f)
    | _ => simp only [resultOf, hs, stepStatus] at h2; cases h2
  · obtain ⟨f, hf'⟩ := not_forall.1 ha
    have hf' := not_not.1 hf'
    exact ⟨f, hf', (h5.failed f hf').2.1.symm.trans h3⟩

/-- A failing step either is a rejection or fails in the body of the instruction for one of its own reasons. -/
theorem failed_why {f : Failure} (hg : 0 ≤ P.msg.gas) (hf : (step P (x.frame P)).status = .failed f) :
    Rejected P x (failureCode f) ∨ ∃ i, Ready P x i ∧ bodyFailure i f := by
  cases hd : decode (x.opcode P) with
  | none =>
    have : step P (x.frame P) = (x.frame P).fail .invalidInstruction := by
      show (if Status.running = Status.running then _ else _) = _
      rw [if_pos rfl]
      show (match decode (x.opcode P) with | none => _ | some i => _) = _
      rw [hd]
    rw [this] at hf
    cases hf
    exact Or.inl (.unassigned ((decode_none_iff _).1 hd))
  | some i =>
    rw [step_frame hd] at hf
    unfold execInstr at hf
    rw [frame_stack_length] at hf
    by_cases h1 : P.rev < i.since
    · rw [if_pos h1] at hf
      cases hf
      obtain ⟨r, hr, hlt⟩ := (introduced_iff hd _).1 h1
      exact Or.inl (.undefined hr hlt)
    rw [if_neg h1] at hf
    have hin : ∀ r, IntroducedIn (x.opcode P) r → r ≤ P.rev := fun r hr => by
      by_contra hc
      exact h1 ((introduced_iff hd P.rev).2 ⟨r, hr, Nat.lt_of_not_le hc⟩)
    by_cases h2 : i.writes = true ∧ P.msg.isStatic = true
    · rw [if_pos h2] at hf
      cases hf
      exact Or.inl (.static hin ((writes_iff hd).1 h2.1) h2.2)
    rw [if_neg h2] at hf
    have hst : i.writes = true → P.msg.isStatic = false := fun hw => by
      cases hs : P.msg.isStatic with
      | false => rfl
      | true => exact absurd ⟨hw, hs⟩ h2
    have ha : Allowed P x i := allowed_iff.2 ⟨hd, Nat.le_of_not_lt h1, hst⟩
    by_cases h3 : x.stack.length < i.pops
    · rw [if_pos h3] at hf
      cases hf
      exact Or.inl (.underflow ha h3)
    rw [if_neg h3] at hf
    unfold stackLimit at hf
    by_cases h4 : x.stack.length + i.pushes > 1024 + i.pops
    · rw [if_pos h4] at hf
      cases hf
      exact Or.inl (.overflow ha (by omega) (by omega))
    rw [if_neg h4] at hf
    by_cases h5 : P.msg.gas < i.baseGas
    · rw [charge_poor' _ (by show P.msg.gas.toNat < i.baseGas; omega)] at hf
      cases hf
      exact Or.inl (.gas ha (by omega) (by omega) h5)
    · have hr : Ready P x i := ⟨hd, Nat.le_of_not_lt h1, hst, by omega, by omega, by omega⟩
      rw [charge_rich' _ (by show i.baseGas ≤ P.msg.gas.toNat; omega)] at hf
      refine Or.inr ⟨i, hr, ?_⟩
      exact (ends_exec x.pc i (s := started P x i) rfl (by rw [started_stack, List.length_reverse]; omega) f hf).1

/-! ### C12 -/

/-- C12.  STACK_UNDERFLOW is reported exactly if the instruction needs more operands than there are. -/
theorem C12_underflow_iff (h : Setting P E codeOf vm) (hx : InputOk P x) :
    (∃ r w, Fails P E vm x 1 .stackUnderflow r w) ↔ ∃ i, Allowed P x i ∧ x.stack.length < i.pops := by
  constructor
  · rintro ⟨r, w, hf⟩
    obtain ⟨f, h1, h2⟩ := fails_code h hx hf
    rcases failed_why h.gas h1 with hr | ⟨i, _, hb⟩
    · rw [h2] at hr
      cases hr with
      | underflow ha hu => exact ⟨_, ha, hu⟩
    · cases f <;> cases h2
      cases i <;> exact hb.elim
  · rintro ⟨i, ha, hu⟩
    exact ⟨_, _, C42_rejected h hx (.underflow ha hu)⟩

/-- C12.  STACK_OVERFLOW is reported exactly if the stack would hold more than 1024 words. -/
theorem C12_overflow_iff (h : Setting P E codeOf vm) (hx : InputOk P x) :
    (∃ r w, Fails P E vm x 1 .stackOverflow r w) ↔
      ∃ i, Allowed P x i ∧ i.pops ≤ x.stack.length ∧ 1024 < x.stack.length - i.pops + i.pushes := by
  constructor
  · rintro ⟨r, w, hf⟩
    obtain ⟨f, h1, h2⟩ := fails_code h hx hf
    rcases failed_why h.gas h1 with hr | ⟨i, _, hb⟩
    · rw [h2] at hr
      cases hr with
      | overflow ha hu ho => exact ⟨_, ha, hu, ho⟩
    · cases f <;> cases h2
      cases i <;> exact hb.elim
  · rintro ⟨i, ha, hu, ho⟩
    exact ⟨_, _, C42_rejected h hx (.overflow ha hu ho)⟩

/-! ### C40 -/

/-- C40.  UNDEFINED_INSTRUCTION is reported exactly for the opcodes a later revision introduced. -/
theorem C40_undefined_iff (h : Setting P E codeOf vm) (hx : InputOk P x) :
    (∃ r w, Fails P E vm x 1 .undefinedInstruction r w) ↔ ∃ rev, IntroducedIn (x.opcode P) rev ∧ P.rev < rev := by
  constructor
  · rintro ⟨r, w, hf⟩
    obtain ⟨f, h1, h2⟩ := fails_code h hx hf
    rcases failed_why h.gas h1 with hr | ⟨i, _, hb⟩
    · rw [h2] at hr
      cases hr with
      | undefined hi hlt => exact ⟨_, hi, hlt⟩
    · cases f <;> cases h2
      cases i <;> exact hb.elim
  · rintro ⟨rev, hi, hlt⟩
    exact ⟨_, _, C42_rejected h hx (.undefined hi hlt)⟩

/-- C40.  INVALID_INSTRUCTION is reported exactly for the unassigned opcodes and the designated invalid
opcode 0xfe. -/
theorem C40_invalid_iff (h : Setting P E codeOf vm) (hx : InputOk P x) :
    (∃ r w, Fails P E vm x 1 .invalidInstruction r w) ↔ Unassigned (x.opcode P) ∨ x.opcode P = 0xfe := by
  constructor
  · rintro ⟨r, w, hf⟩
    obtain ⟨f, h1, h2⟩ := fails_code h hx hf
    rcases failed_why h.gas h1 with hr | ⟨i, hr, hb⟩
    · rw [h2] at hr
      cases hr with
      | unassigned hu => exact Or.inl hu
    · cases f <;> cases h2
      have hd := hr.op
      have : i = .invalid := by cases i <;> first | rfl | exact hb.elim
      subst this
      right
      have := (by decide : ∀ b : Fin 256, decode b.val = some .invalid → b.val = 0xfe) ⟨_, decode_lt hd⟩ hd
      exact this
  · rintro (hu | he)
    · exact ⟨_, _, C42_rejected h hx (.unassigned hu)⟩
    · have hr : Ready P x .invalid := ⟨by rw [he]; rfl, Nat.zero_le _, nofun, Nat.zero_le _, by have := hx.stack; exact this, h.gas⟩
      exact ⟨_, _, fails_ready (s' := (started P x .invalid).fail .invalidInstruction) h hx hr rfl rfl⟩

/-! ### C16 -/

/-- C16.  In static mode the state-modifying instructions fail, without effect. -/
theorem C16_modifying_fails (h : Setting P E codeOf vm) (hx : InputOk P x) (hs : P.msg.isStatic = true)
    (hm : Modifying (x.opcode P)) (hr : ∀ rev, IntroducedIn (x.opcode P) rev → rev ≤ P.rev) :
    Fails P E vm x 1 .staticModeViolation x.refund x.world :=
  C42_rejected h hx (.static hr hm hs)

/-- C16.  STATIC_MODE_VIOLATION is reported only in static mode, for a modifying instruction or CALL. -/
theorem C16_only_static (h : Setting P E codeOf vm) (hx : InputOk P x) {r : Int} {w : σ}
    (hf : Fails P E vm x 1 .staticModeViolation r w) (hc : x.opcode P ≠ 0xf1) :
    P.msg.isStatic = true ∧ Modifying (x.opcode P) := by
  obtain ⟨f, h1, h2⟩ := fails_code h hx hf
  rcases failed_why h.gas h1 with hr | ⟨i, hr, hb⟩
  · rw [h2] at hr
    cases hr with
    | static hi hm hs => exact ⟨hs, hm⟩
  · cases f <;> cases h2
    have hd := hr.op
    have : i = .call := by cases i <;> first | rfl | exact hb.elim
    subst this
    exact absurd ((by decide : ∀ b : Fin 256, decode b.val = some .call → b.val = 0xf1) ⟨_, decode_lt hd⟩ hd) hc

/-! ### Concrete cases -/

-- ADD with one operand
example : Rejected (demo [0x01]) (demoIn [7]) .stackUnderflow :=
  .underflow (i := .add) ⟨rfl, nofun, fun hh => by cases hh.2⟩ (by decide)
-- DUP1 on a full stack
example : Rejected (demo [0x80]) (demoIn (List.replicate 1024 1)) .stackOverflow :=
  .overflow (i := .dup 1) ⟨rfl, nofun, fun hh => by cases hh.2⟩ (by show 1 ≤ (List.replicate 1024 (1 : U256)).length; rw [List.length_replicate]; decide)
    (by show 1024 < (List.replicate 1024 (1 : U256)).length - 1 + 2; rw [List.length_replicate]; decide)
-- MCOPY before Cancun, SSTORE in static mode, an unassigned byte
example : Rejected (demo [0x5e] SHANGHAI) (demoIn [1, 2, 3]) .undefinedInstruction := .undefined .mcopy (by decide)
example : Rejected (demo [0x55] CANCUN 1) (demoIn [1, 2]) .staticModeViolation := .static nofun (Or.inl rfl) rfl
example : Rejected (demo [0x0c]) (demoIn []) .invalidInstruction := .unassigned (Or.inl ⟨by decide, by decide⟩)
-- the theorems apply to these
example : ∃ vm, Fails (demo [0x55] CANCUN 1) (envOf (demo [0x55] CANCUN 1)) vm (demoIn [1, 2]) 1 .staticModeViolation 0 0 := by
  obtain ⟨vm, h⟩ := demo_setting [0x55] (by decide) CANCUN 1
  exact ⟨vm, C42_rejected h (demoIn_ok _ _ _ _ _ (by decide) (by decide)) (.static nofun (Or.inl rfl) rfl)⟩

end Tosca
