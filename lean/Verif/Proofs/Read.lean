import Verif.Proofs.One

/-!
# Reading off the result of one instruction
-/

namespace Tosca.Proofs

open Tosca.Model Tosca.Spec

variable {σ : Type} {P : Params σ} {E : Env σ} {codeOf : U256 → List Byte} {vm : Vm} {x : StepIn σ}

/-- The common checks pass. -/
structure Ready (P : Params σ) (x : StepIn σ) (i : Instr) : Prop where
  op : decode (x.opcode P) = some i
  since : i.since ≤ P.rev
  static : i.writes = true → P.msg.isStatic = false
  under : i.pops ≤ x.stack.length
  over : x.stack.length + i.pushes ≤ 1024 + i.pops
  gas : (i.baseGas : Int) ≤ P.msg.gas

theorem Ready.step {i : Instr} (h : Ready P x i) : step P (x.frame P) = exec P x.pc i (started P x i) :=
  step_started h.op h.since h.static h.under h.over h.gas

theorem runs_ready (h : Setting P E codeOf vm) (hx : InputOk P x) {i : Instr} (hr : Ready P x i) {s' : State σ}
    (he : exec P x.pc i (started P x i) = s') (ha : ∀ f, s'.status ≠ .failed f) :
    Runs P E vm x 1 (resultOf P.rev s') s'.host :=
  runs_step h hx (hr.step.trans he) ha

theorem fails_ready (h : Setting P E codeOf vm) (hx : InputOk P x) {i : Instr} (hr : Ready P x i) {s' : State σ}
    (he : exec P x.pc i (started P x i) = s') {f : Failure} (ha : s'.status = .failed f) :
    Fails P E vm x 1 (failureCode f) s'.refund s'.host :=
  fails_step h hx (hr.step.trans he) ha

/-- A result equals the expected one, component by component. -/
theorem result_eq {s' : State σ} {r : StepResult} (h1 : stepStatus s'.status = r.stepStatus)
    (h2 : statusCode s'.status = r.status) (h3 : P.rev = r.revision) (h4 : s'.pc = r.pc) (h5 : (s'.gas : Int) = r.gasLeft)
    (h6 : s'.refund = r.gasRefund) (h7 : s'.ret = r.output) (h8 : s'.stack.reverse = r.stack)
    (h9 : s'.mem.read 0 s'.mem.size = r.memory) (h10 : s'.ret = r.lastCallReturnData) : resultOf P.rev s' = r := by
  obtain ⟨a, b, c, d, e, f, g, i, j, k⟩ := r
  unfold resultOf
  simp only at h1 h2 h3 h4 h5 h6 h7 h8 h9 h10
  rw [h1, h2, h3, h4, h5, h6, h7, h8, h9]
  congr 1
  exact h7.symm.trans h10

theorem started_stack (i : Instr) : (started P x i).stack = x.stack.reverse := rfl

theorem runs_to (h : Setting P E codeOf vm) (hx : InputOk P x) {i : Instr} (hr : Ready P x i) {s' : State σ} {r : StepResult} {w' : σ}
    (he : exec P x.pc i (started P x i) = s') (hrun : s'.status = .running) (hr1 : r.stepStatus = .running) (hr2 : r.status = .failure)
    (h3 : P.rev = r.revision) (h4 : s'.pc = r.pc) (h5 : (s'.gas : Int) = r.gasLeft)
    (h6 : s'.refund = r.gasRefund) (h7 : s'.ret = r.output) (h8 : s'.stack.reverse = r.stack)
    (h9 : s'.mem.read 0 s'.mem.size = r.memory) (h10 : s'.ret = r.lastCallReturnData) (h11 : s'.host = w') :
    Runs P E vm x 1 r w' := by
  have h1 := runs_ready h hx hr he (by rw [hrun]; intro f hf; cases hf)
  rw [h11] at h1
  rwa [result_eq (by rw [hrun, hr1]; rfl) (by rw [hrun, hr2]; rfl) h3 h4 h5 h6 h7 h8 h9 h10] at h1

theorem gas_sub {a : Int} {b : Nat} (h : (b : Int) ≤ a) : ((a.toNat - b : Nat) : Int) = a - b := by omega

/-- The gas after the base charge. -/
theorem started_gas {i : Instr} (hr : Ready P x i) : ((started P x i).gas : Int) = P.msg.gas - i.baseGas :=
  gas_sub hr.gas

theorem rev2 {l rest : List U256} {a b : U256} (h : l = rest ++ [b, a]) : l.reverse = a :: b :: rest.reverse := by
  rw [h]; simp
theorem rev1 {l rest : List U256} {a : U256} (h : l = rest ++ [a]) : l.reverse = a :: rest.reverse := by
  rw [h]; simp
theorem rev3 {l rest : List U256} {a b c : U256} (h : l = rest ++ [c, b, a]) : l.reverse = a :: b :: c :: rest.reverse := by
  rw [h]; simp
theorem rev4 {l rest : List U256} {a b c d : U256} (h : l = rest ++ [d, c, b, a]) :
    l.reverse = a :: b :: c :: d :: rest.reverse := by
  rw [h]; simp

section pops
variable {s : State σ} {a b c d : U256} {r : List U256}
theorem pop1_cons (h : s.stack = a :: r) (k : U256 → State σ → State σ) : s.pop1 k = k a { s with stack := r } := by
  unfold State.pop1; rw [h]
theorem pop2_cons (h : s.stack = a :: b :: r) (k : U256 → U256 → State σ → State σ) :
    s.pop2 k = k a b { s with stack := r } := by
  unfold State.pop2; rw [pop1_cons h]; rfl
theorem pop3_cons (h : s.stack = a :: b :: c :: r) (k : U256 → U256 → U256 → State σ → State σ) :
    s.pop3 k = k a b c { s with stack := r } := by
  unfold State.pop3; rw [pop2_cons h]; rfl
theorem pop4_cons (h : s.stack = a :: b :: c :: d :: r) (k : U256 → U256 → U256 → U256 → State σ → State σ) :
    s.pop4 k = k a b c d { s with stack := r } := by
  unfold State.pop4; rw [pop3_cons h]; rfl
end pops

/-- Binary operations. -/
theorem runs_bin (h : Setting P E codeOf vm) (hx : InputOk P x) {i : Instr} {f : U256 → U256 → U256} {a b : U256} {rest : List U256}
    (hd : decode (x.opcode P) = some i) (he : ∀ s : State σ, exec P x.pc i s = s.pop2 fun a b s => s.push (f a b))
    (h0 : i.since = 0) (hw : i.writes = false) (hp : i.pops = 2) (hq : i.pushes = 1) (hl : i.length = 1)
    (hst : x.stack = rest ++ [b, a]) (hg : (i.baseGas : Int) ≤ P.msg.gas) :
    Runs P E vm x 1 { x.same P with pc := x.pc + 1, gasLeft := P.msg.gas - i.baseGas, stack := rest ++ [f a b] } x.world := by
  have hlen := hx.stack
  have hll : x.stack.length = rest.length + 2 := by rw [hst]; simp
  have hr : Ready P x i := ⟨hd, by rw [h0]; exact Nat.zero_le _, (by rw [hw]; intro h; cases h), by omega, by omega, hg⟩
  refine runs_to h hx hr ((he _).trans (pop2_cons ((started_stack i).trans (rev2 hst)) _)) rfl rfl rfl rfl ?_ (started_gas hr) rfl rfl ?_ ?_ rfl rfl
  · show x.pc + i.length = _; rw [hl]
  · show (f a b :: rest.reverse).reverse = rest ++ [f a b]
    simp
  · exact (pad32_eq _).symm

/-- Unary operations. -/
theorem runs_un (h : Setting P E codeOf vm) (hx : InputOk P x) {i : Instr} {f : U256 → U256} {a : U256} {rest : List U256}
    (hd : decode (x.opcode P) = some i) (he : ∀ s : State σ, exec P x.pc i s = s.pop1 fun a s => s.push (f a))
    (h0 : i.since ≤ P.rev) (hw : i.writes = false) (hp : i.pops = 1) (hq : i.pushes = 1) (hl : i.length = 1)
    (hst : x.stack = rest ++ [a]) (hg : (i.baseGas : Int) ≤ P.msg.gas) :
    Runs P E vm x 1 { x.same P with pc := x.pc + 1, gasLeft := P.msg.gas - i.baseGas, stack := rest ++ [f a] } x.world := by
  have hlen := hx.stack
  have hll : x.stack.length = rest.length + 1 := by rw [hst]; simp
  have hr : Ready P x i := ⟨hd, h0, (by rw [hw]; intro h; cases h), by omega, by omega, hg⟩
  refine runs_to h hx hr ((he _).trans (pop1_cons ((started_stack i).trans (rev1 hst)) _)) rfl rfl rfl rfl ?_ (started_gas hr) rfl rfl ?_ ?_ rfl rfl
  · show x.pc + i.length = _; rw [hl]
  · show (f a :: rest.reverse).reverse = rest ++ [f a]
    simp
  · exact (pad32_eq _).symm

/-- Operations with three operands. -/
theorem runs_tern (h : Setting P E codeOf vm) (hx : InputOk P x) {i : Instr} {f : U256 → U256 → U256 → U256} {a b c : U256} {rest : List U256}
    (hd : decode (x.opcode P) = some i) (he : ∀ s : State σ, exec P x.pc i s = s.pop3 fun a b c s => s.push (f a b c))
    (h0 : i.since = 0) (hw : i.writes = false) (hp : i.pops = 3) (hq : i.pushes = 1) (hl : i.length = 1)
    (hst : x.stack = rest ++ [c, b, a]) (hg : (i.baseGas : Int) ≤ P.msg.gas) :
    Runs P E vm x 1 { x.same P with pc := x.pc + 1, gasLeft := P.msg.gas - i.baseGas, stack := rest ++ [f a b c] } x.world := by
  have hlen := hx.stack
  have hll : x.stack.length = rest.length + 3 := by rw [hst]; simp
  have hr : Ready P x i := ⟨hd, by rw [h0]; exact Nat.zero_le _, (by rw [hw]; intro h; cases h), by omega, by omega, hg⟩
  refine runs_to h hx hr ((he _).trans (pop3_cons ((started_stack i).trans (rev3 hst)) _)) rfl rfl rfl rfl ?_ (started_gas hr) rfl rfl ?_ ?_ rfl rfl
  · show x.pc + i.length = _; rw [hl]
  · show (f a b c :: rest.reverse).reverse = rest ++ [f a b c]
    simp
  · exact (pad32_eq _).symm

/-- Operations that push a value. -/
theorem runs_push (h : Setting P E codeOf vm) (hx : InputOk P x) {i : Instr} {v : U256}
    (hd : decode (x.opcode P) = some i) (he : exec P x.pc i (started P x i) = (started P x i).push v)
    (h0 : i.since ≤ P.rev) (hw : i.writes = false) (hp : i.pops = 0) (hq : i.pushes = 1)
    (hst : x.stack.length < 1024) (hg : (i.baseGas : Int) ≤ P.msg.gas) :
    Runs P E vm x 1 { x.same P with pc := x.pc + i.length, gasLeft := P.msg.gas - i.baseGas, stack := x.stack ++ [v] } x.world := by
  have hr : Ready P x i := ⟨hd, h0, (by rw [hw]; intro h; cases h), by omega, by omega, hg⟩
  refine runs_to h hx hr he rfl rfl rfl rfl rfl (started_gas hr) rfl rfl ?_ ?_ rfl rfl
  · show (v :: x.stack.reverse).reverse = x.stack ++ [v]
    simp
  · exact (pad32_eq _).symm

/-! ### Rejected before execution -/

theorem charge_poor' {s : State σ} {n : Nat} (k : State σ → State σ) (h : s.gas < n) : s.charge n k = s.fail .outOfGas := if_pos h
theorem charge_rich' {s : State σ} {n : Nat} (k : State σ → State σ) (h : n ≤ s.gas) :
    s.charge n k = k { s with gas := s.gas - n } := if_neg (by omega)

theorem frame_stack_length : (x.frame P).stack.length = x.stack.length := List.length_reverse

/-- Unassigned bytes. -/
theorem fails_unassigned (h : Setting P E codeOf vm) (hx : InputOk P x) (hd : decode (x.opcode P) = none) :
    Fails P E vm x 1 .invalidInstruction x.refund x.world := by
  refine fails_step (s' := (x.frame P).fail .invalidInstruction) (f := .invalidInstruction) h hx ?_ rfl
  show (if Status.running = Status.running then _ else _) = _
  rw [if_pos rfl]
  show (match decode (x.opcode P) with | none => _ | some i => _) = _
  rw [hd]

theorem fails_since (h : Setting P E codeOf vm) (hx : InputOk P x) {i : Instr} (hd : decode (x.opcode P) = some i) (hs : P.rev < i.since) :
    Fails P E vm x 1 .undefinedInstruction x.refund x.world := by
  refine fails_step (s' := (x.frame P).fail .undefinedInstruction) (f := .undefinedInstruction) h hx ?_ rfl
  rw [step_frame hd]
  unfold execInstr
  rw [if_pos hs]

theorem fails_static (h : Setting P E codeOf vm) (hx : InputOk P x) {i : Instr} (hd : decode (x.opcode P) = some i) (hs : i.since ≤ P.rev)
    (hw : i.writes = true) (hp : P.msg.isStatic = true) : Fails P E vm x 1 .staticModeViolation x.refund x.world := by
  refine fails_step (s' := (x.frame P).fail .staticViolation) (f := .staticViolation) h hx ?_ rfl
  rw [step_frame hd]
  unfold execInstr
  rw [if_neg (Nat.not_lt.mpr hs), if_pos ⟨hw, hp⟩]

theorem fails_underflow (h : Setting P E codeOf vm) (hx : InputOk P x) {i : Instr} (hd : decode (x.opcode P) = some i) (hs : i.since ≤ P.rev)
    (hw : i.writes = true → P.msg.isStatic = false) (hp : x.stack.length < i.pops) : Fails P E vm x 1 .stackUnderflow x.refund x.world := by
  refine fails_step (s' := (x.frame P).fail .stackUnderflow) (f := .stackUnderflow) h hx ?_ rfl
  rw [step_frame hd]
  unfold execInstr
  rw [if_neg (Nat.not_lt.mpr hs), if_neg (fun hh => by rw [hw hh.1] at hh; exact Bool.noConfusion hh.2),
    if_pos (by rw [frame_stack_length]; exact hp)]

theorem fails_overflow (h : Setting P E codeOf vm) (hx : InputOk P x) {i : Instr} (hd : decode (x.opcode P) = some i) (hs : i.since ≤ P.rev)
    (hw : i.writes = true → P.msg.isStatic = false) (hp : i.pops ≤ x.stack.length) (ho : 1024 + i.pops < x.stack.length + i.pushes) :
    Fails P E vm x 1 .stackOverflow x.refund x.world := by
  refine fails_step (s' := (x.frame P).fail .stackOverflow) (f := .stackOverflow) h hx ?_ rfl
  rw [step_frame hd]
  unfold execInstr
  rw [if_neg (Nat.not_lt.mpr hs), if_neg (fun hh => by rw [hw hh.1] at hh; exact Bool.noConfusion hh.2),
    if_neg (by rw [frame_stack_length]; omega), if_pos (by rw [frame_stack_length]; exact ho)]

theorem fails_base (h : Setting P E codeOf vm) (hx : InputOk P x) {i : Instr} (hd : decode (x.opcode P) = some i) (hs : i.since ≤ P.rev)
    (hw : i.writes = true → P.msg.isStatic = false) (hp : i.pops ≤ x.stack.length) (ho : x.stack.length + i.pushes ≤ 1024 + i.pops)
    (hg : P.msg.gas < i.baseGas) : Fails P E vm x 1 .outOfGas x.refund x.world := by
  refine fails_step (s' := (x.frame P).fail .outOfGas) (f := .outOfGas) h hx ?_ rfl
  rw [step_frame hd]
  unfold execInstr
  have hgg : (x.frame P).gas < i.baseGas := by
    have := h.gas
    show P.msg.gas.toNat < i.baseGas
    omega
  rw [if_neg (Nat.not_lt.mpr hs), if_neg (fun hh => by rw [hw hh.1] at hh; exact Bool.noConfusion hh.2),
    if_neg (by rw [frame_stack_length]; omega), if_neg (by rw [frame_stack_length]; unfold stackLimit; omega), charge_poor' _ hgg]

/-- Running out of gas in the body. -/
theorem fails_dyn (h : Setting P E codeOf vm) (hx : InputOk P x) {i : Instr} (hr : Ready P x i) {s : State σ} {n : Nat}
    {k : State σ → State σ} (he : exec P x.pc i (started P x i) = s.charge n k) (hg : s.gas < n) :
    Fails P E vm x 1 .outOfGas s.refund s.host :=
  fails_ready (s' := s.fail .outOfGas) (f := .outOfGas) h hx hr (he.trans (charge_poor' _ hg)) rfl

end Tosca.Proofs
