import Verif.Model.Vm
import Verif.Spec.Api
import Verif.Proofs.Loop

/-!
# `Execute` and `StepN` against the specification
-/

namespace Tosca.Proofs

open Tosca.Model Tosca.Spec

variable {σ ω : Type} {P : Params σ} {E : Env σ}

theorem vm_new (codeOf : U256 → List Byte) (keccak : List Byte → U256) :
    ∃ vm, Vm.new = .ok vm ∧ VmOk codeOf keccak vm ∧ vm.options = {} := by
  obtain ⟨a, ha, _, _⟩ := Lru.clear_R 65536 (0 : U256) (⟨[], []⟩ : ContractInfo) (by omega)
  obtain ⟨s, hs, hok⟩ := sha3_new keccak
  refine ⟨{ contractInfoCache := a, sha3Cache := s }, ?_, ⟨.new _ _ ha, hok⟩, rfl⟩
  simp only [Vm.new, ha, hs, bind, Except.bind, pure, Except.pure]

theorem lookupCode_ok {codeOf : U256 → List Byte} {keccak : List Byte → U256} {vm : Vm} {msg : Message}
    {code : List Byte} (hv : VmOk codeOf keccak vm) (hh : HashOk codeOf msg code) :
    ∃ vm', vm.lookupCode msg code = .ok (computeContractInfo code, vm') ∧ VmOk codeOf keccak vm' ∧
      vm'.options = vm.options ∧ vm'.sha3Cache = vm.sha3Cache := by
  unfold Vm.lookupCode
  cases hc : msg.codeHash with
  | none => exact ⟨vm, rfl, hv, rfl, rfl⟩
  | some h =>
    dsimp only
    split
    · rename_i hcond
      obtain ⟨cc, h1, h2⟩ := reached_getOrInsert (by omega) hv.analysis h
      have hcode := hh h hc hcond.2
      rw [show (fun _ : Unit => computeContractInfo (codeOf h)) = fun _ => computeContractInfo code by rw [hcode]] at h1
      rw [h1, hcode]
      exact ⟨_, rfl, ⟨h2, hv.sha3⟩, rfl, rfl⟩
    · exact ⟨vm, rfl, hv, rfl, rfl⟩

theorem wf_initial (w : σ) (hg : P.msg.gas ≤ 2 ^ 54) : Wf P (initial P w) := by
  unfold initial
  refine ⟨by simp [stackLimit], rfl, ?_, ?_, ?_, by simp, fun _ => Nat.zero_le _⟩
  · show P.msg.gas.toNat + memGas (words 0) ≤ _
    have : memGas (words 0) = 0 := rfl
    omega
  · dsimp only; omega
  · dsimp only; omega

theorem sim_initial (hg0 : 0 ≤ P.msg.gas) (buf : Nat → U256) (w : σ) (sha3 : Option Sha3Cache)
    (hs : ∀ s, sha3 = some s → Sha3Ok P.keccak s) :
    Sim P { state := .running, pc := some 0, gas := P.msg.gas, top := 1024, size := 0 }
      (initialCtx ⟨padCode P.code, calculateValidJumpTargets P.code, P.msg, P.rev, sha3⟩ buf w) (initial P w) := by
  refine ⟨⟨rfl, rfl, rfl, rfl, rfl, hs⟩, ?_, by dsimp only; omega⟩
  refine rel_running 1024 rfl rfl rfl rfl ?_ rfl rfl (by omega) ?_ rfl
  · show P.msg.gas = ((P.msg.gas.toNat : Nat) : Int)
    omega
  · show [] = absStack _ 1024
    simp [absStack]

theorem isSuccess_of {s : Status} (h : s ≠ .running) :
    (runStateOf s).isSuccess = true ↔ ∀ w, s ≠ .failed w := by
  cases s with
  | running => exact absurd rfl h
  | failed w => cases w <;> simp [runStateOf, RunState.isSuccess]
  | _ => simp [runStateOf, RunState.isSuccess]

theorem status_mapping (s : Status) : toEvmcStatusCode (runStateOf s) = statusCode s := by
  cases s with
  | failed w => cases w <;> rfl
  | _ => rfl

theorem step_mapping (s : Status) : toEvmcStepStatusCode (runStateOf s) = stepStatus s := by
  cases s with
  | failed w => cases w <;> rfl
  | _ => rfl

theorem runStateOf_eq_running {s : Status} : runStateOf s = .running ↔ s = .running := by
  constructor
  · intro h; exact runStateOf_inj (b := .running) h
  · intro h; rw [h]; rfl

theorem ret_or_revert (s : Status) :
    (runStateOf s ≠ .ret ∧ runStateOf s ≠ .revert ∧ runStateOf s ≠ .running) ↔
      ((∃ w, s = .failed w) ∨ s = .stopped) := by
  cases s with
  | failed w => cases w <;> simp [runStateOf]
  | _ => simp [runStateOf]

/-- The epilogue of `Execute`'s interpreter run. -/
theorem epilogue_run {l : Loc} {c : Ctx σ} {s : State σ} (hS : Sim P l c s) (hr : s.status ≠ .running) :
    (epilogue false l c).state = runStateOf s.status ∧ (epilogue false l c).gas = s.gas ∧
    (epilogue false l c).gasRefunds = s.refund ∧ (epilogue false l c).returnData = s.ret ∧
    (epilogue false l c).world = s.host ∧ (epilogue false l c).sha3 = c.sha3 := by
  refine ⟨hS.rel.state, ?_, hS.rel.refund, ?_, hS.rel.world, rfl⟩
  · unfold epilogue
    simp only [Bool.false_eq_true, if_false]
    rw [hS.rel.state]
    by_cases hf : ∀ w, s.status ≠ .failed w
    · rw [if_pos ((isSuccess_of hr).2 hf)]
      exact (hS.rel.alive hf).2.1
    · rw [if_neg (fun h => hf ((isSuccess_of hr).1 h))]
      simp only [not_forall, not_not] at hf
      obtain ⟨w, hw⟩ := hf
      rw [(hS.rel.failed w hw).1]; rfl
  · unfold epilogue
    dsimp only
    rw [hS.rel.state]
    by_cases h : (∃ w, s.status = .failed w) ∨ s.status = .stopped
    · rw [if_pos ((ret_or_revert _).2 h)]
      rcases h with ⟨w, hw⟩ | h
      · exact (hS.rel.failed w hw).2.symm
      · exact (hS.rel.stopped h).symm
    · rw [if_neg (fun h' => h ((ret_or_revert _).1 h'))]
      exact hS.rel.ret (fun w hw => h (.inl ⟨w, hw⟩)) (fun hw => h (.inr hw))

/-- The local variables a run starts with. -/
def startLoc (stepping : Bool) (c : Ctx σ) : Loc :=
  { state := c.state, pc := some (if stepping then c.pc else 0), gas := c.gas, top := c.stack.top
    size := (c.stack.size : Nat) }

theorem runInterpreter_of_loop {obs : Observer σ ω} {stepping : Bool} {n : Int} {fuel : Nat} {c c' : Ctx σ} {o o' : ω}
    {l' : Loc} (h : loop E obs stepping n fuel 0 (startLoc stepping c) c o = .ok (some (l', c', o'))) :
    runInterpreter E obs stepping n fuel c o = .ok (some (epilogue stepping l' c', o')) := by
  show (do
    let r ← loop E obs stepping n fuel 0 (startLoc stepping c) c o
    match r with
    | none => return none
    | some (l, c, o) => return some (epilogue stepping l c, o) : M _) = _
  rw [h]
  rfl

/-- `Execute` with any observer runs the specification to its end. -/
theorem executeWith_ok (hP : ParamsOk P) (hE : EnvOk P E) {codeOf : U256 → List Byte} {vm : Vm}
    (hv : VmOk codeOf P.keccak vm) (hh : HashOk codeOf P.msg P.code)
    (hg0 : 0 ≤ P.msg.gas) (hg : P.msg.gas ≤ 2 ^ 54) (obs : Observer σ ω) (fuel : Nat)
    (hf : P.msg.gas.toNat + 2 ≤ fuel) (buf : Nat → U256) (w : σ) (o : ω) :
    ∃ res w' vm' o', vm.executeWith E obs fuel P.code P.msg P.rev buf w o = .ok (some (res, w', vm', o')) ∧
      VmOk codeOf P.keccak vm' ∧ vm'.options = vm.options ∧
      ∃ s', Final P (initial P w) s' ∧ res.status = statusCode s'.status ∧ res.gasLeft = s'.gas ∧
        res.gasRefund = s'.refund ∧ res.output = s'.ret ∧ w' = s'.host := by
  obtain ⟨vm1, hl, hv1, hopt, hsh⟩ := lookupCode_ok hv hh
  have hs : ∀ s, (vm1.args (computeContractInfo P.code) P.msg P.rev).sha3 = some s → Sha3Ok P.keccak s := by
    intro s h
    unfold Vm.args at h
    dsimp only at h
    split at h
    · simp only [Option.some.injEq] at h; rw [← h]; exact hv1.sha3
    · simp at h
  have hS := sim_initial hg0 buf w _ hs
  obtain ⟨l', c', o', hloop, s', hfin, hS'⟩ := loop_run hP hE obs (-1) fuel 0 (obs.preRun P.msg o) hS
    (fun _ => ⟨wf_initial w hg, hf⟩) (by omega)
  obtain ⟨e1, e2, e3, e4, e5, e6⟩ := epilogue_run hS' hfin.1
  have heq : vm.executeWith E obs fuel P.code P.msg P.rev buf w o = .ok (some (
      { status := toEvmcStatusCode (epilogue false l' c').state, gasLeft := (epilogue false l' c').gas
        gasRefund := (epilogue false l' c').gasRefunds, output := (epilogue false l' c').returnData },
      (epilogue false l' c').world, vm1.putSha3 (epilogue false l' c').sha3, obs.postRun P.msg o')) := by
    unfold Vm.executeWith
    rw [hl]
    show (do
      let r ← interpret E obs fuel (vm1.args (computeContractInfo P.code) P.msg P.rev) buf w o
      _ : M _) = _
    unfold interpret
    rw [show (vm1.args (computeContractInfo P.code) P.msg P.rev).message = P.msg from rfl]
    dsimp only
    rw [runInterpreter_of_loop hloop]
    rfl
  refine ⟨_, _, _, _, heq, ?_, ?_, s', hfin, ?_, e2, e3, e4, e5⟩
  · show VmOk codeOf P.keccak (vm1.putSha3 (epilogue false l' c').sha3)
    rw [e6]
    unfold Vm.putSha3
    cases hc : c'.sha3 with
    | none => exact hv1
    | some x => exact ⟨hv1.analysis, hS'.fixed.sha3 x hc⟩
  · show (vm1.putSha3 (epilogue false l' c').sha3).options = _
    unfold Vm.putSha3
    cases (epilogue false l' c').sha3 <;> exact hopt
  · show toEvmcStatusCode (epilogue false l' c').state = _
    rw [e1, status_mapping]

/-! ### Stepping -/

/-- Well-formedness is kept as long as the frame does not fail. -/
theorem wf_steps_alive (hP : ParamsOk P) (n : Nat) : ∀ {s : State σ}, Wf P s →
    (∀ f, (steps P n s).status ≠ .failed f) → Wf P (steps P n s) := by
  induction n with
  | zero => intro s hw _; exact hw
  | succ n ih =>
    intro s hw hf
    by_cases hr : s.status = .running
    · have hnf : ∀ f, (step P s).status ≠ .failed f := by
        intro f h
        have : steps P n (step P s) = step P s := steps_halted (by rw [h]; simp) n
        exact hf f (by show (steps P n (step P s)).status = _; rw [this]; exact h)
      exact ih (step_wf hP hw hr hnf).1 hf
    · rw [steps_halted hr]; exact hw

theorem pushAll_ok (l : List U256) : ∀ (s : Stack) (t : Nat), s.top = t → l.length ≤ t → t ≤ 1024 →
    ∃ s', s.pushAll l = .ok s' ∧ s'.top = ((t - l.length : Nat) : Int) ∧
      absStack s'.buf (t - l.length) = l.reverse ++ absStack s.buf t := by
  induction l with
  | nil => intro s t ht hl _; exact ⟨s, rfl, by simpa using ht, by simp⟩
  | cons v vs ih =>
    intro s t ht hl h1024
    simp only [List.length_cons] at hl
    have hp : s.push v = .ok { buf := setBuf s.buf (t - 1) v, top := ((t - 1 : Nat) : Int) } := by
      unfold Stack.push
      rw [ht]
      dsimp only
      rw [if_pos (by omega)]
      congr 2
      · unfold setBuf
        funext i
        rw [show ((t : Int) - 1).toNat = t - 1 by omega]
      · omega
    obtain ⟨s', h1, h2, h3⟩ := ih { buf := setBuf s.buf (t - 1) v, top := ((t - 1 : Nat) : Int) } (t - 1) rfl (by omega) (by omega)
    refine ⟨s', ?_, ?_, ?_⟩
    · show (do
        let s ← s.push v
        s.pushAll vs : M Stack) = _
      rw [hp]
      exact h1
    · rw [h2]; simp only [List.length_cons]; omega
    · rw [show t - (v :: vs).length = t - 1 - vs.length by simp only [List.length_cons]; omega, h3]
      dsimp only
      rw [absStack_push _ _ _ (by omega), show t - 1 + 1 = t by omega]
      simp

theorem stack_size (s : Stack) (t : Nat) (h : s.top = t) (ht : t ≤ 1024) : s.size = 1024 - t := by
  unfold Stack.size kStackSize
  rw [h]
  omega

theorem copy_eq (s : Stack) (t : Nat) (h : s.top = t) (ht : t ≤ 1024) : s.copy = s := by
  unfold Stack.copy
  rw [stack_size s t h ht]
  cases s
  simp only [Stack.mk.injEq, true_and] at *
  rw [h]
  unfold kStackSize
  omega

theorem readDown_ok (s : Stack) (n : Nat) : ∀ (t : Nat), t + n = 1024 → s.readDown n t = .ok (absStack s.buf t) := by
  induction n with
  | zero =>
    intro t ht
    have : t = 1024 := by omega
    subst this
    simp [Stack.readDown, absStack]
  | succ n ih =>
    intro t ht
    have := ih (t + 1) (by omega)
    unfold Stack.readDown
    rw [if_pos (by omega), show (t : Int) + 1 = ((t + 1 : Nat) : Int) by omega, this]
    rw [absStack_cons _ t (by omega)]
    rfl

theorem export_ok (s : Stack) (t : Nat) (h : s.top = t) (ht : t ≤ 1024) :
    s.export = .ok (absStack s.buf t).reverse := by
  unfold Stack.export
  rw [stack_size s t h ht, h, readDown_ok s _ t (by omega)]
  rfl

theorem writeTo_all (m : Memory) : m.writeTo m.size 0 = .ok (m.data, m) := by
  unfold Memory.writeTo
  have hg : m.grow 0 m.size = m := by
    unfold Memory.grow
    split
    · dsimp only
      rw [if_neg]
      have : (0 + m.size) % u64Mod ≤ 0 + m.size := Nat.mod_le _ _
      omega
    · rfl
  rw [hg]
  have hr : m.readAt 0 m.size = .ok m.data := by
    unfold Memory.readAt
    split
    · rename_i h
      have : m.data = [] := List.length_eq_zero_iff.1 h
      rw [this]
    · rw [if_pos (by omega)]
      simp [Memory.size]
  dsimp only
  rw [hr]
  rfl

theorem ofBytes_abs (l : List Byte) (h : l.length + 31 < u64Mod) : absMem (Memory.ofBytes l) = Mem.ofBytes l := by
  unfold Memory.ofBytes Memory.resize absMem Mem.ofBytes
  have e : (l.length + 31) % u64Mod = l.length + 31 := Nat.mod_eq_of_lt h
  dsimp only
  rw [e]
  have ht : l.take ((l.length + 31) / 32 * 32) = l := List.take_of_length_le (by omega)
  rw [ht]
  apply Mem.ext
  · simp only [List.length_append, List.length_replicate]; unfold words; omega
  · intro i
    exact getD_append_replicate _ _ _

/-- A word-aligned memory is the one given by its bytes. -/
theorem absMem_ofBytes (m : Memory) (h : m.data.length % 32 = 0) : absMem m = Mem.ofBytes m.data := by
  unfold absMem Mem.ofBytes
  apply Mem.ext
  · dsimp only; unfold words; omega
  · intro i; rfl

/-- Reading back a word-aligned byte string. -/
theorem ofBytes_read (l : List Byte) (h : l.length % 32 = 0) :
    (Mem.ofBytes l).read 0 (Mem.ofBytes l).size = l := by
  unfold Mem.ofBytes Mem.read
  dsimp only
  have hs : 32 * words l.length = l.length := by unfold words; omega
  rw [hs]
  apply List.ext_getElem
  · simp
  · intro i h1 h2
    simp [byteAt, h2]

/-- The epilogue of `StepN`'s interpreter run. -/
theorem epilogue_step {l : Loc} {c : Ctx σ} {s : State σ} (hS : Sim P l c s) :
    (epilogue true l c).state = runStateOf s.status ∧ (epilogue true l c).gas = s.gas ∧
    (epilogue true l c).gasRefunds = s.refund ∧ (epilogue true l c).returnData = s.ret ∧
    (epilogue true l c).world = s.host ∧ (epilogue true l c).sha3 = c.sha3 ∧
    (epilogue true l c).memory = c.memory ∧ (epilogue true l c).stack.buf = c.stack.buf ∧
    ((epilogue true l c).stack.top = l.top ∨ (epilogue true l c).stack.top = c.stack.top) ∧
    ((∀ w, s.status ≠ .failed w) → (epilogue true l c).stack.top = l.top ∧ (epilogue true l c).pc = s.pc) ∧
    ((∃ w, s.status = .failed w) → (epilogue true l c).stack.top = c.stack.top) := by
  have hsucc : (runStateOf s.status).isSuccess = true ∨ runStateOf s.status = .running ↔
      ∀ w, s.status ≠ .failed w := by
    cases hs : s.status with
    | failed w => cases w <;> simp [runStateOf, RunState.isSuccess]
    | _ => simp [runStateOf, RunState.isSuccess]
  refine ⟨hS.rel.state, ?_, hS.rel.refund, ?_, hS.rel.world, rfl, rfl, rfl, ?_, ?_, ?_⟩
  · unfold epilogue
    simp only [if_true]
    rw [hS.rel.state]
    by_cases hf : ∀ w, s.status ≠ .failed w
    · rw [if_pos (hsucc.2 hf)]
      exact (hS.rel.alive hf).2.1
    · rw [if_neg (fun h => hf (hsucc.1 h))]
      simp only [not_forall, not_not] at hf
      obtain ⟨w, hw⟩ := hf
      rw [(hS.rel.failed w hw).1]; rfl
  · unfold epilogue
    dsimp only
    rw [hS.rel.state]
    by_cases h : (∃ w, s.status = .failed w) ∨ s.status = .stopped
    · rw [if_pos ((ret_or_revert _).2 h)]
      rcases h with ⟨w, hw⟩ | h
      · exact (hS.rel.failed w hw).2.symm
      · exact (hS.rel.stopped h).symm
    · rw [if_neg (fun h' => h ((ret_or_revert _).1 h'))]
      exact hS.rel.ret (fun w hw => h (.inl ⟨w, hw⟩)) (fun hw => h (.inr hw))
  · unfold epilogue
    simp only [if_true]
    split
    · exact .inl rfl
    · exact .inr rfl
  · intro hf
    unfold epilogue
    simp only [if_true]
    rw [hS.rel.state, if_pos (hsucc.2 hf), (hS.rel.alive hf).1]
    exact ⟨rfl, rfl⟩
  · rintro ⟨w, hw⟩
    unfold epilogue
    simp only [if_true]
    rw [hS.rel.state, if_neg (fun h => (hsucc.1 h) w hw)]

/-- `StepN` from a running state executes `n` steps of the specification. -/
theorem stepN_base (hP : ParamsBase P) (hE : EnvOk P E) {codeOf : U256 → List Byte} {vm : Vm}
    (hv : VmOk codeOf P.keccak vm) (hh : HashOk codeOf P.msg P.code) (hg0 : 0 ≤ P.msg.gas)
    (pc : Nat) (refund : Int) (stack : List U256) (memory ret : List Byte) (n : Nat) (hn : n ≤ 2147483646)
    (fuel : Nat) (hf : n + 1 ≤ fuel) (buf : Nat → U256) (w : σ)
    (hw : Wf P (frame .running pc P.msg.gas refund stack memory ret w))
    (hall : ∀ k < n, let s := steps P k (frame .running pc P.msg.gas refund stack memory ret w)
      s.status = .running → Wf P s ∧ Fits P s.refund s.gas s.host)
    (hmod : (∀ f, (steps P n (frame .running pc P.msg.gas refund stack memory ret w)).status ≠ .failed f) →
      (steps P n (frame .running pc P.msg.gas refund stack memory ret w)).mem.size % 32 = 0) :
    ∃ res w' vm', vm.stepN E fuel P.code P.msg P.rev .running pc refund stack memory ret n buf w =
        .ok (some (res, w', vm')) ∧
      VmOk codeOf P.keccak vm' ∧ vm'.options = vm.options ∧
      let s' := steps P n (frame .running pc P.msg.gas refund stack memory ret w)
      Describes P.rev stack.length res w' s' ∧
      ((∀ f, s'.status ≠ .failed f) → res.memory.length % 32 = 0 ∧
        s' = frame s'.status res.pc res.gasLeft res.gasRefund res.stack res.memory res.lastCallReturnData w') := by
  obtain ⟨vm1, hl, hv1, hopt, hsh⟩ := lookupCode_ok hv hh
  have hs : ∀ s, (vm1.args (computeContractInfo P.code) P.msg P.rev).sha3 = some s → Sha3Ok P.keccak s := by
    intro s h
    unfold Vm.args at h
    dsimp only at h
    split at h
    · simp only [Option.some.injEq] at h; rw [← h]; exact hv1.sha3
    · simp at h
  have hstk : stack.length ≤ 1024 := by simpa [frame, stackLimit] using hw.stack
  have hmemlen : memory.length + 31 < u64Mod := by
    have := hw.gas
    unfold frame Mem.ofBytes at this
    dsimp only at this
    rw [words_mul] at this
    unfold memGas words at this
    unfold u64Mod
    omega
  obtain ⟨conv, hpush, htop, habs⟩ := pushAll_ok stack { buf := buf } 1024 rfl hstk (by omega)
  have habs' : absStack conv.buf (1024 - stack.length) = stack.reverse := by
    rw [habs]; simp [absStack]
  let args : SteppingArgs := {
    toInterpreterArgs := vm1.args (computeContractInfo P.code) P.msg P.rev
    state := .running
    pc := pc
    gasRefunds := refund
    stack := conv
    memory := Memory.ofBytes memory
    steps := n
    lastCallReturnData := ret }
  have hcopy := copy_eq conv _ htop (by omega)
  have hsize := stack_size conv _ htop (by omega)
  have hS : Sim P (startLoc true (steppingCtx args w)) (steppingCtx args w)
      (frame .running pc P.msg.gas refund stack memory ret w) := by
    refine ⟨⟨rfl, rfl, rfl, rfl, rfl, hs⟩, ?_, ?_⟩
    · refine rel_running (1024 - stack.length) rfl rfl rfl rfl ?_ ?_ ?_ (by omega) ?_ rfl
      · show P.msg.gas = ((P.msg.gas.toNat : Nat) : Int)
        omega
      · exact (ofBytes_abs memory hmemlen).symm
      · show (args.stack.copy).top = _
        rw [show args.stack.copy = conv from hcopy, htop]
      · show stack.reverse = absStack (args.stack.copy).buf _
        rw [show args.stack.copy = conv from hcopy, habs']
    · show (((args.stack.copy).size : Nat) : Int) = 1024 - (args.stack.copy).top
      rw [show args.stack.copy = conv from hcopy, hsize, htop]
      omega
  obtain ⟨l', c', o', hloop, hpc', htop', hS'⟩ := loop_base hP hE noObserver rfl n fuel 0 n () hS
    hall hf (by omega) (by omega) (by omega)
  obtain ⟨e1, e2, e3, e4, e5, e6, e7, e8, _, e9, e10⟩ := epilogue_step hS'
  have hctop : c'.stack.top = ((1024 - stack.length : Nat) : Int) := by
    rw [htop']
    show (args.stack.copy).top = _
    rw [show args.stack.copy = conv from hcopy, htop]
  -- the final stack pointer is in range
  have ht' : ∃ t : Nat, (epilogue true l' c').stack.top = t ∧ t ≤ 1024 := by
    by_cases hfl : ∀ f, (steps P n (frame .running pc P.msg.gas refund stack memory ret w)).status ≠ .failed f
    · obtain ⟨_, _, _, t, h1, h2, _⟩ := hS'.rel.alive hfl
      exact ⟨t, by rw [(e9 hfl).1, h1], h2⟩
    · simp only [not_forall, not_not] at hfl
      exact ⟨_, by rw [e10 hfl, hctop], by omega⟩
  obtain ⟨t', ht', ht1024⟩ := ht'
  have heq : vm.stepN E fuel P.code P.msg P.rev .running pc refund stack memory ret n buf w = .ok (some (
      { stepStatus := toEvmcStepStatusCode (epilogue true l' c').state
        status := toEvmcStatusCode (epilogue true l' c').state
        revision := P.rev
        pc := (epilogue true l' c').pc
        gasLeft := (epilogue true l' c').gas
        gasRefund := (epilogue true l' c').gasRefunds
        output := (epilogue true l' c').returnData
        stack := (absStack (epilogue true l' c').stack.buf t').reverse
        memory := (epilogue true l' c').memory.data
        lastCallReturnData := (epilogue true l' c').returnData },
      (epilogue true l' c').world, vm1.putSha3 (epilogue true l' c').sha3)) := by
    unfold Vm.stepN
    rw [hl]
    show (do
      let converted ← Stack.pushAll { buf := buf } stack
      _ : M _) = _
    rw [hpush]
    show (do
      let r ← interpretNSteps E fuel
        { toInterpreterArgs := vm1.args (computeContractInfo P.code) P.msg P.rev
          state := .running, pc := pc, gasRefunds := refund, stack := conv.copy
          memory := Memory.ofBytes memory
          steps := if StepStatus.running = .running then n else 0
          lastCallReturnData := ret } w
      _ : M _) = _
    rw [hcopy, if_pos rfl]
    unfold interpretNSteps
    rw [show runInterpreter E noObserver true (n : Int) fuel (steppingCtx args w) () = _ from
      runInterpreter_of_loop hloop]
    simp only [bind, Except.bind, pure, Except.pure]
    rw [copy_eq _ _ ht' ht1024, export_ok _ _ ht' ht1024]
    dsimp only
    rw [writeTo_all]
  refine ⟨_, _, _, heq, ?_, ?_, ?_⟩
  · rw [e6]
    unfold Vm.putSha3
    cases hc : c'.sha3 with
    | none => exact hv1
    | some x => exact ⟨hv1.analysis, hS'.fixed.sha3 x hc⟩
  · unfold Vm.putSha3
    cases (epilogue true l' c').sha3 <;> exact hopt
  · dsimp only
    have hfr : (∀ f, (steps P n (frame .running pc P.msg.gas refund stack memory ret w)).status ≠ .failed f) →
        (epilogue true l' c').memory.data.length % 32 = 0 ∧
        steps P n (frame .running pc P.msg.gas refund stack memory ret w) =
          frame (steps P n (frame .running pc P.msg.gas refund stack memory ret w)).status
            (epilogue true l' c').pc (epilogue true l' c').gas (epilogue true l' c').gasRefunds
            (absStack (epilogue true l' c').stack.buf t').reverse (epilogue true l' c').memory.data
            (epilogue true l' c').returnData (epilogue true l' c').world := by
      intro hfl
      obtain ⟨h1, h2, h3, t, h4, h5, h6⟩ := hS'.rel.alive hfl
      obtain ⟨g1, g2⟩ := e9 hfl
      have htt : t = t' := by
        have : (t : Int) = t' := by rw [← h4, ← g1, ht']
        omega
      subst htt
      have hal : (steps P n (frame .running pc P.msg.gas refund stack memory ret w)).mem.size % 32 = 0 :=
        hmod hfl
      generalize steps P n (frame .running pc P.msg.gas refund stack memory ret w) = s' at *
      rw [h3] at hal
      rw [g2, e2, e3, e4, e5, e7, e8, ← h6]
      refine ⟨hal, ?_⟩
      unfold frame
      rw [List.reverse_reverse, Int.toNat_natCast, ← absMem_ofBytes _ hal, ← h3]
    refine ⟨⟨e5, ?_, ?_, hS'.rel.failed⟩, hfr⟩
    · intro hfl
      obtain ⟨hal, heqf⟩ := hfr hfl
      generalize steps P n (frame .running pc P.msg.gas refund stack memory ret w) = s' at *
      have hm : s'.mem = Mem.ofBytes (epilogue true l' c').memory.data := by
        conv_lhs => rw [heqf]
        rfl
      have hk : s'.stack = absStack (epilogue true l' c').stack.buf t' := by
        conv_lhs => rw [heqf]
        simp [frame]
      have hp : s'.pc = (epilogue true l' c').pc := by
        conv_lhs => rw [heqf]
        rfl
      unfold resultOf
      rw [hm, ofBytes_read _ hal, hk, hp, e1, step_mapping, status_mapping, e2, e3, e4]
    · intro f hfl
      have h10 := e10 ⟨f, hfl⟩
      obtain ⟨hg, hr⟩ := hS'.rel.failed f hfl
      rw [e1, e2, e3, e4, step_mapping, status_mapping, hfl, hg, hr]
      refine ⟨rfl, rfl, rfl, rfl, rfl, rfl, rfl, ?_⟩
      rw [ht', hctop] at h10
      rw [List.length_reverse, absStack_length]
      omega

/-- `StepN` from a running state executes `n` steps of the specification. -/
theorem stepN_ok (hP : ParamsOk P) (hE : EnvOk P E) {codeOf : U256 → List Byte} {vm : Vm}
    (hv : VmOk codeOf P.keccak vm) (hh : HashOk codeOf P.msg P.code) (hg0 : 0 ≤ P.msg.gas)
    (pc : Nat) (refund : Int) (stack : List U256) (memory ret : List Byte) (n : Nat) (hn : n ≤ 2147483646)
    (fuel : Nat) (hf : n + 1 ≤ fuel) (buf : Nat → U256) (w : σ)
    (hw : Wf P (frame .running pc P.msg.gas refund stack memory ret w)) :
    ∃ res w' vm', vm.stepN E fuel P.code P.msg P.rev .running pc refund stack memory ret n buf w =
        .ok (some (res, w', vm')) ∧
      VmOk codeOf P.keccak vm' ∧ vm'.options = vm.options ∧
      let s' := steps P n (frame .running pc P.msg.gas refund stack memory ret w)
      Describes P.rev stack.length res w' s' ∧
      ((∀ f, s'.status ≠ .failed f) → res.memory.length % 32 = 0 ∧
        s' = frame s'.status res.pc res.gasLeft res.gasRefund res.stack res.memory res.lastCallReturnData w') :=
  stepN_base hP.base hE hv hh hg0 pc refund stack memory ret n hn fuel hf buf w hw
    (fun k _ h => ⟨wf_along hP k (fun _ => hw) h, fits_wf hP (wf_along hP k (fun _ => hw) h)⟩)
    (fun hfl => (wf_steps_alive hP n hw hfl).memAligned)

/-- `StepN` from a state that is not running, or with no steps to do: the state is handed back. -/
theorem stepN_idle (E : Env σ) {codeOf : U256 → List Byte} {keccak : List Byte → U256} {vm : Vm} {code : List Byte}
    {msg : Message} (rev : Revision)
    (hv : VmOk codeOf keccak vm) (hh : HashOk codeOf msg code)
    (status : StepStatus) (pc : Nat) (refund : Int) (stack : List U256) (memory ret : List Byte) (n : Int)
    (hn : status = .running → n ≤ 0) (hs : stack.length ≤ 1024) (hm : memory.length < 2 ^ 64 - 31)
    (fuel : Nat) (hf : 1 ≤ fuel) (buf : Nat → U256) (w : σ) :
    ∃ vm', vm.stepN E fuel code msg rev status pc refund stack memory ret n buf w =
      .ok (some ({
        stepStatus := if status = .other then .failed else status
        status := toEvmcStatusCode (toRunStateCode status)
        revision := rev
        pc := pc
        gasLeft := if status = .failed ∨ status = .other then 0 else msg.gas
        gasRefund := refund
        output := if status = .stopped ∨ status = .failed ∨ status = .other then [] else ret
        stack := stack
        memory := slice memory 0 (32 * words memory.length)
        lastCallReturnData := if status = .stopped ∨ status = .failed ∨ status = .other then [] else ret },
        w, vm')) ∧ VmOk codeOf keccak vm' := by
  obtain ⟨vm1, hl, hv1, hopt, hsh⟩ := lookupCode_ok hv hh
  obtain ⟨conv, hpush, htop, habs⟩ := pushAll_ok stack { buf := buf } 1024 rfl hs (by omega)
  have habs' : absStack conv.buf (1024 - stack.length) = stack.reverse := by
    rw [habs]; simp [absStack]
  have hcopy := copy_eq conv _ htop (by omega)
  let n' : Int := if status = .running then n else 0
  have hn' : n' ≤ 0 := by
    show (if status = .running then n else 0) ≤ 0
    split
    · rename_i h; exact hn h
    · omega
  let args : SteppingArgs := {
    toInterpreterArgs := vm1.args (computeContractInfo code) msg rev
    state := toRunStateCode status
    pc := pc
    gasRefunds := refund
    stack := conv
    memory := Memory.ofBytes memory
    steps := n'
    lastCallReturnData := ret }
  obtain ⟨fuel, rfl⟩ : ∃ f, fuel = f + 1 := ⟨fuel - 1, by omega⟩
  have hloop : loop E noObserver true n' (fuel + 1) 0 (startLoc true (steppingCtx args w)) (steppingCtx args w) () =
      .ok (some (startLoc true (steppingCtx args w), steppingCtx args w, ())) := by
    rw [loop_succ_true _ _ _ _ _ _ _ (by omega), if_pos hn']
  have hst : (steppingCtx args w).stack = conv := hcopy
  have hep : (epilogue true (startLoc true (steppingCtx args w)) (steppingCtx args w)).stack = conv := by
    unfold epilogue
    simp only [if_true]
    show Stack.mk _ _ = _
    rw [show (startLoc true (steppingCtx args w)).top = conv.top by rw [← hst]; rfl]
    rw [hst]
    split <;> rfl
  have hmem : (Memory.ofBytes memory).data = slice memory 0 (32 * words memory.length) := by
    unfold Memory.ofBytes Memory.resize slice
    dsimp only
    rw [Nat.mod_eq_of_lt (by unfold u64Mod; omega)]
    apply List.ext_getElem
    · simp only [List.length_append, List.length_take, List.length_replicate, List.length_map, List.length_range]
      unfold words; omega
    · intro i h1 h2
      rw [List.getElem_map, List.getElem_range, Nat.zero_add]
      unfold byteAt
      rw [← getD_append_replicate memory ((memory.length + 31) / 32 * 32 - memory.length) i]
      simp only [List.take_of_length_le (show memory.length ≤ (memory.length + 31) / 32 * 32 by omega)] at h1 ⊢
      rw [List.getD_eq_getElem?_getD, List.getElem?_eq_getElem h1]
      rfl
  refine ⟨vm1.putSha3 (if vm1.options.sha3Cache then some vm1.sha3Cache else none), ?_, ?_⟩
  · unfold Vm.stepN
    rw [hl]
    show (do
      let converted ← Stack.pushAll { buf := buf } stack
      _ : M _) = _
    rw [hpush]
    show (do
      let r ← interpretNSteps E (fuel + 1)
        { toInterpreterArgs := vm1.args (computeContractInfo code) msg rev
          state := toRunStateCode status, pc := pc, gasRefunds := refund, stack := conv.copy
          memory := Memory.ofBytes memory
          steps := if status = .running then n else 0
          lastCallReturnData := ret } w
      _ : M _) = _
    rw [hcopy]
    unfold interpretNSteps
    rw [show runInterpreter E noObserver true n' (fuel + 1) (steppingCtx args w) () = _ from
      runInterpreter_of_loop hloop]
    simp only [bind, Except.bind, pure, Except.pure]
    rw [hep, copy_eq _ _ htop (by omega), export_ok _ _ htop (by omega)]
    dsimp only
    rw [writeTo_all, habs', List.reverse_reverse]
    dsimp only
    rw [show (epilogue true (startLoc true (steppingCtx args w)) (steppingCtx args w)).memory.data =
      slice memory 0 (32 * words memory.length) from hmem]
    have h4 : (epilogue true (startLoc true (steppingCtx args w)) (steppingCtx args w)).world = w := rfl
    have h5 : (epilogue true (startLoc true (steppingCtx args w)) (steppingCtx args w)).pc = pc := rfl
    have h6 : (epilogue true (startLoc true (steppingCtx args w)) (steppingCtx args w)).gasRefunds = refund := rfl
    have h7 : (epilogue true (startLoc true (steppingCtx args w)) (steppingCtx args w)).state = toRunStateCode status := rfl
    have h1 : (epilogue true (startLoc true (steppingCtx args w)) (steppingCtx args w)).gas =
        if status = .failed ∨ status = .other then 0 else msg.gas := by
      show (if (toRunStateCode status).isSuccess ∨ toRunStateCode status = .running then (msg.gas, _) else (0, _) : Int × Int).1 = _
      cases status <;> simp [toRunStateCode, RunState.isSuccess]
    have h2 : (epilogue true (startLoc true (steppingCtx args w)) (steppingCtx args w)).returnData =
        if status = .stopped ∨ status = .failed ∨ status = .other then [] else ret := by
      show (if toRunStateCode status ≠ .ret ∧ toRunStateCode status ≠ .revert ∧ toRunStateCode status ≠ .running
        then [] else ret : List Byte) = _
      cases status <;> simp [toRunStateCode]
    have h3 : toEvmcStepStatusCode (toRunStateCode status) = if status = .other then .failed else status := by
      cases status <;> rfl
    rw [h1, h2, h4, h5, h6, h7, h3]
    rfl
  · show VmOk codeOf keccak (vm1.putSha3 (if vm1.options.sha3Cache then some vm1.sha3Cache else none))
    cases vm1.options.sha3Cache <;> exact hv1

end Tosca.Proofs
