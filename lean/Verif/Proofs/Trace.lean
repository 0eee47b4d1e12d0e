import Verif.Proofs.Vm
import Verif.Spec.Trace

/-!
# What an observer of `Execute` sees
-/

namespace Tosca.Proofs

open Tosca.Model Tosca.Spec

variable {σ ω : Type} {P : Params σ} {E : Env σ}

/-- What an observer is told around the instruction dispatched in the state `s`: the opcode, and
the context before (`c`) and after (`c'`) it. -/
structure Sees (P : Params σ) (obs : Observer σ ω) (s : State σ) (op : OpCode) (c c' : Ctx σ) : Prop where
  opcode : op = dispatch (byteAt P.code s.pc)
  instr : toInstr op = instrAt P s
  msg : c.message = P.msg
  msg' : c'.message = P.msg
  view : obs.usesContext = true → c.gas = s.gas ∧ ∃ t : Nat, t ≤ 1024 ∧ c.stack.top = t ∧ s.stack = absStack c.stack.buf t

/-- An observer that is told about the dispatches of a trace goes from `o` to `o'`. -/
inductive Observed (P : Params σ) (obs : Observer σ ω) : List (State σ) → ω → ω → Prop
  | nil {o : ω} : Observed P obs [] o o
  | cons {s : State σ} {tr : List (State σ)} {op : OpCode} {c c' : Ctx σ} {o o' : ω} :
      Sees P obs s op c c' → Observed P obs tr (obs.postInstruction op c' (obs.preInstruction op c o)) o' →
      Observed P obs (s :: tr) o o'

theorem instr_dispatch (s : State σ) : toInstr (dispatch (byteAt P.code s.pc)) = instrAt P s := by
  unfold instrAt instrOf
  cases hd : decode (byteAt P.code s.pc).toNat with
  | some i => exact decode_some hd
  | none => rw [decode_none hd]; rfl

/-- The loop of `Execute`, with what its observer sees. -/
theorem loop_trace (hP : ParamsOk P) (hE : EnvOk P E) (obs : Observer σ ω) (steps_ : Int) (fuel : Nat) :
    ∀ (e : Int) {l : Loc} {c : Ctx σ} {s : State σ} (o : ω), Sim P l c s →
      (obs.usesContext = true → c.gas = l.gas ∧ c.stack.top = l.top) →
      (s.status = .running → Wf P s ∧ s.gas + 2 ≤ fuel) → 1 ≤ fuel →
      ∃ l' c' o', loop E obs false steps_ fuel e l c o = .ok (some (l', c', o')) ∧
        ∃ tr, Dispatches P s tr ∧ Observed P obs tr o o' := by
  induction fuel with
  | zero => intro e l c s o hS hy hw h1; omega
  | succ fuel ih =>
    intro e l c s o hS hy hw _
    unfold loop
    by_cases hr : s.status = .running
    · obtain ⟨hwf, hf⟩ := hw hr
      obtain ⟨l1, c1, o1, hex, _, _, hy1, ho1, k, hk, hS1⟩ := execOne_full hP hE obs false o hS hwf hr
      have hl : l.state = .running := by rw [hS.rel.state, hr]; rfl
      have hk' : k = 1 ∨ k = 2 ∧ (step P s).status = .running := by
        rcases hk with ⟨h, _⟩ | ⟨h, _, _, h'⟩
        · exact .inl h
        · exact .inr ⟨h, h'⟩
      have hafter : steps P k s = afterDispatch P s := by
        unfold afterDispatch
        rcases hk with ⟨rfl, h⟩ | ⟨rfl, _, h, h'⟩
        · rw [if_neg (fun h' => h ⟨rfl, h'⟩), steps_one]
        · rw [if_pos ⟨h, h'⟩, steps_two]
      obtain ⟨l2, c2, o2, hlo, tr, hd, ho⟩ := ih e (l := l1) (c := c1) (s := steps P k s) o1 hS1 hy1
        (fun h => by
          have := wf_steps hP hwf hr hk' h
          exact ⟨this.1, by omega⟩) (by omega)
      rw [hafter] at hd
      refine ⟨l2, c2, o2, ?_, s :: tr, .next hr hd, .cons (op := dispatch (byteAt P.code s.pc)) (c := c) (c' := c1) ?_ ?_⟩
      · simp only [Bool.false_eq_true, if_false, false_and, hl, if_true]
        show (do
          let (l, c, o) ← execOne E obs false l c o
          loop E obs false steps_ fuel e l c o : M _) = _
        rw [hex]
        exact hlo
      · refine ⟨rfl, instr_dispatch s, hS.fixed.msg, hS1.fixed.msg, ?_⟩
        intro hu
        obtain ⟨t, ht, htop, hs, _, hgas⟩ := rel_abs hS.rel hr
        obtain ⟨hg, ht'⟩ := hy hu
        refine ⟨hg.trans hgas, t, ht, ht'.trans htop, ?_⟩
        rw [hs]
        rfl
      · rw [← ho1]; exact ho
    · refine ⟨l, c, o, ?_, [], .halted hr, .nil⟩
      have hl : l.state ≠ .running := by
        rw [hS.rel.state]
        intro h
        exact hr (runStateOf_inj (b := .running) h)
      simp only [Bool.false_eq_true, if_false, false_and, hl]
      rfl

/-- `Execute` with any observer: what the observer sees. -/
theorem executeWith_trace (hP : ParamsOk P) (hE : EnvOk P E) {codeOf : U256 → List Byte} {vm : Vm}
    (hv : VmOk codeOf P.keccak vm) (hh : HashOk codeOf P.msg P.code)
    (hg0 : 0 ≤ P.msg.gas) (hg : P.msg.gas ≤ 2 ^ 54) (obs : Observer σ ω) (fuel : Nat)
    (hf : P.msg.gas.toNat + 2 ≤ fuel) (buf : Nat → U256) (w : σ) (o : ω) :
    ∃ res w' vm' o' tr, vm.executeWith E obs fuel P.code P.msg P.rev buf w o =
        .ok (some (res, w', vm', obs.postRun P.msg o')) ∧
      Dispatches P (initial P w) tr ∧ Observed P obs tr (obs.preRun P.msg o) o' := by
  obtain ⟨vm1, hl, hv1, hopt, hsh⟩ := lookupCode_ok hv hh
  have hs : ∀ s, (vm1.args (computeContractInfo P.code) P.msg P.rev).sha3 = some s → Sha3Ok P.keccak s := by
    intro s h
    unfold Vm.args at h
    dsimp only at h
    split at h
    · simp only [Option.some.injEq] at h; rw [← h]; exact hv1.sha3
    · simp at h
  have hS := sim_initial hg0 buf w _ hs
  obtain ⟨l', c', o', hloop, tr, hd, ho⟩ := loop_trace hP hE obs (-1) fuel 0 (obs.preRun P.msg o) hS
    (fun _ => ⟨rfl, rfl⟩) (fun _ => ⟨wf_initial w hg, hf⟩) (by omega)
  have heq : vm.executeWith E obs fuel P.code P.msg P.rev buf w o = .ok (some (
      { status := toEvmcStatusCode (epilogue false l' c').state, gasLeft := (epilogue false l' c').gas
        gasRefund := (epilogue false l' c').gasRefunds, output := (epilogue false l' c').returnData },
      (epilogue false l' c').world, vm1.putSha3 (epilogue false l' c').sha3, obs.postRun P.msg o')) := by
    unfold Vm.executeWith
    rw [hl]
    show (do
      let r ← interpret E obs fuel (vm1.args (computeContractInfo P.code) P.msg P.rev) buf w o
      _ : M _) = _
    unfold interpret
    rw [show (vm1.args (computeContractInfo P.code) P.msg P.rev).message = P.msg from rfl]
    dsimp only
    rw [runInterpreter_of_loop hloop]
    rfl
  exact ⟨_, _, _, o', tr, heq, hd, ho⟩

/-- The dispatches of a run are determined by its start. -/
theorem dispatches_unique {s : State σ} {tr tr' : List (State σ)} (h : Dispatches P s tr) (h' : Dispatches P s tr') :
    tr = tr' := by
  induction h generalizing tr' with
  | halted hn =>
    cases h' with
    | halted => rfl
    | next hr => exact absurd hr hn
  | next hr _ ih =>
    cases h' with
    | halted hn => exact absurd hr hn
    | next _ h' => rw [ih h']

end Tosca.Proofs
