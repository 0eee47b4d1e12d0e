import Verif.Proofs.Sync

/-!
# Facts that hold for every host
-/

namespace Tosca.Proofs

open Tosca.Model Tosca.Spec

variable {σ ω : Type} {E : Env σ} {I : Option Sha3Cache → Prop}

/-! ### Observers -/

theorem up_up (g t g' t' : Int) (c : Ctx σ) : Up g' t' (Up g t c) = Up g' t' c := rfl

theorem execOne_sync (hI : KeepsSha3 E I) (obs : Observer σ ω) (stepping : Bool) (l : Loc) (c : Ctx σ) (g t : Int) (o : ω) :
    match execOne E noObserver stepping l c () with
    | .error e => execOne E obs stepping l (Up g t c) o = .error e
    | .ok (l', c', _) => (∃ g' t' o', execOne E obs stepping l (Up g t c) o = .ok (l', Up g' t' c', o')) ∧
        SameFixed c c' ∧ (I c.sha3 → I c'.sha3) := by
  unfold execOne
  rw [show (Up g t c).code = c.code from rfl]
  simp only [bind, Except.bind, pure, Except.pure]
  cases hf : fetch c.code l.pc with
  | error e => exact rfl
  | ok b =>
    dsimp only
    have h := sync_run hI stepping (dispatch b) (l.pc.getD 0) l.gas l.top l.size c g t
    cases hr : run E stepping (dispatch b) (l.pc.getD 0) l.gas l.top l.size c with
    | error e => rw [hr] at h; simp only at h; rw [h]
    | ok r =>
      obtain ⟨res, c'⟩ := r
      rw [hr] at h
      simp only at h
      rw [h.1]
      dsimp only
      refine ⟨?_, ?_⟩
      · by_cases hu : obs.usesContext = true
        · simp only [hu, if_true]
          exact ⟨_, _, _, rfl⟩
        · simp only [hu, Bool.false_eq_true, if_false]
          exact ⟨_, _, _, rfl⟩
      · exact h.2

theorem loop_succ (obs : Observer σ ω) (stepping : Bool) (n : Int) (fuel : Nat) (e : Int) (l : Loc) (c : Ctx σ) (o : ω) :
    loop E obs stepping n (fuel + 1) e l c o =
      match (if stepping = true then chk32 (e + 1) else .ok e : M Int) with
      | .error err => .error err
      | .ok next =>
        if stepping = true ∧ e ≥ n then .ok (some (l, c, o))
        else if l.state = .running then
          match execOne E obs stepping l c o with
          | .error err => .error err
          | .ok (l, c, o) => loop E obs stepping n fuel next l c o
        else .ok (some (l, c, o)) := by
  rw [loop]
  cases stepping with
  | false =>
    simp only [Bool.false_eq_true, if_false, false_and, bind, Except.bind, pure, Except.pure]
    split
    · split <;> rename_i h <;> rw [h]
    · rfl
  | true =>
    simp only [if_true, true_and, bind, Except.bind, pure, Except.pure]
    cases chk32 (e + 1) with
    | error err => rfl
    | ok v =>
      dsimp only
      split
      · rfl
      · split
        · split <;> rename_i h <;> rw [h]
        · rfl

theorem loop_sync (hI : KeepsSha3 E I) (obs : Observer σ ω) (stepping : Bool) (n : Int) (fuel : Nat) :
    ∀ (e : Int) (l : Loc) (c : Ctx σ) (g t : Int) (o : ω),
    match loop E noObserver stepping n fuel e l c () with
    | .error err => loop E obs stepping n fuel e l (Up g t c) o = .error err
    | .ok none => loop E obs stepping n fuel e l (Up g t c) o = .ok none
    | .ok (some (l', c', _)) =>
        (∃ g' t' o', loop E obs stepping n fuel e l (Up g t c) o = .ok (some (l', Up g' t' c', o'))) ∧
        SameFixed c c' ∧ (I c.sha3 → I c'.sha3) := by
  induction fuel with
  | zero => intro e l c g t o; exact rfl
  | succ fuel ih =>
    intro e l c g t o
    rw [loop_succ, loop_succ]
    cases hn : (if stepping = true then chk32 (e + 1) else .ok e : M Int) with
    | error err => exact rfl
    | ok next =>
      dsimp only
      by_cases h1 : stepping = true ∧ e ≥ n
      · simp only [if_pos h1]; exact ⟨⟨g, t, o, rfl⟩, .refl c, id⟩
      · simp only [if_neg h1]
        by_cases h2 : l.state = .running
        · simp only [if_pos h2]
          have hx := execOne_sync hI obs stepping l c g t o
          cases hex : execOne E noObserver stepping l c () with
          | error err => rw [hex] at hx; simp only at hx; rw [hx]
          | ok r =>
            obtain ⟨l', c', u⟩ := r
            rw [hex] at hx
            simp only at hx
            obtain ⟨⟨g', t', o', hx⟩, hs1, hi1⟩ := hx
            rw [hx]
            dsimp only
            have h3 := ih next l' c' g' t' o'
            cases hlo : loop E noObserver stepping n fuel next l' c' u with
            | error err => rw [hlo] at h3; exact h3
            | ok r =>
              rw [hlo] at h3
              cases r with
              | none => exact h3
              | some r =>
                obtain ⟨l2, c2, u2⟩ := r
                exact ⟨h3.1, hs1.trans h3.2.1, fun h => h3.2.2 (hi1 h)⟩
        · simp only [if_neg h2]; exact ⟨⟨g, t, o, rfl⟩, .refl c, id⟩

theorem epilogue_up (l : Loc) (c : Ctx σ) (g t : Int) : epilogue false l (Up g t c) = epilogue false l c := rfl

/-- The trivial invariant. -/
theorem keeps_true : KeepsSha3 E (fun _ => True) := ⟨fun _ _ _ _ _ _ => trivial, fun _ _ _ _ => trivial⟩

theorem runInterpreter_eq (obs : Observer σ ω) (stepping : Bool) (n : Int) (fuel : Nat) (c : Ctx σ) (o : ω) :
    runInterpreter E obs stepping n fuel c o =
      match loop E obs stepping n fuel 0 (startLoc stepping c) c o with
      | .error e => .error e
      | .ok none => .ok none
      | .ok (some (l, c, o)) => .ok (some (epilogue stepping l c, o)) := by
  unfold runInterpreter startLoc
  simp only [bind, Except.bind, pure, Except.pure]
  split
  · rename_i h; rw [h]
  · rename_i r h
    rw [h]
    cases r with
    | none => rfl
    | some r => rfl

theorem runInterpreter_obs (obs : Observer σ ω) (n : Int) (fuel : Nat) (c : Ctx σ) (o : ω) :
    match runInterpreter E noObserver false n fuel c () with
    | .error e => runInterpreter E obs false n fuel c o = .error e
    | .ok none => runInterpreter E obs false n fuel c o = .ok none
    | .ok (some (c', _)) => ∃ o', runInterpreter E obs false n fuel c o = .ok (some (c', o')) := by
  have h := loop_sync (E := E) keeps_true obs false n fuel 0 (startLoc false c) c c.gas c.stack.top o
  rw [show Up c.gas c.stack.top c = c from rfl] at h
  rw [runInterpreter_eq, runInterpreter_eq]
  cases hlo : loop E noObserver false n fuel 0 (startLoc false c) c () with
  | error e => rw [hlo] at h; simp only at h; rw [h]
  | ok r =>
    rw [hlo] at h
    cases r with
    | none => simp only at h; rw [h]
    | some r =>
      obtain ⟨l', c', u⟩ := r
      simp only at h
      obtain ⟨⟨g', t', o', h⟩, _⟩ := h
      rw [h]
      exact ⟨o', rfl⟩

/-- Observers do not influence `Execute`. -/
theorem executeWith_obs (obs : Observer σ ω) (fuel : Nat) (vm : Vm) (code : List Byte) (msg : Message)
    (rev : Revision) (buf : Nat → U256) (w : σ) (o : ω) :
    (Option.map fun (r, w', vm', _) => (r, w', vm')) <$> vm.executeWith E obs fuel code msg rev buf w o =
      vm.execute E fuel code msg rev buf w := by
  unfold Vm.execute Vm.executeWith
  simp only [bind, Except.bind, pure, Except.pure]
  cases hl : vm.lookupCode msg code with
  | error e => rfl
  | ok p =>
    obtain ⟨info, vm1⟩ := p
    dsimp only
    unfold interpret
    have h := runInterpreter_obs (E := E) obs (-1) fuel (initialCtx (vm1.args info msg rev) buf w)
      (obs.preRun (vm1.args info msg rev).message o)
    simp only [bind, Except.bind, pure, Except.pure]
    rw [show (noObserver (σ := σ)).preRun (vm1.args info msg rev).message () = () from rfl]
    cases hr : runInterpreter E noObserver false (-1) fuel (initialCtx (vm1.args info msg rev) buf w) () with
    | error e => rw [hr] at h; simp only at h; rw [h]; rfl
    | ok r =>
      rw [hr] at h
      cases r with
      | none => simp only at h; rw [h]; rfl
      | some r =>
        obtain ⟨c', u⟩ := r
        simp only at h
        obtain ⟨o', h⟩ := h
        rw [h]
        rfl

/-! ### Gas -/

/-- Every value a computation can return satisfies `Q`. -/
def After {α : Type} (m : OpM σ α) (Q : α → Prop) : Prop := ∀ c a c', m c = .ok (a, c') → Q a

section
variable {α β : Type} {Q : β → Prop}

theorem after_pure {a : β} (h : Q a) : After (pure a : OpM σ β) Q := by
  intro c b c' e
  cases e
  exact h

theorem after_bind {m : OpM σ α} {f : α → OpM σ β} (Q1 : α → Prop) (hm : After m Q1)
    (hf : ∀ a, Q1 a → After (f a) Q) : After (m >>= f) Q := by
  intro c b c' e
  change OpM.bind m f c = _ at e
  unfold OpM.bind at e
  split at e
  · rename_i a c1 h1
    exact hf a (hm _ _ _ h1) _ _ _ e
  · cases e

theorem after_any {m : OpM σ α} {f : α → OpM σ β} (hf : ∀ a, After (f a) Q) : After (m >>= f) Q :=
  after_bind (fun _ => True) (fun _ _ _ _ => trivial) fun a _ => hf a

theorem after_ite (p : Prop) [Decidable p] {a b : OpM σ β} (ha : p → After a Q) (hb : ¬ p → After b Q) :
    After (if p then a else b) Q := by
  split
  · exact ha (by assumption)
  · exact hb (by assumption)

theorem after_chk (x : Int) : After (OpM.lift (chk64 x) : OpM σ Int) (fun y => y = x) := by
  intro c a c' e
  unfold OpM.lift chk64 at e
  split at e
  · rename_i h; split at h <;> cases h; cases e; rfl
  · cases e
end

theorem run_gas (stepping : Bool) (op : OpCode) (pc : Nat) (gas top size : Int) (hg : 0 ≤ gas) :
    After (run E stepping op pc gas top size) fun res => 0 ≤ res.gasLeft ∧ res.gasLeft ≤ gas := by
  have hsg : 0 ≤ op.info.staticGas := by
    have := (info_ok op).gas
    rw [this]; omega
  have h0 : ∀ st : RunState, 0 ≤ ({ state := st } : Result).gasLeft ∧ ({ state := st } : Result).gasLeft ≤ gas :=
    fun _ => ⟨Int.le_refl _, hg⟩
  rw [run_eq]
  refine after_any fun c => ?_
  refine after_ite _ (fun _ => after_pure (h0 _)) fun _ => ?_
  refine after_ite _ (fun _ => after_pure (h0 _)) fun _ => ?_
  refine after_ite _ (fun _ => after_pure (h0 _)) fun _ => ?_
  refine after_ite _ (fun _ => after_pure (h0 _)) fun _ => ?_
  refine after_ite _ (fun _ => after_pure (h0 _)) fun hge => ?_
  refine after_bind _ (after_chk _) fun g hgeq => ?_
  have hgl : 0 ≤ g ∧ g ≤ gas := by omega
  unfold runRest
  refine after_ite _ (fun _ => ?_) fun _ => ?_
  · refine after_any fun taken => after_ite _ (fun _ => ?_) fun _ => after_pure hgl
    refine after_any fun dest => after_any fun ok => after_ite _ (fun _ => ?_) fun _ => ?_
    · exact after_any fun c => after_pure (h0 _)
    · refine after_any fun dest => after_ite _ (fun _ => ?_) fun _ => after_pure hgl
      refine after_ite _ (fun _ => after_pure (h0 _)) fun hj => ?_
      refine after_bind _ (after_chk _) fun g' hg' => after_pure ?_
      have h1 : OpCode.JUMPDEST.info.staticGas = 1 := rfl
      rw [h1] at hg' hj
      dsimp only
      omega
  · refine after_any fun res => after_ite _ (fun _ => ?_) fun _ => after_pure hgl
    refine after_ite _ (fun _ => after_pure (h0 _)) fun _ => ?_
    refine after_bind _ (after_chk _) fun g' hg' => after_pure ?_
    dsimp only
    omega

theorem execOne_gas (obs : Observer σ ω) (stepping : Bool) (l l' : Loc) (c c' : Ctx σ) (o o' : ω) (hg : 0 ≤ l.gas)
    (h : execOne E obs stepping l c o = .ok (l', c', o')) : 0 ≤ l'.gas ∧ l'.gas ≤ l.gas := by
  unfold execOne at h
  simp only [bind, Except.bind, pure, Except.pure] at h
  split at h
  · cases h
  · split at h
    · cases h
    · rename_i b _ _ r hr
      cases h
      exact run_gas stepping _ _ _ _ _ hg _ _ _ hr

theorem loop_gas (obs : Observer σ ω) (stepping : Bool) (n : Int) (fuel : Nat) :
    ∀ (e : Int) (l l' : Loc) (c c' : Ctx σ) (o o' : ω), 0 ≤ l.gas →
    loop E obs stepping n fuel e l c o = .ok (some (l', c', o')) →
    0 ≤ l'.gas ∧ l'.gas ≤ l.gas ∧ (stepping = false → l'.state ≠ .running) := by
  induction fuel with
  | zero => intro e l l' c c' o o' _ h; simp [loop] at h
  | succ fuel ih =>
    intro e l l' c c' o o' hg h
    rw [loop_succ] at h
    split at h
    · cases h
    · split at h
      · rename_i hst
        cases h; exact ⟨hg, Int.le_refl _, fun h => absurd hst.1 (by rw [h]; simp)⟩
      · split at h
        · split at h
          · cases h
          · rename_i l1 c1 o1 hr
            have h1 := execOne_gas obs stepping l l1 c c1 o o1 hg hr
            have h2 := ih _ _ _ _ _ _ _ h1.1 h
            exact ⟨h2.1, by omega, h2.2.2⟩
        · rename_i hr
          cases h; exact ⟨hg, Int.le_refl _, fun _ => hr⟩

/-! ### Inversion of the entry points -/

theorem executeWith_inv {obs : Observer σ ω} {fuel : Nat} {vm vm' : Vm} {code : List Byte} {msg : Message}
    {rev : Revision} {buf : Nat → U256} {w w' : σ} {o o' : ω} {res : EvmcResult}
    (h : vm.executeWith E obs fuel code msg rev buf w o = .ok (some (res, w', vm', o'))) :
    ∃ info vm1 l c oL, vm.lookupCode msg code = .ok (info, vm1) ∧
      loop E obs false (-1) fuel 0 (startLoc false (initialCtx (vm1.args info msg rev) buf w))
        (initialCtx (vm1.args info msg rev) buf w) (obs.preRun msg o) = .ok (some (l, c, oL)) ∧
      res = { status := toEvmcStatusCode l.state, gasLeft := (epilogue false l c).gas
              gasRefund := c.gasRefunds, output := (epilogue false l c).returnData } ∧
      w' = c.world ∧ vm' = vm1.putSha3 c.sha3 ∧ o' = obs.postRun msg oL := by
  unfold Vm.executeWith at h
  simp only [bind, Except.bind, pure, Except.pure] at h
  cases hl : vm.lookupCode msg code with
  | error e => rw [hl] at h; cases h
  | ok p =>
    obtain ⟨info, vm1⟩ := p
    rw [hl] at h
    dsimp only at h
    unfold interpret at h
    simp only [bind, Except.bind, pure, Except.pure] at h
    rw [runInterpreter_eq, show (vm1.args info msg rev).message = msg from rfl] at h
    cases hlo : loop E obs false (-1) fuel 0 (startLoc false (initialCtx (vm1.args info msg rev) buf w))
        (initialCtx (vm1.args info msg rev) buf w) (obs.preRun msg o) with
    | error e => rw [hlo] at h; cases h
    | ok r =>
      rw [hlo] at h
      cases r with
      | none => cases h
      | some r =>
        obtain ⟨l, c, oL⟩ := r
        dsimp only at h
        injection h with h
        injection h with h
        injection h with h1 h
        injection h with h2 h
        injection h with h3 h4
        exact ⟨info, vm1, l, c, oL, rfl, hlo, h1.symm, h2.symm, h3.symm, h4.symm⟩

/-- Gas and output of `Execute` with any host. -/
theorem executeWith_gas {obs : Observer σ ω} {fuel : Nat} {vm vm' : Vm} {code : List Byte} {msg : Message}
    {rev : Revision} {buf : Nat → U256} {w w' : σ} {o o' : ω} {res : EvmcResult} (hg : 0 ≤ msg.gas)
    (h : vm.executeWith E obs fuel code msg rev buf w o = .ok (some (res, w', vm', o'))) :
    0 ≤ res.gasLeft ∧ res.gasLeft ≤ msg.gas ∧
    (res.status ≠ .success → res.status ≠ .revert → res.gasLeft = 0 ∧ res.output = []) := by
  obtain ⟨info, vm1, l, c, oL, _, hlo, rfl, _⟩ := executeWith_inv h
  have h1 := loop_gas obs false (-1) fuel _ _ _ _ _ _ _ (show 0 ≤ (startLoc false (initialCtx (vm1.args info msg rev) buf w)).gas from hg) hlo
  have h2 : l.gas ≤ msg.gas := h1.2.1
  have h3 := h1.2.2 rfl
  have hgas : (epilogue false l c).gas = if l.state.isSuccess then l.gas else 0 := by
    unfold epilogue
    simp only [Bool.false_eq_true, if_false]
    split <;> rfl
  dsimp only
  rw [hgas]
  refine ⟨by split <;> omega, by split <;> omega, fun hs hr => ?_⟩
  have hns : l.state.isSuccess = false ∧ l.state ≠ .ret ∧ l.state ≠ .revert := by
    cases hst : l.state <;> rw [hst] at hs hr <;> simp [toEvmcStatusCode, RunState.isSuccess] at *
  rw [hns.1]
  refine ⟨rfl, ?_⟩
  unfold epilogue
  dsimp only
  rw [if_pos ⟨hns.2.1, hns.2.2, h3⟩]

theorem stepN_inv {fuel : Nat} {vm vm' : Vm} {code : List Byte} {msg : Message} {rev : Revision}
    {status : StepStatus} {pc : Nat} {refund : Int} {stack : List U256} {memory ret : List Byte} {n : Int}
    {buf : Nat → U256} {w w' : σ} {res : StepResult}
    (h : vm.stepN E fuel code msg rev status pc refund stack memory ret n buf w = .ok (some (res, w', vm'))) :
    ∃ info vm1 l c c0, vm.lookupCode msg code = .ok (info, vm1) ∧ c0.gas = msg.gas ∧
      c0.sha3 = (if vm1.options.sha3Cache then some vm1.sha3Cache else none) ∧
      loop E noObserver true (if status = .running then n else 0) fuel 0 (startLoc true c0) c0 () = .ok (some (l, c, ())) ∧
      res.stepStatus = toEvmcStepStatusCode l.state ∧ res.status = toEvmcStatusCode l.state ∧
      res.gasLeft = (epilogue true l c).gas ∧ res.gasRefund = c.gasRefunds ∧
      res.output = (epilogue true l c).returnData ∧ res.lastCallReturnData = (epilogue true l c).returnData ∧
      w' = c.world ∧ vm' = vm1.putSha3 c.sha3 ∧
      c0.message = msg ∧ c0.revision = rev ∧ c0.isStatic = msg.isStatic ∧ c0.world = w := by
  unfold Vm.stepN at h
  simp only [bind, Except.bind, pure, Except.pure] at h
  cases hl : vm.lookupCode msg code with
  | error e => rw [hl] at h; cases h
  | ok p =>
    obtain ⟨info, vm1⟩ := p
    rw [hl] at h
    dsimp only at h
    cases hp : Stack.pushAll { buf := buf } stack with
    | error e => rw [hp] at h; cases h
    | ok conv =>
      rw [hp] at h
      dsimp only at h
      unfold interpretNSteps at h
      simp only [bind, Except.bind, pure, Except.pure] at h
      rw [runInterpreter_eq] at h
      generalize hc0 : steppingCtx (σ := σ) _ w = c0 at h
      cases hlo : loop E noObserver true (if status = .running then n else 0) fuel 0 (startLoc true c0) c0 () with
      | error e => rw [hlo] at h; cases h
      | ok r =>
        rw [hlo] at h
        cases r with
        | none => cases h
        | some r =>
          obtain ⟨l, c, u⟩ := r
          dsimp only at h
          cases hx : (epilogue true l c).stack.copy.export with
          | error e => rw [hx] at h; cases h
          | ok sd =>
            rw [hx] at h
            dsimp only at h
            cases hm : (epilogue true l c).memory.writeTo (epilogue true l c).memory.size 0 with
            | error e => rw [hm] at h; cases h
            | ok md =>
              rw [hm] at h
              dsimp only at h
              injection h with h
              injection h with h
              injection h with h1 h
              injection h with h2 h3
              subst h1
              refine ⟨info, vm1, l, c, c0, rfl, ?_, ?_, hlo, rfl, rfl, rfl, rfl, rfl, rfl, h2.symm, h3.symm, ?_⟩
              · rw [← hc0]; rfl
              · rw [← hc0]; rfl
              · rw [← hc0]; exact ⟨rfl, rfl, rfl, rfl⟩

/-- Gas and output of `StepN` with any host. -/
theorem stepN_gas {fuel : Nat} {vm vm' : Vm} {code : List Byte} {msg : Message} {rev : Revision}
    {status : StepStatus} {pc : Nat} {refund : Int} {stack : List U256} {memory ret : List Byte} {n : Int}
    {buf : Nat → U256} {w w' : σ} {res : StepResult} (hg : 0 ≤ msg.gas)
    (h : vm.stepN E fuel code msg rev status pc refund stack memory ret n buf w = .ok (some (res, w', vm'))) :
    0 ≤ res.gasLeft ∧ res.gasLeft ≤ msg.gas ∧
    (res.stepStatus = .failed → res.gasLeft = 0 ∧ res.output = [] ∧ res.lastCallReturnData = []) := by
  obtain ⟨info, vm1, l, c, c0, _, hcg, _, hlo, h1, h2, h3, h4, h5, h6, h7, h8⟩ := stepN_inv h
  have hlg := loop_gas noObserver true _ fuel _ _ _ _ _ _ _ (show 0 ≤ (startLoc true c0).gas by rw [show (startLoc true c0).gas = c0.gas from rfl, hcg]; exact hg) hlo
  have hlg2 : l.gas ≤ msg.gas := by rw [← hcg]; exact hlg.2.1
  have hgas : (epilogue true l c).gas = if l.state.isSuccess ∨ l.state = .running then l.gas else 0 := by
    unfold epilogue
    simp only [if_true]
    split <;> rfl
  rw [h3, h1, h5, h6, hgas]
  refine ⟨by split <;> omega, by split <;> omega, fun hs => ?_⟩
  have hns : ¬ (l.state.isSuccess = true ∨ l.state = .running) ∧ l.state ≠ .ret ∧ l.state ≠ .revert ∧ l.state ≠ .running := by
    cases hst : l.state <;> rw [hst] at hs <;> simp [toEvmcStepStatusCode, RunState.isSuccess] at *
  rw [if_neg hns.1]
  have hr : (epilogue true l c).returnData = [] := by
    unfold epilogue
    dsimp only
    rw [if_pos ⟨hns.2.1, hns.2.2.1, hns.2.2.2⟩]
  exact ⟨rfl, hr, hr⟩

/-! ### Histories of calls -/

theorem keeps_sha3 {keccak : List Byte → U256} (hE : EnvKeeps keccak E) :
    KeepsSha3 E (fun o => ∀ s, o = some s → Sha3Ok keccak s) := by
  constructor
  · intro s key v s' hi hh s1 h1
    cases h1
    obtain ⟨s2, h2, h3⟩ := sha3_hash keccak s (hi s rfl) key
    rw [hE.keccak] at hh
    rw [h2] at hh
    cases hh
    exact h3
  · intro m w o hi s hs
    cases o with
    | none => simp at hs
    | some x =>
      simp only [Option.map_some, Option.some.injEq] at hs
      rw [← hs]
      exact hE.reenter m w x (hi x rfl)

theorem loop_keeps {keccak : List Byte → U256} (hE : EnvKeeps keccak E) {obs : Observer σ ω} {stepping : Bool} {n : Int}
    {fuel : Nat} {e : Int} {l l' : Loc} {c c' : Ctx σ} {o o' : ω} (hc : ∀ s, c.sha3 = some s → Sha3Ok keccak s)
    (h : loop E obs stepping n fuel e l c o = .ok (some (l', c', o'))) : ∀ s, c'.sha3 = some s → Sha3Ok keccak s := by
  have hs := loop_sync (keeps_sha3 hE) obs stepping n fuel e l c c.gas c.stack.top o
  rw [show Up c.gas c.stack.top c = c from rfl] at hs
  cases hlo : loop E noObserver stepping n fuel e l c () with
  | error err => rw [hlo] at hs; simp only at hs; rw [hs] at h; cases h
  | ok r =>
    rw [hlo] at hs
    cases r with
    | none => simp only at hs; rw [hs] at h; cases h
    | some r =>
      obtain ⟨l1, c1, u⟩ := r
      simp only at hs
      obtain ⟨⟨g', t', o1, h1⟩, _, h2⟩ := hs
      rw [h1] at h
      cases h
      exact h2 hc

theorem args_sha3 {codeOf : U256 → List Byte} {keccak : List Byte → U256} {vm : Vm} (hv : VmOk codeOf keccak vm) :
    ∀ s, (if vm.options.sha3Cache then some vm.sha3Cache else none) = some s → Sha3Ok keccak s := by
  intro s h
  split at h
  · cases h; exact hv.sha3
  · cases h

theorem putSha3_ok {codeOf : U256 → List Byte} {keccak : List Byte → U256} {vm : Vm} (hv : VmOk codeOf keccak vm)
    {o : Option Sha3Cache} (ho : ∀ s, o = some s → Sha3Ok keccak s) : VmOk codeOf keccak (vm.putSha3 o) := by
  unfold Vm.putSha3
  cases o with
  | none => exact hv
  | some x => exact ⟨hv.analysis, ho x rfl⟩

/-- Every VM reached by a history of calls has correct caches. -/
theorem history_ok {codeOf : U256 → List Byte} {keccak : List Byte → U256} {vm : Vm}
    (h : VmHistory codeOf keccak vm) : VmOk codeOf keccak vm := by
  induction h with
  | new hn =>
    obtain ⟨vm, h1, h2, _⟩ := vm_new codeOf keccak
    rw [h1] at hn
    cases hn
    exact h2
  | setOption name value _ ih => exact ⟨ih.analysis, ih.sha3⟩
  | execute _ hE hh hx ih =>
    obtain ⟨info, vm1, l, c, oL, hl, hlo, _, _, rfl, _⟩ := executeWith_inv hx
    obtain ⟨vm2, hl2, hv2, _, _⟩ := lookupCode_ok ih hh
    rw [hl2] at hl
    cases hl
    exact putSha3_ok hv2 (loop_keeps hE (args_sha3 hv2) hlo)
  | stepN _ hE hh hx ih =>
    obtain ⟨info, vm1, l, c, c0, hl, _, hs, hlo, _, _, _, _, _, _, _, rfl, _⟩ := stepN_inv hx
    obtain ⟨vm2, hl2, hv2, _, _⟩ := lookupCode_ok ih hh
    rw [hl2] at hl
    cases hl
    refine putSha3_ok hv2 (loop_keeps hE ?_ hlo)
    rw [hs]
    exact args_sha3 hv2

end Tosca.Proofs
