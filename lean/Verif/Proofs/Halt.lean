import Verif.Proofs.AnyHost

/-!
# Which instructions end a run with output, for every host
-/

namespace Tosca.Proofs

open Tosca.Model Tosca.Spec

variable {σ ω : Type} {E : Env σ}

/-- Results that go on, stop or fail, but neither return nor revert. -/
def Plain (r : OpResult) : Prop := r.state ≠ .ret ∧ r.state ≠ .revert

theorem plain_mk (st : RunState) (d : Int) (h1 : st ≠ .ret) (h2 : st ≠ .revert) :
    Plain { state := st, dynGas := d } := ⟨h1, h2⟩

macro "plain_step" : tactic => `(tactic| first
  | (with_reducible exact after_pure (plain_mk _ _ (by decide) (by decide)))
  | (with_reducible refine after_any (fun _ => ?_))
  | (with_reducible refine after_ite _ (fun _ => ?_) (fun _ => ?_))
  | split)

macro "plain" : tactic => `(tactic| repeat' plain_step)

theorem plain_bin (f : U256 → U256 → U256) (top : Int) : After (Ops.bin f top : OpM σ OpResult) Plain := by
  unfold Ops.bin; plain
theorem plain_un (f : U256 → U256) (top : Int) : After (Ops.un f top : OpM σ OpResult) Plain := by
  unfold Ops.un; plain
theorem plain_push (v : U256) (top : Int) : After (Ops.push v top : OpM σ OpResult) Plain := by
  unfold Ops.push; plain
theorem plain_createCall (b : Bool) (t g g' : Int) (e s : U256) (mc : MemCost) :
    After (Ops.createCall E b t g g' e s mc) Plain := by
  unfold Ops.createCall; plain
theorem plain_create (b : Bool) (t g : Int) : After (Ops.create E b t g) Plain := by
  have h := fun t g g' e s mc => plain_createCall (E := E) b t g g' e s mc
  unfold Ops.create
  dsimp only
  repeat' first | exact h _ _ _ _ _ _ | plain_step
theorem plain_callCall (op : Ops.CallOp) (t g g' : Int) (cg : U256) (a : Address) (v : U256)
    (mi mo : MemCost) : After (Ops.callCall E op t g g' cg a v mi mo) Plain := by
  unfold Ops.callCall
  dsimp only
  plain
theorem plain_call (op : Ops.CallOp) (t g : Int) : After (Ops.call E op t g) Plain := by
  have h := fun t g g' cg a v mi mo => plain_callCall (E := E) op t g g' cg a v mi mo
  unfold Ops.call
  dsimp only
  repeat' first | exact h _ _ _ _ _ _ _ _ | plain_step

theorem plain_invoke (op : OpCode) (top gas : Int) (pc : Nat) (h1 : op ≠ .RETURN) (h2 : op ≠ .REVERT) :
    After (invoke E op top gas pc) Plain := by
  have hp := fun v t => plain_push (σ := σ) v t
  cases op with
  | STOP => exact after_pure (plain_mk _ _ (by decide) (by decide))
  | ADD | MUL | SUB | DIV | SDIV | MOD | SMOD | LT | GT | SLT | SGT | EQ | AND | OR | XOR | SHL | SHR =>
    exact plain_bin _ _
  | ISZERO | NOT => exact plain_un _ _
  | ADDMOD => show After (Ops.addmod top) _; unfold Ops.addmod; plain
  | MULMOD => show After (Ops.mulmod top) _; unfold Ops.mulmod; plain
  | EXP => show After (Ops.exp top gas) _; unfold Ops.exp; dsimp only; plain
  | SIGNEXTEND => show After (Ops.signextend top) _; unfold Ops.signextend; dsimp only; plain
  | BYTE => show After (Ops.byte top) _; unfold Ops.byte; plain
  | SAR => show After (Ops.sar top) _; unfold Ops.sar; dsimp only; plain
  | SHA3 => show After (Ops.sha3 E top gas) _; unfold Ops.sha3; plain
  | ADDRESS | CALLER | CALLVALUE | CALLDATASIZE | CODESIZE | RETURNDATASIZE | MSIZE =>
    exact after_any fun _ => plain_push _ _
  | ORIGIN | GASPRICE | COINBASE | TIMESTAMP | NUMBER | PREVRANDAO | GASLIMIT | CHAINID | BASEFEE | BLOBBASEFEE
  | PC | GAS | PUSH0 => exact plain_push _ _
  | BALANCE => show After (Ops.balance E top gas) _; unfold Ops.balance; plain
  | EXTCODESIZE => show After (Ops.extcodesize E top gas) _; unfold Ops.extcodesize; plain
  | EXTCODEHASH => show After (Ops.extcodehash E top gas) _; unfold Ops.extcodehash; plain
  | EXTCODECOPY => show After (Ops.extcodecopy E top gas) _; unfold Ops.extcodecopy; plain
  | CALLDATALOAD => show After (Ops.calldataload top) _; unfold Ops.calldataload; plain
  | CALLDATACOPY => show After (Ops.calldatacopy top gas) _; unfold Ops.calldatacopy; plain
  | CODECOPY => show After (Ops.codecopy top gas) _; unfold Ops.codecopy; dsimp only; plain
  | RETURNDATACOPY => show After (Ops.returndatacopy top gas) _; unfold Ops.returndatacopy; dsimp only; plain
  | BLOCKHASH => show After (Ops.blockhash E top) _; unfold Ops.blockhash; dsimp only; plain
  | SELFBALANCE => show After (Ops.selfbalance E top) _; unfold Ops.selfbalance; repeat' first | exact hp _ _ | plain_step
  | BLOBHASH => show After (Ops.blobhash E top) _; unfold Ops.blobhash; plain
  | POP | JUMP | JUMPI | JUMPDEST => exact after_pure (plain_mk _ _ (by decide) (by decide))
  | MLOAD => show After (Ops.mload top gas) _; unfold Ops.mload; plain
  | MSTORE => show After (Ops.mstore top gas) _; unfold Ops.mstore; plain
  | MSTORE8 => show After (Ops.mstore8 top gas) _; unfold Ops.mstore8; plain
  | SLOAD => show After (Ops.sload E top gas) _; unfold Ops.sload; plain
  | SSTORE => show After (Ops.sstore E top gas) _; unfold Ops.sstore; dsimp only; plain
  | TLOAD => show After (Ops.tload E top) _; unfold Ops.tload; plain
  | TSTORE => show After (Ops.tstore E top) _; unfold Ops.tstore; plain
  | MCOPY => show After (Ops.mcopy top gas) _; unfold Ops.mcopy; plain
  | PUSH i => show After (Ops.pushN (i.val + 1) top pc) _; unfold Ops.pushN; dsimp only; plain
  | DUP i => show After (Ops.dup (i.val + 1) top) _; unfold Ops.dup; plain
  | SWAP i => show After (Ops.swap (i.val + 1) top) _; unfold Ops.swap; plain
  | LOG i => show After (Ops.log E i.val top gas) _; unfold Ops.log; plain
  | CREATE => exact plain_create false top gas
  | CREATE2 => exact plain_create true top gas
  | CALL => exact plain_call .call top gas
  | CALLCODE => exact plain_call .callcode top gas
  | DELEGATECALL => exact plain_call .delegatecall top gas
  | STATICCALL => exact plain_call .staticcall top gas
  | RETURN => exact absurd rfl h1
  | REVERT => exact absurd rfl h2
  | INVALID => exact after_pure (plain_mk _ _ (by decide) (by decide))
  | SELFDESTRUCT => show After (Ops.selfdestruct E top gas) _; unfold Ops.selfdestruct; dsimp only; plain

theorem ret_state (st : RunState) (top gas : Int) :
    After (Ops.ret st top gas : OpM σ OpResult) fun r => r.state = .running ∨ r.state = st := by
  unfold Ops.ret
  repeat' first
    | (with_reducible exact after_pure (Or.inl rfl))
    | (with_reducible exact after_pure (Or.inr rfl))
    | plain_step

theorem invoke_halt (op : OpCode) (top gas : Int) (pc : Nat) :
    After (invoke E op top gas pc) fun r => (r.state = .ret → op = .RETURN) ∧ (r.state = .revert → op = .REVERT) := by
  by_cases h1 : op = .RETURN
  · subst h1
    intro c a c' h
    refine ⟨fun _ => rfl, fun hr => ?_⟩
    rcases ret_state .ret top gas c a c' h with h | h <;> rw [h] at hr <;> cases hr
  · by_cases h2 : op = .REVERT
    · subst h2
      intro c a c' h
      refine ⟨fun hr => ?_, fun _ => rfl⟩
      rcases ret_state .revert top gas c a c' h with h | h <;> rw [h] at hr <;> cases hr
    · intro c a c' h
      have := plain_invoke op top gas pc h1 h2 c a c' h
      exact ⟨fun hr => absurd hr this.1, fun hr => absurd hr this.2⟩

theorem checkJumpDest_state {d : U256} {c c' : Ctx σ} (h : checkJumpDest d c = .ok (false, c')) : c'.state = .errorJump := by
  unfold checkJumpDest at h
  split at h
  · cases h; rfl
  · dsimp only at h
    split at h
    · cases h; rfl
    · split at h
      · cases h; rfl
      · cases h

theorem after_elim {α : Type} {Q : α → Prop} {m : OpM σ α} {c c' : Ctx σ} {a : α} (hm : After m Q) (h : m c = .ok (a, c')) : Q a :=
  hm c a c' h

theorem run_halt (stepping : Bool) (op : OpCode) (pc : Nat) (gas top size : Int) :
    After (run E stepping op pc gas top size) fun r =>
      (r.state = .ret → op = .RETURN) ∧ (r.state = .revert → op = .REVERT) := by
  have h0 : ∀ st : RunState, st ≠ .ret → st ≠ .revert → ∀ p g, (({ state := st, pc := p, gasLeft := g } : Result).state = .ret → op = .RETURN) ∧
      (({ state := st, pc := p, gasLeft := g } : Result).state = .revert → op = .REVERT) :=
    fun st h1 h2 p g => ⟨fun h => absurd h h1, fun h => absurd h h2⟩
  rw [run_eq]
  refine after_any fun c => ?_
  refine after_ite _ (fun _ => after_pure (h0 _ (by simp) (by simp) _ _)) fun _ => ?_
  refine after_ite _ (fun _ => after_pure (h0 _ (by simp) (by simp) _ _)) fun _ => ?_
  refine after_ite _ (fun _ => after_pure (h0 _ (by simp) (by simp) _ _)) fun _ => ?_
  refine after_ite _ (fun _ => after_pure (h0 _ (by simp) (by simp) _ _)) fun _ => ?_
  refine after_ite _ (fun _ => after_pure (h0 _ (by simp) (by simp) _ _)) fun _ => ?_
  refine after_any fun g => ?_
  unfold runRest
  refine after_ite _ (fun _ => ?_) fun _ => ?_
  · refine after_any fun taken => after_ite _ (fun _ => ?_) fun _ => after_pure (h0 _ (by simp) (by simp) _ _)
    refine after_any fun dest => ?_
    intro c a c' h
    change OpM.bind (checkJumpDest dest) _ c = _ at h
    unfold OpM.bind at h
    split at h
    · rename_i ok c1 hj
      cases ok with
      | false =>
        have := checkJumpDest_state hj
        cases h
        exact h0 _ (by rw [this]; simp) (by rw [this]; simp) _ _
      | true =>
        refine after_elim (Q := fun r : Result => (r.state = .ret → op = .RETURN) ∧ (r.state = .revert → op = .REVERT)) ?_ h
        refine after_ite _ (fun h => by cases h) fun _ => ?_
        refine after_any fun dest => after_ite _ (fun _ => ?_) fun _ => after_pure (h0 _ (by simp) (by simp) _ _)
        refine after_ite _ (fun _ => after_pure (h0 _ (by simp) (by simp) _ _)) fun hj => ?_
        exact after_any fun g' => after_pure (h0 _ (by simp) (by simp) _ _)
    · cases h
  · refine after_bind _ (invoke_halt op top g pc) fun res hr => after_ite _ (fun _ => ?_) fun _ => after_pure hr
    refine after_ite _ (fun _ => after_pure (h0 _ (by simp) (by simp) _ _)) fun _ => ?_
    exact after_any fun g' => after_pure hr

theorem execOne_halt {stepping : Bool} {l l' : Loc} {c c' : Ctx σ} {o o' : Option OpCode}
    (h : execOne E lastOp stepping l c o = .ok (l', c', o')) :
    (l'.state = .ret → o' = some .RETURN) ∧ (l'.state = .revert → o' = some .REVERT) := by
  unfold execOne at h
  simp only [bind, Except.bind, pure, Except.pure] at h
  split at h
  · cases h
  · split at h
    · cases h
    · rename_i b _ _ r hr
      have := run_halt stepping _ _ _ _ _ _ _ _ hr
      injection h with h
      injection h with h1 h
      injection h with _ h3
      subst h1
      rw [← h3]
      exact ⟨fun hs => congrArg some (this.1 hs), fun hs => congrArg some (this.2 hs)⟩

theorem loop_halt {stepping : Bool} {n : Int} (fuel : Nat) : ∀ {e : Int} {l l' : Loc} {c c' : Ctx σ} {o o' : Option OpCode},
    ((l.state = .ret → o = some .RETURN) ∧ (l.state = .revert → o = some .REVERT)) →
    loop E lastOp stepping n fuel e l c o = .ok (some (l', c', o')) →
    (l'.state = .ret → o' = some .RETURN) ∧ (l'.state = .revert → o' = some .REVERT) := by
  induction fuel with
  | zero => intro e l l' c c' o o' _ h; simp [loop] at h
  | succ fuel ih =>
    intro e l l' c c' o o' hi h
    rw [loop_succ] at h
    split at h
    · cases h
    · split at h
      · cases h; exact hi
      · split at h
        · split at h
          · cases h
          · rename_i l1 c1 o1 hr
            exact ih (execOne_halt hr) h
        · cases h; exact hi

theorem loop_ends {obs : Observer σ ω} {n : Int} (fuel : Nat) : ∀ {e : Int} {l l' : Loc} {c c' : Ctx σ} {o o' : ω},
    loop E obs false n fuel e l c o = .ok (some (l', c', o')) → l'.state ≠ .running := by
  induction fuel with
  | zero => intro e l l' c c' o o' h; simp [loop] at h
  | succ fuel ih =>
    intro e l l' c c' o o' h
    rw [loop_succ] at h
    split at h
    · cases h
    · rw [if_neg (by simp)] at h
      split at h
      · split at h
        · cases h
        · exact ih h
      · rename_i hr; cases h; exact hr

/-- Output comes from RETURN or REVERT only. -/
theorem output_last {fuel : Nat} {vm vm' : Vm} {code : List Byte} {msg : Message}
    {rev : Revision} {buf : Nat → U256} {w w' : σ} {o o' : Option OpCode} {res : EvmcResult}
    (h : vm.executeWith E lastOp fuel code msg rev buf w o = .ok (some (res, w', vm', o'))) :
    (res.output ≠ [] → o' = some .RETURN ∨ o' = some .REVERT) ∧
    (res.status = .revert → o' = some .REVERT) := by
  obtain ⟨info, vm1, l, c, oL, _, hlo, rfl, _, _, ho⟩ := executeWith_inv h
  rw [show o' = oL from ho]
  have h1 := loop_halt _ (by constructor <;> (intro h; cases h)) hlo
  have h2 := loop_ends _ hlo
  show ((epilogue false l c).returnData ≠ [] → oL = some .RETURN ∨ oL = some .REVERT) ∧
    (toEvmcStatusCode l.state = .revert → oL = some .REVERT)
  constructor
  · intro hout
    have hret : (epilogue false l c).returnData =
      if l.state ≠ .ret ∧ l.state ≠ .revert ∧ l.state ≠ .running then [] else c.returnData := rfl
    by_cases ha : l.state = .ret
    · exact .inl (h1.1 ha)
    · by_cases hb : l.state = .revert
      · exact .inr (h1.2 hb)
      · rw [hret, if_pos ⟨ha, hb, h2⟩] at hout
        exact absurd rfl hout
  · intro hs
    apply h1.2
    cases hst : l.state <;> rw [hst] at hs <;> simp [toEvmcStatusCode] at hs

end Tosca.Proofs
