import Verif.Proofs.FloriaStack
import Verif.Proofs.Effects

/-!
# The effects of interpreter runs and calls on the client's state
-/

namespace Tosca.Proofs

open Tosca.Spec Tosca.Model Tosca.Go Tosca.Model.Go

variable {ω : Type}

theorem run_stop {σ : Type} {E : Env σ} {pc : Nat} {gas top size : Int} {c : Ctx σ} :
    run E false .STOP pc gas top size c =
      if gas < 0 then .ok ({ state := .errorGas }, c)
      else match chk64 (gas - 0) with
        | .ok g => .ok ({ state := .done, pc := some (pc + 1), gasLeft := g }, c)
        | .error e => .error e := by
  have h0 : run E false .STOP pc gas top size c = (if gas < (0 : Int) then (pure { state := .errorGas } : OpM σ Result)
      else (OpM.lift (chk64 (gas - 0)) >>= fun g => runRest E false .STOP pc g top)) c := rfl
  rw [h0]
  by_cases h : gas < 0
  · rw [if_pos h, if_pos h]; rfl
  · rw [if_neg h, if_neg h]
    show OpM.bind (OpM.lift (chk64 (gas - 0))) _ c = _
    unfold OpM.bind OpM.lift
    cases chk64 (gas - 0) <;> rfl

theorem loop_empty {σ : Type} {E : Env σ} {fuel : Nat} {l l' : Loc} {c c' : Ctx σ} {o : Unit} (hc : c.code[0]? = some 0)
    (hl : l.pc = some 0) (h : loop E noObserver false (-1) fuel 0 l c () = .ok (some (l', c', o))) : c'.world = c.world := by
  match fuel with
  | 0 => simp [loop] at h
  | fuel + 1 =>
    rw [loop_succ] at h
    simp only [Bool.false_eq_true, if_false, false_and] at h
    split at h
    · cases he : execOne E noObserver false l c () with
      | error e => rw [he] at h; cases h
      | ok r =>
        obtain ⟨l1, c1, o1⟩ := r
        rw [he] at h
        dsimp only at h
        have key : c1.world = c.world ∧ l1.state ≠ .running := by
          unfold execOne at he
          have hf : fetch c.code l.pc = .ok 0 := by
            rw [hl]
            unfold fetch
            dsimp only
            have : 0 < c.code.length := by
              rcases Nat.eq_zero_or_pos c.code.length with h0 | h0
              · rw [List.getElem?_eq_none (by omega)] at hc; cases hc
              · exact h0
            rw [if_pos this, List.getD_eq_getElem?_getD, hc]
            rfl
          rw [hf] at he
          have hd : dispatch (0 : Byte) = .STOP := rfl
          simp only [bind, Except.bind, pure, Except.pure, hd] at he
          split at he
          · cases he
          · rename_i r hr
            have hq : r.2.world = c.world ∧ r.1.state ≠ .running := by
              rw [run_stop] at hr
              split at hr
              · cases hr; exact ⟨rfl, by intro h; cases h⟩
              · split at hr
                · cases hr; exact ⟨rfl, by intro h; cases h⟩
                · cases hr
            cases he
            exact hq
        match fuel with
        | 0 => simp [loop] at h
        | fuel + 1 =>
          rw [loop_succ] at h
          simp only [Bool.false_eq_true, if_false, false_and] at h
          rw [if_neg key.2] at h
          cases h
          exact key.1
    · cases h; rfl

/-- A run of evmzero affects the client's state only by the calls a frame may make. -/
theorem evmzeroRun_eff (B : Binding) (keccak : List Byte → U256) (f : Found ω) (db : Db ω) (call : CallFn ω) (p : Parameters) (w : ω) :
    ∃ acts rev, (evmzeroRun B keccak f db call p w).2 = replay (Spec.Go.host (reports B) db call p) acts w ∧
      ∀ a ∈ acts, Permitted (Spec.Go.host (reports B) db call p) (messageOf p) rev a := by
  unfold evmzeroRun
  split
  · exact ⟨[], 0, rfl, by simp⟩
  · split
    · exact ⟨[], 0, rfl, by simp⟩
    · rename_i rev _
      split
      · rename_i res w' vm' hx
        unfold Vm.execute at hx
        simp only [bind, Except.bind, pure, Except.pure] at hx
        split at hx
        · cases hx
        · rename_i r hr
          split at hx
          · cases hx
          · rename_i o'
            cases hx
            obtain ⟨acts, h1, h2⟩ := executeWith_eff hr
            refine ⟨acts, rev, ?_, ?_⟩
            · rw [← hostOf_eq]; exact h1
            · rw [← hostOf_eq]; exact h2
      · exact ⟨[], 0, rfl, by simp⟩

/-- A run of empty code has no effect. -/
theorem evmzeroRun_empty (B : Binding) (keccak : List Byte → U256) {f : Found ω} (db : Db ω) (call : CallFn ω) {p : Parameters}
    (hf : FoundFor keccak p f) (hp : p.code = []) (w : ω) : (evmzeroRun B keccak f db call p w).2 = w := by
  unfold evmzeroRun
  split
  · rfl
  · split
    · rfl
    · rename_i rev _
      split
      · rename_i res w' vm' hx
        unfold Vm.execute at hx
        simp only [bind, Except.bind, pure, Except.pure] at hx
        split at hx
        · cases hx
        · rename_i r hr
          split at hx
          · cases hx
          · rename_i o'
            cases hx
            obtain ⟨codeOf, hv, hh⟩ := hf.vm
            obtain ⟨vm1, hl, _⟩ := lookupCode_ok hv hh
            obtain ⟨info, vm2, l, c, oL, hl2, hlo, _, rfl, _⟩ := executeWith_inv hr
            rw [hl] at hl2
            cases hl2
            have := loop_empty (by rw [hp]; rfl) rfl hlo
            exact this
      · rfl

end Tosca.Proofs
